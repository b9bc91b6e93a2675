/-
Basic facts on the arithmetic of doubles: monotone rounding, exactness, sign of a difference, multiplication by ±1.
-/
import Verif.F64.Order
import Mathlib.Data.EReal.Operations
import Mathlib.Tactic.Ring
import Mathlib.Tactic.FieldSimp

namespace Verif
namespace F64

/-- rounding to nearest-even of a signed rational, with unbounded exponent upwards -/
def rq (q : ℚ) : ℚ := if q < 0 then -mag (rnd (-q)) else mag (rnd q)

theorem rq_neg (q : ℚ) : rq (-q) = -rq q := by
  unfold rq
  rcases lt_trichotomy q 0 with h | h | h
  · rw [if_neg (by linarith), if_pos h]; simp
  · subst h; simp [rnd_zero, mag_zero]
  · rw [if_pos (by linarith), if_neg (by linarith)]; simp

theorem rq_nonneg {q : ℚ} (h : 0 ≤ q) : 0 ≤ rq q := by
  unfold rq; rw [if_neg (by linarith)]; exact mag_nonneg _

theorem rq_of_nonneg {q : ℚ} (h : 0 ≤ q) : rq q = mag (rnd q) := by
  unfold rq; rw [if_neg (by linarith)]

theorem rq_mono {p q : ℚ} (h : p ≤ q) : rq p ≤ rq q := by
  unfold rq
  split_ifs with h1 h2
  · have := mag_le_iff.mpr (rnd_mono (neg_le_neg h)); linarith
  · have := mag_nonneg (rnd (-p)); have := mag_nonneg (rnd q); linarith
  · exact absurd h1 (by linarith)
  · exact mag_le_iff.mpr (rnd_mono h)

theorem rq_abs (q : ℚ) : |rq q| = mag (rnd |q|) := by
  rcases le_total 0 q with h | h
  · rw [abs_of_nonneg h, rq_of_nonneg h, abs_of_nonneg (mag_nonneg _)]
  · rw [abs_of_nonpos h, ← rq_of_nonneg (q := -q) (by linarith), rq_neg, abs_of_nonpos]
    have := rq_nonneg (q := -q) (by linarith); rw [rq_neg] at this; linarith

theorem rq_zero : rq 0 = 0 := by rw [rq_of_nonneg le_rfl, rnd_zero, mag_zero]

theorem rq_mag (k : ℕ) : rq (mag k) = mag k := by rw [rq_of_nonneg (mag_nonneg _), rnd_mag]

theorem toQ_nan : toQ nan = 0 := rfl

theorem toQ_fin (s : Bool) (k) : toQ (fin s k) = if s then -mag k else mag k := by cases s <;> rfl

theorem abs_toQ_fin (s : Bool) (k) : |toQ (fin s k)| = mag k := by
  cases s
  · exact abs_of_nonneg (mag_nonneg _)
  · show |-mag k| = _; rw [abs_neg]; exact abs_of_nonneg (mag_nonneg _)

theorem rq_toQ (x : F64) : rq (toQ x) = toQ x := by
  rcases x with _ | _ | ⟨_ | _, k⟩
  · exact rq_zero
  · exact rq_zero
  · exact rq_mag _
  · show rq (-mag k) = -mag k
    rw [rq_neg, rq_mag]

theorem toQ_eq_zero {s : Bool} {k} : toQ (fin s k) = 0 ↔ k.val = 0 := by
  cases s <;> simp [toQ, mag_eq_zero]

theorem toQ_neg (x : F64) : toQ (neg x) = -toQ x := by
  rcases x with _ | _ | ⟨_ | _, k⟩ <;> simp [neg, toQ]

theorem isFin_neg {x : F64} : isFin (neg x) ↔ isFin x := by
  cases x <;> simp [neg, isFin]

theorem notNaN_neg {x : F64} : notNaN (neg x) ↔ notNaN x := by
  cases x <;> simp [neg, notNaN]

theorem val_neg (x : F64) : val (neg x) = -val x := by
  rcases x with _ | (_ | _) | ⟨s, k⟩
  · simp [neg, val]
  · simp [neg, val]
  · simp [neg, val]
  · rw [val_fin (x := neg (fin s k)) trivial, val_fin (x := fin s k) trivial, toQ_neg]; push_cast; rfl

theorem neg_neg (x : F64) : neg (neg x) = x := by cases x <;> simp [neg]

/-! ### rounding into the format -/

theorem ofRat_zero (z : Bool) : ofRat z 0 = zero z := by simp [ofRat, zero]

theorem ofRat_notNaN (z : Bool) (q : ℚ) : notNaN (ofRat z q) := by
  unfold ofRat notNaN; split
  · simp
  · simp only; split <;> simp

/-- the rational rounds to a finite double -/
def noOverflow (q : ℚ) : Prop := rnd |q| < finCodes

theorem noOverflow_zero : noOverflow 0 := by unfold noOverflow; rw [abs_zero, rnd_zero]; decide

theorem noOverflow_mono {p q : ℚ} (h : |p| ≤ |q|) (hq : noOverflow q) : noOverflow p :=
  lt_of_le_of_lt (rnd_mono h) hq

theorem noOverflow_neg {q : ℚ} : noOverflow (-q) ↔ noOverflow q := by unfold noOverflow; rw [abs_neg]

theorem ofRat_isFin {z : Bool} {q : ℚ} : isFin (ofRat z q) ↔ noOverflow q := by
  unfold ofRat
  split
  · next h => subst h; simp [isFin, noOverflow_zero]
  · simp only
    split
    · next h => simp [isFin, noOverflow, h]
    · next h => simp [isFin, noOverflow, h]

theorem toQ_ofRat {z : Bool} {q : ℚ} (h : noOverflow q) : toQ (ofRat z q) = rq q := by
  unfold ofRat
  split
  · next hq => subst hq; rw [rq_zero, toQ_eq_zero]
  · next hq =>
    simp only
    rw [dif_pos (show rnd |q| < finCodes from h), toQ_fin]
    by_cases hn : q < 0
    · simp [hn, rq, abs_of_neg hn]
    · simp [hn, rq, abs_of_nonneg (not_lt.mp hn)]

theorem ofRat_overflow {z : Bool} {q : ℚ} (h : ¬ noOverflow q) : ofRat z q = inf (decide (q < 0)) := by
  have hq : q ≠ 0 := by rintro rfl; exact h noOverflow_zero
  unfold ofRat
  rw [if_neg hq]
  simp only
  rw [dif_neg (show ¬ rnd |q| < finCodes from h)]

theorem val_ofRat {z : Bool} {q : ℚ} (h : noOverflow q) : val (ofRat z q) = ((rq q : ℚ) : ℝ) := by
  rw [val_fin (ofRat_isFin.mpr h), toQ_ofRat h]

theorem val_ofRat_zsign (z z' : Bool) (q : ℚ) : val (ofRat z q) = val (ofRat z' q) := by
  by_cases h : noOverflow q
  · rw [val_ofRat h, val_ofRat h]
  · rw [ofRat_overflow h, ofRat_overflow h]

theorem ofRat_mono {z z' : Bool} {p q : ℚ} (h : p ≤ q) : val (ofRat z p) ≤ val (ofRat z' q) := by
  by_cases hp : noOverflow p <;> by_cases hq : noOverflow q
  · rw [val_ofRat hp, val_ofRat hq, ratCast_le_EReal]; exact rq_mono h
  · rw [ofRat_overflow hq]
    have : ¬ q < 0 := by
      intro hq0
      refine hq (noOverflow_mono ?_ hp)
      rw [abs_of_neg hq0, abs_of_neg (by linarith)]; linarith
    simp [this, val]
  · rw [ofRat_overflow hp]
    have : p < 0 := by
      by_contra hp0
      refine hp (noOverflow_mono ?_ hq)
      rw [abs_of_nonneg (by linarith), abs_of_nonneg (by linarith)]; linarith
    simp [this, val]
  · rw [ofRat_overflow hp, ofRat_overflow hq]
    by_cases h1 : p < 0
    · simp [h1, val]
    · have : ¬ q < 0 := by linarith
      simp [h1, this]

theorem noOverflow_toQ (x : F64) : noOverflow (toQ x) := by
  rcases x with _ | _ | ⟨s, k⟩
  · exact noOverflow_zero
  · exact noOverflow_zero
  · unfold noOverflow; rw [abs_toQ_fin, rnd_mag]; exact k.2

theorem val_ofRat_toQ {x : F64} (z : Bool) (hx : isFin x) : val (ofRat z (toQ x)) = val x := by
  rw [val_ofRat (noOverflow_toQ x), rq_toQ, val_fin hx]

/-- a non-zero representable number rounds to itself -/
theorem ofRat_toQ {x : F64} (z : Bool) (hx : isFin x) (h0 : toQ x ≠ 0) : ofRat z (toQ x) = x := by
  rcases x with _ | _ | ⟨s, k⟩
  · simp [isFin] at hx
  · simp [isFin] at hx
  · unfold ofRat
    rw [if_neg h0]
    simp only
    have hr : rnd |toQ (fin s k)| = k := by rw [abs_toQ_fin, rnd_mag]
    have hk : k.val ≠ 0 := fun h => h0 (toQ_eq_zero.mpr h)
    rw [dif_pos (by rw [hr]; exact k.2)]
    have hp := mag_pos hk
    congr 1
    · cases s
      · exact decide_eq_false (by simp only [toQ]; linarith)
      · exact decide_eq_true (by simp only [toQ]; linarith)
    · exact Fin.ext hr

theorem le_ofRat {x : F64} {z : Bool} {q : ℚ} (hx : isFin x) (h : toQ x ≤ q) : val x ≤ val (ofRat z q) := by
  rw [← val_ofRat_toQ z hx]; exact ofRat_mono h

theorem ofRat_le {x : F64} {z : Bool} {q : ℚ} (hx : isFin x) (h : q ≤ toQ x) : val (ofRat z q) ≤ val x := by
  rw [← val_ofRat_toQ z hx]; exact ofRat_mono h

theorem val_zero (s : Bool) : val (zero s) = 0 := by
  rw [val_fin (x := zero s) trivial, show toQ (zero s) = 0 from toQ_eq_zero.mpr rfl]; simp

theorem rnd_pos_of {q : ℚ} (h : pow2 (-1074) ≤ q) : 0 < rnd q := by
  obtain ⟨k, hk⟩ := pow2_isMag (e := -1074) le_rfl
  have h1 : k ≤ rnd q := le_rnd (by rw [hk]; exact h)
  have : k ≠ 0 := by
    rintro rfl; rw [mag_zero] at hk; exact (pow2_pos _).ne hk
  omega

theorem toQ_multiple (x : F64) : ∃ a : ℤ, toQ x = a * pow2 (-1074) := by
  rcases x with _ | _ | ⟨_ | _, k⟩
  · exact ⟨0, by simp [toQ]⟩
  · exact ⟨0, by simp [toQ]⟩
  · obtain ⟨a, ha⟩ := mag_multiple k; exact ⟨a, by simp only [toQ]; rw [ha]; push_cast; rfl⟩
  · obtain ⟨a, ha⟩ := mag_multiple k; exact ⟨-a, by simp only [toQ]; rw [ha]; push_cast; ring⟩

/-- a multiple of the smallest subnormal keeps its sign when rounded -/
theorem ofRat_pos_iff {z : Bool} {q : ℚ} (h : ∃ a : ℤ, q = a * pow2 (-1074)) : 0 < val (ofRat z q) ↔ 0 < q := by
  obtain ⟨a, ha⟩ := h
  constructor
  · intro h
    by_contra hq
    have := ofRat_mono (z := z) (z' := z) (not_lt.mp hq)
    rw [ofRat_zero, val_zero] at this
    exact absurd h (not_lt.mpr this)
  · intro hq
    have ha1 : (1 : ℤ) ≤ a := by
      have h1 : (0 : ℚ) < a := by
        by_contra hn
        have := mul_nonneg (a := -(a : ℚ)) (b := pow2 (-1074)) (by linarith) (pow2_pos _).le
        linarith
      have : (0 : ℤ) < a := by exact_mod_cast h1
      omega
    have h1 : pow2 (-1074) ≤ q := by
      rw [ha]
      have : (1 : ℚ) ≤ a := by exact_mod_cast ha1
      have := mul_le_mul_of_nonneg_right this (pow2_pos (-1074)).le
      linarith
    by_cases ho : noOverflow q
    · rw [val_ofRat ho, ← EReal.coe_zero, EReal.coe_lt_coe_iff]
      rw [rq_of_nonneg hq.le]
      exact_mod_cast mag_pos (rnd_pos_of h1).ne'
    · rw [ofRat_overflow ho]
      have : ¬ q < 0 := by linarith
      simp [this, val]

theorem ofRat_nonneg_iff {z : Bool} {q : ℚ} (h : ∃ a : ℤ, q = a * pow2 (-1074)) : 0 ≤ val (ofRat z q) ↔ 0 ≤ q := by
  constructor
  · intro h'
    by_contra hq
    have hq := not_le.mp hq
    obtain ⟨a, ha⟩ := h
    have h2 : 0 < val (ofRat z (-q)) := (ofRat_pos_iff ⟨-a, by rw [ha]; push_cast; ring⟩).mpr (by linarith)
    by_cases ho : noOverflow q
    · rw [val_ofRat (noOverflow_neg.mpr ho), rq_neg] at h2
      rw [val_ofRat ho] at h'
      rw [← EReal.coe_zero, EReal.coe_lt_coe_iff] at h2
      rw [← EReal.coe_zero, EReal.coe_le_coe_iff] at h'
      push_cast at h2; linarith
    · rw [ofRat_overflow ho] at h'
      simp [hq, val] at h'
  · intro hq
    have := ofRat_mono (z := z) (z' := z) hq
    rwa [ofRat_zero, val_zero] at this

/-! ### operations on finite doubles -/

theorem add_fin {x y : F64} (hx : isFin x) (hy : isFin y) : ∃ z, add x y = ofRat z (toQ x + toQ y) := by
  rcases x with _ | _ | ⟨s, a⟩ <;> rcases y with _ | _ | ⟨t, b⟩ <;> simp only [isFin] at hx hy; exact ⟨_, rfl⟩

theorem sub_fin {x y : F64} (hx : isFin x) (hy : isFin y) : ∃ z, sub x y = ofRat z (toQ x - toQ y) := by
  obtain ⟨z, hz⟩ := add_fin hx (isFin_neg.mpr hy)
  exact ⟨z, by rw [sub, hz, toQ_neg]; ring_nf⟩

theorem mul_fin {x y : F64} (hx : isFin x) (hy : isFin y) : ∃ z, mul x y = ofRat z (toQ x * toQ y) := by
  rcases x with _ | _ | ⟨s, a⟩ <;> rcases y with _ | _ | ⟨t, b⟩ <;> simp only [isFin] at hx hy; exact ⟨_, rfl⟩

theorem div_fin {x y : F64} (hx : isFin x) (hy : isFin y) (h0 : toQ y ≠ 0) :
    ∃ z, div x y = ofRat z (toQ x / toQ y) := by
  rcases x with _ | _ | ⟨s, a⟩ <;> rcases y with _ | _ | ⟨t, b⟩ <;> simp only [isFin] at hx hy
  exact ⟨s != t, by rw [div, if_neg (fun h => h0 (toQ_eq_zero.mpr h))]⟩

theorem isFin_iff_val {x : F64} : isFin x ↔ notNaN x ∧ val x ≠ ⊤ ∧ val x ≠ ⊥ := by
  rcases x with _ | (_ | _) | ⟨s, a⟩ <;> simp [isFin, notNaN, val]

theorem nan_sub (y : F64) : sub nan y = nan := by cases y <;> rfl
theorem sub_nan (x : F64) : sub x nan = nan := by cases x <;> rfl

/-- The sign of the rounded difference is the comparison, for all doubles. -/
theorem sub_pos (x y : F64) : lt (zero false) (sub x y) = lt y x := by
  rw [Bool.eq_iff_iff, lt_iff]
  rcases x with _ | (_ | _) | ⟨s, a⟩ <;> rcases y with _ | (_ | _) | ⟨t, b⟩ <;>
    try (simp [sub, neg, add, lt, val, notNaN, zero, toQ_eq_zero.mpr]; done)
  have hx : isFin (fin s a) := trivial
  have hy : isFin (fin t b) := trivial
  obtain ⟨z, hz⟩ := sub_fin hx hy
  rw [hz, lt_iff, val_zero, ofRat_pos_iff, val_fin hx, val_fin hy, ratCast_lt_EReal]
  · have := ofRat_notNaN z (toQ (fin s a) - toQ (fin t b))
    simp only [this, hx.notNaN, hy.notNaN, true_and]
    simp [notNaN, zero]
  · obtain ⟨m, hm⟩ := toQ_multiple (fin s a)
    obtain ⟨n, hn⟩ := toQ_multiple (fin t b)
    exact ⟨m - n, by rw [hm, hn]; push_cast; ring⟩

/-- The same for the non-strict comparison; here equal infinities differ (their difference is NaN). -/
theorem sub_nonneg {x y : F64} (h : isFin y ∨ x ≠ y) : le (zero false) (sub x y) = le y x := by
  rw [Bool.eq_iff_iff, le_iff]
  rcases x with _ | (_ | _) | ⟨s, a⟩ <;> rcases y with _ | (_ | _) | ⟨t, b⟩ <;>
    try (simp [sub, neg, add, le, val, notNaN, zero, toQ_eq_zero.mpr, isFin] at h ⊢; done)
  have hx : isFin (fin s a) := trivial
  have hy : isFin (fin t b) := trivial
  obtain ⟨z, hz⟩ := sub_fin hx hy
  rw [hz, le_iff, val_zero, ofRat_nonneg_iff, val_fin hx, val_fin hy, ratCast_le_EReal]
  · have := ofRat_notNaN z (toQ (fin s a) - toQ (fin t b))
    simp only [this, hx.notNaN, hy.notNaN, true_and]
    simp [notNaN, zero]
  · obtain ⟨m, hm⟩ := toQ_multiple (fin s a)
    obtain ⟨n, hn⟩ := toQ_multiple (fin t b)
    exact ⟨m - n, by rw [hm, hn]; push_cast; ring⟩

/-! ### literals -/

/-- representable rationals are exact literals -/
theorem lit_exact {k : ℕ} (hk : k < finCodes) (hk0 : k ≠ 0) : ofRat false (mag k) = fin false ⟨k, hk⟩ := by
  have := ofRat_toQ (x := fin false ⟨k, hk⟩) false trivial (by simp [toQ, mag_eq_zero, hk0])
  simpa [toQ] using this

theorem lit_one : ofRat false 1 = fin false ⟨4607182418800017408, by decide⟩ := by decide +kernel
theorem lit_neg_one : ofRat false (-1) = fin true ⟨4607182418800017408, by decide⟩ := by decide +kernel
theorem lit_zero : ofRat false 0 = zero false := ofRat_zero _

theorem mag_one : mag 4607182418800017408 = 1 := by decide +kernel

theorem one_mul (x : F64) : mul (ofRat false 1) x = x := by
  rw [lit_one]
  rcases x with _ | s | ⟨s, k⟩
  · rfl
  · simp [mul]
  · rw [mul]
    have h1 : toQ (fin false ⟨4607182418800017408, by decide⟩) = 1 := mag_one
    rw [h1, _root_.one_mul]
    by_cases h0 : toQ (fin s k) = 0
    · rw [h0, ofRat_zero]
      have := toQ_eq_zero.mp h0
      simp only [zero]; congr 1
      · simp
      · exact Fin.ext this.symm
    · exact ofRat_toQ _ trivial h0

theorem neg_one_mul (x : F64) : mul (ofRat false (-1)) x = neg x := by
  rw [lit_neg_one]
  rcases x with _ | s | ⟨s, k⟩
  · rfl
  · simp [mul, neg]
  · rw [mul]
    have h1 : toQ (fin true ⟨4607182418800017408, by decide⟩) = -1 := by
      show -mag _ = -1; rw [mag_one]
    rw [h1, _root_.neg_one_mul]
    by_cases h0 : toQ (fin s k) = 0
    · rw [h0, neg_zero, ofRat_zero]
      have := toQ_eq_zero.mp h0
      simp only [zero, neg]; congr 1
      · simp
      · exact Fin.ext this.symm
    · rw [← toQ_neg]
      exact ofRat_toQ _ trivial (by rw [toQ_neg]; simpa using h0)

end F64
end Verif

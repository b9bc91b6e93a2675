/-
The arithmetic of the model is that of IEEE-754 (binary64, round to nearest, ties to even).

The operations of `F64/Basic.lean` are defined by an algorithm (`rnd`, `ofRat`). Here it is compared with the definition of the
standard (IEEE 754-2019, 3.3, 4.3.1), which does not mention the algorithm: the representable numbers are `m * 2^e` with
`|m| < 2^53` and `-1074 ≤ e ≤ 971`; the result is the representable number nearest to the exact one, the one with an even significand
if there are two; a magnitude of at least `2^1024 - 2^970` becomes an infinity.
-/
import Verif.F64.Error

namespace Verif
namespace Spec

/-- the numbers of the format, the exponent being bounded below only -/
def Representable (d : ℚ) : Prop := ∃ m : ℕ, ∃ e : ℤ, m < 2 ^ 53 ∧ -1074 ≤ e ∧ |d| = m * 2 ^ e

/-- the finite doubles -/
def Double (d : ℚ) : Prop := ∃ m : ℕ, ∃ e : ℤ, m < 2 ^ 53 ∧ -1074 ≤ e ∧ e ≤ 971 ∧ |d| = m * 2 ^ e

/-- the significand, in the form that the format stores, is even -/
def EvenSignificand (d : ℚ) : Prop :=
  ∃ m : ℕ, ∃ e : ℤ, m < 2 ^ 53 ∧ -1074 ≤ e ∧ (e = -1074 ∨ 2 ^ 52 ≤ m) ∧ |d| = m * 2 ^ e ∧ m % 2 = 0

/-- `r` is the double nearest to `q`, ties to even -/
def Nearest (q r : ℚ) : Prop :=
  Double r ∧ (∀ d, Double d → |r - q| ≤ |d - q|) ∧ (∀ d, Double d → d ≠ r → |d - q| = |r - q| → EvenSignificand r)

end Spec

namespace F64
open Spec

theorem mag_form (k : ℕ) : ∃ m : ℕ, ∃ e : ℤ, m < 2 ^ 53 ∧ -1074 ≤ e ∧ (e = -1074 ∨ 2 ^ 52 ≤ m) ∧ mag k = m * 2 ^ e ∧
    m % 2 = k % 2 ∧ (k < finCodes → e ≤ 971) := by
  by_cases h : k / 2 ^ 52 = 0
  · refine ⟨k, -1074, by omega, le_rfl, Or.inl rfl, ?_, rfl, fun _ => by norm_num⟩
    unfold mag; rw [if_pos h, pow2_eq]
  · refine ⟨2 ^ 52 + k % 2 ^ 52, (k / 2 ^ 52 : ℕ) - 1075, by omega, by omega, Or.inr (by omega), ?_, by omega, fun hk => ?_⟩
    · unfold mag; rw [if_neg h, pow2_eq]
    · unfold finCodes at hk; omega

theorem representable_mag {d : ℚ} (h : Representable d) : ∃ k, |d| = mag k := by
  obtain ⟨m, e, hm, he, hd⟩ := h
  obtain ⟨k, hk⟩ := isMag_int (n := m) (e := e) (by omega) he
  exact ⟨k, by rw [hk, hd, pow2_eq]⟩

/-- the two neighbours of `q` and the choice that `rnd` makes -/
theorem rnd_cell {q : ℚ} (hq : 0 < q) :
    (rnd q = flr q ∧ q - mag (flr q) ≤ mag (flr q + 1) - q ∨ rnd q = flr q + 1 ∧ mag (flr q + 1) - q ≤ q - mag (flr q)) ∧
    (q - mag (flr q) = mag (flr q + 1) - q → rnd q % 2 = 0) := by
  obtain ⟨h1, h2, -⟩ := flr_spec hq
  obtain ⟨e0, -, -⟩ := expo_facts hq
  set x := q * pow2 (52 - expo q) with hx
  set u := pow2 (expo q - 52) with hu
  have hu0 : 0 < u := pow2_pos _
  have hqx : q = x * u := (unscale q (expo q)).symm
  have hr := rnd_eq hq
  rw [← hx] at hr
  set f := x.floor.toNat with hf
  have hfl : flr q = ((expo q + 1022) * 2 ^ 52).toNat + f := rfl
  have hev : (((expo q + 1022) * 2 ^ 52).toNat) % 2 = 0 := by omega
  have d1 : q - mag (flr q) = (x - f) * u := by rw [h1, hqx]; ring
  have d2 : mag (flr q + 1) - q = (1 - (x - f)) * u := by rw [h2, hqx]; ring
  rw [d1, d2]
  unfold roundEven at hr
  simp only [← hf] at hr
  split_ifs at hr with a b c
  · refine ⟨Or.inl ⟨by omega, ?_⟩, fun h => ?_⟩
    · nlinarith
    · exfalso; have := mul_right_cancel₀ hu0.ne' h; linarith
  · refine ⟨Or.inr ⟨by omega, ?_⟩, fun h => ?_⟩
    · nlinarith
    · exfalso; have := mul_right_cancel₀ hu0.ne' h; linarith
  · refine ⟨Or.inl ⟨by omega, ?_⟩, fun h => by omega⟩
    nlinarith
  · refine ⟨Or.inr ⟨by omega, ?_⟩, fun h => by omega⟩
    nlinarith

theorem rnd_nearest {q : ℚ} (hq : 0 < q) {d : ℚ} (hd : Representable d) :
    |mag (rnd q) - q| ≤ |d - q| ∧ (d ≠ mag (rnd q) → |d - q| = |mag (rnd q) - q| → rnd q % 2 = 0) := by
  obtain ⟨-, -, l1, l2⟩ := flr_spec hq
  obtain ⟨hc, ht⟩ := rnd_cell hq
  obtain ⟨k, hk⟩ := representable_mag hd
  have h0 := mag_nonneg (flr q)
  -- where `d` is
  have hpos : d ≤ mag (flr q) ∨ mag (flr q + 1) ≤ d := by
    rcases le_or_gt 0 d with h | h
    · rw [abs_of_nonneg h] at hk
      rcases Nat.lt_or_ge (flr q) k with a | a
      · right; rw [hk]; exact mag_le_iff.mpr a
      · left; rw [hk]; exact mag_le_iff.mpr a
    · left; linarith
  rcases hc with ⟨hr, hle⟩ | ⟨hr, hle⟩
  · rw [hr, abs_of_nonpos (show mag (flr q) - q ≤ 0 by linarith)]
    rcases hpos with h | h
    · rw [abs_of_nonpos (show d - q ≤ 0 by linarith)]
      exact ⟨by linarith, fun hne he => absurd (by linarith) hne⟩
    · rw [abs_of_nonneg (show 0 ≤ d - q by linarith)]
      refine ⟨by linarith, fun hne he => ?_⟩
      rw [← hr]; exact ht (by linarith)
  · rw [hr, abs_of_nonneg (show 0 ≤ mag (flr q + 1) - q by linarith)]
    rcases hpos with h | h
    · rw [abs_of_nonpos (show d - q ≤ 0 by linarith)]
      refine ⟨by linarith, fun hne he => ?_⟩
      rw [← hr]; exact ht (by linarith)
    · rw [abs_of_nonneg (show 0 ≤ d - q by linarith)]
      exact ⟨by linarith, fun hne he => absurd (by linarith) hne⟩

theorem double_neg {d : ℚ} : Double (-d) ↔ Double d := by unfold Double; rw [abs_neg]

theorem even_neg {d : ℚ} : EvenSignificand (-d) ↔ EvenSignificand d := by unfold EvenSignificand; rw [abs_neg]

theorem Double.representable {d : ℚ} (h : Double d) : Representable d := by
  obtain ⟨m, e, h1, h2, -, h3⟩ := h; exact ⟨m, e, h1, h2, h3⟩

/-- every finite double is a number of the format, and conversely -/
theorem double_toQ {x : F64} (hx : isFin x) : Double (toQ x) := by
  rcases x with _ | _ | ⟨s, k⟩
  · exact hx.elim
  · exact hx.elim
  · obtain ⟨m, e, h1, h2, -, h3, -, h4⟩ := mag_form k
    refine ⟨m, e, h1, h2, h4 k.2, ?_⟩
    rw [← h3]
    cases s
    · exact abs_of_nonneg (mag_nonneg _)
    · show |-mag k| = _
      rw [abs_neg]; exact abs_of_nonneg (mag_nonneg _)

theorem nearest_pos {q : ℚ} (hq : 0 < q) (h : rnd q < finCodes) : Nearest q (mag (rnd q)) := by
  obtain ⟨m, e, h1, h2, h3, h4, h5, h6⟩ := mag_form (rnd q)
  have ha : |mag (rnd q)| = mag (rnd q) := abs_of_nonneg (mag_nonneg _)
  refine ⟨⟨m, e, h1, h2, h6 h, by rw [ha, h4]⟩, fun d hd => (rnd_nearest hq (Double.representable hd)).1, fun d hd hne he => ?_⟩
  have := (rnd_nearest hq (Double.representable hd)).2 hne he
  exact ⟨m, e, h1, h2, h3, by rw [ha, h4], by omega⟩

theorem nearest_neg {q r : ℚ} (h : Nearest q r) : Nearest (-q) (-r) := by
  obtain ⟨h1, h2, h3⟩ := h
  have hab : ∀ d : ℚ, |d - -q| = |-d - q| := fun d => by rw [show d - -q = -(-d - q) by ring, abs_neg]
  have hr : |-r - -q| = |r - q| := by rw [hab, _root_.neg_neg]
  refine ⟨double_neg.mpr h1, fun d hd => ?_, fun d hd hne he => ?_⟩
  · rw [hr, hab]; exact h2 _ (double_neg.mpr hd)
  · rw [hr, hab] at he
    exact even_neg.mpr (h3 _ (double_neg.mpr hd) (fun h => hne (by rw [← h, _root_.neg_neg])) he)

/-- the finite results of `ofRat` are correctly rounded -/
theorem ofRat_nearest {z : Bool} {q : ℚ} (h : isFin (ofRat z q)) : Nearest q (toQ (ofRat z q)) := by
  have hno := ofRat_isFin.mp h
  rw [toQ_ofRat hno]
  rcases lt_trichotomy q 0 with hq | hq | hq
  · unfold noOverflow at hno
    rw [abs_of_neg hq] at hno
    have := nearest_neg (nearest_pos (neg_pos.mpr hq) hno)
    rwa [_root_.neg_neg, ← rq_of_nonneg (by linarith : 0 ≤ -q), rq_neg, _root_.neg_neg] at this
  · subst hq
    rw [rq_zero]
    refine ⟨⟨0, 0, by norm_num, by norm_num, by norm_num, by norm_num⟩, fun d _ => by simp, fun d _ hne he => ?_⟩
    simp at he; exact absurd he hne
  · unfold noOverflow at hno
    rw [abs_of_pos hq] at hno
    rw [rq_of_nonneg hq.le]; exact nearest_pos hq hno

/-! ### overflow -/

/-- half a unit in the last place above the largest double -/
def limit : ℚ := pow2 1024 - pow2 970

theorem limit_eq : limit = 2 ^ 1024 - 2 ^ 970 := by unfold limit; simp only [pow2_eq]; rfl

theorem noOverflow_iff (q : ℚ) : noOverflow q ↔ |q| < 2 ^ 1024 - 2 ^ 970 := by
  rw [← limit_eq]
  unfold noOverflow
  have hl : rnd limit = finCodes := by decide +kernel
  constructor
  · intro h
    by_contra hc
    have := rnd_mono (not_lt.mp hc)
    omega
  · intro h
    by_contra hc
    have hq : 0 < |q| := by
      rcases (abs_nonneg q).eq_or_lt with h0 | h0
      · exfalso; rw [← h0, rnd_zero] at hc; exact hc (by decide)
      · exact h0
    obtain ⟨-, -, l1, l2⟩ := flr_spec hq
    have htop : mag finCodes = pow2 1024 := by decide +kernel
    have hlast : mag (finCodes - 1) = pow2 1024 - pow2 971 := by decide +kernel
    have h1 : pow2 971 = 2 * pow2 970 := pow2_succ 970
    have hf : flr |q| < finCodes := by
      by_contra hf
      have := mag_le_iff.mpr (not_lt.mp hf)
      have := pow2_pos 970
      unfold limit at h
      linarith
    have hb := (rnd_bounds hq).2
    have hf1 : flr |q| = finCodes - 1 := by omega
    rcases (rnd_cell hq).1 with ⟨a, -⟩ | ⟨-, b⟩
    · omega
    · rw [hf1, show finCodes - 1 + 1 = finCodes from rfl, htop, hlast] at b
      unfold limit at h
      linarith

/-! ### the operations -/

/-- What the standard says about the result `r` of an operation whose exact result is `q` and whose zero would have the sign `z`. -/
structure Spec.Rounded (z : Bool) (q : ℚ) (r : F64) : Prop where
  finite : |q| < 2 ^ 1024 - 2 ^ 970 → isFin r ∧ Nearest q (toQ r)
  overflow : 2 ^ 1024 - 2 ^ 970 ≤ |q| → r = inf (decide (q < 0))
  sign : q = 0 → r = zero z
  /-- the sign bit of a result that is not an exact zero is that of the exact result, even if it is rounded to zero -/
  negative : q ≠ 0 → ∀ k, r ≠ fin (decide (0 < q)) k

theorem ofRat_rounded (z : Bool) (q : ℚ) : Spec.Rounded z q (ofRat z q) where
  finite h := by
    have := ofRat_isFin (z := z).mpr ((noOverflow_iff q).mpr h)
    exact ⟨this, ofRat_nearest this⟩
  overflow h := ofRat_overflow (fun hn => absurd ((noOverflow_iff q).mp hn) (not_lt.mpr h))
  sign h := by rw [h, ofRat_zero]
  negative h k := by
    unfold ofRat
    rw [if_neg h]
    simp only
    split
    · intro he
      injection he with h1 h2
      rcases lt_or_gt_of_ne h with a | a
      · simp [a] at h1; linarith
      · simp [a] at h1; linarith
    · intro he; cases he

/-- addition, subtraction, multiplication and division of finite doubles (IEEE 754-2019, 5.4.1 and 6.3 for the signs of zeros) -/
theorem operations_rounded (s t : Bool) (a b : Fin finCodes) :
    Spec.Rounded (s && t) (toQ (fin s a) + toQ (fin t b)) (add (fin s a) (fin t b)) ∧
    Spec.Rounded (s && !t) (toQ (fin s a) - toQ (fin t b)) (sub (fin s a) (fin t b)) ∧
    Spec.Rounded (s != t) (toQ (fin s a) * toQ (fin t b)) (mul (fin s a) (fin t b)) ∧
    (toQ (fin t b) ≠ 0 → Spec.Rounded (s != t) (toQ (fin s a) / toQ (fin t b)) (div (fin s a) (fin t b))) := by
  refine ⟨ofRat_rounded _ _, ?_, ofRat_rounded _ _, fun h => ?_⟩
  · have h : toQ (fin s a) - toQ (fin t b) = toQ (fin s a) + toQ (fin (!t) b) := by
      rw [show fin (!t) b = neg (fin t b) from rfl, toQ_neg]; ring
    rw [h]; exact ofRat_rounded _ _
  · have hb : b.val ≠ 0 := fun h0 => h (toQ_eq_zero.mpr h0)
    show Spec.Rounded _ _ (if b.val = 0 then _ else _)
    rw [if_neg hb]; exact ofRat_rounded _ _

/-- A literal of the source denotes the nearest double: 0.1 is not representable, both neighbours are at a positive distance. -/
example : Spec.Rounded false (1 / 10) (ofRat false (1 / 10)) ∧ toQ (ofRat false (1 / 10)) ≠ 1 / 10 ∧
    Spec.Rounded false (2 ^ 53 + 1) (ofRat false (2 ^ 53 + 1)) ∧ toQ (ofRat false (2 ^ 53 + 1)) = 2 ^ 53 :=
  ⟨ofRat_rounded _ _, by decide +kernel, ofRat_rounded _ _, by decide +kernel⟩

end F64
end Verif

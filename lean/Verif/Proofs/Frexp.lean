/-
`musl_frexp` and `musl_ldexp`.
-/
import Verif.F64.Bits
import Verif.Model.Xmath
import Verif.Spec.Float
import Verif.Laws

namespace Verif
open F64

/-! ### frexp -/

theorem frexpNormal_spec (s : Bool) (k : Fin finCodes) (h : k.val / 2 ^ 52 ≠ 0) :
    Spec.IsFrexp (fin s k) (frexpNormal (fin s k)).1 (frexpNormal (fin s k)).2 := by
  have hf : finCodes = 2047 * 2 ^ 52 := by decide
  have hm : k.val % 2 ^ 52 < 2 ^ 52 := Nat.mod_lt _ (by norm_num)
  have hk' : 1022 * 2 ^ 52 + k.val % 2 ^ 52 < finCodes := by omega
  have e1 : (frexpNormal (fin s k)).1 = fin s ⟨_, hk'⟩ := by
    unfold frexpNormal; exact ofBits_val hk' (mantissaBits s k)
  have e2 : (frexpNormal (fin s k)).2 = ((k.val / 2 ^ 52 : ℕ) : ℤ) - 1022 := by
    unfold frexpNormal; simp only [expField]
  have g1 : mag (1022 * 2 ^ 52 + k.val % 2 ^ 52) = ((2 ^ 52 + k.val % 2 ^ 52 : ℕ) : ℚ) * pow2 (-53) := by
    have := mag_normal (v := 1022) (by norm_num) hm
    exact this
  have g2 : mag k.val = ((2 ^ 52 + k.val % 2 ^ 52 : ℕ) : ℚ) * pow2 ((k.val / 2 ^ 52 : ℕ) - 1075) := by
    have := mag_normal (v := k.val / 2 ^ 52) (by omega) hm
    rwa [show k.val / 2 ^ 52 * 2 ^ 52 + k.val % 2 ^ 52 = k.val from Nat.div_add_mod' _ _] at this
  have g3 : mag k.val = mag (1022 * 2 ^ 52 + k.val % 2 ^ 52) * 2 ^ (((k.val / 2 ^ 52 : ℕ) : ℤ) - 1022) := by
    rw [g1, g2, mul_assoc, ← pow2_eq, ← pow2_add]; congr 2; ring
  have b : (2 : ℚ) ^ 52 * pow2 (-53) = 1 / 2 := by rw [pow2_eq]; norm_num
  have b' : (2 : ℚ) ^ 53 * pow2 (-53) = 1 := by rw [pow2_eq]; norm_num
  refine ⟨by rw [e1]; trivial, ?_, ?_, ?_⟩
  · rw [e1, abs_toQ_fin]
    show 1 / 2 ≤ mag (1022 * 2 ^ 52 + k.val % 2 ^ 52)
    rw [g1, ← b]
    apply mul_le_mul_of_nonneg_right _ (pow2_pos _).le
    push_cast; linarith [show (0 : ℚ) ≤ ((k.val % 2 ^ 52 : ℕ) : ℚ) by positivity]
  · rw [e1, abs_toQ_fin]
    show mag (1022 * 2 ^ 52 + k.val % 2 ^ 52) < 1
    rw [g1, ← b']
    apply mul_lt_mul_of_pos_right _ (pow2_pos _)
    have : 2 ^ 52 + k.val % 2 ^ 52 < 2 ^ 53 := by omega
    exact_mod_cast this
  · rw [e1, e2, toQ_fin, toQ_fin, g3]
    split <;> ring

theorem lit_2_64 : ∃ k : Fin finCodes, (lit (2 ^ 64) : F64) = fin false k ∧ mag k.val = pow2 64 :=
  ⟨⟨4895412794951729152, by decide⟩, by decide +kernel, by decide +kernel⟩

/-- the scaled subnormal: exact, with a normal exponent -/
theorem frexp_rec_normal (s : Bool) (k : Fin finCodes) (h : k.val / 2 ^ 52 = 0) (h0 : k.val ≠ 0) :
    ∃ k' : Fin finCodes, fin s k *. lit (2 ^ 64) = fin s k' ∧ k'.val / 2 ^ 52 ≠ 0 ∧
      toQ (fin s k') = toQ (fin s k) * pow2 64 := by
  obtain ⟨c, hc, hc'⟩ := lit_2_64
  have hmk : mag k.val = k.val * pow2 (-1074) := by unfold mag; rw [if_pos h]
  have hlt : k.val < 2 ^ 52 := by omega
  have hq : mag k.val * pow2 64 = k.val * pow2 (-1010) := by
    rw [hmk, mul_assoc, ← pow2_add]; norm_num
  obtain ⟨j, hj⟩ := isMag_int (n := k.val) (e := -1010) (by omega) (by norm_num)
  have hj1 : 2 ^ 52 ≤ j := by
    have h1 : mag (2 ^ 52) = pow2 (-1022) := by
      have := mag_pow (v := 1) (le_refl _); rw [_root_.one_mul] at this; rw [this]; rfl
    rw [← mag_le_iff, h1, hj]
    have : (1 : ℚ) ≤ k.val := by exact_mod_cast Nat.one_le_iff_ne_zero.mpr h0
    have p1 := pow2_le (show (-1022 : ℤ) ≤ -1010 by norm_num)
    have p2 := pow2_pos (-1010)
    nlinarith
  have hjf : j < finCodes := by
    have h2 : mag (1022 * 2 ^ 52) = pow2 (-1) := mag_pow (v := 1022) (by norm_num)
    have : j < 1022 * 2 ^ 52 := by
      rw [← mag_lt_iff, h2, hj]
      have : (k.val : ℚ) < 2 ^ 52 := by exact_mod_cast hlt
      have p1 : (2 : ℚ) ^ 52 * pow2 (-1010) = pow2 (-958) := by
        rw [show (2 : ℚ) ^ 52 = pow2 52 by rw [pow2_eq]; norm_num, ← pow2_add]; norm_num
      have p2 := pow2_lt (show (-958 : ℤ) < -1 by norm_num)
      have p3 := pow2_pos (-1010)
      nlinarith
    have hf : finCodes = 2047 * 2 ^ 52 := by decide
    rw [hf]; omega
  have hval : toQ (fin s ⟨j, hjf⟩) = toQ (fin s k) * toQ (fin false c) := by
    have : mag j = mag k.val * pow2 64 := by rw [hj, hq]
    rw [toQ_fin, toQ_fin, toQ_fin, if_neg (by simp : ¬ false = true), hc', this]
    split <;> ring
  have hne : toQ (fin s ⟨j, hjf⟩) ≠ 0 := by
    rw [Ne, toQ_eq_zero]; intro h; change j = 0 at h; omega
  refine ⟨⟨j, hjf⟩, ?_, ?_, ?_⟩
  · rw [hc]
    show ofRat (s != false) (toQ (fin s k) * toQ (fin false c)) = _
    rw [← hval, ofRat_toQ (x := fin s ⟨j, hjf⟩) _ trivial hne]
  · show j / 2 ^ 52 ≠ 0
    omega
  · rw [hval, toQ_fin false, if_neg (by simp), hc']

theorem musl_frexp_normal (s : Bool) (k : Fin finCodes) (e0 : ℤ) (h0 : k.val ≠ 0) :
    Spec.IsFrexp (fin s k) (musl_frexp (fin s k) e0).1 (musl_frexp (fin s k) e0).2 := by
  unfold musl_frexp
  dsimp only
  by_cases h : k.val / 2 ^ 52 = 0
  · rw [if_pos ((field_eq_zero s k).mpr h)]
    have hne : (!(fin s k ==. lit 0)) = true := by
      rw [Bool.not_eq_true', ← Bool.not_eq_true, show (fin s k ==. lit 0) = F64.eq (fin s k) (lit 0) from rfl, F64.eq_iff]
      rintro ⟨-, -, h'⟩
      rw [lit_def, lit_zero, val_zero, val_fin (x := fin s k) trivial] at h'
      have : toQ (fin s k) = 0 := by exact_mod_cast h'
      exact h0 (toQ_eq_zero.mp this)
    rw [if_pos hne]
    obtain ⟨k', e1, e2, e3⟩ := frexp_rec_normal s k h h0
    rw [e1]
    obtain ⟨f1, f2, f3, f4⟩ := frexpNormal_spec s k' e2
    refine ⟨f1, f2, f3, ?_⟩
    dsimp only
    have p : pow2 64 ≠ 0 := pow2_ne 64
    have : toQ (fin s k) * pow2 64 = toQ (frexpNormal (fin s k')).1 * 2 ^ ((frexpNormal (fin s k')).2 - 64) * pow2 64 := by
      rw [← e3, f4, mul_assoc, ← pow2_eq, ← pow2_eq, ← pow2_add]; congr 2; ring
    exact mul_right_cancel₀ p this
  · rw [if_neg (fun hc => h ((field_eq_zero s k).mp hc)), if_neg (field_ne_max s k)]
    exact frexpNormal_spec s k h

/-! ### ldexp -/

/-- product of a rounded number by a power of two -/
theorem mul_pow_aux {s : Bool} {q : ℚ} (hs : q = 0 ∨ decide (q < 0) = s) {c : Fin finCodes} {j : ℤ} (hc : mag c.val = pow2 j)
    (h : (noOverflow q ∧ rq q = q) ∨ (¬ noOverflow q ∧ 0 ≤ j) ∨ (|q| ≤ pow2 (-1022) ∧ j ≤ -54)) :
    mul (ofRat s q) (fin false c) = ofRat s (q * pow2 j) := by
  have hj := pow2_pos j
  have hc0 : c.val ≠ 0 := fun h0 => by rw [h0, mag_zero] at hc; exact absurd hc hj.ne
  have hct : toQ (fin false c) = pow2 j := hc
  rcases h with ⟨h1, h2⟩ | ⟨h1, h2⟩ | ⟨h1, h2⟩
  · -- exact
    have hF : isFin (ofRat s q) := ofRat_isFin.mpr h1
    have hq : toQ (ofRat s q) = q := by rw [toQ_ofRat h1, h2]
    have hsg : ∃ k, ofRat s q = fin s k := by
      rcases hs with h0 | h0
      · exact ⟨_, by rw [h0, ofRat_zero]; rfl⟩
      · by_cases hq0 : q = 0
        · exact ⟨_, by rw [hq0, ofRat_zero]; rfl⟩
        · unfold ofRat; rw [if_neg hq0, h0]
          rw [dif_pos (show rnd |q| < finCodes from h1)]
          exact ⟨_, rfl⟩
    obtain ⟨k, hk⟩ := hsg
    rw [hk] at hq ⊢
    show ofRat (s != false) (toQ (fin s k) * toQ (fin false c)) = _
    rw [hq, hct, Bool.bne_false]
  · -- overflow
    have hq0 : q ≠ 0 := fun h => h1 (by rw [h]; exact noOverflow_zero)
    have hsq : decide (q < 0) = s := hs.resolve_left hq0
    have h3 : ¬ noOverflow (q * pow2 j) := by
      intro hc; apply h1
      refine noOverflow_mono ?_ hc
      rw [abs_mul, abs_of_pos hj]
      have := pow2_le h2; rw [pow2_zero] at this
      nlinarith [abs_nonneg q]
    rw [ofRat_overflow h1, ofRat_overflow h3]
    show (if c.val = 0 then nan else inf (decide (q < 0) != false)) = _
    rw [if_neg hc0, Bool.bne_false]
    congr 1
    rw [decide_eq_decide]
    constructor
    · intro h; nlinarith
    · intro h; by_contra hc; push Not at hc; nlinarith
  · -- tiny
    have hno : noOverflow q := noOverflow_of_le (h1.trans (pow2_le (by norm_num)))
    have hrq : |rq q| ≤ pow2 (-1022) := by
      obtain ⟨K, hK⟩ := pow2_isMag (e := -1022) (by norm_num)
      rw [rq_abs, ← hK]; exact mag_le_iff.mpr (rnd_le (by rw [hK]; exact h1))
    have small : ∀ t : ℚ, |t| ≤ pow2 (-1022) → rnd |t * pow2 j| = 0 := by
      intro t ht
      have hle : |t * pow2 j| ≤ pow2 (-1076) := by
        rw [abs_mul, abs_of_pos hj]
        calc |t| * pow2 j ≤ pow2 (-1022) * pow2 (-54) :=
              mul_le_mul ht (pow2_le h2) hj.le (pow2_pos _).le
          _ = pow2 (-1076) := by rw [← pow2_add]; norm_num
      have h0 : rnd (pow2 (-1076)) = 0 := by decide +kernel
      have := rnd_mono hle
      omega
    have ofs : ∀ (z : Bool) (t : ℚ), |t| ≤ pow2 (-1022) →
        ofRat z (t * pow2 j) = zero (if t = 0 then z else decide (t < 0)) := by
      intro z t ht
      by_cases ht0 : t = 0
      · rw [ht0, zero_mul, ofRat_zero, if_pos rfl]
      · rw [if_neg ht0]
        have hne : t * pow2 j ≠ 0 := mul_ne_zero ht0 hj.ne'
        have hsm := small t ht
        have hd : decide (t * pow2 j < 0) = decide (t < 0) := by
          rw [decide_eq_decide]
          constructor
          · intro h; by_contra hc; push Not at hc; nlinarith
          · intro h; nlinarith
        unfold ofRat zero
        rw [if_neg hne]
        simp only [hsm, hd]
        rw [dif_pos (by decide)]
    have hF : isFin (ofRat s q) := ofRat_isFin.mpr hno
    have hT : toQ (ofRat s q) = rq q := toQ_ofRat hno
    have hsg : ∃ k, ofRat s q = fin s k := by
      rcases hs with h0 | h0
      · exact ⟨_, by rw [h0, ofRat_zero]; rfl⟩
      · by_cases hq0 : q = 0
        · exact ⟨_, by rw [hq0, ofRat_zero]; rfl⟩
        · unfold ofRat; rw [if_neg hq0, h0]
          rw [dif_pos (show rnd |q| < finCodes from hno)]
          exact ⟨_, rfl⟩
    obtain ⟨k, hk⟩ := hsg
    rw [hk] at hT ⊢
    show ofRat (s != false) (toQ (fin s k) * toQ (fin false c)) = _
    rw [hct, Bool.bne_false, hT, ofs s (rq q) hrq, ofs s q h1]
    refine congrArg zero ?_
    have : s = decide (rq q < 0) ∨ rq q = 0 := by
      by_cases hz : rq q = 0
      · exact .inr hz
      · left
        rw [← hT, toQ_fin]
        rw [← hT, toQ_fin] at hz
        have := mag_nonneg k.val
        cases s
        · simp only [Bool.false_eq_true, if_false] at hz ⊢
          symm; rw [decide_eq_false_iff_not]; linarith
        · simp only [if_true] at hz ⊢
          symm; rw [decide_eq_true_eq]
          rcases this.eq_or_lt with h | h
          · rw [← h] at hz; simp at hz
          · linarith
    by_cases hz : rq q = 0
    · rw [if_pos hz]
      by_cases hq0 : q = 0
      · rw [if_pos hq0]
      · rw [if_neg hq0]; exact (hs.resolve_left hq0).symm
    · rw [if_neg hz]
      have hq0 : q ≠ 0 := fun h => hz (by rw [h, rq_zero])
      rw [if_neg hq0, hs.resolve_left hq0]
      exact (this.resolve_right hz).symm

theorem sign_scale {s : Bool} {q : ℚ} (hs : q = 0 ∨ decide (q < 0) = s) (j : ℤ) :
    q * pow2 j = 0 ∨ decide (q * pow2 j < 0) = s := by
  have hj := pow2_pos j
  rcases hs with h | h
  · left; rw [h, zero_mul]
  · right
    rw [← h, decide_eq_decide]
    constructor
    · intro h; by_contra hc; push Not at hc; nlinarith
    · intro h; nlinarith

theorem toQ_rep (s : Bool) (k : Fin finCodes) : ∃ n : ℕ, ∃ e : ℤ, n ≤ 2 ^ 53 ∧ -1074 ≤ e ∧ |toQ (fin s k)| = n * pow2 e := by
  rw [abs_toQ_fin]
  unfold mag
  split
  · exact ⟨k.val, -1074, by omega, le_refl _, rfl⟩
  · refine ⟨2 ^ 52 + k.val % 2 ^ 52, _, by omega, ?_, rfl⟩
    omega

theorem abs_toQ_le (s : Bool) (k : Fin finCodes) : |toQ (fin s k)| ≤ pow2 1024 := by
  rw [abs_toQ_fin]
  have h : mag (2047 * 2 ^ 52) = pow2 1024 := mag_pow (v := 2047) (by norm_num)
  rw [← h]
  have := k.isLt
  have hf : finCodes = 2047 * 2 ^ 52 := by decide
  exact mag_le_iff.mpr (by omega)

theorem abs_toQ_ge {s : Bool} {k : Fin finCodes} (h : toQ (fin s k) ≠ 0) : pow2 (-1074) ≤ |toQ (fin s k)| := by
  rw [abs_toQ_fin]
  have h1 : mag 1 = pow2 (-1074) := by decide +kernel
  rw [← h1]
  apply mag_le_iff.mpr
  have : k.val ≠ 0 := fun h0 => h (toQ_eq_zero.mpr h0)
  omega

theorem toQ_sign (s : Bool) (k : Fin finCodes) : toQ (fin s k) = 0 ∨ decide (toQ (fin s k) < 0) = s := by
  by_cases h : toQ (fin s k) = 0
  · exact .inl h
  · right
    rw [toQ_fin] at h ⊢
    have := mag_nonneg k.val
    cases s
    · simp only [Bool.false_eq_true, if_false] at h ⊢
      rw [decide_eq_false_iff_not]; linarith
    · simp only [if_true] at h ⊢
      rw [decide_eq_true_eq]
      rcases this.eq_or_lt with h' | h'
      · rw [← h'] at h; simp at h
      · linarith

theorem abs_scale (q : ℚ) (j : ℤ) : |q * pow2 j| = |q| * pow2 j := by rw [abs_mul, abs_of_pos (pow2_pos j)]

theorem scale_scale (q : ℚ) (i j : ℤ) : q * pow2 i * pow2 j = q * pow2 (i + j) := by rw [mul_assoc, ← pow2_add]

/-- scaling up -/
theorem mul_up (s : Bool) (k : Fin finCodes) {i j : ℤ} (hi : 0 ≤ i) (hj : 0 ≤ j) {c : Fin finCodes} (hc : mag c.val = pow2 j) :
    mul (ofRat s (toQ (fin s k) * pow2 i)) (fin false c) = ofRat s (toQ (fin s k) * pow2 (i + j)) := by
  rw [mul_pow_aux (sign_scale (toQ_sign s k) i) hc, scale_scale]
  by_cases h : noOverflow (toQ (fin s k) * pow2 i)
  · refine .inl ⟨h, ?_⟩
    obtain ⟨n, e, h1, h2, h3⟩ := toQ_rep s k
    exact rq_rep ⟨n, e + i, h1, by omega, by rw [abs_scale, h3, mul_assoc, ← pow2_add]⟩
  · exact .inr (.inl ⟨h, hj⟩)

/-- scaling down -/
theorem mul_down (s : Bool) (k : Fin finCodes) {i j : ℤ} (hi : i ≤ 0) (hj : j ≤ -54) {c : Fin finCodes} (hc : mag c.val = pow2 j) :
    mul (ofRat s (toQ (fin s k) * pow2 i)) (fin false c) = ofRat s (toQ (fin s k) * pow2 (i + j)) := by
  rw [mul_pow_aux (sign_scale (toQ_sign s k) i) hc, scale_scale]
  obtain ⟨n, e, h1, h2, h3⟩ := toQ_rep s k
  by_cases he : -1074 ≤ e + i
  · refine .inl ⟨noOverflow_mono ?_ (noOverflow_toQ (fin s k)), ?_⟩
    · rw [abs_scale]
      have := pow2_le hi; rw [pow2_zero] at this
      nlinarith [abs_nonneg (toQ (fin s k))]
    · exact rq_rep ⟨n, e + i, h1, he, by rw [abs_scale, h3, mul_assoc, ← pow2_add]⟩
  · refine .inr (.inr ⟨?_, hj⟩)
    rw [abs_scale, h3, mul_assoc, ← pow2_add]
    have h53 : (n : ℚ) ≤ pow2 53 := by
      have : (n : ℚ) ≤ ((2 ^ 53 : ℕ) : ℚ) := by exact_mod_cast h1
      refine this.trans (le_of_eq ?_)
      rw [pow2_eq]; norm_num
    calc (n : ℚ) * pow2 (e + i) ≤ pow2 53 * pow2 (-1075) :=
          mul_le_mul h53 (pow2_le (by omega)) (pow2_pos _).le (pow2_pos _).le
      _ = pow2 (-1022) := by rw [← pow2_add]; norm_num

theorem self_ofRat (s : Bool) (k : Fin finCodes) : ofRat s (toQ (fin s k) * pow2 0) = fin s k := by
  rw [pow2_zero, mul_one]
  by_cases h : toQ (fin s k) = 0
  · rw [h, ofRat_zero]
    have := toQ_eq_zero.mp h
    unfold zero; congr 1; exact Fin.ext this.symm
  · exact ofRat_toQ (x := fin s k) s trivial h

theorem mul_first (s : Bool) (k : Fin finCodes) {j : ℤ} {c : Fin finCodes} (hc : mag c.val = pow2 j) :
    mul (fin s k) (fin false c) = ofRat s (toQ (fin s k) * pow2 j) := by
  show ofRat (s != false) (toQ (fin s k) * toQ (fin false c)) = _
  rw [Bool.bne_false, show toQ (fin false c) = pow2 j from hc]

theorem huge {s : Bool} {k : Fin finCodes} {i j : ℤ} (hi : 3000 ≤ i) (hj : 3000 ≤ j) :
    ofRat s (toQ (fin s k) * pow2 i) = ofRat s (toQ (fin s k) * pow2 j) := by
  by_cases h : toQ (fin s k) = 0
  · rw [h, zero_mul, zero_mul]
  · have O : ∀ i : ℤ, 3000 ≤ i → ¬ noOverflow (toQ (fin s k) * pow2 i) := by
      intro i hi hno
      have h1 : pow2 1024 ≤ |toQ (fin s k) * pow2 i| := by
        rw [abs_scale]
        calc pow2 1024 ≤ pow2 (-1074 + i) := pow2_le (by omega)
          _ = pow2 (-1074) * pow2 i := pow2_add _ _
          _ ≤ _ := mul_le_mul_of_nonneg_right (abs_toQ_ge h) (pow2_pos _).le
      have h2 : ¬ noOverflow (pow2 1024) := by unfold noOverflow; decide +kernel
      exact h2 (noOverflow_mono (by rw [abs_of_pos (pow2_pos _)]; exact h1) hno)
    rw [ofRat_overflow (O i hi), ofRat_overflow (O j hj)]
    congr 1
    have S : ∀ i : ℤ, decide (toQ (fin s k) * pow2 i < 0) = s := fun i =>
      (sign_scale (toQ_sign s k) i).resolve_left (mul_ne_zero h (pow2_ne i))
    rw [S, S]

theorem ofRat_tiny {z : Bool} {q : ℚ} (hz : q = 0 ∨ decide (q < 0) = z) (h : |q| ≤ pow2 (-1076)) : ofRat z q = zero z := by
  by_cases h0 : q = 0
  · rw [h0, ofRat_zero]
  · have hs := hz.resolve_left h0
    have e0 : rnd (pow2 (-1076)) = 0 := by decide +kernel
    have e1 : rnd |q| = 0 := by have := rnd_mono h; omega
    unfold ofRat zero
    rw [if_neg h0]
    simp only [e1, hs]
    rw [dif_pos (by decide)]

theorem vanish {s : Bool} {k : Fin finCodes} {i j : ℤ} (hi : i ≤ -2200) (hj : j ≤ -2200) :
    ofRat s (toQ (fin s k) * pow2 i) = ofRat s (toQ (fin s k) * pow2 j) := by
  have T : ∀ i : ℤ, i ≤ -2200 → ofRat s (toQ (fin s k) * pow2 i) = zero s := by
    intro i hi
    refine ofRat_tiny (sign_scale (toQ_sign s k) i) ?_
    rw [abs_scale]
    calc |toQ (fin s k)| * pow2 i ≤ pow2 1024 * pow2 i := mul_le_mul_of_nonneg_right (abs_toQ_le s k) (pow2_pos _).le
      _ = pow2 (1024 + i) := (pow2_add _ _).symm
      _ ≤ pow2 (-1076) := pow2_le (by omega)
  rw [T i hi, T j hj]

theorem lit_big : ∃ k : Fin finCodes, (lit (2 ^ 1023) : F64) = fin false k ∧ mag k.val = pow2 1023 :=
  ⟨⟨9214364837600034816, by decide⟩, by decide +kernel, by decide +kernel⟩

theorem lit_small : ∃ k : Fin finCodes, (lit (1 / 2 ^ 1022) *. lit (2 ^ 53) : F64) = fin false k ∧ mag k.val = pow2 (-969) :=
  ⟨⟨54 * 2 ^ 52, by decide⟩, by decide +kernel, by decide +kernel⟩

theorem musl_ldexp_fin (s : Bool) (k : Fin finCodes) (n : ℤ) : musl_ldexp (fin s k) n = Spec.scaleB (fin s k) n := by
  obtain ⟨b, hb, hb'⟩ := lit_big
  obtain ⟨c, hc, hc'⟩ := lit_small
  have P : ∀ n : ℤ, -1022 ≤ n → n ≤ 1023 →
      ∃ k, ofBits (UInt64.ofNat (0x3ff + n).toNat <<< 52) = fin false k ∧ mag k.val = pow2 n := fun n h1 h2 => by
    obtain ⟨k, h⟩ := powBits h1 h2; exact ⟨k, h⟩
  have M : ∀ x y : F64, (x *. y) = mul x y := fun _ _ => rfl
  unfold Spec.scaleB musl_ldexp
  dsimp only
  rw [hb, hc, ← pow2_eq]
  simp only [M]
  rw [mul_first s k hb', mul_first s k hc']
  by_cases h1 : n > 1023
  · rw [if_pos h1]
    by_cases h2 : n - 1023 > 1023
    · rw [if_pos h2, mul_up s k (by norm_num) (by norm_num) hb']
      by_cases h3 : n - 1023 - 1023 > 1023
      · rw [if_pos h3]
        obtain ⟨d, hd, hd'⟩ := P 1023 (by norm_num) (by norm_num)
        rw [hd, mul_up s k (by norm_num) (by norm_num) hd']
        exact huge (by norm_num) (by omega)
      · rw [if_neg h3]
        obtain ⟨d, hd, hd'⟩ := P (n - 1023 - 1023) (by omega) (by omega)
        rw [hd, mul_up s k (by norm_num) (by omega) hd']
        exact congrArg (fun i => ofRat s (toQ (fin s k) * pow2 i)) (by ring)
    · rw [if_neg h2]
      obtain ⟨d, hd, hd'⟩ := P (n - 1023) (by omega) (by omega)
      rw [hd, mul_up s k (by norm_num) (by omega) hd']
      exact congrArg (fun i => ofRat s (toQ (fin s k) * pow2 i)) (by ring)
  · rw [if_neg h1]
    by_cases h1' : n < -1022
    · rw [if_pos h1']
      by_cases h2 : n + (1022 - 53) < -1022
      · rw [if_pos h2, mul_down s k (by norm_num) (by norm_num) hc']
        by_cases h3 : n + (1022 - 53) + (1022 - 53) < -1022
        · rw [if_pos h3]
          obtain ⟨d, hd, hd'⟩ := P (-1022) (by norm_num) (by norm_num)
          rw [hd, mul_down s k (by norm_num) (by norm_num) hd']
          exact vanish (by norm_num) (by omega)
        · rw [if_neg h3]
          obtain ⟨d, hd, hd'⟩ := P (n + (1022 - 53) + (1022 - 53)) (by omega) (by omega)
          rw [hd, mul_down s k (by norm_num) (by omega) hd']
          exact congrArg (fun i => ofRat s (toQ (fin s k) * pow2 i)) (by ring)
      · rw [if_neg h2]
        obtain ⟨d, hd, hd'⟩ := P (n + (1022 - 53)) (by omega) (by omega)
        rw [hd, mul_down s k (by norm_num) (by omega) hd']
        exact congrArg (fun i => ofRat s (toQ (fin s k) * pow2 i)) (by ring)
    · rw [if_neg h1']
      obtain ⟨d, hd, hd'⟩ := P n (by omega) (by omega)
      rw [hd, mul_first s k hd']

theorem musl_ldexp_eq (x : F64) (n : ℤ) : musl_ldexp x n = Spec.scaleB x n := by
  rcases x with _ | s | ⟨s, k⟩
  · unfold musl_ldexp Spec.scaleB
    dsimp only
    have : ∀ y : F64, (nan *. y) = nan := fun _ => rfl
    simp only [this, ite_self]
  · obtain ⟨b, hb, hb'⟩ := lit_big
    obtain ⟨c, hc, hc'⟩ := lit_small
    have I : ∀ {j : ℤ} {c : Fin finCodes}, mag c.val = pow2 j → (inf s *. fin false c) = inf s := by
      intro j c hc
      have hc0 : c.val ≠ 0 := fun h0 => by rw [h0, mag_zero] at hc; exact absurd hc (pow2_pos j).ne
      show (if c.val = 0 then nan else inf (s != false)) = _
      rw [if_neg hc0, Bool.bne_false]
    have P : ∀ n : ℤ, -1022 ≤ n → n ≤ 1023 → (inf s *. ofBits (UInt64.ofNat (0x3ff + n).toNat <<< 52)) = inf s := by
      intro n h1 h2
      obtain ⟨k, h, h'⟩ := powBits h1 h2
      rw [h]; exact I h'
    unfold musl_ldexp Spec.scaleB
    dsimp only
    rw [hb, hc]
    simp only [I hb', I hc']
    split_ifs <;> exact P _ (by omega) (by omega)
  · exact musl_ldexp_fin s k n

end Verif

/-
The continued fraction used for the exponential, over the reals.
-/
import Mathlib.Analysis.SpecialFunctions.Log.Deriv
import Mathlib.Analysis.Calculus.Deriv.MeanValue
import Mathlib.Tactic.Positivity
import Mathlib.Tactic.FieldSimp
import Mathlib.Tactic.LinearCombination

namespace Verif.ExpCF

/-! The denominators of src/xmath.c:308-319, innermost first. -/

noncomputable def w5 (z : ℝ) : ℝ := 7 * (z * z) / 11 + 252
noncomputable def w4 (z : ℝ) : ℝ := 140 * (z * z) / w5 z + 140
noncomputable def w3 (z : ℝ) : ℝ := 60 * (z * z) / w4 z + 60
noncomputable def w2 (z : ℝ) : ℝ := 12 * (z * z) / w3 z + 12
noncomputable def w1 (z : ℝ) : ℝ := 2 * (z * z) / w2 z - z + 2

/-- the value of the fraction -/
noncomputable def expCF (z : ℝ) : ℝ := 2 * z / w1 z + 1

theorem w5_pos (z : ℝ) : 0 < w5 z := by unfold w5; have := mul_self_nonneg z; positivity
theorem w4_pos (z : ℝ) : 0 < w4 z := by unfold w4; have := mul_self_nonneg z; have := w5_pos z; positivity
theorem w3_pos (z : ℝ) : 0 < w3 z := by unfold w3; have := mul_self_nonneg z; have := w4_pos z; positivity
theorem w2_pos (z : ℝ) : 0 < w2 z := by unfold w2; have := mul_self_nonneg z; have := w3_pos z; positivity

/-- denominator and numerator as polynomials -/
def P (z : ℝ) : ℝ := 665280 + 332640 * z + 75600 * z ^ 2 + 10080 * z ^ 3 + 840 * z ^ 4 + 42 * z ^ 5 + z ^ 6
def P' (z : ℝ) : ℝ := 332640 + 151200 * z + 30240 * z ^ 2 + 3360 * z ^ 3 + 210 * z ^ 4 + 6 * z ^ 5

theorem w4_eq (z : ℝ) : w4 z = 360 * (z ^ 2 + 154) / (z ^ 2 + 396) := by
  have h := (w5_pos z).ne'
  have h1 : z ^ 2 + 396 ≠ 0 := by positivity
  unfold w4; rw [eq_div_iff h1, add_mul, div_mul_eq_mul_div, ← eq_sub_iff_add_eq, div_eq_iff h]; unfold w5; ring

theorem w3_eq (z : ℝ) : w3 z = (z ^ 4 + 756 * z ^ 2 + 55440) / (6 * (z ^ 2 + 154)) := by
  have h1 : z ^ 2 + 154 ≠ 0 := by positivity
  have h2 : z ^ 2 + 396 ≠ 0 := by positivity
  unfold w3; rw [w4_eq]; field_simp; ring

theorem w2_eq (z : ℝ) : w2 z = 84 * (z ^ 4 + 240 * z ^ 2 + 7920) / (z ^ 4 + 756 * z ^ 2 + 55440) := by
  have h1 : z ^ 2 + 154 ≠ 0 := by positivity
  have h2 : z ^ 4 + 756 * z ^ 2 + 55440 ≠ 0 := by positivity
  unfold w2; rw [w3_eq]; field_simp; ring

theorem w1_eq (z : ℝ) : w1 z = P (-z) / (42 * (z ^ 4 + 240 * z ^ 2 + 7920)) := by
  have h1 : z ^ 4 + 240 * z ^ 2 + 7920 ≠ 0 := by positivity
  have h2 : z ^ 4 + 756 * z ^ 2 + 55440 ≠ 0 := by positivity
  unfold w1 P; rw [w2_eq]; field_simp; ring

theorem P_pos {z : ℝ} (hz : -2 < z) : 0 < P z := by
  have e : P z = (2 + z) * (42 * (z ^ 4 + 240 * z ^ 2 + 7920)) + z ^ 2 * (z ^ 4 + 756 * z ^ 2 + 55440) := by unfold P; ring
  have : 0 < 2 + z := by linarith
  rw [e]; positivity

theorem w1_pos {z : ℝ} (hz : z < 2) : 0 < w1 z := by
  rw [w1_eq]; have := P_pos (z := -z) (by linarith); positivity

theorem expCF_eq {z : ℝ} (hz : z < 2) : expCF z = P z / P (-z) := by
  have h1 : z ^ 4 + 240 * z ^ 2 + 7920 ≠ 0 := by positivity
  have h2 := (P_pos (z := -z) (by linarith)).ne'
  unfold expCF; rw [w1_eq]
  rw [eq_div_iff h2, div_div_eq_mul_div, add_mul, div_mul_cancel₀ _ h2]
  unfold P; ring

theorem P_deriv (z : ℝ) : HasDerivAt P (P' z) z := by
  have h := (((((((hasDerivAt_const z (665280 : ℝ)).add ((hasDerivAt_id z).const_mul (332640 : ℝ))).add
    ((hasDerivAt_pow 2 z).const_mul (75600 : ℝ))).add ((hasDerivAt_pow 3 z).const_mul (10080 : ℝ))).add
    ((hasDerivAt_pow 4 z).const_mul (840 : ℝ))).add ((hasDerivAt_pow 5 z).const_mul (42 : ℝ))).add (hasDerivAt_pow 6 z))
  refine h.congr_deriv ?_
  unfold P'; norm_num; ring

/-- the fraction is a Padé approximant -/
theorem pade (z : ℝ) : P z * P (-z) - (P' z * P (-z) + P z * P' (-z)) = z ^ 12 := by unfold P P'; ring

/-- what is missing in the exponent -/
noncomputable def gap (z : ℝ) : ℝ := z - (Real.log (P z) - Real.log (P (-z)))

theorem gap_deriv {z : ℝ} (h1 : -2 < z) (h2 : z < 2) : HasDerivAt gap (z ^ 12 / (P z * P (-z))) z := by
  have p1 := P_pos h1
  have p2 := P_pos (z := -z) (by linarith)
  have hneg : HasDerivAt (fun z : ℝ => P (-z)) (P' (-z) * -1) z := (P_deriv (-z)).comp z (hasDerivAt_neg z)
  have h := (hasDerivAt_id z).sub (((P_deriv z).log p1.ne').sub (hneg.log p2.ne'))
  refine h.congr_deriv ?_
  rw [← pade z]
  field_simp
  ring

theorem gap_zero : gap 0 = 0 := by unfold gap; simp

theorem gap_neg (z : ℝ) : gap (-z) = - gap z := by unfold gap; rw [neg_neg]; ring

theorem prod_ge {z : ℝ} (h0 : 0 ≤ z) (h1 : z ≤ 1) : 430000000000 ≤ P z * P (-z) := by
  have e : P z * P (-z) = 442597478400 - 10059033600 * z ^ 2 + 127008000 * z ^ 4 - 1209600 * z ^ 6 + 10080 * z ^ 8 - 84 * z ^ 10 + z ^ 12 := by
    unfold P; ring
  rw [e]
  have a2 : z ^ 2 ≤ 1 := pow_le_one₀ h0 h1
  have a6 : z ^ 6 ≤ 1 := pow_le_one₀ h0 h1
  have a10 : z ^ 10 ≤ 1 := pow_le_one₀ h0 h1
  have b4 : 0 ≤ z ^ 4 := by positivity
  have b8 : 0 ≤ z ^ 8 := by positivity
  have b12 : 0 ≤ z ^ 12 := by positivity
  linarith

theorem gap_bound {z : ℝ} (h0 : 0 ≤ z) (h1 : z ≤ 1) : 0 ≤ gap z ∧ gap z ≤ z ^ 13 / (13 * 430000000000) := by
  have D : ∀ t, 0 ≤ t → t ≤ z → HasDerivAt gap (t ^ 12 / (P t * P (-t))) t := fun t h h' => gap_deriv (by linarith) (by linarith)
  have D' : ∀ t, 0 ≤ t → t ≤ z →
      HasDerivAt (fun t => gap t - t ^ 13 / (13 * 430000000000)) (t ^ 12 / (P t * P (-t)) - t ^ 12 / 430000000000) t := by
    intro t h h'
    refine ((D t h h').sub ((hasDerivAt_pow 13 t).div_const (13 * 430000000000))).congr_deriv ?_
    norm_num; ring
  have pp : ∀ t, 0 ≤ t → t ≤ z → 430000000000 ≤ P t * P (-t) := fun t h h' => prod_ge h (h'.trans h1)
  constructor
  · rw [← gap_zero]
    refine monotoneOn_of_deriv_nonneg (convex_Icc 0 z) ?_ ?_ ?_ ⟨le_refl _, h0⟩ ⟨h0, le_refl _⟩ h0
    · exact fun t ht => (D t ht.1 ht.2).continuousAt.continuousWithinAt
    · intro t ht
      rw [interior_Icc] at ht
      exact (D t ht.1.le ht.2.le).differentiableAt.differentiableWithinAt
    · intro t ht
      rw [interior_Icc] at ht
      rw [(D t ht.1.le ht.2.le).deriv]
      have := pp t ht.1.le ht.2.le
      have h12 : 0 ≤ t ^ 12 := pow_nonneg ht.1.le _
      exact div_nonneg h12 (by linarith)
  · have anti : gap z - z ^ 13 / (13 * 430000000000) ≤ gap 0 - 0 ^ 13 / (13 * 430000000000) := by
      refine antitoneOn_of_deriv_nonpos (convex_Icc 0 z) (f := fun t => gap t - t ^ 13 / (13 * 430000000000)) ?_ ?_ ?_
        ⟨le_refl _, h0⟩ ⟨h0, le_refl _⟩ h0
      · exact fun t ht => (D' t ht.1 ht.2).continuousAt.continuousWithinAt
      · intro t ht
        rw [interior_Icc] at ht
        exact (D' t ht.1.le ht.2.le).differentiableAt.differentiableWithinAt
      · intro t ht
        rw [interior_Icc] at ht
        rw [(D' t ht.1.le ht.2.le).deriv, sub_nonpos]
        have := pp t ht.1.le ht.2.le
        have h12 : 0 ≤ t ^ 12 := pow_nonneg ht.1.le _
        gcongr
    rw [gap_zero] at anti
    norm_num at anti
    linarith

theorem abs_gap {z : ℝ} (h : |z| ≤ 1) : |gap z| ≤ |z| ^ 13 / (13 * 430000000000) := by
  rcases le_total 0 z with hz | hz
  · rw [abs_of_nonneg hz] at h ⊢
    obtain ⟨a, b⟩ := gap_bound hz h
    rwa [abs_of_nonneg a]
  · rw [abs_of_nonpos hz] at h ⊢
    obtain ⟨a, b⟩ := gap_bound (z := -z) (by linarith) h
    rw [gap_neg] at a b
    rwa [abs_of_nonpos (by linarith)]

theorem exp_eq {z : ℝ} (h1 : -2 < z) (h2 : z < 2) : Real.exp z = expCF z * Real.exp (gap z) := by
  have p1 := P_pos h1
  have p2 := P_pos (z := -z) (by linarith)
  rw [expCF_eq h2]
  unfold gap
  rw [Real.exp_sub, Real.exp_sub, Real.exp_log p1, Real.exp_log p2]
  field_simp

/-- Relative error of the fraction. -/
theorem rel_err {z : ℝ} (h : |z| ≤ 1) : |expCF z - Real.exp z| ≤ |z| ^ 13 / (13 * 420000000000) * Real.exp z := by
  have hz := abs_le.mp h
  have e := exp_eq (z := z) (by linarith) (by linarith)
  have g := abs_gap h
  have hb : |z| ^ 13 ≤ 1 := pow_le_one₀ (abs_nonneg _) h
  have hb0 : 0 ≤ |z| ^ 13 := by positivity
  have e' : expCF z = Real.exp z * Real.exp (-gap z) := by rw [e, mul_assoc, ← Real.exp_add]; simp
  rw [e', show Real.exp z * Real.exp (-gap z) - Real.exp z = Real.exp z * (Real.exp (-gap z) - 1) by ring, abs_mul,
    abs_of_pos (Real.exp_pos z), mul_comm]
  refine mul_le_mul_of_nonneg_right ?_ (Real.exp_pos z).le
  have hg1 : |-gap z| ≤ 1 := by rw [abs_neg]; refine g.trans ?_; rw [div_le_one (by norm_num)]; linarith
  have hq := Real.abs_exp_sub_one_sub_id_le hg1
  rw [abs_le] at hq
  rw [abs_neg] at hg1
  have hs : (-gap z) ^ 2 = |gap z| ^ 2 := by rw [neg_sq, sq_abs]
  rw [hs] at hq
  have hg0 := abs_nonneg (gap z)
  have hle := neg_abs_le (gap z)
  have hle' := le_abs_self (gap z)
  have g2 : |gap z| ^ 2 ≤ |gap z| / 1000 := by
    have : |gap z| ≤ 1 / 1000 := g.trans (by rw [div_le_div_iff₀ (by norm_num) (by norm_num)]; linarith)
    nlinarith
  have fin : |gap z| * (1 + 1 / 1000) ≤ |z| ^ 13 / (13 * 420000000000) := by
    rw [le_div_iff₀ (by norm_num)] at g ⊢
    nlinarith
  rw [abs_le]; constructor <;> linarith

end Verif.ExpCF

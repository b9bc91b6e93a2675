/-
The continued fraction used for the logarithm, over the reals.
-/
import Mathlib.Analysis.SpecialFunctions.Log.Deriv
import Mathlib.Analysis.Calculus.Deriv.MeanValue
import Mathlib.Tactic.Positivity
import Mathlib.Tactic.FieldSimp
import Mathlib.Tactic.LinearCombination

namespace Verif.LogCF

/-! The continued fraction of src/xmath.c:269-306 as a quotient of polynomials: denominators `d11` ... `d1`, each of the form
`N j / N (j + 1)`. -/

def N12 (z : ℝ) : ℝ := 1 + 0 * z

def N11 (z : ℝ) : ℝ := 21 + 21 * z

def N10 (z : ℝ) : ℝ := 299 + 998 * z + 299 * z ^ 2

def N9 (z : ℝ) : ℝ := 3382 + 23750 * z + 23750 * z ^ 2 + 3382 * z ^ 3

def N8 (z : ℝ) : ℝ := 31594 + 381380 * z + 801972 * z ^ 2 + 381380 * z ^ 3 + 31594 * z ^ 4

def N7 (z : ℝ) : ℝ := 245004 + 4536348 * z + 16381608 * z ^ 2 + 16381608 * z ^ 3 + 4536348 * z ^ 4 + 245004 * z ^ 5

def N6 (z : ℝ) : ℝ := 1557660 + 41139960 * z + 227548500 * z ^ 2 + 390678000 * z ^ 3 + 227548500 * z ^ 4 + 41139960 * z ^ 5 + 1557660 * z ^ 6

def N5 (z : ℝ) : ℝ := 7893840 + 283120080 * z + 2229348240 * z ^ 2 + 5860170000 * z ^ 3 + 5860170000 * z ^ 4 + 2229348240 * z ^ 5 + 283120080 * z ^ 6 + 7893840 * z ^ 7

def N4 (z : ℝ) : ℝ := 30334320 + 1428703200 * z + 15238058400 * z ^ 2 + 56999092320 * z ^ 3 + 87262524000 * z ^ 4 + 56999092320 * z ^ 5 + 15238058400 * z ^ 6 + 1428703200 * z ^ 7 + 30334320 * z ^ 8

def N3 (z : ℝ) : ℝ := 80627040 + 4889196000 * z + 68294790720 * z ^ 2 + 346024411200 * z ^ 3 + 753985477440 * z ^ 4 + 753985477440 * z ^ 5 + 346024411200 * z ^ 6 + 68294790720 * z ^ 7 + 4889196000 * z ^ 8 + 80627040 * z ^ 9

def N2 (z : ℝ) : ℝ := 120543840 + 9437330880 * z + 169908014880 * z ^ 2 + 1131150890880 * z ^ 3 + 3346020074880 * z ^ 4 + 4766020318080 * z ^ 5 + 3346020074880 * z ^ 6 + 1131150890880 * z ^ 7 + 169908014880 * z ^ 8 + 9437330880 * z ^ 9 + 120543840 * z ^ 10

def N1 (z : ℝ) : ℝ := 39916800 + 4829932800 * z + 120748320000 * z ^ 2 + 1086734880000 * z ^ 3 + 4346939520000 * z ^ 4 + 8520001459200 * z ^ 5 + 8520001459200 * z ^ 6 + 4346939520000 * z ^ 7 + 1086734880000 * z ^ 8 + 120748320000 * z ^ 9 + 4829932800 * z ^ 10 + 39916800 * z ^ 11

theorem N12_pos {z : ℝ} (hz : 0 ≤ z) : 0 < N12 z := by unfold N12; positivity

theorem N11_pos {z : ℝ} (hz : 0 ≤ z) : 0 < N11 z := by unfold N11; positivity

theorem N10_pos {z : ℝ} (hz : 0 ≤ z) : 0 < N10 z := by unfold N10; positivity

theorem N9_pos {z : ℝ} (hz : 0 ≤ z) : 0 < N9 z := by unfold N9; positivity

theorem N8_pos {z : ℝ} (hz : 0 ≤ z) : 0 < N8 z := by unfold N8; positivity

theorem N7_pos {z : ℝ} (hz : 0 ≤ z) : 0 < N7 z := by unfold N7; positivity

theorem N6_pos {z : ℝ} (hz : 0 ≤ z) : 0 < N6 z := by unfold N6; positivity

theorem N5_pos {z : ℝ} (hz : 0 ≤ z) : 0 < N5 z := by unfold N5; positivity

theorem N4_pos {z : ℝ} (hz : 0 ≤ z) : 0 < N4 z := by unfold N4; positivity

theorem N3_pos {z : ℝ} (hz : 0 ≤ z) : 0 < N3 z := by unfold N3; positivity

theorem N2_pos {z : ℝ} (hz : 0 ≤ z) : 0 < N2 z := by unfold N2; positivity

theorem N1_pos {z : ℝ} (hz : 0 ≤ z) : 0 < N1 z := by unfold N1; positivity

noncomputable def d11 (z : ℝ) : ℝ := 21 * (z + 1)

noncomputable def d10 (z : ℝ) : ℝ := 19 * (z + 1) - 100 * (z - 1) ^ 2 / d11 z

noncomputable def d9 (z : ℝ) : ℝ := 17 * (z + 1) - 81 * (z - 1) ^ 2 / d10 z

noncomputable def d8 (z : ℝ) : ℝ := 15 * (z + 1) - 64 * (z - 1) ^ 2 / d9 z

noncomputable def d7 (z : ℝ) : ℝ := 13 * (z + 1) - 49 * (z - 1) ^ 2 / d8 z

noncomputable def d6 (z : ℝ) : ℝ := 11 * (z + 1) - 36 * (z - 1) ^ 2 / d7 z

noncomputable def d5 (z : ℝ) : ℝ := 9 * (z + 1) - 25 * (z - 1) ^ 2 / d6 z

noncomputable def d4 (z : ℝ) : ℝ := 7 * (z + 1) - 16 * (z - 1) ^ 2 / d5 z

noncomputable def d3 (z : ℝ) : ℝ := 5 * (z + 1) - 9 * (z - 1) ^ 2 / d4 z

noncomputable def d2 (z : ℝ) : ℝ := 3 * (z + 1) - 4 * (z - 1) ^ 2 / d3 z

noncomputable def d1 (z : ℝ) : ℝ := 1 * (z + 1) - 1 * (z - 1) ^ 2 / d2 z

theorem d11_eq {z : ℝ} (_ : 0 ≤ z) : d11 z = N11 z / N12 z := by unfold d11 N11 N12; ring

theorem d10_eq {z : ℝ} (hz : 0 ≤ z) : d10 z = N10 z / N11 z := by
  have h1 := (N11_pos hz).ne'
  have h2 := (N12_pos hz).ne'
  unfold d10; rw [d11_eq hz, div_div_eq_mul_div, sub_eq_iff_eq_add, ← add_div, eq_div_iff h1]
  unfold N10 N11 N12; ring

theorem d9_eq {z : ℝ} (hz : 0 ≤ z) : d9 z = N9 z / N10 z := by
  have h1 := (N10_pos hz).ne'
  have h2 := (N11_pos hz).ne'
  unfold d9; rw [d10_eq hz, div_div_eq_mul_div, sub_eq_iff_eq_add, ← add_div, eq_div_iff h1]
  unfold N9 N10 N11; ring

theorem d8_eq {z : ℝ} (hz : 0 ≤ z) : d8 z = N8 z / N9 z := by
  have h1 := (N9_pos hz).ne'
  have h2 := (N10_pos hz).ne'
  unfold d8; rw [d9_eq hz, div_div_eq_mul_div, sub_eq_iff_eq_add, ← add_div, eq_div_iff h1]
  unfold N8 N9 N10; ring

theorem d7_eq {z : ℝ} (hz : 0 ≤ z) : d7 z = N7 z / N8 z := by
  have h1 := (N8_pos hz).ne'
  have h2 := (N9_pos hz).ne'
  unfold d7; rw [d8_eq hz, div_div_eq_mul_div, sub_eq_iff_eq_add, ← add_div, eq_div_iff h1]
  unfold N7 N8 N9; ring

theorem d6_eq {z : ℝ} (hz : 0 ≤ z) : d6 z = N6 z / N7 z := by
  have h1 := (N7_pos hz).ne'
  have h2 := (N8_pos hz).ne'
  unfold d6; rw [d7_eq hz, div_div_eq_mul_div, sub_eq_iff_eq_add, ← add_div, eq_div_iff h1]
  unfold N6 N7 N8; ring

theorem d5_eq {z : ℝ} (hz : 0 ≤ z) : d5 z = N5 z / N6 z := by
  have h1 := (N6_pos hz).ne'
  have h2 := (N7_pos hz).ne'
  unfold d5; rw [d6_eq hz, div_div_eq_mul_div, sub_eq_iff_eq_add, ← add_div, eq_div_iff h1]
  unfold N5 N6 N7; ring

theorem d4_eq {z : ℝ} (hz : 0 ≤ z) : d4 z = N4 z / N5 z := by
  have h1 := (N5_pos hz).ne'
  have h2 := (N6_pos hz).ne'
  unfold d4; rw [d5_eq hz, div_div_eq_mul_div, sub_eq_iff_eq_add, ← add_div, eq_div_iff h1]
  unfold N4 N5 N6; ring

theorem d3_eq {z : ℝ} (hz : 0 ≤ z) : d3 z = N3 z / N4 z := by
  have h1 := (N4_pos hz).ne'
  have h2 := (N5_pos hz).ne'
  unfold d3; rw [d4_eq hz, div_div_eq_mul_div, sub_eq_iff_eq_add, ← add_div, eq_div_iff h1]
  unfold N3 N4 N5; ring

theorem d2_eq {z : ℝ} (hz : 0 ≤ z) : d2 z = N2 z / N3 z := by
  have h1 := (N3_pos hz).ne'
  have h2 := (N4_pos hz).ne'
  unfold d2; rw [d3_eq hz, div_div_eq_mul_div, sub_eq_iff_eq_add, ← add_div, eq_div_iff h1]
  unfold N2 N3 N4; ring

theorem d1_eq {z : ℝ} (hz : 0 ≤ z) : d1 z = N1 z / N2 z := by
  have h1 := (N2_pos hz).ne'
  have h2 := (N3_pos hz).ne'
  unfold d1; rw [d2_eq hz, div_div_eq_mul_div, sub_eq_iff_eq_add, ← add_div, eq_div_iff h1]
  unfold N1 N2 N3; ring

theorem d11_pos {z : ℝ} (hz : 0 ≤ z) : 0 < d11 z := by rw [d11_eq hz]; exact div_pos (N11_pos hz) (N12_pos hz)

theorem d10_pos {z : ℝ} (hz : 0 ≤ z) : 0 < d10 z := by rw [d10_eq hz]; exact div_pos (N10_pos hz) (N11_pos hz)

theorem d9_pos {z : ℝ} (hz : 0 ≤ z) : 0 < d9 z := by rw [d9_eq hz]; exact div_pos (N9_pos hz) (N10_pos hz)

theorem d8_pos {z : ℝ} (hz : 0 ≤ z) : 0 < d8 z := by rw [d8_eq hz]; exact div_pos (N8_pos hz) (N9_pos hz)

theorem d7_pos {z : ℝ} (hz : 0 ≤ z) : 0 < d7 z := by rw [d7_eq hz]; exact div_pos (N7_pos hz) (N8_pos hz)

theorem d6_pos {z : ℝ} (hz : 0 ≤ z) : 0 < d6 z := by rw [d6_eq hz]; exact div_pos (N6_pos hz) (N7_pos hz)

theorem d5_pos {z : ℝ} (hz : 0 ≤ z) : 0 < d5 z := by rw [d5_eq hz]; exact div_pos (N5_pos hz) (N6_pos hz)

theorem d4_pos {z : ℝ} (hz : 0 ≤ z) : 0 < d4 z := by rw [d4_eq hz]; exact div_pos (N4_pos hz) (N5_pos hz)

theorem d3_pos {z : ℝ} (hz : 0 ≤ z) : 0 < d3 z := by rw [d3_eq hz]; exact div_pos (N3_pos hz) (N4_pos hz)

theorem d2_pos {z : ℝ} (hz : 0 ≤ z) : 0 < d2 z := by rw [d2_eq hz]; exact div_pos (N2_pos hz) (N3_pos hz)

theorem d1_pos {z : ℝ} (hz : 0 ≤ z) : 0 < d1 z := by rw [d1_eq hz]; exact div_pos (N1_pos hz) (N2_pos hz)

/-- the value of the fraction -/
noncomputable def logCF (z : ℝ) : ℝ := 2 * (z - 1) / d1 z

theorem logCF_eq {z : ℝ} (hz : 0 ≤ z) : logCF z = 2 * (z - 1) * N2 z / N1 z := by
  unfold logCF; rw [d1_eq hz, div_div_eq_mul_div]

def N1' (z : ℝ) : ℝ := 4829932800 + 241496640000 * z + 3260204640000 * z ^ 2 + 17387758080000 * z ^ 3 + 42600007296000 * z ^ 4 + 51120008755200 * z ^ 5 + 30428576640000 * z ^ 6 + 8693879040000 * z ^ 7 + 1086734880000 * z ^ 8 + 48299328000 * z ^ 9 + 439084800 * z ^ 10

def N2' (z : ℝ) : ℝ := 9437330880 + 339816029760 * z + 3393452672640 * z ^ 2 + 13384080299520 * z ^ 3 + 23830101590400 * z ^ 4 + 20076120449280 * z ^ 5 + 7918056236160 * z ^ 6 + 1359264119040 * z ^ 7 + 84935977920 * z ^ 8 + 1205438400 * z ^ 9

theorem N1_deriv (z : ℝ) : HasDerivAt N1 (N1' z) z := by
  have h := ((((((((((((hasDerivAt_const z (39916800 : ℝ)).add ((hasDerivAt_id z).const_mul (4829932800 : ℝ))).add ((hasDerivAt_pow 2 z).const_mul (120748320000 : ℝ))).add ((hasDerivAt_pow 3 z).const_mul (1086734880000 : ℝ))).add ((hasDerivAt_pow 4 z).const_mul (4346939520000 : ℝ))).add ((hasDerivAt_pow 5 z).const_mul (8520001459200 : ℝ))).add ((hasDerivAt_pow 6 z).const_mul (8520001459200 : ℝ))).add ((hasDerivAt_pow 7 z).const_mul (4346939520000 : ℝ))).add ((hasDerivAt_pow 8 z).const_mul (1086734880000 : ℝ))).add ((hasDerivAt_pow 9 z).const_mul (120748320000 : ℝ))).add ((hasDerivAt_pow 10 z).const_mul (4829932800 : ℝ))).add ((hasDerivAt_pow 11 z).const_mul (39916800 : ℝ)))
  refine h.congr_deriv ?_
  unfold N1'; norm_num; ring

theorem N2_deriv (z : ℝ) : HasDerivAt N2 (N2' z) z := by
  have h := (((((((((((hasDerivAt_const z (120543840 : ℝ)).add ((hasDerivAt_id z).const_mul (9437330880 : ℝ))).add ((hasDerivAt_pow 2 z).const_mul (169908014880 : ℝ))).add ((hasDerivAt_pow 3 z).const_mul (1131150890880 : ℝ))).add ((hasDerivAt_pow 4 z).const_mul (3346020074880 : ℝ))).add ((hasDerivAt_pow 5 z).const_mul (4766020318080 : ℝ))).add ((hasDerivAt_pow 6 z).const_mul (3346020074880 : ℝ))).add ((hasDerivAt_pow 7 z).const_mul (1131150890880 : ℝ))).add ((hasDerivAt_pow 8 z).const_mul (169908014880 : ℝ))).add ((hasDerivAt_pow 9 z).const_mul (9437330880 : ℝ))).add ((hasDerivAt_pow 10 z).const_mul (120543840 : ℝ)))
  refine h.congr_deriv ?_
  unfold N2'; norm_num; ring

/-- the fraction is a Padé approximant: this is the derivative of the error -/
theorem pade (z : ℝ) : N1 z ^ 2 - 2 * z * ((N2 z + (z - 1) * N2' z) * N1 z - (z - 1) * N2 z * N1' z) = 39916800 ^ 2 * (z - 1) ^ 22 := by
  unfold N1 N2 N1' N2'; ring

theorem err_deriv {z : ℝ} (hz : 0 < z) :
    HasDerivAt (fun z => Real.log z - 2 * (z - 1) * N2 z / N1 z) (39916800 ^ 2 * (z - 1) ^ 22 / (z * N1 z ^ 2)) z := by
  have h1 := (N1_pos hz.le).ne'
  have h := (Real.hasDerivAt_log hz.ne').sub
    (((((hasDerivAt_id z).sub_const 1).const_mul 2).mul (N2_deriv z)).div (N1_deriv z) h1)
  refine h.congr_deriv ?_
  rw [← pade z]
  simp only [id, Pi.mul_apply]
  field_simp

theorem N1_mono {a z : ℝ} (ha : 0 ≤ a) (h : a ≤ z) : N1 a ≤ N1 z := by
  unfold N1
  gcongr

/-- The relative error on `[a, 1]`: the fraction is above the logarithm by at most `K` times its absolute value. -/
theorem err_bound {a z : ℝ} (ha : 0 < a) (haz : a ≤ z) (hz : z ≤ 1) {K : ℝ} (hK : (39916800 * (1 - a) ^ 11 / N1 a) ^ 2 ≤ K) :
    Real.log z ≤ logCF z ∧ logCF z - Real.log z ≤ K * (-Real.log z) := by
  have hz0 : 0 < z := ha.trans_le haz
  set f := fun z => Real.log z - 2 * (z - 1) * N2 z / N1 z with hf
  have f1 : f 1 = 0 := by simp [hf]
  have D : ∀ t, 0 < t → HasDerivAt f (39916800 ^ 2 * (t - 1) ^ 22 / (t * N1 t ^ 2)) t := fun t ht => err_deriv ht
  have D' : ∀ t, 0 < t → HasDerivAt (fun t => f t - K * Real.log t) (39916800 ^ 2 * (t - 1) ^ 22 / (t * N1 t ^ 2) - K * t⁻¹) t :=
    fun t ht => (D t ht).sub ((Real.hasDerivAt_log ht.ne').const_mul K)
  have mono : f z ≤ f 1 := by
    refine monotoneOn_of_deriv_nonneg (convex_Icc z 1) ?_ ?_ ?_ ⟨le_refl _, hz⟩ ⟨hz, le_refl _⟩ hz
    · exact fun t ht => (D t (hz0.trans_le ht.1)).continuousAt.continuousWithinAt
    · intro t ht
      rw [interior_Icc] at ht
      exact (D t (hz0.trans ht.1)).differentiableAt.differentiableWithinAt
    · intro t ht
      rw [interior_Icc] at ht
      have ht0 := hz0.trans ht.1
      rw [(D t ht0).deriv]
      have : 0 ≤ (t - 1) ^ 22 := Even.pow_nonneg (by decide) _
      positivity
  have anti : f 1 - K * Real.log 1 ≤ f z - K * Real.log z := by
    refine antitoneOn_of_deriv_nonpos (convex_Icc z 1) (f := fun t => f t - K * Real.log t) ?_ ?_ ?_ ⟨le_refl _, hz⟩ ⟨hz, le_refl _⟩ hz
    · exact fun t ht => (D' t (hz0.trans_le ht.1)).continuousAt.continuousWithinAt
    · intro t ht
      rw [interior_Icc] at ht
      exact (D' t (hz0.trans ht.1)).differentiableAt.differentiableWithinAt
    · intro t ht
      rw [interior_Icc] at ht
      have ht0 := hz0.trans ht.1
      rw [(D' t ht0).deriv]
      have h1 := N1_pos ht0.le
      have ha1 := N1_pos ha.le
      have e : 39916800 ^ 2 * (t - 1) ^ 22 / (t * N1 t ^ 2) = (39916800 * (1 - t) ^ 11 / N1 t) ^ 2 * t⁻¹ := by
        field_simp; ring
      rw [e, sub_nonpos]
      refine mul_le_mul_of_nonneg_right (le_trans ?_ hK) (inv_nonneg.mpr ht0.le)
      have h1t : 0 ≤ 1 - t := by linarith [ht.2]
      have hat : a ≤ t := haz.trans ht.1.le
      have hm := N1_mono ha.le hat
      have h1a : 0 ≤ 1 - a := by linarith [ht.2]
      gcongr
  rw [f1] at mono anti
  rw [Real.log_one, mul_zero, sub_zero] at anti
  rw [logCF_eq hz0.le]
  simp only [hf] at mono anti
  constructor <;> linarith

theorem bound_half : (39916800 * (1 - (1 / 2 : ℝ)) ^ 11 / N1 (1 / 2)) ^ 2 ≤ 5 / 10 ^ 16 := by
  unfold N1; norm_num

theorem bound_quarter : (39916800 * (1 - (1 / 4 : ℝ)) ^ 11 / N1 (1 / 4)) ^ 2 ≤ 1 / 10 ^ 9 := by
  unfold N1; norm_num

end Verif.LogCF

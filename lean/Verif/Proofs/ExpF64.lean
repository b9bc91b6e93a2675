/-
Rounding error analysis of `exp_cf_6` in binary64.
-/
import Verif.Proofs.LogF64
import Verif.Proofs.ExpCF

namespace Verif
open F64 ExpCF

theorem w5_lo (z : ℝ) : 252 ≤ w5 z := by unfold w5; have := mul_self_nonneg z; linarith
theorem w4_lo (z : ℝ) : 140 ≤ w4 z := by
  unfold w4; have := w5_pos z; have := mul_self_nonneg z; have : 0 ≤ 140 * (z * z) / w5 z := by positivity
  linarith
theorem w3_lo (z : ℝ) : 60 ≤ w3 z := by
  unfold w3; have := w4_pos z; have := mul_self_nonneg z; have : 0 ≤ 60 * (z * z) / w4 z := by positivity
  linarith
theorem w2_lo (z : ℝ) : 12 ≤ w2 z := by
  unfold w2; have := w3_pos z; have := mul_self_nonneg z; have : 0 ≤ 12 * (z * z) / w3 z := by positivity
  linarith

theorem w5_hi {z : ℝ} (h : z * z ≤ 9 / 16) : w5 z ≤ 253 := by unfold w5; linarith

theorem w4_hi {z : ℝ} (h : z * z ≤ 9 / 16) : w4 z ≤ 141 := by
  have h0 := w5_lo z
  have : 140 * (z * z) / w5 z ≤ 140 * (9 / 16) / 252 := by gcongr
  unfold w4; linarith

theorem w3_hi {z : ℝ} (h : z * z ≤ 9 / 16) : w3 z ≤ 61 := by
  have h0 := w4_lo z
  have : 60 * (z * z) / w4 z ≤ 60 * (9 / 16) / 140 := by gcongr
  unfold w3; linarith

theorem w2_hi {z : ℝ} (h : z * z ≤ 9 / 16) : w2 z ≤ 13 := by
  have h0 := w3_lo z
  have : 12 * (z * z) / w3 z ≤ 12 * (9 / 16) / 60 := by gcongr
  unfold w2; linarith

/-- the denominator of the second level of `exp_cf_6` -/
def expW (z : F64) : F64 :=
  lit 12 *. (z *. z) /.
    (lit 60 *. (z *. z) /. (lit 140 *. (z *. z) /. (lit 7 *. (z *. z) /. lit 11 +. lit 252) +. lit 140) +. lit 60) +. lit 12

/-- the denominator of the first level of `exp_cf_6` -/
def expD (z : F64) : F64 := lit 2 *. (z *. z) /. expW z -. z +. lit 2

theorem exp_cf_eq (z : F64) : exp_cf_6 z = lit 2 *. z /. expD z +. lit 1 := rfl

theorem expW_app {z : F64} (hz : isFin z) (h0 : -7 / 10 ≤ toR z) (h1 : toR z ≤ 7 / 10) :
    App (z *. z) (toR z * toR z) (1 / 16000000000000000) ∧ App (expW z) (w2 (toR z)) (149509 / 100000000000000000000) := by
  set Z := toR z with hZ
  have hX0 : 0 ≤ Z * Z := mul_self_nonneg _
  have hX : Z * Z ≤ 9 / 16 := by nlinarith
  have l : ∀ i : ℤ, |i| ≤ 2 ^ 53 → App (lit (i : ℚ)) i 0 := fun i hi => App.lit_int hi
  have l11 : App (lit 11) 11 0 := by have := l 11 (by norm_num); simpa using this
  have l12 : App (lit 12) 12 0 := by have := l 12 (by norm_num); simpa using this
  have l60 : App (lit 60) 60 0 := by have := l 60 (by norm_num); simpa using this
  have l140 : App (lit 140) 140 0 := by have := l 140 (by norm_num); simpa using this
  have l252 : App (lit 252) 252 0 := by have := l 252 (by norm_num); simpa using this
  have hZa : |Z| ≤ 7 / 10 := abs_le.mpr ⟨by linarith, h1⟩
  have x2 : App (z *. z) (Z * Z) (1 / 16000000000000000) :=
    App.mul (App.self hz) (App.self hz) (V := 3 / 4) (W := 3 / 4) (by linarith) (by linarith) (B := 9 / 16) (by norm_num) (by norm_num) (by norm_num)
      (by unfold ru; norm_num)
  have w5' := logStep (c := 7) (L := 11) (R := (179 / 500)) (a := (87501 / 100000000000000000000)) (E := (1591 / 20000000000000000000)) (q := (11933 / 100000000000000000000)) (V := (253001 / 1000)) (e := (176441 / 6250000000000000000))
    (by norm_num) x2 hX0 hX l11 (le_refl _) (by norm_num) l252 (by unfold ru; norm_num) (by norm_num) (by norm_num) (by norm_num) (by norm_num)
    (by norm_num) (by norm_num) (by norm_num) (by unfold ru; norm_num)
    (by
      have e : (((7 : ℤ) : ℝ)) * (Z * Z) / 11 + 252 = w5 Z := by unfold w5; push_cast; ring
      rw [e]
      have : |w5 Z| ≤ 253 := abs_bnd (w5_lo Z) (w5_hi hX) (by norm_num) le_rfl
      have : (253 : ℝ) + ((11933 / 100000000000000000000) + 0) ≤ (253001 / 1000) := by norm_num
      linarith)
    (by norm_num) (by norm_num) (by unfold ru; norm_num)
  rw [show (((7 : ℤ) : ℝ)) * (Z * Z) / 11 + 252 = w5 Z by unfold w5; push_cast; ring] at w5'
  have w4' := logStep (c := 140) (L := 252) (R := (313 / 1000)) (a := (1750001 / 100000000000000000000)) (E := (10451 / 100000000000000000000)) (q := (13929 / 100000000000000000000)) (V := (141001 / 1000)) (e := (1580607 / 100000000000000000000))
    (by norm_num) x2 hX0 hX w5' (w5_lo Z) (by norm_num) l140 (by unfold ru; norm_num) (by norm_num) (by norm_num) (by norm_num) (by norm_num)
    (by norm_num) (by norm_num) (by norm_num) (by unfold ru; norm_num)
    (by
      have e : (((140 : ℤ) : ℝ)) * (Z * Z) / w5 Z + 140 = w4 Z := by unfold w4; push_cast; ring
      rw [e]
      have : |w4 Z| ≤ 141 := abs_bnd (w4_lo Z) (w4_hi hX) (by norm_num) le_rfl
      have : (141 : ℝ) + ((13929 / 100000000000000000000) + 0) ≤ (141001 / 1000) := by norm_num
      linarith)
    (by norm_num) (by norm_num) (by unfold ru; norm_num)
  rw [show (((140 : ℤ) : ℝ)) * (Z * Z) / w5 Z + 140 = w4 Z by unfold w4; push_cast; ring] at w4'
  have w3' := logStep (c := 60) (L := 140) (R := (121 / 500)) (a := (750001 / 100000000000000000000)) (E := (809 / 10000000000000000000)) (q := (10779 / 100000000000000000000)) (V := (61001 / 1000)) (e := (86071 / 12500000000000000000))
    (by norm_num) x2 hX0 hX w4' (w4_lo Z) (by norm_num) l60 (by unfold ru; norm_num) (by norm_num) (by norm_num) (by norm_num) (by norm_num)
    (by norm_num) (by norm_num) (by norm_num) (by unfold ru; norm_num)
    (by
      have e : (((60 : ℤ) : ℝ)) * (Z * Z) / w4 Z + 60 = w3 Z := by unfold w3; push_cast; ring
      rw [e]
      have : |w3 Z| ≤ 61 := abs_bnd (w3_lo Z) (w3_hi hX) (by norm_num) le_rfl
      have : (61 : ℝ) + ((10779 / 100000000000000000000) + 0) ≤ (61001 / 1000) := by norm_num
      linarith)
    (by norm_num) (by norm_num) (by unfold ru; norm_num)
  rw [show (((60 : ℤ) : ℝ)) * (Z * Z) / w4 Z + 60 = w3 Z by unfold w3; push_cast; ring] at w3'
  have w2' := logStep (c := 12) (L := 60) (R := (113 / 1000)) (a := (150001 / 100000000000000000000)) (E := (3797 / 100000000000000000000)) (q := (5053 / 100000000000000000000)) (V := (13001 / 1000)) (e := (149509 / 100000000000000000000))
    (by norm_num) x2 hX0 hX w3' (w3_lo Z) (by norm_num) l12 (by unfold ru; norm_num) (by norm_num) (by norm_num) (by norm_num) (by norm_num)
    (by norm_num) (by norm_num) (by norm_num) (by unfold ru; norm_num)
    (by
      have e : (((12 : ℤ) : ℝ)) * (Z * Z) / w3 Z + 12 = w2 Z := by unfold w2; push_cast; ring
      rw [e]
      have : |w2 Z| ≤ 13 := abs_bnd (w2_lo Z) (w2_hi hX) (by norm_num) le_rfl
      have : (13 : ℝ) + ((5053 / 100000000000000000000) + 0) ≤ (13001 / 1000) := by norm_num
      linarith)
    (by norm_num) (by norm_num) (by unfold ru; norm_num)
  rw [show (((12 : ℤ) : ℝ)) * (Z * Z) / w3 Z + 12 = w2 Z by unfold w2; push_cast; ring] at w2'
  exact ⟨x2, w2'⟩

theorem exp_cf_app {z : F64} (hz : isFin z) (h0 : -1 / 100 ≤ toR z) (h1 : toR z ≤ 7 / 10) :
    App (expD z) (w1 (toR z)) (38887 / 100000000000000000000) ∧ App (exp_cf_6 z) (expCF (toR z)) (9951 / 12500000000000000000) := by
  obtain ⟨x2, w2'⟩ := expW_app hz (by linarith) h1
  set Z := toR z with hZ
  have hX0 : 0 ≤ Z * Z := mul_self_nonneg _
  have hX : Z * Z ≤ 9 / 16 := by nlinarith
  have l : ∀ i : ℤ, |i| ≤ 2 ^ 53 → App (lit (i : ℚ)) i 0 := fun i hi => App.lit_int hi
  have l1 : App (lit 1) 1 0 := by have := l 1 (by norm_num); simpa using this
  have l2 : App (lit 2) 2 0 := by have := l 2 (by norm_num); simpa using this
  have hZa : |Z| ≤ 7 / 10 := abs_le.mpr ⟨by linarith, h1⟩
  have a1 : App (lit 2 *. (z *. z)) (2 * (Z * Z)) (25001 / 100000000000000000000) :=
    App.mul l2 x2 (V := 2) (W := 9 / 16) (by norm_num) (by rw [abs_of_nonneg hX0]; exact hX) le_rfl (by norm_num) (by norm_num) (by unfold ru; norm_num)
  have a2 : App (lit 2 *. (z *. z) /. _) (2 * (Z * Z) / w2 Z) (2221 / 50000000000000000000) :=
    App.div a1 w2' (w2_lo Z) (by norm_num) (R := 1 / 10) (by
      rw [abs_of_nonneg (by linarith)]; have := w2_lo Z; linarith) (E := (333 / 10000000000000000000)) (by norm_num) le_rfl (by norm_num) (by norm_num) (by unfold ru; norm_num)
  have hq0 : 0 ≤ 2 * (Z * Z) / w2 Z := by have := w2_pos Z; positivity
  have hq1 : 2 * (Z * Z) / w2 Z ≤ 1 / 10 := by
    rw [div_le_iff₀ (w2_pos Z)]; have := w2_lo Z; linarith
  have a3 : App (lit 2 *. (z *. z) /. _ -. z) (2 * (Z * Z) / w2 Z - Z) (7221 / 50000000000000000000) :=
    App.sub a2 (App.self hz) (B := 9 / 10) (by
      have : |2 * (Z * Z) / w2 Z - Z| ≤ 7 / 10 := abs_bnd (lo := -7 / 10) (hi := 11 / 100) (by linarith) (by linarith) (by norm_num) (by norm_num)
      linarith [(by norm_num : ((2221 / 50000000000000000000) : ℝ) ≤ 1 / 10)]) (by norm_num) (by norm_num) (by unfold ru; norm_num)
  have a4 : App (lit 2 *. (z *. z) /. _ -. z +. lit 2) (w1 Z) (38887 / 100000000000000000000) :=
    App.add a3 l2 (B := 22 / 10) (by
      have : |2 * (Z * Z) / w2 Z - Z + 2| ≤ 211 / 100 := abs_bnd (lo := 13 / 10) (hi := 211 / 100) (by linarith) (by linarith) (by norm_num) (by norm_num)
      linarith [(by norm_num : ((7221 / 50000000000000000000) : ℝ) ≤ 1 / 100)]) (by norm_num) (by norm_num) (by unfold ru; norm_num)
  have w1lo : 13 / 10 ≤ w1 Z := by unfold w1; linarith
  have b1 : App (lit 2 *. z) (2 * Z) (3889 / 25000000000000000000) :=
    App.mul l2 (App.self hz) (V := 2) (W := 7 / 10) (by norm_num) hZa (B := 14 / 10) (by norm_num) (by norm_num) (by norm_num) (by unfold ru; norm_num)
  have b2 : App (lit 2 *. z /. _) (2 * Z / w1 Z) (28137 / 50000000000000000000) :=
    App.div b1 a4 w1lo (by norm_num) (R := (27 / 25)) (by
      rw [abs_mul, abs_of_pos (by norm_num : (0 : ℝ) < 2)]; linarith) (E := (44273 / 100000000000000000000)) (by norm_num) le_rfl (by norm_num) (by norm_num) (by unfold ru; norm_num)
  have b3 : App (lit 2 *. z /. _ +. lit 1) (expCF Z) (9951 / 12500000000000000000) :=
    App.add b2 l1 (B := 21 / 10) (by
    have : |2 * Z / w1 Z| ≤ 108 / 100 := by
      rw [abs_div, abs_of_pos (w1_pos (by linarith)), div_le_iff₀ (w1_pos (by linarith)), abs_mul, abs_of_pos (by norm_num : (0 : ℝ) < 2)]
      linarith
    have := abs_add_le (2 * Z / w1 Z) 1
    rw [abs_one] at this
    linarith [(by norm_num : ((28137 / 50000000000000000000) : ℝ) ≤ 1 / 100)]) (by norm_num) (by norm_num) (by unfold ru; norm_num)
  exact ⟨a4, b3⟩

end Verif

/-
The rounding error of the recursive fraction of benchmark/exp_cf_accuracy.c, for every depth.
-/
import Verif.Props.Benchmark
import Verif.Proofs.XexpF64

namespace Verif
open F64

namespace BenchExp

theorem ru_bounds : 0 < ru ∧ ru ≤ 112 / 10 ^ 18 := by unfold ru; constructor <;> norm_num

/-- a level of the fraction -/
theorem level_app {zz y : F64} {Z v : ℝ} {m : ℕ} (hm : 1 ≤ m) (hm2 : 2 * m < 2 ^ 32) (hz : App zz Z (6 / 10 ^ 17)) (hZ0 : 0 ≤ Z) (hZ : Z ≤ 1 / 2)
    (hy : App y v (1 / 10 ^ 16)) (hv0 : 0 ≤ v) (hv : v ≤ 1 / 24) :
    App (zz *. (lit 1 /. (lit 4 *. (lit (2 * m : ℕ) -. lit 1) *. (lit (2 * m : ℕ) +. lit 1))) /. (lit 1 +. y))
      (Z * (1 / (4 * (2 * m - 1) * (2 * m + 1))) / (1 + v)) (1 / 10 ^ 16) := by
  obtain ⟨u0, u1⟩ := ru_bounds
  have hmR : (1 : ℝ) ≤ m := by exact_mod_cast hm
  have hm2R : 2 * (m : ℝ) ≤ 10 ^ 10 := by
    have : 2 * (m : ℝ) < 2 ^ 32 := by exact_mod_cast hm2
    linarith
  have l1 : App (lit 1 : F64) 1 0 := by simpa using App.lit_int (i := 1) (by norm_num)
  have l4 : App (lit 4 : F64) 4 0 := by simpa using App.lit_int (i := 4) (by norm_num)
  have lm : App (lit ((2 * m : ℕ) : ℚ) : F64) (2 * m) 0 := by
    have := App.lit_int (i := ((2 * m : ℕ) : ℤ)) (by rw [abs_of_nonneg (by positivity)]; exact_mod_cast (hm2.le.trans (by norm_num)))
    simpa using this
  have s1 : App (lit ((2 * m : ℕ) : ℚ) -. lit 1 : F64) (2 * m - 1) (ru * (2 * m - 1)) := by
    refine App.sub lm l1 (B := 2 * m - 1) ?_ ?_ ?_ ?_
    · rw [abs_of_nonneg (by linarith)]; linarith
    · linarith
    · linarith
    · linarith
  have s2 : App (lit ((2 * m : ℕ) : ℚ) +. lit 1 : F64) (2 * m + 1) (ru * (2 * m + 1)) := by
    refine App.add lm l1 (B := 2 * m + 1) ?_ ?_ ?_ ?_
    · rw [abs_of_nonneg (by linarith)]; linarith
    · linarith
    · linarith
    · linarith
  set p : ℝ := 2 * m - 1 with hp
  set q : ℝ := 2 * m + 1 with hq
  have hp1 : 1 ≤ p := by rw [hp]; linarith
  have hq1 : 3 ≤ q := by rw [hq]; linarith
  have hp2 : p ≤ 10 ^ 10 := by rw [hp]; linarith
  have hq2 : q ≤ 2 * 10 ^ 10 := by rw [hq]; linarith
  have p1 : App (lit 4 *. (lit ((2 * m : ℕ) : ℚ) -. lit 1) : F64) (4 * p) (3 * ru * (4 * p)) := by
    refine App.mul l4 s1 (V := 4) (W := p) (by norm_num) (by rw [abs_of_nonneg (by linarith)]) (B := 5 * p) ?_ ?_ ?_ ?_ <;> nlinarith
  have p2 : App (lit 4 *. (lit ((2 * m : ℕ) : ℚ) -. lit 1) *. (lit ((2 * m : ℕ) : ℚ) +. lit 1) : F64) (4 * p * q) (6 * ru * (4 * p * q)) := by
    have hpq : 3 ≤ p * q := by nlinarith
    have hpq2 : p * q ≤ 2 * 10 ^ 20 := by nlinarith
    have hu : ru * ru ≤ ru * (112 / 10 ^ 18) := mul_le_mul_of_nonneg_left u1 u0.le
    have hpos : 0 < ru * (p * q) := by positivity
    have hu2 : ru * ru * (p * q) ≤ ru * (112 / 10 ^ 18) * (p * q) := mul_le_mul_of_nonneg_right hu (by linarith)
    refine App.mul p1 s2 (V := 4 * p) (W := q) (by rw [abs_of_nonneg (by linarith)]) (by rw [abs_of_nonneg (by linarith)]) (B := 5 * p * q) ?_ ?_ ?_ ?_
    · have : (4 * p + 3 * ru * (4 * p)) * (q + ru * q) = (4 + 16 * ru) * (p * q) + 12 * (ru * ru * (p * q)) := by ring
      rw [this]; nlinarith
    · rw [mul_assoc]; linarith
    · rw [mul_assoc]; linarith
    · have : 4 * p * (ru * q) + q * (3 * ru * (4 * p)) + 3 * ru * (4 * p) * (ru * q) + ru * (5 * p * q) = 21 * (ru * (p * q)) + 12 * (ru * ru * (p * q)) := by ring
      rw [this]; nlinarith
  set D : ℝ := 4 * p * q with hD
  have hD12 : 12 ≤ D := by rw [hD]; nlinarith
  have a1 : App (lit 1 /. (lit 4 *. (lit ((2 * m : ℕ) : ℚ) -. lit 1) *. (lit ((2 * m : ℕ) : ℚ) +. lit 1)) : F64) (1 / D) (8 / 10 ^ 17) := by
    have hiD : 1 / D ≤ 1 / 12 := one_div_le_one_div_of_le (by norm_num) hD12
    have hiD0 : 0 < 1 / D := by positivity
    refine App.div l1 p2 (L := D) (R := 1 / D) (E := 7 * ru * (1 / D)) (B := 1 / 10) le_rfl ?_ ?_ ?_ ?_ (by norm_num) (by norm_num) ?_
    · nlinarith
    · rw [abs_one]; exact le_of_eq (by field_simp)
    · have e : 1 / D * (6 * ru * D) = 6 * ru := by field_simp
      have e2 : 7 * ru * (1 / D) * (D - 6 * ru * D) = 7 * ru * (1 - 6 * ru) := by field_simp
      rw [e, e2]; nlinarith
    · nlinarith
    · nlinarith
  have hiD : 1 / D ≤ 1 / 12 := one_div_le_one_div_of_le (by norm_num) hD12
  have hiD0 : 0 < 1 / D := by positivity
  have a2 := App.mul hz a1 (V := 1 / 2) (W := 1 / 12) (by rw [abs_of_nonneg hZ0]; exact hZ) (by rw [abs_of_pos hiD0]; exact hiD) (B := 1 / 20)
    (e := 6 / 10 ^ 17) (by norm_num) (by norm_num) (by norm_num) (by linarith)
  have a3 := App.add l1 hy (B := 11 / 10) (e := 3 / 10 ^ 16) (by rw [abs_of_nonneg (by linarith)]; linarith) (by norm_num) (by norm_num) (by linarith)
  have hv' : 0 ≤ Z * (1 / D) := by positivity
  have hv'' : Z * (1 / D) ≤ 1 / 2 * (1 / 12) := mul_le_mul hZ hiD hiD0.le (by norm_num)
  refine App.div a2 a3 (L := 1) (R := 1 / 24) (E := 8 / 10 ^ 17) (B := 1 / 20) (by linarith) (by norm_num) ?_ (by norm_num) (by norm_num) (by norm_num) (by norm_num) (by linarith)
  rw [abs_of_nonneg hv']; nlinarith

/-- the values of the fraction -/
theorem expK_range {Z : ℝ} (h0 : 0 ≤ Z) (h1 : Z ≤ 1 / 2) (n m : ℕ) (hm : 1 ≤ m) : 0 ≤ Spec.expK Z n m ∧ Spec.expK Z n m ≤ 1 / 24 := by
  induction n generalizing m with
  | zero => simp only [Spec.expK]; norm_num
  | succ n ih =>
    obtain ⟨a, b⟩ := ih (m + 1) (by omega)
    simp only [Spec.expK]
    have hmR : (1 : ℝ) ≤ m := by exact_mod_cast hm
    have hD : (12 : ℝ) ≤ 4 * (2 * m - 1) * (2 * m + 1) := by nlinarith
    have hD' : (12 : ℝ) ≤ 4 * (2 * m - 1) * (2 * m + 1) * (1 + Spec.expK Z n (m + 1)) := by nlinarith
    refine ⟨div_nonneg h0 (by linarith), ?_⟩
    rw [div_le_iff₀ (by linarith)]
    linarith

/-- every level of the fraction -/
theorem expK_app {zz : F64} {Z : ℝ} (hz : App zz Z (6 / 10 ^ 17)) (h0 : 0 ≤ Z) (h1 : Z ≤ 1 / 2) (n : ℕ) (m : UInt32) (hm : 1 ≤ m.toNat) (h : m.toNat + n < 2 ^ 31) :
    App (Bench.expK zz n m) (Spec.expK Z n m.toNat) (1 / 10 ^ 16) := by
  induction n generalizing m with
  | zero =>
    have : App (lit 0 : F64) 0 0 := by simpa using App.lit_int (i := 0) (by norm_num)
    exact this.mono (by norm_num)
  | succ n ih =>
    have e : (m + 1).toNat = m.toNat + 1 := by
      rw [UInt32.toNat_add]
      show (m.toNat + 1) % 2 ^ 32 = _
      omega
    have e2 : (2 * m).toNat = 2 * m.toNat := by
      rw [UInt32.toNat_mul]
      show (2 * m.toNat) % 2 ^ 32 = _
      omega
    have i := ih (m + 1) (by omega) (by omega)
    rw [e] at i
    obtain ⟨a, b⟩ := expK_range h0 h1 n (m.toNat + 1) (by omega)
    have := level_app hm (by omega) hz h0 h1 i a b
    unfold Bench.expK Spec.expK
    dsimp only
    rw [e2]
    have hmR : (1 : ℝ) ≤ m.toNat := by exact_mod_cast hm
    have h3 : (4 : ℝ) * (2 * m.toNat - 1) * (2 * m.toNat + 1) ≠ 0 := by
      have : (0 : ℝ) < 2 * m.toNat - 1 := by linarith
      positivity
    have h4 : 1 + Spec.expK Z n (m.toNat + 1) ≠ 0 := by linarith
    have hv : Z / (4 * (2 * (m.toNat : ℝ) - 1) * (2 * m.toNat + 1) * (1 + Spec.expK Z n (m.toNat + 1))) =
        Z * (1 / (4 * (2 * m.toNat - 1) * (2 * m.toNat + 1))) / (1 + Spec.expK Z n (m.toNat + 1)) := by
      rw [mul_one_div, div_div]
    rw [hv]
    exact this

/-- the fraction -/
theorem exp_cf_err {z : F64} (hz : isFin z) (h0 : 0 ≤ toR z) (h1 : toR z ≤ 7 / 10) (d : UInt32) (hd : 1 ≤ d.toNat) (hd2 : d.toNat < 2 ^ 31) :
    App (Bench.exp_cf z d) (Spec.expCF (toR z) d.toNat) (2 / 10 ^ 15) := by
  obtain ⟨u0, u1⟩ := ru_bounds
  have hs := App.self hz
  set Z := toR z with hZ
  have h2 : 0 ≤ Z * Z := mul_self_nonneg Z
  have h3 : Z * Z ≤ 49 / 100 := by nlinarith
  have zz : App (z *. z) (Z * Z) (6 / 10 ^ 17) :=
    App.mul hs hs (V := 7 / 10) (W := 7 / 10) (by rw [abs_of_nonneg h0]; exact h1) (by rw [abs_of_nonneg h0]; exact h1) (B := 1 / 2) (by norm_num) (by norm_num)
      (by norm_num) (by linarith)
  have e : (d - 1).toNat = d.toNat - 1 := by
    rw [UInt32.toNat_sub_of_le]
    · rfl
    · exact hd
  have k := expK_app zz h2 (by linarith) (d - 1).toNat 1 (by decide) (by rw [e]; show 1 + _ < _; omega)
  obtain ⟨k0, k1⟩ := expK_range h2 (by linarith) (d - 1).toNat 1 le_rfl
  rw [show (1 : UInt32).toNat = 1 from rfl, e] at k
  rw [e] at k0 k1
  have l1 : App (lit 1 : F64) 1 0 := by simpa using App.lit_int (i := 1) (by norm_num)
  have l2 : App (lit 2 : F64) 2 0 := by simpa using App.lit_int (i := 2) (by norm_num)
  unfold Bench.exp_cf Spec.expCF
  dsimp only
  rw [e]
  generalize Bench.expK (z *. z) (d.toNat - 1) 1 = K at *
  generalize Spec.expK (Z * Z) (d.toNat - 1) 1 = V at *
  have a1 := App.mul l2 hs (V := 2) (W := 7 / 10) (by norm_num) (by rw [abs_of_nonneg h0]; exact h1) (B := 7 / 5) (e := 16 / 10 ^ 17) (by norm_num) (by norm_num)
    (by norm_num) (by linarith)
  have a2 := App.sub l2 hs (B := 2) (e := 23 / 10 ^ 17) (by rw [abs_of_nonneg (by linarith)]; linarith) (by norm_num) (by norm_num) (by linarith)
  have a3 := App.mul l2 k (V := 2) (W := 1 / 24) (by norm_num) (by rw [abs_of_nonneg k0]; exact k1) (B := 1 / 10) (e := 22 / 10 ^ 17) (by norm_num) (by norm_num)
    (by norm_num) (by linarith)
  have a4 := App.add a2 a3 (B := 3) (e := 8 / 10 ^ 16) (by rw [abs_of_nonneg (by linarith)]; linarith) (by norm_num) (by norm_num) (by linarith)
  have a5 := App.div a1 a4 (L := 13 / 10) (R := 11 / 10) (E := 1 / 10 ^ 15) (B := 12 / 10) (e := 12 / 10 ^ 16) (by linarith) (by norm_num)
    (by rw [abs_of_nonneg (by linarith)]; linarith) (by norm_num) (by norm_num) (by norm_num) (by norm_num) (by linarith)
  have q0 : 0 ≤ 2 * Z / (2 - Z + 2 * V) := div_nonneg (by linarith) (by linarith)
  have q1 : 2 * Z / (2 - Z + 2 * V) ≤ 11 / 10 := by rw [div_le_iff₀ (by linarith)]; linarith
  exact App.add l1 a5 (B := 3) (by rw [abs_of_nonneg (by linarith)]; linarith) (by norm_num) (by norm_num) (by linarith)

end BenchExp
end Verif

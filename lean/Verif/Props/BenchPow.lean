/-
C146: the accuracy of the logarithm and of the power that benchmark/pow_accuracy_speed.c measures.
-/
import Verif.Proofs.BenchPowErr
import Verif.Proofs.BenchExp
import Verif.Props.BenchLog
import Verif.Props.Xpow

namespace Verif
open F64

/-- **C146** (logarithm). For every positive normal double the logarithm of the program has a relative error of at most 5e-15. -/
theorem C146_log (x : F64) (hx : isFin x) (h0 : 2 ^ (-1022 : ℤ) ≤ toQ x) :
    isFin (Bench.log log_cf_11 x) ∧ |toR (Bench.log log_cf_11 x) - Real.log (toR x)| ≤ 5 / 10 ^ 15 * |Real.log (toR x)| := by
  obtain ⟨a, b⟩ := BenchLog.log_rel log_cf_11 (ρ := 35 / 10 ^ 16) (by norm_num) (by norm_num) (fun w w1 w2 w3 => BenchLog.log_cf_11_log w1 w2 w3) x hx h0
  exact ⟨a, b.trans (mul_le_mul_of_nonneg_right (by norm_num) (abs_nonneg _))⟩

/-- **C146** (power). For every positive normal base `a` and every finite exponent `x` such that the power is between e^-700 and e^700, the program computes the power
without undefined behaviour and with a relative error of at most `6e-15 |x log a| + 5e-15`. -/
theorem C146 (a x : F64) (ha : isFin a) (h0 : 2 ^ (-1022 : ℤ) ≤ toQ a) (hx : isFin x) (h : |toR x * Real.log (toR a)| ≤ 700) :
    ∃ y, Bench.pow a x = .ok y ∧ isFin y ∧ |toR y - toR a ^ toR x| ≤ (6 / 10 ^ 15 * |toR x * Real.log (toR a)| + 5 / 10 ^ 15) * toR a ^ toR x := by
  obtain ⟨l1, l2⟩ := C146_log a ha h0
  have a0 : 0 < toR a := by
    have : (0 : ℚ) < toQ a := lt_of_lt_of_le (by positivity) h0
    unfold toR; exact_mod_cast this
  rw [Real.rpow_def_of_pos a0, mul_comm (Real.log _)]
  unfold Bench.pow
  generalize Bench.log log_cf_11 a = L at *
  set v := toR x * Real.log (toR a) with hv
  have d1 : |toR x * toR L - v| ≤ 5 / 10 ^ 15 * |v| := by
    rw [hv, ← mul_sub, abs_mul, abs_mul]
    have := mul_le_mul_of_nonneg_left l2 (abs_nonneg (toR x))
    linarith
  have q1 : |toR x * toR L| ≤ (1 + 5 / 10 ^ 15) * |v| := by
    have := abs_add_le (toR x * toR L - v) v
    rw [sub_add_cancel] at this
    linarith
  have hqR : ((toQ x * toQ L : ℚ) : ℝ) = toR x * toR L := by push_cast; rfl
  obtain ⟨m1, m2⟩ := mul_fin' hx l1 (no_overflow (B := 701) (by rw [hqR]; refine q1.trans ?_; nlinarith) (by norm_num))
  change isFin (x *. L) at m1
  change toQ (x *. L) = _ at m2
  have d2 : |toR (x *. L) - toR x * toR L| ≤ |toR x * toR L| / 2 ^ 53 + 1 / 10 ^ 70 := by
    have := BenchExp.rq_u (toQ x * toQ L)
    have t : ((|rq (toQ x * toQ L) - toQ x * toQ L| : ℚ) : ℝ) ≤ ((|toQ x * toQ L| / 2 ^ 53 + 1 / 10 ^ 70 : ℚ) : ℝ) := Rat.cast_le.mpr this
    push_cast at t
    have e : toR (x *. L) = ((rq (toQ x * toQ L) : ℚ) : ℝ) := by unfold toR; rw [m2]
    rw [e]
    exact t
  generalize x *. L = p at *
  have hva := abs_nonneg v
  have d3 : |toR p - v| ≤ 52 / 10 ^ 16 * |v| + 1 / 10 ^ 70 := by
    have := abs_add_le (toR p - toR x * toR L) (toR x * toR L - v)
    rw [sub_add_sub_cancel] at this
    have e : |toR x * toR L| / 2 ^ 53 ≤ 12 / 10 ^ 17 * |v| := by
      rw [div_le_iff₀ (by norm_num)]
      refine q1.trans ?_
      nlinarith
    linarith
  have d4 : |toR p - v| ≤ 4 / 10 ^ 12 := by
    refine d3.trans ?_
    have : (1 : ℝ) / 10 ^ 70 ≤ 1 / 10 ^ 20 := by norm_num
    linarith
  have d5 : |toR p| ≤ |v| + 4 / 10 ^ 12 := by
    have := abs_add_le (toR p - v) v
    rw [sub_add_cancel] at this
    linarith
  obtain ⟨p1, p2⟩ := abs_le.mp (d5.trans (by linarith : |v| + 4 / 10 ^ 12 ≤ 708))
  have hp : Bench.exp exp_cf_6 p = xexp muslFU p := by
    refine C132_partial p (.inr ⟨m1, ?_⟩)
    have : (|(toQ p : ℝ)|) ≤ ((709 : ℚ) : ℝ) := by
      rw [abs_le]; unfold toR at p1 p2; push_cast; constructor <;> linarith
    exact_mod_cast this
  obtain ⟨y, y1, y2, y3⟩ := C67_accuracy p m1 (by linarith) (by linarith)
  refine ⟨y, hp.trans y1, y2, ?_⟩
  have hE : 0 < Real.exp v := Real.exp_pos v
  have s : Real.exp (toR p) = Real.exp v * Real.exp (toR p - v) := by rw [← Real.exp_add]; congr 1; ring
  have t := Real.abs_exp_sub_one_sub_id_le (x := toR p - v) (by linarith)
  have t2 : |Real.exp (toR p - v) - 1| ≤ 101 / 100 * |toR p - v| := by
    have := abs_add_le (Real.exp (toR p - v) - 1 - (toR p - v)) (toR p - v)
    rw [sub_add_cancel] at this
    have hsq : (toR p - v) ^ 2 ≤ 1 / 100 * |toR p - v| := by
      rw [← sq_abs, sq]
      exact mul_le_mul_of_nonneg_right (by linarith) (abs_nonneg _)
    linarith
  have hD := abs_nonneg (toR p - v)
  generalize Real.exp (toR p - v) = F at *
  have hF : F ≤ 1 + 5 / 10 ^ 12 := by have := (abs_le.mp t2).2; linarith
  have hF0 : 0 ≤ F := by have := (abs_le.mp t2).1; linarith
  rw [s] at y3
  have u := abs_add_le (toR y - Real.exp v * F) (Real.exp v * F - Real.exp v)
  rw [sub_add_sub_cancel] at u
  have u2 : |Real.exp v * F - Real.exp v| ≤ Real.exp v * (101 / 100 * |toR p - v|) := by
    rw [← mul_sub_one, abs_mul, abs_of_pos hE]
    exact mul_le_mul_of_nonneg_left t2 hE.le
  have c1 : 4 / 10 ^ 15 + 2 / 10 ^ 16 * |toR p| ≤ 41 / 10 ^ 16 + 2 / 10 ^ 16 * |v| := by linarith
  have u3 : (4 / 10 ^ 15 + 2 / 10 ^ 16 * |toR p|) * (Real.exp v * F) ≤ (42 / 10 ^ 16 + 21 / 10 ^ 17 * |v|) * Real.exp v := by
    have hFE : Real.exp v * F ≤ Real.exp v * (1 + 5 / 10 ^ 12) := mul_le_mul_of_nonneg_left hF hE.le
    calc _ ≤ (41 / 10 ^ 16 + 2 / 10 ^ 16 * |v|) * (Real.exp v * (1 + 5 / 10 ^ 12)) := mul_le_mul c1 hFE (by positivity) (by positivity)
      _ = ((41 / 10 ^ 16 + 2 / 10 ^ 16 * |v|) * (1 + 5 / 10 ^ 12)) * Real.exp v := by ring
      _ ≤ _ := mul_le_mul_of_nonneg_right (by linarith) hE.le
  have u4 : Real.exp v * (101 / 100 * |toR p - v|) ≤ Real.exp v * (5253 / 10 ^ 18 * |v| + 1 / 10 ^ 16) := by
    refine mul_le_mul_of_nonneg_left ?_ hE.le
    have : (1 : ℝ) / 10 ^ 70 ≤ 1 / 10 ^ 20 := by norm_num
    linarith
  have fin1 : (42 / 10 ^ 16 + 21 / 10 ^ 17 * |v|) * Real.exp v + Real.exp v * (5253 / 10 ^ 18 * |v| + 1 / 10 ^ 16) ≤
      (6 / 10 ^ 15 * |v| + 5 / 10 ^ 15) * Real.exp v := by
    rw [mul_comm (Real.exp v), ← add_mul]
    exact mul_le_mul_of_nonneg_right (by linarith) hE.le
  linarith

/-- **C146** (the arguments of the program). The program uses bases from 0.1 to 10 and exponents from 0.001 to 100: for all of these the relative error is at most 2e-12. -/
theorem C146_program (a x : F64) (ha : isFin a) (h0 : 1 / 16 ≤ toQ a) (h1 : toQ a ≤ 16) (hx : isFin x) (h : |toQ x| ≤ 100) :
    ∃ y, Bench.pow a x = .ok y ∧ isFin y ∧ |toR y - toR a ^ toR x| ≤ 2 / 10 ^ 12 * toR a ^ toR x := by
  obtain ⟨c1, c2⟩ := log_two_bounds
  have a0 : 1 / 16 ≤ toR a := by
    have : ((1 / 16 : ℚ) : ℝ) ≤ ((toQ a : ℚ) : ℝ) := Rat.cast_le.mpr h0
    push_cast at this
    exact this
  have a1 : toR a ≤ 16 := by
    have : ((toQ a : ℚ) : ℝ) ≤ ((16 : ℚ) : ℝ) := Rat.cast_le.mpr h1
    push_cast at this
    exact this
  have e16 : Real.log 16 = 4 * Real.log 2 := by
    rw [show (16 : ℝ) = 2 ^ 4 by norm_num, Real.log_pow]; norm_num
  have l1 : Real.log (toR a) ≤ 4 * Real.log 2 := by rw [← e16]; exact Real.log_le_log (by linarith) a1
  have l0 : -(4 * Real.log 2) ≤ Real.log (toR a) := by
    rw [← e16, ← Real.log_inv]; exact Real.log_le_log (by norm_num) (by rw [← one_div]; exact a0)
  have hl : |Real.log (toR a)| ≤ 278 / 100 := by rw [abs_le]; constructor <;> linarith
  have hX : |toR x| ≤ 100 := by unfold toR; exact_mod_cast h
  have hv : |toR x * Real.log (toR a)| ≤ 278 := by
    rw [abs_mul]
    exact (mul_le_mul hX hl (abs_nonneg _) (by norm_num)).trans (by norm_num)
  obtain ⟨y, y1, y2, y3⟩ := C146 a x ha ((zpow_le_zpow_right₀ (by norm_num : (1 : ℚ) ≤ 2) (by norm_num : (-1022 : ℤ) ≤ -4)).trans (le_trans (by norm_num) h0)) hx (by linarith)
  have : 0 < toR a ^ toR x := Real.rpow_pos_of_pos (by linarith) _
  exact ⟨y, y1, y2, y3.trans (mul_le_mul_of_nonneg_right (by linarith) this.le)⟩

/-- **C146** (the library). The program does not show the errors of `xpow`: there are a base and an exponent for which the power of the program has a relative error of at
most 2e-14 and that of the library a relative error of more than 1/6. -/
theorem C146_library : ∃ a x y z : F64, isFin a ∧ isFin x ∧ Bench.pow a x = .ok y ∧ xpow (codeMath muslFU) a x = .ok z ∧ isFin y ∧ isFin z ∧
    |toR y - toR a ^ toR x| ≤ 2 / 10 ^ 14 * toR a ^ toR x ∧ 1 / 6 * toR a ^ toR x < |toR z - toR a ^ toR x| := by
  obtain ⟨-, a, x, z, a1, a2, x1, x2, z1, z2, z3, z4⟩ := C116_false
  have ra : toR a = 1 + 1 / 2 ^ 52 := by unfold toR; rw [a2]; push_cast; norm_num
  have rx : toR x = 2 ^ 52 := by unfold toR; rw [x2]; push_cast; norm_num
  have hl0 : 0 ≤ Real.log (toR a) := Real.log_nonneg (by rw [ra]; norm_num)
  have hl : Real.log (toR a) ≤ 1 / 2 ^ 52 := by
    have := Real.log_le_sub_one_of_pos (x := toR a) (by rw [ra]; norm_num)
    rw [ra] at this ⊢; linarith
  have hv : |toR x * Real.log (toR a)| ≤ 1 := by
    rw [abs_of_nonneg (mul_nonneg (by rw [rx]; norm_num) hl0), rx]
    have := mul_le_mul_of_nonneg_left hl (by norm_num : (0 : ℝ) ≤ 2 ^ 52)
    refine this.trans (le_of_eq ?_)
    norm_num
  obtain ⟨y, y1, y2, y3⟩ := C146 a x a1 (by rw [a2]; exact (zpow_le_one_of_nonpos₀ (by norm_num) (by norm_num)).trans (by norm_num)) x1 (by linarith)
  refine ⟨a, x, y, z, a1, x1, y1, z1, y2, z2, y3.trans (mul_le_mul_of_nonneg_right (by linarith) (by linarith)), ?_⟩
  rw [abs_of_neg (by linarith)]
  linarith

/-- the base 2^-1000 and the exponent 1 meet the hypotheses of `C146` -/
example : ∃ a x : F64, isFin a ∧ 2 ^ (-1022 : ℤ) ≤ toQ a ∧ isFin x ∧ |toR x * Real.log (toR a)| ≤ 700 ∧ toQ a = 1 / 2 ^ 1000 ∧ toQ x = 1 := by
  have ea : isFin (lit (1 / 2 ^ 1000) : F64) ∧ toQ (lit (1 / 2 ^ 1000) : F64) = 1 / 2 ^ 1000 ∧ 2 ^ (-1022 : ℤ) ≤ toQ (lit (1 / 2 ^ 1000) : F64) := by decide +kernel
  have ex : isFin (lit 1 : F64) ∧ toQ (lit 1 : F64) = 1 := by decide +kernel
  refine ⟨_, _, ea.1, ea.2.2, ex.1, ?_, ea.2.1, ex.2⟩
  have ra : toR (lit (1 / 2 ^ 1000) : F64) = (2 ^ 1000)⁻¹ := by unfold toR; rw [ea.2.1]; push_cast; rw [one_div]
  have rx : toR (lit 1 : F64) = 1 := by unfold toR; rw [ex.2]; norm_num
  obtain ⟨c1, c2⟩ := log_two_bounds
  rw [ra, rx, Real.log_inv, Real.log_pow, _root_.one_mul, abs_neg, abs_of_nonneg (by push_cast; linarith)]
  push_cast
  linarith

example : isFin (lit 10 : F64) ∧ (1 / 16 ≤ toQ (lit 10 : F64) ∧ toQ (lit 10 : F64) ≤ 16) ∧ isFin (lit 100 : F64) ∧ |toQ (lit 100 : F64)| ≤ 100 := by decide +kernel

end Verif

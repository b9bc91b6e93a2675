/-
C116: the power function.
-/
import Verif.Proofs.Accuracy
import Verif.Props.Side
import Mathlib.Analysis.SpecialFunctions.Pow.Real
import Mathlib.Algebra.Order.Ring.Pow

namespace Verif
open F64

/-! ### C116 -/

/-- False of the code: 0 to the power 1 is undefined (the logarithm -inf is passed to `xexp`), and 1 + 2^-52 to the power 2^52 (a number
greater than 2) is less than 5/3. -/
theorem C116_false :
    xpow (codeMath muslFU) (lit 0) (lit 1) = .error .floatConv ∧
    ∃ a x y : F64, isFin a ∧ toQ a = 1 + 1 / 2 ^ 52 ∧ isFin x ∧ toQ x = 2 ^ 52 ∧ xpow (codeMath muslFU) a x = .ok y ∧ isFin y ∧
      toR y < 5 / 3 ∧ 2 ≤ (toR a) ^ (toR x) := by
  refine ⟨by decide +kernel, lit (1 + 1 / 2 ^ 52), lit (2 ^ 52), ?_⟩
  have hd : (match xpow (codeMath muslFU) (lit (1 + 1 / 2 ^ 52)) (lit (2 ^ 52) : F64) with
    | .ok y => decide (isFin y) && decide (toQ y < 5 / 3)
    | .error _ => false) = true := by decide +kernel
  have ea : isFin (lit (1 + 1 / 2 ^ 52) : F64) ∧ toQ (lit (1 + 1 / 2 ^ 52) : F64) = 1 + 1 / 2 ^ 52 := by decide +kernel
  have ex : isFin (lit (2 ^ 52) : F64) ∧ toQ (lit (2 ^ 52) : F64) = 2 ^ 52 := by decide +kernel
  split at hd
  · next y hy =>
    rw [Bool.and_eq_true, decide_eq_true_iff, decide_eq_true_iff] at hd
    refine ⟨y, ea.1, ea.2, ex.1, ex.2, hy, hd.1, ?_, ?_⟩
    · have : (toQ y : ℝ) < ((5 / 3 : ℚ) : ℝ) := by exact_mod_cast hd.2
      unfold toR
      push_cast at this
      exact this
    · unfold toR
      rw [ea.2, ex.2]
      have e : (((2 : ℚ) ^ 52 : ℚ) : ℝ) = ((2 ^ 52 : ℕ) : ℝ) := by push_cast; norm_num
      rw [e, Real.rpow_natCast]
      have b := one_add_mul_le_pow (a := (1 / 2 ^ 52 : ℝ)) (by norm_num) (2 ^ 52)
      have e2 : (1 : ℝ) + ((2 ^ 52 : ℕ) : ℝ) * (1 / 2 ^ 52) = 2 := by push_cast; norm_num
      rw [e2] at b
      refine b.trans (le_of_eq ?_)
      congr 1
      push_cast
      rfl
  · cases hd

/-- What holds in binary64. The code computes the power `y` of every finite positive base `a` and every finite exponent `x` of magnitude
from 10^-30 to 2^20 when the power is between e^-100 and e^100, with a relative error of at most
|x| (1.3 k |log a| + 2.4 10^-15) + 5 10^-15, where k is 1.1 10^-9 for bases from 1/4 to 1/2 and 3 10^-15 for the others. The power 0 of
every finite positive base and every finite power of 1 are exactly 1. The power of a base that is negative, infinite or NaN is NaN. The
power of the base 0 is defined for no exponent that is finite and not 0. -/
theorem C116_partial (a x : F64) :
    (isFin a → 0 < toQ a → isFin x → 1 / 10 ^ 30 ≤ |toR x| → |toR x| ≤ 2 ^ 20 → |toR x * Real.log (toR a)| ≤ 100 →
      ∃ y, xpow (codeMath muslFU) a x = .ok y ∧ isFin y ∧
        |toR y - (toR a) ^ (toR x)| ≤ (toR a) ^ (toR x) *
          (|toR x| * (13 / 10 * (Spec.logErr (toR a) * |Real.log (toR a)|) + 24 / 10 ^ 16) + 5 / 10 ^ 15)) ∧
    (isFin a → 0 < toQ a → isFin x → toQ x = 0 → xpow (codeMath muslFU) a x = .ok (lit 1)) ∧
    (isFin x → xpow (codeMath muslFU) (lit 1) x = .ok (lit 1)) ∧
    (¬ (isFin a ∧ 0 ≤ toQ a) → xpow (codeMath muslFU) a x = .ok nan) ∧
    (isFin a → toQ a = 0 → isFin x → toQ x ≠ 0 → xpow (codeMath muslFU) a x = .error .floatConv) := by
  have hp : ∀ b : F64, xpow (codeMath muslFU) b x = xexp muslFU (F64.mul x (xlog muslFU b)) := fun _ => rfl
  refine ⟨fun ha h0 hx h1 h2 h3 => ?_, fun ha h0 hx z => ?_, fun hx => ?_, fun hn => ?_, fun ha h0 hx hz => ?_⟩
  · have a0 : 0 < toR a := by unfold toR; exact_mod_cast h0
    obtain ⟨y, e1, e2, e3⟩ := acc_pow ha hx (Q := toR a) (X := toR x) (e := 0) a0 (by simp) (by norm_num) (by simp) h1 h2
      (by simp) h3
    refine ⟨y, e1, e2, ?_⟩
    rw [Real.rpow_def_of_pos a0, mul_comm (Real.log _)]
    refine e3.trans (le_of_eq ?_)
    ring
  · obtain ⟨s, rfl⟩ := zero_of_toQ hx z
    rw [hp]
    obtain ⟨t, e⟩ := (mul_zero_zero (C66_partial a ha h0).1 s).2
    rw [e, xexp_zero]
  · rw [hp]
    obtain ⟨t, e⟩ := xlog_one'
    obtain ⟨t', e'⟩ := (mul_zero_zero hx t).1
    rw [e, e', xexp_zero]
  · rw [hp, xlog_nan_of hn]
    have : F64.mul x nan = nan := by cases x <;> rfl
    rw [this]
    exact (C55_partial nan).1
  · rw [hp, xlog_zero ((eq_zero_iff _).mpr ⟨ha, h0⟩)]
    have : ∃ s, F64.mul x (inf true) = inf s := by
      cases x with
      | nan => exact absurd hx (by simp [isFin])
      | inf t => exact absurd hx (by simp [isFin])
      | fin t k =>
        have : k.val ≠ 0 := fun e => hz (toQ_eq_zero.mpr e)
        unfold F64.mul; simp [this]
    obtain ⟨s, e⟩ := this
    rw [e]
    exact xexp_inf s

example : ∃ a x : F64, isFin a ∧ 0 < toQ a ∧ isFin x ∧ 1 / 10 ^ 30 ≤ |toR x| ∧ |toR x| ≤ 2 ^ 20 ∧ |toR x * Real.log (toR a)| ≤ 100 ∧
    toQ a = 3 / 4 ∧ toQ x = -5 / 2 := by
  have ea : isFin (lit (3 / 4) : F64) ∧ toQ (lit (3 / 4) : F64) = 3 / 4 := by decide +kernel
  have ex : isFin (lit (-5 / 2) : F64) ∧ toQ (lit (-5 / 2) : F64) = -5 / 2 := by decide +kernel
  have ra : toR (lit (3 / 4) : F64) = 3 / 4 := by unfold toR; rw [ea.2]; norm_num
  have rx : toR (lit (-5 / 2) : F64) = -5 / 2 := by unfold toR; rw [ex.2]; norm_num
  refine ⟨_, _, ea.1, by rw [ea.2]; norm_num, ex.1, ?_, ?_, ?_, ea.2, ex.2⟩
  · rw [rx]; norm_num [abs_div, abs_neg]
  · rw [rx]; norm_num [abs_div, abs_neg]
  · rw [ra, rx, abs_mul]
    have l1 : Real.log (3 / 4) ≤ 0 := Real.log_nonpos (by norm_num) (by norm_num)
    have l2 := Real.one_sub_inv_le_log_of_pos (x := (3 / 4 : ℝ)) (by norm_num)
    have l3 : |Real.log (3 / 4 : ℝ)| ≤ 1 := abs_le.mpr ⟨by norm_num at l2; linarith, by linarith⟩
    have l4 : |(-5 / 2 : ℝ)| = 5 / 2 := by rw [abs_of_neg (by norm_num)]; norm_num
    rw [l4]
    linarith

end Verif

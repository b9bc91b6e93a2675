/-
Monotonicity of the elementary functions in binary64 (C76, C77).
-/
import Verif.Proofs.LogMono
import Verif.Proofs.ExpStep

namespace Verif
open F64

/-! ### C76 -/

/-- False of the code: the logarithm of 32 is below that of the double just before 32. -/
theorem C76_false : ∃ x y : F64, isFin x ∧ isFin y ∧ 0 < toQ x ∧ toQ x < toQ y ∧ isFin (xlog muslFU x) ∧ isFin (xlog muslFU y) ∧
    toQ (xlog muslFU y) < toQ (xlog muslFU x) :=
  ⟨lit (32 - 1 / 2 ^ 48), lit 32, by decide +kernel⟩

theorem xlog_acc {x : F64} (hx : isFin x) (h0 : 0 < toQ x) (he : (musl_frexp x 0).2 ≠ -1) :
    |toR (xlog muslFU x) - Real.log (toR x)| ≤ 3 / 10 ^ 13 := by
  obtain ⟨-, g2, -, g4⟩ := xlog_exponent hx h0
  obtain ⟨-, m2, m3, m4, m5, m6⟩ := frexp_pos hx h0
  by_cases h : (musl_frexp x 0).2 = 0
  · refine (g2 h).trans ?_
    rw [h, zpow_zero, mul_one] at m4
    rw [← m4] at m2 m3
    have l0 : Real.log (toR x) ≤ 0 := Real.log_nonpos (by linarith) m3.le
    have l1 := Real.log_le_log (by norm_num) m2
    rw [one_div, Real.log_inv] at l1
    have := log_two_bounds.2
    rw [abs_of_nonpos l0]
    have n : (6931471805599453094173 / 10 ^ 22 : ℝ) ≤ 1 := by norm_num
    have : (16 / 10 ^ 16 : ℝ) * -Real.log (toR x) ≤ 16 / 10 ^ 16 * 1 := mul_le_mul_of_nonneg_left (by linarith) (by norm_num)
    refine this.trans (by norm_num)
  · refine (g4 h he).trans ?_
    have a : |((musl_frexp x 0).2 : ℝ)| ≤ 1073 := by
      have : |(musl_frexp x 0).2| ≤ 1073 := by rw [abs_le]; constructor <;> omega
      exact_mod_cast this
    have : (2 / 10 ^ 16 : ℝ) * |((musl_frexp x 0).2 : ℝ)| ≤ 2 / 10 ^ 16 * 1073 := mul_le_mul_of_nonneg_left a (by norm_num)
    refine (add_le_add_left this _).trans (by norm_num)

/-- In binary64, rounding errors included: the logarithm is monotone on [2^-48, 32), monotone on [2^e, 2^(e+1)) for every `e`, and
on the whole of the positive doubles it never decreases by more than 1e-12. -/
theorem C76_partial (x y : F64) (hx : isFin x) (hy : isFin y) (h0 : 0 < toQ x) (h : toQ x ≤ toQ y) :
    isFin (xlog muslFU x) ∧ isFin (xlog muslFU y) ∧
    (1 / 2 ^ 48 ≤ toQ x → toQ y < 32 → toQ (xlog muslFU x) ≤ toQ (xlog muslFU y)) ∧
    (∀ e : ℤ, 2 ^ e ≤ toQ x → toQ y < 2 ^ (e + 1) → toQ (xlog muslFU x) ≤ toQ (xlog muslFU y)) ∧
    toQ (xlog muslFU x) ≤ toQ (xlog muslFU y) + 1 / 10 ^ 12 := by
  have h0' := h0.trans_le h
  refine ⟨(xlog_exponent hx h0).1, (xlog_exponent hy h0').1, fun a b => xlog_mono_range hx hy a h b, ?_, ?_⟩
  · intro e a b
    have hs : (1 / 2 : ℚ) * 2 ^ (e + 1) = 2 ^ e := by rw [zpow_add_one₀ (by norm_num)]; ring
    obtain ⟨-, ex⟩ := binade_of hx (e := e + 1) (by rw [hs]; exact a) (h.trans_lt b)
    obtain ⟨-, ey⟩ := binade_of hy (e := e + 1) (by rw [hs]; exact a.trans h) b
    exact xlog_binade hx hy h0 h (ex.trans ey.symm)
  · by_cases hr : 1 / 2 ^ 48 ≤ toQ x ∧ toQ y < 32
    · have := xlog_mono_range hx hy hr.1 h hr.2
      refine this.trans ?_
      norm_num
    have px : 0 < toR x := by unfold toR; exact_mod_cast h0
    have hR : toR x ≤ toR y := by unfold toR; exact_mod_cast h
    have hl : Real.log (toR x) ≤ Real.log (toR y) := Real.log_le_log px hR
    obtain ⟨-, -, gx, -⟩ := xlog_exponent hx h0
    obtain ⟨-, -, gy, -⟩ := xlog_exponent hy h0'
    obtain ⟨-, m2, m3, m4, -, -⟩ := frexp_pos hx h0
    obtain ⟨-, n2, n3, n4, -, -⟩ := frexp_pos hy h0'
    have L1 := log_two_bounds.1
    have L2 := log_two_bounds.2
    have L1' : (69 / 100 : ℝ) ≤ Real.log 2 := le_trans (by norm_num) L1
    have L2' : Real.log 2 ≤ 70 / 100 := L2.trans (by norm_num)
    suffices toR (xlog muslFU x) ≤ toR (xlog muslFU y) + 1 / 10 ^ 12 by
      unfold toR at this
      have h2 : ((toQ (xlog muslFU x) : ℚ) : ℝ) ≤ ((toQ (xlog muslFU y) + 1 / 10 ^ 12 : ℚ) : ℝ) := by push_cast; exact this
      exact_mod_cast h2
    by_cases ex : (musl_frexp x 0).2 = -1
    · have hx4 : toR x < 1 := by rw [m4, ex]; norm_num; linarith
      have hx5 : 1 / 4 ≤ toR x := by rw [m4, ex]; norm_num; linarith
      have hy32 : 32 ≤ toQ y := by
        by_contra hn
        refine hr ⟨?_, lt_of_not_ge hn⟩
        unfold toR at hx5
        have : ((1 / 4 : ℚ) : ℝ) ≤ toQ x := by push_cast; exact hx5
        have : (1 / 4 : ℚ) ≤ toQ x := by exact_mod_cast this
        exact le_trans (by norm_num) this
      have hy32' : (32 : ℝ) ≤ toR y := by unfold toR; exact_mod_cast hy32
      have ey : (musl_frexp y 0).2 ≠ -1 := by
        intro e; rw [n4, e] at hy32'; norm_num at hy32'; linarith
      have ay := abs_le.mp (xlog_acc hy h0' ey)
      have ax := gx ex
      have lx : Real.log (toR x) ≤ 0 := Real.log_nonpos px.le hx4.le
      rw [abs_of_nonpos lx] at ax
      have ax := abs_le.mp ax
      have ly : 5 * Real.log 2 ≤ Real.log (toR y) := by
        have := Real.log_le_log (by norm_num) hy32'
        rw [show (32 : ℝ) = 2 ^ 5 by norm_num, Real.log_pow] at this
        exact_mod_cast this
      have : toR (xlog muslFU x) ≤ 0 := by nlinarith [ax.2]
      have a1 := ay.1
      have : (0 : ℝ) ≤ toR (xlog muslFU y) := by
        have n : (3 / 10 ^ 13 : ℝ) ≤ 1 := by norm_num
        linarith
      have n : (0 : ℝ) ≤ 1 / 10 ^ 12 := by norm_num
      linarith
    · have ax := abs_le.mp (xlog_acc hx h0 ex)
      by_cases ey : (musl_frexp y 0).2 = -1
      · have hy4 : toR y < 1 := by rw [n4, ey]; norm_num; linarith
        have hy5 : 1 / 4 ≤ toR y := by rw [n4, ey]; norm_num; linarith
        have hx48 : toQ x < 1 / 2 ^ 48 := by
          by_contra hn
          refine hr ⟨le_of_not_gt hn, ?_⟩
          unfold toR at hy4
          have : (toQ y : ℚ) < 1 := by exact_mod_cast hy4
          linarith
        have hx8 : toR x ≤ 1 / 8 := by
          have : toR x < ((1 / 2 ^ 48 : ℚ) : ℝ) := by unfold toR; exact_mod_cast hx48
          refine this.le.trans (by push_cast; norm_num)
        have lx := Real.log_le_log px hx8
        rw [show (1 / 8 : ℝ) = (2 ^ 3)⁻¹ by norm_num, Real.log_inv, Real.log_pow] at lx
        have ly := Real.log_le_log (by norm_num) hy5
        rw [show (1 / 4 : ℝ) = (2 ^ 2)⁻¹ by norm_num, Real.log_inv, Real.log_pow] at ly
        push_cast at lx ly
        have ly0 : Real.log (toR y) ≤ 0 := Real.log_nonpos (by linarith) hy4.le
        have ay := gy ey
        rw [abs_of_nonpos ly0] at ay
        have ay := abs_le.mp ay
        have a1 := ay.1
        have a2 := ax.2
        have n : (3 / 10 ^ 13 : ℝ) ≤ 1 / 100 := by norm_num
        have n2 : (0 : ℝ) ≤ 1 / 10 ^ 12 := by norm_num
        have n3 : (11 / 10 ^ 10 : ℝ) * -Real.log (toR y) ≤ 11 / 10 ^ 10 * 2 := mul_le_mul_of_nonneg_left (by linarith) (by norm_num)
        have n4 : (11 / 10 ^ 10 * 2 : ℝ) ≤ 1 / 100 := by norm_num
        linarith
      · have ay := abs_le.mp (xlog_acc hy h0' ey)
        have a1 := ay.1
        have a2 := ax.2
        have n : (3 / 10 ^ 13 : ℝ) + 3 / 10 ^ 13 ≤ 1 / 10 ^ 12 := by norm_num
        linarith

/-- the hypotheses of each part are met -/
example : toQ (xlog muslFU (lit (1 / 10))) ≤ toQ (xlog muslFU (lit 3)) :=
  (C76_partial (lit (1 / 10)) (lit 3) (by decide +kernel) (by decide +kernel) (by decide +kernel) (by decide +kernel)).2.2.1
    (by decide +kernel) (by decide +kernel)

example : toQ (xlog muslFU (lit 1000)) ≤ toQ (xlog muslFU (lit 1001)) :=
  (C76_partial (lit 1000) (lit 1001) (by decide +kernel) (by decide +kernel) (by decide +kernel) (by decide +kernel)).2.2.2.1 9
    (by decide +kernel) (by decide +kernel)

/-! ### C77 -/

/-- False of the code, even on the arguments at which `xexp` is defined: the computed exponential of 2e9 is 0. -/
theorem C77_false : ∃ x y u v : F64, isFin x ∧ isFin y ∧ toQ x < toQ y ∧ xexp muslFU x = .ok u ∧ xexp muslFU y = .ok v ∧
    F64.lt v u = true :=
  ⟨lit 1, lit 2000000000, ofBits 4613303445314885482, lit 0, by decide +kernel⟩

/-- In binary64, rounding errors included: the exponential is defined, non-decreasing and non-negative on all the doubles of magnitude
below `2^31 * LOG2` (about 1.49e9), with values at least 1 on the non-negative ones and at most 1 on the non-positive ones.
Missing (false): the larger arguments. -/
theorem C77_partial (x y : F64) (hx : isFin x) (hy : isFin y) (h : toQ x ≤ toQ y)
    (h0 : -(toQ (LOG2 : F64) * 2 ^ 31) < toQ x) (h1 : toQ y < toQ (LOG2 : F64) * 2 ^ 31) :
    ∃ u v, xexp muslFU x = .ok u ∧ xexp muslFU y = .ok v ∧ F64.le u v = true ∧
      (0 ≤ toQ x → F64.le (lit 1) u = true) ∧ (toQ y ≤ 0 → F64.le v (lit 1) = true) ∧ F64.le (lit 0) u = true :=
  xexp_mono hx hy h h0 h1

/-- the hypotheses are met by arguments of both signs -/
example : isFin (lit (-1 / 10) : F64) ∧ isFin (lit (1234 / 10) : F64) ∧ toQ (lit (-1 / 10) : F64) ≤ toQ (lit (1234 / 10) : F64) ∧
    -(toQ (LOG2 : F64) * 2 ^ 31) < toQ (lit (-1 / 10) : F64) ∧ toQ (lit (1234 / 10) : F64) < toQ (LOG2 : F64) * 2 ^ 31 := by
  decide +kernel

end Verif

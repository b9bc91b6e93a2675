/-
Rewriting rules for exact arithmetic on real numbers.
-/
import Verif.Laws

namespace Verif
namespace XR

theorem lit_fin (q : ℚ) : (lit q : XR) = fin (q : ℝ) := rfl
theorem add_ff (a b : ℝ) : fin a +. fin b = fin (a + b) := rfl
theorem sub_ff (a b : ℝ) : fin a -. fin b = fin (a - b) := by
  show fin (a + -b) = _; rw [sub_eq_add_neg]
theorem mul_ff (a b : ℝ) : fin a *. fin b = fin (a * b) := rfl
theorem neg_f (a : ℝ) : (-. fin a) = fin (-a) := rfl
theorem div_ff {a b : ℝ} (h : b ≠ 0) : fin a /. fin b = fin (a / b) := by
  show div (fin a) (fin b) = _; simp [div, h]
theorem lt_ff (a b : ℝ) : (fin a <. fin b) = decide (a < b) := by
  show lt (fin a) (fin b) = _
  unfold lt; simp [val]
theorem le_ff (a b : ℝ) : (fin a <=. fin b) = decide (a ≤ b) := by
  show le (fin a) (fin b) = _
  unfold le; simp [val]
theorem eq_ff (a b : ℝ) : (fin a ==. fin b) = decide (a = b) := by
  show eq (fin a) (fin b) = _
  unfold eq; simp [val]
theorem nan_f (a : ℝ) : is_nan (fin a) = false := (is_nan_false _).mpr (by simp)
theorem nan_nan : is_nan (nan : XR) = true := (is_nan_iff _).mpr rfl
theorem cNAN_eq : (cNAN : XR) = nan := (is_nan_iff _).mp CDoubleLaws.nan_cNAN

theorem fin_inj {a b : ℝ} : fin a = fin b ↔ a = b := by simp

end XR
end Verif

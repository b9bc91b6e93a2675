/-
Exact logarithm and exponential on `XR`.
-/
import Verif.XR.Simp
import Verif.Model.Xmath
import Mathlib.Analysis.SpecialFunctions.Log.Basic
import Mathlib.Analysis.SpecialFunctions.Pow.Real

namespace Verif
namespace XR
open Classical

/-- the logarithm, with the usual conventions of C for special values -/
noncomputable def logE : XR → XR
  | fin r => if r < 0 then nan else if r = 0 then ninf else fin (Real.log r)
  | pinf => pinf
  | _ => nan

/-- the exponential -/
noncomputable def expE : XR → XR
  | fin r => fin (Real.exp r)
  | pinf => pinf
  | ninf => fin 0
  | nan => nan

/-- exact elementary functions -/
noncomputable def exactMath : MathFns XR := ⟨logE, fun x => .ok (expE x)⟩

theorem log_f {r : ℝ} (h : 0 < r) : exactMath.log (fin r) = fin (Real.log r) := by
  show logE (fin r) = _
  simp [logE, not_lt.mpr h.le, h.ne']

theorem exp_f (r : ℝ) : exactMath.exp (fin r) = .ok (fin (Real.exp r)) := rfl

theorem xpow_f {a : ℝ} (h : 0 < a) (x : ℝ) : xpow exactMath (fin a) (fin x) = .ok (fin (a ^ x)) := by
  unfold xpow
  rw [log_f h, mul_ff, exp_f, Real.rpow_def_of_pos h, mul_comm]

end XR
end Verif

/-
The continued fractions of docs/internals/50_math.md over the real numbers. `n` is the number of levels that are left, `d - m` in the document.
-/
import Mathlib.Analysis.SpecialFunctions.Log.Basic

namespace Verif
namespace Spec

/-- "def K(x, d, m = 1)" of the section on the logarithm -/
noncomputable def logK (x : ℝ) : ℕ → ℕ → ℝ
  | 0, _ => 0
  | n + 1, m => -(m * m : ℝ) * x * x / ((2 * m + 1) * (2 + x) + logK x n (m + 1))

/-- "def log_cf(x, d)" -/
noncomputable def logCF (x : ℝ) (d : ℕ) : ℝ := 2 * (x - 1) / (2 + (x - 1) + logK (x - 1) (d - 1) 1)

/-- "def K(z2, d, m = 1)" of the section on the exponential -/
noncomputable def expK (z2 : ℝ) : ℕ → ℕ → ℝ
  | 0, _ => 0
  | n + 1, m => z2 / (4 * (2 * m - 1) * (2 * m + 1) * (1 + expK z2 n (m + 1)))

/-- "def exp_cf(z, d)" -/
noncomputable def expCF (z : ℝ) (d : ℕ) : ℝ := 1 + 2 * z / (2 - z + 2 * expK (z * z) (d - 1) 1)

end Spec
end Verif

/-
Statistics of a list of real numbers, and histories in which no extreme value is evicted.
-/
import Mathlib.Data.Real.Basic
import Mathlib.Algebra.BigOperators.Group.List.Basic

namespace Verif
namespace Spec

/-- arithmetic mean -/
noncomputable def mean (l : List ℝ) : ℝ := l.sum / l.length

/-- population variance -/
noncomputable def variance (l : List ℝ) : ℝ := mean (l.map fun v => (v - mean l) ^ 2)

/-- no evicted value is an extreme of the values present at its eviction (the new one included) -/
def NoExtremeEvicted (c : ℕ) (xs : List ℝ) : Prop :=
  ∀ j, c ≤ j → j < xs.length →
    (∃ i, j - c < i ∧ i ≤ j ∧ xs.getD i 0 < xs.getD (j - c) 0) ∧
    (∃ i, j - c < i ∧ i ≤ j ∧ xs.getD (j - c) 0 < xs.getD i 0)

end Spec
end Verif

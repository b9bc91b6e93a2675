/-
Specification of a bounded history: what a container of capacity `c` must hold after the insertions `xs`.
-/
import Mathlib.Data.List.Basic

namespace Verif
namespace Spec
variable {β : Type}

/-- `v` is the latest of the inserted values `xs` whose insertion index is `i` modulo `c`. -/
def IsLatest (c : ℕ) (xs : List β) (i : ℕ) (v : β) : Prop :=
  ∃ j, xs[j]? = some v ∧ j % c = i ∧ ∀ j', j < j' → j' < xs.length → j' % c ≠ i

/-- the last `c` elements of a list (all of them if there are fewer) -/
def lastN (c : ℕ) (xs : List β) : List β := xs.drop (xs.length - c)

end Spec
end Verif

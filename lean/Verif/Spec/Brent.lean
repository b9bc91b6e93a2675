/-
Running `brent` on a function while recording the points at which it calls it.
-/
import Verif.Model.Brent

namespace Verif
variable {α : Type} [CDouble α]
namespace Spec

/-- the function `f`, recording its arguments -/
def logged (f : α → α) (x : α) : StateM (List α) α := fun l => (f x, l ++ [x])

/-- result `(found, root)` of the root search on `f`, and the list of the points where it called `f` -/
def search (f : α → α) (x1 x2 tol : α) : (Bool × α) × List α := brent (logged f) x1 x2 tol []

/-- both strictly positive or both strictly negative -/
def SameSign (u v : α) : Prop := (u >. lit 0) = true ∧ (v >. lit 0) = true ∨ (u <. lit 0) = true ∧ (v <. lit 0) = true

end Spec
end Verif

/-
Notions used to state the properties of the P2 estimator.
-/
import Verif.Model.P2
import Verif.F64.Order

namespace Verif.Spec
open F64

/-- The state of the estimator after the treatment of all of `data` (at least five values): the loop of src/p2.c:112-165 without
its final read. -/
def p2State (p : F64) : List F64 → C (P2 F64)
  | x0 :: x1 :: x2 :: x3 :: x4 :: rest => rest.foldlM p2_update { init_p2 p with q := sort5 ⟨x0, x1, x2, x3, x4⟩ }
  | _ => .error .outOfBounds

/-- `v` is a median of the five values: one of them, with at least three not above and at least three not below -/
def IsMedian5 (l : List F64) (v : F64) : Prop :=
  v ∈ l ∧ 3 ≤ l.countP (fun x => x <=. v) ∧ 3 ≤ l.countP (fun x => v <=. x)

/-- the double is the integer `k`, exactly -/
def IsInt (x : F64) (k : ℕ) : Prop := isFin x ∧ toQ x = k

/-- The five positions are strictly increasing integers, the last one at most `m`. -/
def Increasing (n : Arr5 F64) (m : ℕ) : Prop := ∃ k0 k1 k2 k3 k4 : ℕ,
  IsInt n.a0 k0 ∧ IsInt n.a1 k1 ∧ IsInt n.a2 k2 ∧ IsInt n.a3 k3 ∧ IsInt n.a4 k4 ∧
  k0 < k1 ∧ k1 < k2 ∧ k2 < k3 ∧ k3 < k4 ∧ k4 ≤ m

end Verif.Spec

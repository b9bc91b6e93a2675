/-
C87: the root search in binary64 stays in its interval.
-/
import Verif.Proofs.BrentF64
import Verif.Props.Brent

namespace Verif
open F64 Spec

/-! ### C87 -/

/-- The full statement of C87 for given bounds and tolerance: every point at which the function is evaluated, and the reported
root, is a finite number of the interval. -/
def Spec.StaysInside (f : F64 → F64) (x1 x2 tol : F64) : Prop :=
  (∀ x ∈ (search f x1 x2 tol).2, isFin x ∧ toQ x ∈ Set.uIcc (toQ x1) (toQ x2)) ∧
  ∀ b, (search f x1 x2 tol).1 = (true, b) → isFin b ∧ toQ b ∈ Set.uIcc (toQ x1) (toQ x2)

/-- C87 does not hold for all finite bounds: on the identity between the two greatest numbers the length of the interval
overflows, and the function is called at infinity. -/
theorem C87_false : ¬ ∀ (f : F64 → F64) (x1 x2 tol : F64), isFin x1 → isFin x2 → isFin tol → 0 < toQ tol → StaysInside f x1 x2 tol := by
  intro H
  have h1 := (H id (ofBits 0xFFEFFFFFFFFFFFFF) (ofBits 0x7FEFFFFFFFFFFFFF) (lit (2 / 10 ^ 8)) (by decide +kernel) (by decide +kernel)
    (by decide +kernel) (by decide +kernel)).1 (inf true) (by decide +kernel)
  exact h1.1

/-- What holds: bounds of magnitude at most 2^1000 and a tolerance between 2^-1000 and 2^1000, for any function on doubles
(NaN and infinite values included). Missing: larger bounds, tolerances outside that range. -/
theorem C87_partial (f : F64 → F64) (x1 x2 tol : F64) (h1 : isFin x1) (h2 : isFin x2) (B1 : |toQ x1| ≤ 2 ^ 1000) (B2 : |toQ x2| ≤ 2 ^ 1000)
    (htol : isFin tol) (T0 : 1 / 2 ^ 1000 ≤ toQ tol) (T1 : toQ tol ≤ 2 ^ 1000) : StaysInside f x1 x2 tol := by
  have e1 : pow2 1000 = 2 ^ 1000 := by decide +kernel
  have e2 : pow2 (-1000) = 1 / 2 ^ 1000 := by decide +kernel
  rw [← e1] at B1 B2 T1
  rw [← e2] at T0
  have := search_in f x1 x2 tol h1 h2 B1 B2 htol T0 T1
  exact ⟨this, fun b hb => this b (C20_bracketed f _ _ _ b hb).1⟩

/-- x² - 2 on [0, 3] with the default tolerance -/
example : isFin (lit 0 : F64) ∧ isFin (lit 3 : F64) ∧ |toQ (lit 3 : F64)| ≤ 2 ^ 1000 ∧ isFin (lit (2 / 10 ^ 8) : F64) ∧
    1 / 2 ^ 1000 ≤ toQ (lit (2 / 10 ^ 8) : F64) ∧ toQ (lit (2 / 10 ^ 8) : F64) ≤ 2 ^ 1000 ∧
    (search (fun x => x *. x -. lit 2) (lit 0 : F64) (lit 3) (lit (2 / 10 ^ 8))).1.1 = true := by decide +kernel

end Verif

/-
What the floating-point utilities should compute.
-/
import Verif.F64.Order

namespace Verif.Spec
open F64

/-- `x * 2^n`, rounded once to the nearest double (ties to even), as IEEE 754 `scaleB`; NaN, infinities and zeros unchanged. -/
def scaleB (x : F64) (n : ℤ) : F64 :=
  match x with
  | fin s k => ofRat s (toQ (fin s k) * 2 ^ n)
  | y => y

/-- The decomposition of a finite non-zero double: `x = m * 2^e` exactly with `1/2 ≤ |m| < 1`. -/
def IsFrexp (x m : F64) (e : ℤ) : Prop := isFin m ∧ 1 / 2 ≤ |toQ m| ∧ |toQ m| < 1 ∧ toQ x = toQ m * 2 ^ e

end Verif.Spec

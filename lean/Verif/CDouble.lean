/-
The operations that the C code performs on values of type `double`, as a class.
Model functions are written once over `CDouble α` and used with
  * `F64`  (Verif/F64/Basic.lean)  : IEEE-754 binary64 with rounding, what the machine computes;
  * `XR`   (Verif/XR/Basic.lean)   : real numbers with NaN and infinities, no rounding ("exact arithmetic").
-/
import Mathlib.Data.Rat.Defs

namespace Verif

/-- The C operations on `double`. `lit q` is the value of a C literal (or of an integer converted to `double`)
denoting the rational `q`; `trunc` is the mathematical integer part used by conversions to integer types
(`none` for NaN and infinities). -/
class CDouble (α : Type) where
  lit : ℚ → α
  add : α → α → α
  sub : α → α → α
  mul : α → α → α
  div : α → α → α
  neg : α → α
  /-- C `<` -/
  lt : α → α → Bool
  /-- C `<=` -/
  le : α → α → Bool
  /-- C `==` -/
  eq : α → α → Bool
  trunc : α → Option ℤ

export CDouble (lit)

scoped infixl:65 " +. " => CDouble.add
scoped infixl:65 " -. " => CDouble.sub
scoped infixl:70 " *. " => CDouble.mul
scoped infixl:70 " /. " => CDouble.div
scoped prefix:75 "-. " => CDouble.neg
scoped infix:50 " <. " => CDouble.lt
scoped infix:50 " <=. " => CDouble.le
scoped infix:50 " ==. " => CDouble.eq
/-- C `a > b` -/
scoped notation:50 a:51 " >. " b:51 => CDouble.lt b a
/-- C `a >= b` -/
scoped notation:50 a:51 " >=. " b:51 => CDouble.le b a

/-- src/xmath.c:267 `int is_nan(double x) { return x != x; }` -/
def is_nan {α : Type} [CDouble α] (x : α) : Bool := !(x ==. x)

/-- src/xmath.c:13 `double const _NAN = 0.0 / 0.0;` -/
def cNAN {α : Type} [CDouble α] : α := lit 0 /. lit 0

/-- src/xmath.c:14 `double const _INFINITY = +1.0 / 0.0;` -/
def cINF {α : Type} [CDouble α] : α := lit 1 /. lit 0

end Verif

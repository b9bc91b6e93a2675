/-
Exact arithmetic: real numbers with NaN and infinities, no rounding. There is a single (positive) zero.
-/
import Verif.CDouble
import Mathlib.Data.EReal.Operations
import Mathlib.Tactic.Linarith

namespace Verif

/-- A number of exact arithmetic: NaN, an infinity or a real number. -/
inductive XR where
  | nan
  | pinf
  | ninf
  | fin (r : ℝ)

namespace XR
open Classical

noncomputable def neg : XR → XR
  | nan => nan
  | pinf => ninf
  | ninf => pinf
  | fin r => fin (-r)

noncomputable def add : XR → XR → XR
  | nan, _ => nan
  | _, nan => nan
  | pinf, ninf => nan
  | ninf, pinf => nan
  | pinf, _ => pinf
  | _, pinf => pinf
  | ninf, _ => ninf
  | _, ninf => ninf
  | fin a, fin b => fin (a + b)

noncomputable def sub (x y : XR) : XR := add x (neg y)

/-- infinity with the sign of a non-zero real, NaN for 0 (IEEE: inf * 0 and 0 / 0 are invalid) -/
noncomputable def infSign (r : ℝ) : XR := if r = 0 then nan else if 0 < r then pinf else ninf

noncomputable def mul : XR → XR → XR
  | nan, _ => nan
  | _, nan => nan
  | pinf, pinf => pinf
  | pinf, ninf => ninf
  | ninf, pinf => ninf
  | ninf, ninf => pinf
  | pinf, fin b => infSign b
  | fin a, pinf => infSign a
  | ninf, fin b => infSign (-b)
  | fin a, ninf => infSign (-a)
  | fin a, fin b => fin (a * b)

noncomputable def div : XR → XR → XR
  | nan, _ => nan
  | _, nan => nan
  | fin a, fin b => if b = 0 then infSign a else fin (a / b)
  | fin _, _ => fin 0
  | pinf, fin b => if 0 ≤ b then pinf else ninf
  | ninf, fin b => if 0 ≤ b then ninf else pinf
  | _, _ => nan

/-- value as an extended real number (0 for NaN, never used for it) -/
noncomputable def val : XR → EReal
  | nan => 0
  | pinf => ⊤
  | ninf => ⊥
  | fin r => r

noncomputable def lt (x y : XR) : Bool := decide (x ≠ nan ∧ y ≠ nan ∧ val x < val y)
noncomputable def le (x y : XR) : Bool := decide (x ≠ nan ∧ y ≠ nan ∧ val x ≤ val y)
noncomputable def eq (x y : XR) : Bool := decide (x ≠ nan ∧ y ≠ nan ∧ val x = val y)

/-- integer part towards zero -/
noncomputable def trunc : XR → Option ℤ
  | fin r => some (if 0 ≤ r then ⌊r⌋ else -⌊-r⌋)
  | _ => none

noncomputable instance : CDouble XR where
  lit q := fin (q : ℝ)
  add := add
  sub := sub
  mul := mul
  div := div
  neg := neg
  lt := lt
  le := le
  eq := eq
  trunc := trunc

end XR
end Verif

/-
benchmark/pow_accuracy_speed.c — the second power function of the program, which separates the exponent of the base. The program does not call it.
-/
import Verif.Model.BenchMath

namespace Verif
namespace Bench

/-- C99 6.3.1.4: conversion of a double to `long long`; undefined when the integer part does not fit -/
def toLL (x : F64) : C ℤ :=
  match CDouble.trunc x with
  | some k => if -2 ^ 63 ≤ k ∧ k < 2 ^ 63 then .ok k else .error .floatConv
  | none => .error .floatConv

/-- benchmark/pow_accuracy_speed.c:136-145 `_powbis`. The bit-field of 11 bits is promoted to `int` in the difference of line 138; the sum of line 143 is a
`long long` that is reduced modulo 2^11 when it is stored. -/
def powbis (x alpha : F64) : C F64 := do
  let p := alpha *. lit (((exponentBits x).toNat - 1023 : ℤ) : ℚ)
  let k ← toLL p
  let beta := p -. lit (k : ℚ)
  let a ← pow (setExponent x 1023) alpha
  let b ← pow (lit 2) beta
  let t := a *. b
  .ok (setExponent t (UInt64.ofInt ((exponentBits t).toNat + k)))

end Bench
end Verif

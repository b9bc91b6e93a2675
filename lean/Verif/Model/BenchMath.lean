/-
benchmark/pow_accuracy_speed.c, log_cf_speed.c, exp_cf_speed.c, log_cf_accuracy.c, exp_cf_accuracy.c — the argument reductions of the functions that
these programs time and compare with the C library, and the mantissa error that they report. The bit-fields of `double_cast` are laid out from the
least significant bit on (gcc and clang on x86-64).
-/
import Verif.Model.Benchmark
import Verif.Model.Xmath

namespace Verif
namespace Bench

/-- benchmark/pow_accuracy_speed.c:16-23 (log_cf_speed.c:23-30, exp_cf_speed.c:23-30, log_cf_accuracy.c:13-20, exp_cf_accuracy.c:12-19): the bit-field `bits.exponent` of `double_cast` -/
def exponentBits (x : F64) : UInt64 := (x.toBits >>> 52) &&& 0x7ff

/-- the bit-field `bits.significand` of `double_cast` (the same lines) -/
def significandBits (x : F64) : UInt64 := x.toBits &&& 0xfffffffffffff

/-- the assignment `w.bits.exponent = e` (pow_accuracy_speed.c:112, :128): `e` is reduced modulo 2^11 -/
def setExponent (w : F64) (e : UInt64) : F64 := F64.ofBits ((w.toBits &&& (0x800fffffffffffff : UInt64)) ||| ((e &&& (0x7ff : UInt64)) <<< (52 : UInt64)))

/-- C99 6.3.1.4: conversion of a double to `unsigned long long`; undefined when the integer part does not fit -/
def toULL (x : F64) : C UInt64 :=
  match CDouble.trunc x with
  | some k => if 0 ≤ k ∧ k < 2 ^ 64 then .ok (UInt64.ofNat k.toNat) else .error .floatConv
  | none => .error .floatConv

/-- benchmark/pow_accuracy_speed.c:108-116: `_exp` for an argument that is not negative; `cf` is the function called at 111 and 116. exp_cf_speed.c:43-53 is the same. -/
def expNonneg (cf : F64 → F64) (x : F64) : C F64 :=
  if x >. LOG2 then do
    let k ← toULL (x /. LOG2)
    let r := x -. LOG2 *. lit k.toNat
    let w := cf r
    .ok (setExponent w (exponentBits w + k))
  else .ok (cf x)

/-- benchmark/pow_accuracy_speed.c:104-117 `_exp`. The recursive call for `x < 0` is on an argument that is not negative. -/
def exp (cf : F64 → F64) (x : F64) : C F64 :=
  if x <. lit 0 then do
    let r ← expNonneg cf (-. x)
    .ok (lit 1 /. r)
  else expNonneg cf x

/-- benchmark/pow_accuracy_speed.c:119-132 `_log` (log_cf_speed.c:71-84 is the same; log_cf_accuracy.c:52-65 with `cf = log_cf(·, d)`) -/
def log (cf : F64 → F64) (x : F64) : F64 :=
  if exponentBits x = 1022 ∨ exponentBits x = 1023 then cf x
  else cf (setExponent x 1023) +. (lit (exponentBits x).toNat -. lit 1023) *. LOG2

/-- benchmark/pow_accuracy_speed.c:134 `_pow`; its `_log_cf_11` (52-89) and `_exp_cf_6` (91-102) are those of src/xmath.c -/
def pow (x alpha : F64) : C F64 := exp exp_cf_6 (alpha *. log log_cf_11 x)

/-- benchmark/exp_cf_speed.c:32-41 `_exp_cf_6`, the same fraction with its two innermost levels merged -/
def exp_cf_6' {α : Type} [CDouble α] (z : α) : α :=
  let z2 := z *. z
  lit 2 *. z /.
    (lit 2 *. z2 /.
      (lit 12 *. z2 /. (z2 *. (z2 +. lit 396) /. (lit 6 *. (z2 +. lit 154)) +. lit 60) +. lit 12) -. z +. lit 2) +. lit 1

/-- benchmark/pow_accuracy_speed.c:170-182 (exp_cf_accuracy.c:92-104, log_cf_accuracy.c:90-102): the maximum mantissa error of `approx` with respect to `exact` over the
points `xs`; `error->significand` starts at 0 (:40) -/
def significand (exact approx : F64 → F64) (xs : List F64) : UInt64 :=
  xs.foldl (fun r x =>
    let a := significandBits (exact x)
    let b := significandBits (approx x)
    let significand_err := if a ≥ b then a - b else b - a
    if significand_err > r then significand_err else r) 0

end Bench
end Verif

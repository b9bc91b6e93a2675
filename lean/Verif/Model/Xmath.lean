/-
src/xmath.c
-/
import Verif.Model.Mem
import Verif.F64.Basic

namespace Verif
variable {α : Type} [CDouble α]

/-- src/xmath.c:12 `LOG2 = 0x1.62e42fefa39efp-1`. -/
def LOG2 : α := lit (0x162e42fefa39ef / 2 ^ 53)

/-! ### frexp / ldexp (src/xmath.c:78-154, the `__SIZEOF_DOUBLE__ == 8` branch) on IEEE doubles -/

/-- src/xmath.c:93, :106-109: the part of `musl_frexp` for a biased exponent `ee` that is neither 0 nor 0x7ff. -/
def frexpNormal (x : F64) : F64 × ℤ :=
  let i := x.toBits
  let ee := (i >>> 52) &&& 0x7ff
  (F64.ofBits ((i &&& 0x800fffffffffffff) ||| 0x3fe0000000000000), (ee.toNat : ℤ) - 0x3fe)

/-- src/xmath.c:90-110 `musl_frexp(x, e)`; second argument: old `*e`. The recursive call at line 97 is on `x * 0x1p64`, whose
exponent field is neither 0 nor 0x7ff when `x` is a non-zero subnormal (proved: `frexp_rec_normal`), so it is unfolded once. -/
def musl_frexp (x : F64) (e : ℤ) : F64 × ℤ :=
  let ee := (x.toBits >>> 52) &&& 0x7ff
  if ee = 0 then
    if !(x ==. lit 0) then
      let r := frexpNormal (x *. lit (2 ^ 64))
      (r.1, r.2 - 64)
    else (x, 0)
  else if ee = 0x7ff then (x, e)
  else frexpNormal x

/-- src/xmath.c:121-154 `musl_ldexp(x, n)` for an `int` n. -/
def musl_ldexp (x : F64) (n : ℤ) : F64 :=
  let big : F64 := lit (2 ^ 1023)
  let small : F64 := lit (1 / 2 ^ 1022) *. lit (2 ^ 53)
  let fin (y : F64) (n : ℤ) : F64 := y *. F64.ofBits (UInt64.ofNat (0x3ff + n).toNat <<< 52)
  if n > 1023 then
    let y := x *. big
    let n := n - 1023
    if n > 1023 then
      let y := y *. big
      let n := n - 1023
      if n > 1023 then fin y 1023 else fin y n
    else fin y n
  else if n < -1022 then
    let y := x *. small
    let n := n + (1022 - 53)
    if n < -1022 then
      let y := y *. small
      let n := n + (1022 - 53)
      if n < -1022 then fin y (-1022) else fin y n
    else fin y n
  else fin x n

/-- src/xmath.c:237, :242: the default float utilities. -/
def muslFU : FloatUtils F64 := ⟨musl_ldexp, musl_frexp⟩

/-- src/xmath.c:244-251 `internal_set_float_utils` (= `set_float_utils`, src/spot.c:188-190); `none` is NULL. -/
def internal_set_float_utils (lib : Lib α) (l : Option (α → ℤ → α)) (f : Option (α → ℤ → α × ℤ)) : Lib α :=
  { lib with fu := ⟨l.getD lib.fu.ldexp, f.getD lib.fu.frexp⟩ }

/-! ### logarithm and exponential -/

/-- src/xmath.c:269-306 `_log_cf_11` -/
def log_cf_11 (z : α) : α :=
  let x := z -. lit 1
  let xx := x +. lit 2
  let x2 := x *. x
  let xx2 := xx +. xx
  let xx3 := xx +. xx2
  let xx5 := xx3 +. xx2
  let xx7 := xx5 +. xx2
  let xx9 := xx7 +. xx2
  let xx11 := xx9 +. xx2
  let xx13 := xx11 +. xx2
  let xx15 := xx13 +. xx2
  let xx17 := xx15 +. xx2
  let xx19 := xx17 +. xx2
  let xx21 := xx19 +. xx2
  lit 2 *. x /.
    ((-. x2) /.
      (lit (-4) *. x2 /.
        (lit (-9) *. x2 /.
          (lit (-16) *. x2 /.
            (lit (-25) *. x2 /.
              (lit (-36) *. x2 /.
                (lit (-49) *. x2 /.
                  (lit (-64) *. x2 /.
                    (lit (-81) *. x2 /.
                      (lit (-100) *. x2 /. xx21 +. xx19) +. xx17) +. xx15) +. xx13) +. xx11) +. xx9)
          +. xx7) +. xx5) +. xx3) +. xx)

/-- src/xmath.c:308-319 `_exp_cf_6` -/
def exp_cf_6 (z : α) : α :=
  let z2 := z *. z
  lit 2 *. z /.
    (lit 2 *. z2 /.
      (lit 12 *. z2 /.
        (lit 60 *. z2 /. (lit 140 *. z2 /. (lit 7 *. z2 /. lit 11 +. lit 252) +. lit 140) +. lit 60)
        +. lit 12) -. z +. lit 2) +. lit 1

/-- C99 6.3.1.4: conversion of a double to `unsigned int`; undefined when the integer part does not fit. -/
def toUInt32 (x : α) : C ℕ :=
  match CDouble.trunc x with
  | some k => if 0 ≤ k ∧ k < 2 ^ 32 then .ok k.toNat else .error .floatConv
  | none => .error .floatConv

/-- conversion `unsigned int` → `int` of the argument `k` at src/xmath.c:331 (two's complement, as gcc and clang define it) -/
def uintToInt (k : ℕ) : ℤ := if k < 2 ^ 31 then k else (k : ℤ) - 2 ^ 32

/-- src/xmath.c:328-337: `xexp` for an argument that is neither NaN nor negative. -/
def xexpNonneg (fu : FloatUtils α) (x : α) : C α :=
  if x >. LOG2 then do
    let k ← toUInt32 (x /. LOG2)
    let r := x -. LOG2 *. lit k
    .ok (fu.ldexp (exp_cf_6 r) (uintToInt k))
  else .ok (exp_cf_6 x)

/-- src/xmath.c:321-338 `xexp`. The recursive call `xexp(-x)` for `x < 0` is on an argument that is neither NaN nor
negative, so it is unfolded once. -/
def xexp (fu : FloatUtils α) (x : α) : C α :=
  if is_nan x then .ok cNAN
  else if x <. lit 0 then do
    let r ← xexpNonneg fu (-. x)
    .ok (lit 1 /. r)
  else xexpNonneg fu x

/-- src/xmath.c:340-367 `xlog` -/
def xlog (fu : FloatUtils α) (x : α) : α :=
  if x <. lit 0 || is_nan x then cNAN
  else if x ==. lit 0 then -. cINF
  else
    let r := fu.frexp x 0
    let mantissa := r.1
    let exponent := r.2
    if exponent = 0 ∨ exponent = -1 then log_cf_11 x
    else log_cf_11 mantissa +. LOG2 *. lit exponent

/-- The elementary functions used by the statistical part of the code. The library's own ones are `codeMath`; exact-arithmetic
theorems also use the true `log` and `exp`. -/
structure MathFns (α : Type) where
  log : α → α
  exp : α → C α

/-- the functions of src/xmath.c as used by the rest of the library -/
def codeMath (fu : FloatUtils α) : MathFns α := ⟨xlog fu, xexp fu⟩

/-- src/xmath.c:369 `xpow(a, x) = xexp(x * xlog(a))` -/
def xpow (M : MathFns α) (a x : α) : C α := M.exp (x *. M.log a)

/-- src/xmath.c:371-379 `xmin` -/
def xmin (a b : α) : α :=
  if is_nan a || is_nan b then cNAN
  else if a <. b then a
  else b

end Verif

/-
wasm/index.ts — the arguments of the constructor, as the WebAssembly module receives them

`libspot.cwrap("spot_init", ..., ["number", ...])` passes JavaScript numbers; where the compiled function has a parameter of type `int` or
`unsigned long` (32 bits on wasm32) the JavaScript API of WebAssembly converts them with `ToInt32` (ECMA-262, 7.1.6).
-/
import Verif.Model.Wasm

namespace Verif.Js
open Verif F64

/-- `ToInt32`, the result taken as unsigned: 0 for NaN and the infinities, otherwise the integer part modulo 2^32 -/
def toUint32 (x : F64) : ℕ :=
  match trunc x with
  | none => 0
  | some n => (n % 2 ^ 32).toNat

/-- the same bits as an `int` -/
def toInt32 (x : F64) : ℤ := if toUint32 x < 2 ^ 31 then toUint32 x else toUint32 x - 2 ^ 32

/-- src/spot.c:24-63 `spot_init` compiled for wasm32, `max_excess` being a 32-bit number. The only size that `spot_init` computes is that of
the buffer (src/ubend.c:17, `capacity * __SIZEOF_DOUBLE__`): modulo 2^32, so that the block has `max_excess * 8 mod 2^32` bytes, while the member `capacity`
is `max_excess`. The rest is as in `spot_init`. -/
def spot_init32 (lib : Lib F64) (h : Heap F64) (spot : Spot F64) (q : F64) (low disc : ℤ) (level : F64) (max_excess : ℕ) :
    ℤ × Spot F64 × Heap F64 :=
  let r := spot_init lib h spot q low disc level (UInt64.ofNat (max_excess * 8 % 2 ^ 32 / 8))
  if r.1 = 0 then
    (0, { r.2.1 with tail := { r.2.1.tail with peaks := { r.2.1.tail.peaks with container :=
      { r.2.1.tail.peaks.container with capacity := UInt64.ofNat max_excess } } } }, r.2.2)
  else r

/-- wasm/index.ts:160-173 the constructor with numbers as arguments -/
def constructNumbers (lib : Lib F64) (h : Heap F64) (garbage : Spot F64) (q low disc level maxExcess : F64) :
    C (Outcome Unit × Spot F64 × Heap F64) := do
  let r := spot_init32 lib h garbage q (toInt32 low) (toInt32 disc) level (toUint32 maxExcess)
  if r.1 < 0 then do
    let msg ← libspotError (-r.1)
    .ok (.throw msg, r.2.1, r.2.2)
  else .ok (.value (), r.2.1, r.2.2)

end Verif.Js

/-
The JavaScript binding when `malloc` refuses one of its own requests. In Model/Wasm.lean the structure of the detector and the text buffer of
`libspotError` are always available; here either of them may be refused. A refused request gives the address 0, which the binding does not test.
-/
import Verif.Model.Wasm

namespace Verif.Js

/-- wasm/index.ts:81-97 `libspotError`; `text`: `_malloc(256)` gave a block. Otherwise line 85 clears the bytes from address 0 on (no object of C is
there, the data of the module start at 1024), `libspot_error` gets a null pointer, and the cleared bytes are what is read. -/
def errorText (text : Bool) (code : ℤ) : C (List UInt8) :=
  if text then libspotError code
  else do
    let _ ← libspot_error code.toNat none 256
    .ok (stringify (List.replicate 256 0))

/-- src/spot.c:24-63 `spot_init` on the address that `spot_new` (wasm/main.c:6) returned: `none` is the null pointer. The structure is not accessed
before the two tests of the parameters. -/
def initAt (lib : Lib F64) (h : Heap F64) (p : Option (Spot F64)) (q : F64) (low disc : ℤ) (level : F64) (me : UInt64) :
    C (ℤ × Option (Spot F64) × Heap F64) :=
  match p with
  | some g => let r := spot_init lib h g q low disc level me
    .ok (r.1, some r.2.1, r.2.2)
  | none => if level <. lit 0 || level >=. lit 1 then .ok (-ERR_LEVEL_OUT_OF_BOUNDS, none, h)
    else if q >=. (lit 1 -. level) || q <=. lit 0 then .ok (-ERR_Q_OUT_OF_BOUNDS, none, h)
    else .error .badPointer

/-- wasm/index.ts:160-173 the constructor; `p` is what `spot_new` returned, with the content of the block -/
def constructAt (text : Bool) (lib : Lib F64) (h : Heap F64) (p : Option (Spot F64)) (q : F64) (low disc : ℤ) (level : F64) (me : UInt64) :
    C (Outcome Unit × Option (Spot F64) × Heap F64) := do
  let r ← initAt lib h p q low disc level me
  if r.1 < 0 then do
    let msg ← errorText text (-r.1)
    .ok (.throw msg, r.2)
  else .ok (.value (), r.2)

/-- wasm/index.ts:124-128 the finalizer: `spot_free` reads the structure at the address -/
def finalizeAt (lib : Lib F64) (h : Heap F64) (p : Option (Spot F64)) : C (Heap F64) :=
  match p with
  | some s => do
    let r ← finalize lib h s
    .ok r.2
  | none => .error .badPointer

/-- wasm/index.ts:197-210 `fit` -/
def fitAt (text : Bool) (M : MathFns F64) (m : MallocFn F64) (h : Heap F64) (self : Spot F64) (data : Float64Array) :
    C (Outcome ℤ × Spot F64 × Heap F64) := do
  let x := cmalloc m h (UInt64.ofNat (data.length * 8))
  let h ← setBytes x.2 x.1 (data.length * 8) data.buffer
  let buf ← bufferOf h x.1 data.length
  let r ← spot_fit M h self buf (UInt64.ofNat data.length)
  if r.1 < 0 then do
    let msg ← errorText text (-r.1)
    .ok (.throw msg, r.2.1, r.2.2)
  else do
    let h ← cfree r.2.2 x.1
    .ok (.value r.1, r.2.1, h)

/-- wasm/index.ts:218-224 `step` -/
def stepAt (text : Bool) (M : MathFns F64) (h : Heap F64) (self : Spot F64) (x : F64) : C (Outcome ℤ × Spot F64 × Heap F64) := do
  let r ← spot_step M h self x
  if r.1 < 0 then do
    let msg ← errorText text (-r.1)
    .ok (.throw msg, r.2.1, r.2.2)
  else .ok (.value r.1, r.2.1, r.2.2)

end Verif.Js

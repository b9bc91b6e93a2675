/-
wasm/index.ts, wasm/main.c — the JavaScript interface

The C code is compiled for wasm32 (ILP32): `int`, `unsigned long` and pointers have 4 bytes, `double` has 8 (wasm/libspot.test.ts:12-16).
Simplification: the calls into the library reuse the model of the C code with 64-bit `unsigned long`. The two agree while no counter and
no byte count reaches 2^32. The JavaScript host is taken to be little-endian.
-/
import Verif.Model.Spot
import Verif.Model.Text
import Verif.F64.Basic

namespace Verif.Js
open Verif F64

/-! ### the layout of C structures -/

/-- a C object type; structures are listed with their members -/
inductive CType where
  | double
  | int
  | ulong
  | ptr
  | struct (fields : List (String × CType))

/-- size and alignment of the scalar types of an ABI -/
structure ABI where
  double : ℕ × ℕ
  int : ℕ × ℕ
  ulong : ℕ × ℕ
  ptr : ℕ × ℕ

/-- wasm32: wasm/libspot.test.ts:12-16 -/
def wasm32 : ABI := ⟨(8, 8), (4, 4), (4, 4), (4, 4)⟩

/-- `off` rounded up to a multiple of `align` -/
def alignUp (off align : ℕ) : ℕ := (off + align - 1) / align * align

mutual
/-- size and alignment of a type: members in order, each at the next multiple of its alignment, the size rounded up to the largest
alignment (the layout rule of the C ABIs) -/
def CType.layout (abi : ABI) : CType → ℕ × ℕ
  | .double => abi.double
  | .int => abi.int
  | .ulong => abi.ulong
  | .ptr => abi.ptr
  | .struct fs => let r := fieldsLayout abi fs 0 1; (alignUp r.1 r.2, r.2)
/-- end of the last member and largest alignment -/
def fieldsLayout (abi : ABI) : List (String × CType) → ℕ → ℕ → ℕ × ℕ
  | [], off, al => (off, al)
  | (_, t) :: fs, off, al =>
    let l := t.layout abi
    fieldsLayout abi fs (alignUp off l.2 + l.1) (max al l.2)
end

/-- offset of a member of a structure and its type -/
def fieldOffset (abi : ABI) (name : String) : List (String × CType) → ℕ → Option (ℕ × CType)
  | [], _ => none
  | (n, t) :: fs, off =>
    let l := t.layout abi
    let o := alignUp off l.2
    if n = name then some (o, t) else fieldOffset abi name fs (o + l.1)

/-- `offsetof` along a path of member names -/
def CType.offset (abi : ABI) : CType → List String → Option ℕ
  | _, [] => some 0
  | .struct fs, n :: path =>
    match fieldOffset abi n fs 0 with
    | none => none
    | some (o, t) => (t.offset abi path).map (o + ·)
  | _, _ :: _ => none

/-- include/structs.h:99-110 -/
def UbendT : CType := .struct [("cursor", .ulong), ("capacity", .ulong), ("last_erased_data", .double), ("filled", .int), ("data", .ptr)]
/-- include/structs.h:116-127 -/
def PeaksT : CType := .struct [("e", .double), ("e2", .double), ("min", .double), ("max", .double), ("container", UbendT)]
/-- include/structs.h:133-140 -/
def TailT : CType := .struct [("gamma", .double), ("sigma", .double), ("peaks", PeaksT)]
/-- include/structs.h:147-168 -/
def SpotT : CType := .struct [("q", .double), ("level", .double), ("discard_anomalies", .int), ("low", .int), ("__up_down", .double),
  ("anomaly_threshold", .double), ("excess_threshold", .double), ("Nt", .ulong), ("n", .ulong), ("tail", TailT)]

/-! ### linear memory -/

/-- the bytes of the WebAssembly memory, `HEAPU8` -/
abbrev Bytes := ℕ → UInt8

/-- value of a list of bytes, least significant first -/
def leNat : List UInt8 → ℕ
  | [] => 0
  | b :: bs => b.toNat + 256 * leNat bs

/-- `n` bytes from address `p` -/
def slice (mem : Bytes) (p n : ℕ) : List UInt8 := (List.range n).map (fun i => mem (p + i))

/-- content of a scalar member -/
inductive Val where
  | double (v : F64)
  | word (n : ℕ)

/-- the memory at address `p` holds that value: eight bytes of an encoding of the double (any NaN pattern for NaN), or four bytes,
little-endian -/
def Holds (mem : Bytes) (p : ℕ) : Val → Prop
  | .double v => ofBits (UInt64.ofNat (leNat (slice mem p 8))) = v
  | .word n => leNat (slice mem p 4) = n % 2 ^ 32

/-- the members of a structure with their values -/
def members (s : Spot F64) : List (List String × Val) :=
  [(["q"], .double s.q), (["level"], .double s.level), (["discard_anomalies"], .word (s.discard_anomalies % 2 ^ 32).toNat),
   (["low"], .word (s.low % 2 ^ 32).toNat), (["__up_down"], .double s.up_down), (["anomaly_threshold"], .double s.anomaly_threshold),
   (["excess_threshold"], .double s.excess_threshold), (["Nt"], .word s.Nt.toNat), (["n"], .word s.n.toNat),
   (["tail", "gamma"], .double s.tail.gamma), (["tail", "sigma"], .double s.tail.sigma),
   (["tail", "peaks", "e"], .double s.tail.peaks.e), (["tail", "peaks", "e2"], .double s.tail.peaks.e2),
   (["tail", "peaks", "min"], .double s.tail.peaks.min), (["tail", "peaks", "max"], .double s.tail.peaks.max),
   (["tail", "peaks", "container", "cursor"], .word s.tail.peaks.container.cursor.toNat),
   (["tail", "peaks", "container", "capacity"], .word s.tail.peaks.container.capacity.toNat),
   (["tail", "peaks", "container", "last_erased_data"], .double s.tail.peaks.container.last_erased_data),
   (["tail", "peaks", "container", "filled"], .word (s.tail.peaks.container.filled % 2 ^ 32).toNat),
   (["tail", "peaks", "container", "data"], .word (match s.tail.peaks.container.data with | none => 0 | some a => a))]

/-- the structure `s` is stored at address `p`: each member, at the offset that the C layout gives it -/
def Stores (mem : Bytes) (p : ℕ) (s : Spot F64) : Prop :=
  ∀ path v, (path, v) ∈ members s → ∀ o, SpotT.offset wasm32 path = some o → Holds mem (p + o) v

/-! ### accessors -/

/-- `DataView.getFloat64(0)` on eight bytes, big-endian by default -/
def getFloat64 (bytes : List UInt8) : F64 := ofBits (UInt64.ofNat (leNat bytes.reverse))

/-- wasm/index.ts:175-181 `anomaly_threshold` -/
def anomaly_threshold (mem : Bytes) (ptr : ℕ) : F64 := getFloat64 (slice mem (ptr + 32) 8).reverse

/-- wasm/index.ts:183-189 `excess_threshold` -/
def excess_threshold (mem : Bytes) (ptr : ℕ) : F64 := getFloat64 (slice mem (ptr + 40) 8).reverse

/-! ### fit -/

/-- a `Float64Array`: `length` doubles of the `ArrayBuffer` from `byteOffset` on -/
structure Float64Array where
  buffer : List UInt8
  byteOffset : ℕ
  length : ℕ
  /-- what the constructor of typed arrays guarantees -/
  aligned : byteOffset % 8 = 0
  inside : byteOffset + 8 * length ≤ buffer.length

/-- the double stored in eight bytes at `i` -/
def doubleAt (bytes : List UInt8) (i : ℕ) : F64 := ofBits (UInt64.ofNat (leNat ((bytes.drop i).take 8)))

/-- the elements of the array -/
def Float64Array.toList (d : Float64Array) : List F64 := (List.range d.length).map (fun i => doubleAt d.buffer (d.byteOffset + 8 * i))

/-- outcome of a JavaScript call -/
inductive Outcome (β : Type) where
  | value (v : β)
  | throw (msg : List UInt8)
  deriving DecidableEq

/-- wasm/index.ts:59-61 `stringify`: decoding (all the messages are ASCII) and removal of the NULs -/
def stringify (raw : List UInt8) : List UInt8 := raw.filter (· ≠ 0)

/-- wasm/index.ts:81-97 `libspotError` (the 256 bytes are available); `code` is the value passed -/
def libspotError (code : ℤ) : C (List UInt8) := do
  let b ← libspot_error code.toNat (some (List.replicate 256 0)) 256
  match b with
  | some b => .ok (stringify (b.take 256))
  | none => .error .badPointer

/-- wasm/index.ts:67-74 `libspotVersion`; `garbage` are the 24 bytes that `_malloc` returned -/
def libspotVersion (version : CStr) (garbage : List UInt8) : C (List UInt8) := do
  let b ← libspot_version version (some garbage) 24
  match b with
  | some b => .ok (stringify (b.take 24))
  | none => .error .badPointer

/-- `_malloc(n)`, policy `m` -/
def cmalloc (m : MallocFn F64) (h : Heap F64) (n : UInt64) : Ptr × Heap F64 :=
  match m h n with
  | none => (none, h)
  | some a => (some a, Function.update h a (some (List.replicate (n.toNat / 8) none)))

/-- `HEAPU8.set(bytes, p)` where `p` is a block obtained for `n` bytes: writing past the block or at address 0 damages other
objects, which is an undefined behaviour for the C code -/
def setBytes (h : Heap F64) (p : Ptr) (n : ℕ) (bytes : List UInt8) : C (Heap F64) :=
  match p with
  | none => if bytes.length = 0 then .ok h else .error .badPointer
  | some a => if n < bytes.length then .error .outOfBounds
    else .ok (Function.update h a (some ((List.range (n / 8)).map (fun i =>
      if 8 * i + 8 ≤ bytes.length then some (doubleAt bytes (8 * i)) else none))))

/-- the doubles that `spot_fit` reads through its argument -/
def bufferOf (h : Heap F64) (x : Ptr) (size : ℕ) : C (List F64) := (List.range size).mapM (load h x)

/-- `_free` -/
def cfree (h : Heap F64) (x : Ptr) : C (Heap F64) := xfree ⟨none, true, ⟨fun a _ => a, fun a _ => (a, 0)⟩⟩ h x

/-- wasm/index.ts:197-210 `fit` -/
def fit (M : MathFns F64) (m : MallocFn F64) (h : Heap F64) (self : Spot F64) (data : Float64Array) :
    C (Outcome ℤ × Spot F64 × Heap F64) := do
  let x := cmalloc m h (UInt64.ofNat (data.length * 8))
  let h ← setBytes x.2 x.1 (data.length * 8) data.buffer
  let buf ← bufferOf h x.1 data.length
  let r ← spot_fit M h self buf (UInt64.ofNat data.length)
  if r.1 < 0 then do
    let msg ← libspotError (-r.1)
    .ok (.throw msg, r.2.1, r.2.2)
  else do
    let h ← cfree r.2.2 x.1
    .ok (.value r.1, r.2.1, h)

/-- wasm/index.ts:218-224 `step` -/
def step (M : MathFns F64) (h : Heap F64) (self : Spot F64) (x : F64) : C (Outcome ℤ × Spot F64 × Heap F64) := do
  let r ← spot_step M h self x
  if r.1 < 0 then do
    let msg ← libspotError (-r.1)
    .ok (.throw msg, r.2.1, r.2.2)
  else .ok (.value r.1, r.2.1, r.2.2)

/-! ### life cycle -/

/-- wasm/index.ts:160-173 the constructor: `garbage` is the content of the memory that `spot_new` returns (wasm/main.c:6, `malloc`),
which is whatever was there before -/
def construct (lib : Lib F64) (h : Heap F64) (garbage : Spot F64) (q : F64) (low disc : ℤ) (level : F64) (me : UInt64) :
    C (Outcome Unit × Spot F64 × Heap F64) := do
  let r := spot_init lib h garbage q low disc level me
  if r.1 < 0 then do
    let msg ← libspotError (-r.1)
    .ok (.throw msg, r.2.1, r.2.2)
  else .ok (.value (), r.2.1, r.2.2)

/-- wasm/index.ts:124-128 the finalizer, registered before the initialisation: it runs for every object, constructed or not. What is
left in the memory of the structure, and the heap. -/
def finalize (lib : Lib F64) (h : Heap F64) (self : Spot F64) : C (Spot F64 × Heap F64) := spot_free lib h self

end Verif.Js

/-
python/libspotmodule.c — the constructor's arguments, the attributes, `as_dict()` and the memory of the objects

Continues Model/Python.lean. `Py_BuildValue`, `PyArg_ParseTupleAndKeywords`, `PyMember_GetOne` and `tp_alloc` are modelled after the
documentation of CPython, for what the module uses of them. The creation of the Python objects themselves (lists, floats, dictionaries)
is taken to succeed.
-/
import Verif.Model.Python
import Verif.Model.Wasm

namespace Verif.Py
open Verif F64

/-! ### dictionaries -/

/-- the values found in the dictionary that `as_dict()` returns -/
inductive Value where
  | float (v : F64)
  | int (n : ℤ)
  | list (l : List F64)
  | dict (items : List (String × Value))

/-- an argument of a variadic call with its C type after promotion -/
inductive CArg where
  | string (s : String)
  | double (v : F64)
  | int (n : ℤ)
  | ulong (n : UInt64)
  | object (v : Value)

/-- one format unit of `Py_BuildValue`. Reading an argument with another type than its own is undefined (C99 7.15.1.1): on x86-64 the
doubles are not where the integers are, something that was not passed is read. -/
def buildItem : Char → CArg → C Value
  | 'd', .double v => .ok (.float v)
  | 'i', .int n => .ok (.int n)
  | 'k', .ulong n => .ok (.int n.toNat)
  | 'N', .object v => .ok v
  | _, _ => .error .uninitRead

/-- the inside of a `{...}` format: pairs of a key `s` and a value; arguments beyond the format are ignored -/
def buildItems : List Char → List CArg → C (List (String × Value))
  | [], _ => .ok []
  | 's' :: f :: fs, .string key :: a :: as => do
    let v ← buildItem f a
    let r ← buildItems fs as
    .ok ((key, v) :: r)
  | _, _ => .error .uninitRead

/-- `Py_BuildValue("{...}", ...)` -/
def Py_BuildValue (format : String) (args : List CArg) : C Value :=
  match format.toList with
  | '{' :: rest => do
    let r ← buildItems rest.dropLast args
    .ok (.dict r)
  | _ => .error .uninitRead

/-- python/libspotmodule.c:42-48 `excesses` -/
def excesses (h : Heap F64) (u : Ubend F64) : C (List F64) :=
  let size := if u.filled ≠ 0 then u.capacity else u.cursor
  to_python_list h u.data size

/-- python/libspotmodule.c:54-61 `Ubend_as_dict` -/
def Ubend_as_dict (h : Heap F64) (u : Ubend F64) : C Value := do
  let data ← excesses h u
  Py_BuildValue "{sksksdsisN}" [.string "cursor", .ulong u.cursor, .string "capacity", .ulong u.capacity,
    .string "last_erased_data", .double u.last_erased_data, .string "filled", .int u.filled, .string "data", .object (.list data)]

/-- python/libspotmodule.c:63-68 `Peaks_as_dict` -/
def Peaks_as_dict (h : Heap F64) (p : Peaks F64) : C Value := do
  let container ← Ubend_as_dict h p.container
  Py_BuildValue "{sdsdsdsdsN}" [.string "e", .double p.e, .string "e2", .double p.e2, .string "min", .double p.min,
    .string "max", .double p.max, .string "container", .object container]

/-- python/libspotmodule.c:70-74 `Tail_as_dict` -/
def Tail_as_dict (h : Heap F64) (t : Tail F64) : C Value := do
  let peaks ← Peaks_as_dict h t.peaks
  Py_BuildValue "{sdsdsN}" [.string "gamma", .double t.gamma, .string "sigma", .double t.sigma, .string "peaks", .object peaks]

/-- python/libspotmodule.c:232-241 `Spot_as_dict` -/
def Spot_as_dict (h : Heap F64) (self : Spot F64) : C Value := do
  let tail ← Tail_as_dict h self.tail
  Py_BuildValue "{sdsdsisisdsdsksksN}" [.string "q", .double self.q, .string "level", .double self.level,
    .string "discard_anomalies", .int self.discard_anomalies, .string "low", .int self.low,
    .string "anomaly_threshold", .double self.anomaly_threshold, .string "excess_threshold", .double self.excess_threshold,
    .string "Nt", .ulong self.Nt, .string "n", .ulong self.n, .string "tail", .object tail]

/-- `d[k1][k2]...` on nested dictionaries -/
def Value.get : Value → List String → Option Value
  | v, [] => some v
  | .dict items, k :: path => (items.find? (fun p => p.1 == k)).bind (fun p => p.2.get path)
  | _, _ :: _ => none

/-! ### attributes -/

/-- the scalar types of the members of `struct Spot`, with their contents -/
inductive Scalar where
  | double (v : F64)
  | int (n : ℤ)
  | ulong (n : UInt64)
  | ptr (a : Ptr)

/-- LP64: sizes and alignments -/
def lp64 : Js.ABI := ⟨(8, 8), (4, 4), (8, 8), (8, 8)⟩

/-- a pointer as a number; NULL is 0 -/
def address : Ptr → ℕ
  | none => 0
  | some a => a

/-- the memory at address `p` holds that value, little-endian -/
def Holds (mem : Js.Bytes) (p : ℕ) : Scalar → Prop
  | .double v => ofBits (UInt64.ofNat (Js.leNat (Js.slice mem p 8))) = v
  | .int n => (Js.leNat (Js.slice mem p 4) : ℤ) = n % 2 ^ 32
  | .ulong n => Js.leNat (Js.slice mem p 8) = n.toNat
  | .ptr a => Js.leNat (Js.slice mem p 8) = address a

/-- include/structs.h:147-168 the members of `struct Spot` with their contents -/
def members (s : Spot F64) : List (List String × Scalar) :=
  [(["q"], .double s.q), (["level"], .double s.level), (["discard_anomalies"], .int s.discard_anomalies), (["low"], .int s.low),
   (["__up_down"], .double s.up_down), (["anomaly_threshold"], .double s.anomaly_threshold),
   (["excess_threshold"], .double s.excess_threshold), (["Nt"], .ulong s.Nt), (["n"], .ulong s.n),
   (["tail", "gamma"], .double s.tail.gamma), (["tail", "sigma"], .double s.tail.sigma),
   (["tail", "peaks", "e"], .double s.tail.peaks.e), (["tail", "peaks", "e2"], .double s.tail.peaks.e2),
   (["tail", "peaks", "min"], .double s.tail.peaks.min), (["tail", "peaks", "max"], .double s.tail.peaks.max),
   (["tail", "peaks", "container", "cursor"], .ulong s.tail.peaks.container.cursor),
   (["tail", "peaks", "container", "capacity"], .ulong s.tail.peaks.container.capacity),
   (["tail", "peaks", "container", "last_erased_data"], .double s.tail.peaks.container.last_erased_data),
   (["tail", "peaks", "container", "filled"], .int s.tail.peaks.container.filled),
   (["tail", "peaks", "container", "data"], .ptr s.tail.peaks.container.data)]

/-- the structure `s` is stored at address `p`, each member at the offset that the C layout gives it -/
def Stores (mem : Js.Bytes) (p : ℕ) (s : Spot F64) : Prop :=
  ∀ path v, (path, v) ∈ members s → ∀ o, Js.SpotT.offset lp64 path = some o → Holds mem (p + o) v

/-- the types of `PyMemberDef` that the module uses -/
inductive MemberType where
  | T_DOUBLE
  | T_ULONG

/-- python/libspotmodule.c:250-267 `Spot_members`: name, type, and the path given to `offsetof` (behind `_spot`) -/
def Spot_members : List (String × MemberType × List String) :=
  [("q", .T_DOUBLE, ["q"]), ("level", .T_DOUBLE, ["level"]), ("anomaly_threshold", .T_DOUBLE, ["anomaly_threshold"]),
   ("excess_threshold", .T_DOUBLE, ["excess_threshold"]), ("Nt", .T_ULONG, ["Nt"]), ("n", .T_ULONG, ["n"]),
   ("gamma", .T_DOUBLE, ["tail", "gamma"]), ("sigma", .T_DOUBLE, ["tail", "sigma"])]

/-- `PyMember_GetOne`: what is at the offset, read with the declared type -/
def readMember (mem : Js.Bytes) (addr : ℕ) : MemberType → Value
  | .T_DOUBLE => .float (ofBits (UInt64.ofNat (Js.leNat (Js.slice mem addr 8))))
  | .T_ULONG => .int (Js.leNat (Js.slice mem addr 8))

/-- the attribute `name` of an object whose `struct Spot` is at address `p` -/
def getattr (mem : Js.Bytes) (p : ℕ) (name : String) : Option Value :=
  (Spot_members.find? (fun e => e.1 == name)).bind (fun e => (Js.SpotT.offset lp64 e.2.2).map (fun o => readMember mem (p + o) e.2.1))

/-- python/libspotmodule.c:199-204 `Spot_raw` -/
def Spot_raw (mem : Js.Bytes) (p : ℕ) : List UInt8 := Js.slice mem p (Js.SpotT.layout lp64).1

/-! ### the arguments of the constructor -/

/-- format unit `d`: `PyFloat_AsDouble` -/
def parseDouble (o : Obj) : Except Exc F64 :=
  match PyFloat_AsDouble (some o) with
  | (v, none) => .ok v
  | (_, some e) => .error e

/-- format unit `i`: an integer within the bounds of `int` -/
def parseInt : Obj → Except Exc ℤ
  | .int n => if -2 ^ 31 ≤ n ∧ n < 2 ^ 31 then .ok n else .error .overflowError
  | _ => .error .typeError

/-- format unit `k`: "Convert a Python integer to a C unsigned long without overflow checking" -/
def parseULong : Obj → Except Exc UInt64
  | .int n => .ok (UInt64.ofInt n)
  | _ => .error .typeError

/-- a keyword argument, or the default -/
def optional {β : Type} (kw : List (String × Obj)) (name : String) (parse : Obj → Except Exc β) (dflt : β) : Except Exc β :=
  match kw.find? (fun p => p.1 == name) with
  | none => .ok dflt
  | some p => parse p.2

/-- the argument `q`: positional or keyword, not both -/
def parseQ (args : List Obj) (kw : List (String × Obj)) : Except Exc F64 :=
  match args, kw.find? (fun p => p.1 == "q") with
  | [o], none => parseDouble o
  | [], some p => parseDouble p.2
  | _, _ => .error .typeError

/-- python/libspotmodule.c:100-113: `PyArg_ParseTupleAndKeywords(args, kwds, "d|$iidk", kwlist, ...)` with the keywords `q`, `low`,
`discard_anomalies`, `level`, `max_excess`; all but `q` are keyword-only -/
def parseArgs (args : List Obj) (kw : List (String × Obj)) : Except Exc (F64 × ℤ × ℤ × F64 × UInt64) := do
  let q ← parseQ args kw
  let low ← optional kw "low" parseInt 0
  let disc ← optional kw "discard_anomalies" parseInt 1
  let level ← optional kw "level" parseDouble (lit (98 / 100))
  let me ← optional kw "max_excess" parseULong 500
  if kw.all (fun p => p.1 ∈ ["q", "low", "discard_anomalies", "level", "max_excess"]) then .ok (q, low, disc, level, me)
  else .error .typeError

/-- python/libspotmodule.c:99-124 `Spot_init`, with the parsing of the arguments -/
def Spot_init_args (m : MallocFn F64) (fu : FloatUtils F64) (h : Heap F64) (self : Spot F64) (args : List Obj)
    (kw : List (String × Obj)) : C (Ret ℤ) :=
  match parseArgs args kw with
  | .error e => .ok ⟨some (-1), some e, self, h⟩
  | .ok a => Spot_init m fu h self a.1 a.2.1 a.2.2.1 a.2.2.2.1 a.2.2.2.2

/-! ### the memory of the objects -/

/-- `sizeof(Spot)` (python/libspotmodule.c:19-22): the object header (two words) and the structure, in words of 8 bytes -/
def objectWords : ℕ := 2 + (Js.SpotT.layout lp64).1 / 8

/-- `tp_alloc` (`PyType_GenericAlloc`): a zeroed block; NULL if there is no memory. The Python allocator is taken to be the C one. -/
def tp_alloc (m : MallocFn F64) (h : Heap F64) : Option (ℕ × Heap F64) :=
  match m h (UInt64.ofNat (8 * objectWords)) with
  | none => none
  | some p => some (p, Function.update h p (some (List.replicate objectWords (some (lit 0)))))

/-- The structure in the object at address `p`, if all bytes after the header are 0: the members are 0 and the pointer is NULL. Other
contents are not interpreted here. -/
def objectAt (h : Heap F64) (p : ℕ) : Option (Spot F64) :=
  if (List.range ((Js.SpotT.layout lp64).1 / 8)).all (fun i => decide (load h (some p) (2 + i) = .ok (lit 0))) then some newObject else none

/-- What the interpreter does when the last reference to the object at address `p` disappears: it calls the slot `tp_dealloc`, which
has to release the object itself. python/libspotmodule.c:243-248: the call of `tp_free` is commented out. -/
def dealloc (m : MallocFn F64) (fu : FloatUtils F64) (h : Heap F64) (self : Spot F64) (_p : ℕ) : C (Heap F64) :=
  Spot_dealloc m fu h self

end Verif.Py

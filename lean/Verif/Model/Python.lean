/-
python/libspotmodule.c — the CPython extension

The parts of the CPython C API that the module calls are modelled after their documentation (docs.python.org/3/c-api):
`PySequence_Fast`, `PyList_Size`, `PyList_GetItem`, `PyFloat_AsDouble`, the exception indicator. Objects with user-defined
`__float__` methods are in Model/PyReentry.lean, reference counts in Model/PyRefs.lean.
-/
import Verif.Model.Spot
import Verif.Model.Text
import Verif.F64.Basic

namespace Verif.Py
open Verif F64

/-- Python exceptions that can be pending -/
inductive Exc where
  | typeError
  | overflowError
  | systemError
  | runtimeError (msg : List UInt8)
  deriving DecidableEq

/-- The Python values that matter as elements and arguments -/
inductive Obj where
  | float (v : F64)
  | int (n : ℤ)
  /-- anything that cannot be converted to a float: strings, None, ... -/
  | other
  deriving DecidableEq

/-- The argument of `fit` -/
inductive Arg where
  | list (items : List Obj)
  | tuple (items : List Obj)
  /-- any other iterable (array, numpy array, generator): the items it yields -/
  | iterable (items : List Obj)
  | notIterable

/-- What `PySequence_Fast` returns: lists and tuples are returned as they are, another iterable is copied to a list,
anything else is NULL. -/
inductive Seq where
  | list (items : List Obj)
  | tuple (items : List Obj)

/-- `PySequence_Fast(data, msg)` -/
def PySequence_Fast : Arg → Option Seq
  | .list l => some (.list l)
  | .tuple l => some (.tuple l)
  | .iterable l => some (.list l)
  | .notIterable => none

/-- `PyList_Size(seq)`: -1 and a SystemError when the object is not a list -/
def PyList_Size : Seq → ℤ × Option Exc
  | .list l => (l.length, none)
  | .tuple _ => (-1, some .systemError)

/-- `PyList_GetItem(seq, i)`: NULL and an exception when the object is not a list or the index is out of range -/
def PyList_GetItem (s : Seq) (i : ℕ) : Option Obj :=
  match s with
  | .list l => l[i]?
  | .tuple _ => none

/-- `PyFloat_AsDouble(o)`: the value and the exception set, if any. Failures return -1.0. -/
def PyFloat_AsDouble : Option Obj → F64 × Option Exc
  | some (.float v) => (v, none)
  | some (.int n) => match ofRat false n with
    | fin s k => (fin s k, none)
    | _ => (lit (-1), some .overflowError)
  | some .other => (lit (-1), some .typeError)
  | none => (lit (-1), some .typeError)

/-- the later exception replaces the pending one -/
def pend (old new : Option Exc) : Option Exc := match new with | some e => some e | none => old

/-- What a method returns to the interpreter: a value (`none` is NULL), the exception indicator, the detector and the heap. -/
structure Ret (β : Type) where
  value : Option β
  exc : Option Exc
  self : Spot F64
  heap : Heap F64

/-- The contract of a CPython C function: an exception is pending if and only if the result is NULL. -/
def Ret.ok {β : Type} (r : Ret β) : Prop := r.value = none ↔ r.exc ≠ none

/-- python/libspotmodule.c:141-144 the loop that copies the elements into the buffer `x` -/
def copyLoop (seq : Seq) (x : Ptr) (size : ℕ) (st : Heap F64 × Option Exc) : C (Heap F64 × Option Exc) :=
  (List.range size).foldlM (fun st i => do
    let v := PyFloat_AsDouble (PyList_GetItem seq i)
    let h ← store st.1 x i v.1
    .ok (h, pend st.2 v.2)) st

/-- the cells of the buffer `x[0..size)`, that `spot_fit` reads -/
def bufferOf (h : Heap F64) (x : Ptr) (size : ℕ) : C (List F64) := (List.range size).mapM (load h x)

/-- python/libspotmodule.c:118-122, :151-155: `char buffer[256]; libspot_error(-result, buffer, 256)` and then the text is read by
`PyErr_SetString`. The buffer is not initialised: its unknown content is modelled by bytes that no message contains, reading them
is undefined. -/
def errorMessage (result : ℤ) : C (List UInt8) := do
  let b ← libspot_error (-result).toNat (some (List.replicate 256 1)) 256
  match b with
  | some (c :: cs) => if c = 1 then .error .uninitRead else .ok ((c :: cs).takeWhile (· ≠ 0))
  | _ => .error .uninitRead

/-- lines 151-155: the exception set for a negative code -/
def codeExc (result : ℤ) : C (Option Exc) :=
  if result < 0 then do
    let m ← errorMessage result
    .ok (some (.runtimeError m))
  else .ok none

/-- `free(x)` of the C library -/
def cfree (h : Heap F64) (x : Ptr) : C (Heap F64) := xfree ⟨none, true, ⟨fun a _ => a, fun a _ => (a, 0)⟩⟩ h x

/-- `malloc(n)` of the C library, `m` being its policy -/
def cmalloc (m : MallocFn F64) (h : Heap F64) (n : UInt64) : Ptr × Heap F64 :=
  match m h n with
  | none => (none, h)
  | some a => (some a, Function.update h a (some (List.replicate (n.toNat / 8) none)))

/-- python/libspotmodule.c:131-157 `Spot_fit` -/
def Spot_fit (M : MathFns F64) (m : MallocFn F64) (h : Heap F64) (self : Spot F64) (data : Arg) : C (Ret Unit) :=
  match PySequence_Fast data with
  | none => .ok ⟨none, some .typeError, self, h⟩
  | some seq => do
    let sz := PyList_Size seq
    let size : UInt64 := UInt64.ofInt sz.1
    let x := cmalloc m h (size * 8)
    let st ← copyLoop seq x.1 size.toNat (x.2, sz.2)
    let buf ← bufferOf st.1 x.1 size.toNat
    let r ← spot_fit M st.1 self buf size
    let h ← cfree r.2.2 x.1
    let e ← codeExc r.1
    .ok ⟨some (), pend st.2 e, r.2.1, h⟩

/-- python/libspotmodule.c:162-169 `Spot_step` -/
def Spot_step (M : MathFns F64) (h : Heap F64) (self : Spot F64) (x : Obj) : C (Ret ℤ) := do
  let z := PyFloat_AsDouble (some x)
  let r ← spot_step M h self z.1
  .ok ⟨some r.1, z.2, r.2.1, r.2.2⟩

/-- python/libspotmodule.c:174-181 `Spot_quantile` -/
def Spot_quantile (M : MathFns F64) (h : Heap F64) (self : Spot F64) (x : Obj) : C (Ret F64) := do
  let q := PyFloat_AsDouble (some x)
  let z ← spot_quantile M self q.1
  .ok ⟨some z, q.2, self, h⟩

/-- python/libspotmodule.c:187-194 `Spot_probability` -/
def Spot_probability (M : MathFns F64) (h : Heap F64) (self : Spot F64) (x : Obj) : C (Ret F64) := do
  let z := PyFloat_AsDouble (some x)
  let p ← spot_probability M self z.1
  .ok ⟨some p, z.2, self, h⟩

/-- python/libspotmodule.c:26-40 `to_python_list` (creation of the Python objects succeeds) -/
def to_python_list (h : Heap F64) (buffer : Ptr) (size : UInt64) : C (List F64) := bufferOf h buffer size.toNat

/-- python/libspotmodule.c:42-48 `excesses` and :223-225 `Spot_excesses` -/
def Spot_excesses (h : Heap F64) (self : Spot F64) : C (List F64) :=
  let u := self.tail.peaks.container
  to_python_list h u.data (if u.filled ≠ 0 then u.capacity else u.cursor)

/-- `PyType_GenericAlloc`: the memory of a new object is zeroed -/
def newObject : Spot F64 :=
  ⟨lit 0, lit 0, 0, 0, lit 0, lit 0, lit 0, 0, 0, ⟨lit 0, lit 0, ⟨lit 0, lit 0, lit 0, lit 0, ⟨0, 0, lit 0, 0, none⟩⟩⟩⟩

/-- python/libspotmodule.c:99-124 `Spot_init` (the arguments are already parsed); the value is the return code of the slot. The
module registered `malloc` and `free` (line 362), policy `m`. -/
def Spot_init (m : MallocFn F64) (fu : FloatUtils F64) (h : Heap F64) (self : Spot F64) (q : F64) (low disc : ℤ) (level : F64)
    (me : UInt64) : C (Ret ℤ) := do
  let r := spot_init ⟨some m, true, fu⟩ h self q low disc level me
  let e ← codeExc r.1
  .ok ⟨some r.1, e, r.2.1, r.2.2⟩

/-- python/libspotmodule.c:243-248 `Spot_dealloc` -/
def Spot_dealloc (m : MallocFn F64) (fu : FloatUtils F64) (h : Heap F64) (self : Spot F64) : C (Heap F64) := do
  let r ← spot_free ⟨some m, true, fu⟩ h self
  .ok r.2

end Verif.Py

/-
python/libspotmodule.c — arguments whose conversion to a float runs Python code

`PyFloat_AsDouble` on an object that defines `__float__` (or `__index__`) runs the code of that method. Here the code makes any sequence of
calls of methods of the same detector, with floats and lists of floats as arguments, then possibly shortens the list that `fit` is reading,
and returns a float.

Simplifications: the code raises no exception (what happens to elements that are not numbers is in Model/Python.lean); other effects of
the code (other objects, files, …) are left out; the element stays alive while its own method runs.
-/
import Verif.Model.Python

namespace Verif.Py
open Verif F64

/-- a call of a method of the detector with plain arguments -/
inductive Call where
  | step (x : F64)
  | fit (data : List F64)
  | quantile (q : F64)
  | probability (z : F64)

/-- an object with a `__float__` method -/
structure UObj where
  /-- the calls that the method makes -/
  calls : List Call
  /-- `del data[k:]` on the list given to `fit`, after the calls -/
  keep : Option ℕ
  /-- the result of the method -/
  value : F64

/-- what Python code can reach -/
structure World where
  self : Spot F64
  heap : Heap F64
  items : List UObj

/-- one call made by the code of a method: the values and exceptions that it gets are its own affair -/
def runCall (M : MathFns F64) (m : MallocFn F64) (w : World) : Call → C World
  | .step x => do
    let r ← Spot_step M w.heap w.self (.float x)
    .ok { w with self := r.self, heap := r.heap }
  | .fit l => do
    let r ← Spot_fit M m w.heap w.self (.list (l.map .float))
    .ok { w with self := r.self, heap := r.heap }
  | .quantile q => do
    let r ← Spot_quantile M w.heap w.self (.float q)
    .ok { w with self := r.self, heap := r.heap }
  | .probability z => do
    let r ← Spot_probability M w.heap w.self (.float z)
    .ok { w with self := r.self, heap := r.heap }

/-- `PyFloat_AsDouble(o)` -/
def convert (M : MathFns F64) (m : MallocFn F64) (w : World) (o : UObj) : C (F64 × World) := do
  let w ← o.calls.foldlM (runCall M m) w
  .ok (o.value, match o.keep with | some k => { w with items := w.items.take k } | none => w)

/-- python/libspotmodule.c:141-144 the loop of `Spot_fit`: the list is read as it is at each iteration. `PyList_GetItem` past its end is NULL,
which `PyFloat_AsDouble` answers with -1.0 and a TypeError (`PyErr_BadArgument`). -/
def copyLoopU (M : MathFns F64) (m : MallocFn F64) (x : Ptr) (l : List ℕ) (st : World × Option Exc) : C (World × Option Exc) :=
  l.foldlM (fun st i => do
    match st.1.items[i]? with
    | some o => do
      let v ← convert M m st.1 o
      let h ← store v.2.heap x i v.1
      .ok ({ v.2 with heap := h }, st.2)
    | none => do
      let h ← store st.1.heap x i (lit (-1))
      .ok ({ st.1 with heap := h }, some .typeError)) st

/-- python/libspotmodule.c:131-157 `Spot_fit` on a list of such objects: the length is read once, before any conversion -/
def fitU (M : MathFns F64) (m : MallocFn F64) (h : Heap F64) (self : Spot F64) (items : List UObj) : C (Ret Unit) := do
  let size : UInt64 := UInt64.ofNat items.length
  let x := cmalloc m h (size * 8)
  let st ← copyLoopU M m x.1 (List.range size.toNat) (⟨self, x.2, items⟩, none)
  let buf ← bufferOf st.1.heap x.1 size.toNat
  let r ← spot_fit M st.1.heap st.1.self buf size
  let h ← cfree r.2.2 x.1
  let e ← codeExc r.1
  .ok ⟨some (), pend st.2 e, r.2.1, h⟩

/-- python/libspotmodule.c:162-169 `Spot_step` -/
def stepU (M : MathFns F64) (m : MallocFn F64) (h : Heap F64) (self : Spot F64) (o : UObj) : C (Ret ℤ) := do
  let v ← convert M m ⟨self, h, []⟩ o
  let r ← spot_step M v.2.heap v.2.self v.1
  .ok ⟨some r.1, none, r.2.1, r.2.2⟩

/-- python/libspotmodule.c:174-181 `Spot_quantile` -/
def quantileU (M : MathFns F64) (m : MallocFn F64) (h : Heap F64) (self : Spot F64) (o : UObj) : C (Ret F64) := do
  let v ← convert M m ⟨self, h, []⟩ o
  let r ← spot_quantile M v.2.self v.1
  .ok ⟨some r, none, v.2.self, v.2.heap⟩

/-- python/libspotmodule.c:187-194 `Spot_probability` -/
def probabilityU (M : MathFns F64) (m : MallocFn F64) (h : Heap F64) (self : Spot F64) (o : UObj) : C (Ret F64) := do
  let v ← convert M m ⟨self, h, []⟩ o
  let r ← spot_probability M v.2.self v.1
  .ok ⟨some r, none, v.2.self, v.2.heap⟩

end Verif.Py

/-
python/libspotmodule.c — references to Python objects, failures to create Python objects

Continues Model/PyObject.lean. Every creation of an object may fail, as an arbitrary function `ok` of the number of attempts made so
far decides. `live` counts the references to Python objects owned by somebody: a created object comes with one reference, owned by
the caller; storing an object in a list or a dictionary hands that reference over; releasing the last reference to a list or to a
dictionary releases its elements. After CPython 3 (Objects/listobject.c, Objects/dictobject.c, Python/modsupport.c: `do_mkvalue`,
`do_mkdict`, `do_ignore`).

Simplifications: objects that CPython shares (small integers, `None`) count like the others; `PyDict_SetItem`, which takes references
of its own, is merged with the two `Py_DECREF` that follow it; a dictionary does not merge equal keys (the formats have none).
-/
import Verif.Model.PyObject

namespace Verif.Py
open Verif F64

/-- references owned, attempts to create an object so far, and whether an exception is pending -/
structure Interp where
  live : ℤ
  clock : ℕ
  err : Bool

/-- one attempt that may fail with MemoryError -/
def attempt (ok : ℕ → Bool) (st : Interp) : Bool × Interp :=
  if ok st.clock then (true, { st with clock := st.clock + 1 }) else (false, { st with clock := st.clock + 1, err := true })

/-- the creation of an object: one more reference -/
def create (ok : ℕ → Bool) (st : Interp) : Bool × Interp :=
  let r := attempt ok st
  if r.1 then (true, { r.2 with live := r.2.live + 1 }) else r

mutual
/-- the references that an object holds, with the one to itself -/
def Value.refs : Value → ℕ
  | .float _ => 1
  | .int _ => 1
  | .list l => 1 + l.length
  | .dict items => 1 + itemsRefs items

/-- the references held by the items of a dictionary: key and value -/
def itemsRefs : List (String × Value) → ℕ
  | [] => 0
  | p :: ps => 1 + p.2.refs + itemsRefs ps
end

/-- `Py_DECREF` of the only reference to an object that holds `n` references -/
def Interp.release (st : Interp) (n : ℕ) : Interp := { st with live := st.live - n }

/-- python/libspotmodule.c:31-38 the loop of `to_python_list`: `i` items are stored -/
def listLoop (ok : ℕ → Bool) (h : Heap F64) (buffer : Ptr) : ℕ → ℕ → List F64 → Interp → C (Option Value × Interp)
  | 0, _, items, st => .ok (some (.list items), st)
  | k + 1, i, items, st => do
    let v ← load h buffer i
    let num := create ok st
    if num.1 then listLoop ok h buffer k (i + 1) (items ++ [v]) num.2
    else .ok (none, num.2.release (Value.list items).refs)

/-- python/libspotmodule.c:26-40 `to_python_list` -/
def listRefs (ok : ℕ → Bool) (h : Heap F64) (buffer : Ptr) (size : UInt64) (st : Interp) : C (Option Value × Interp) :=
  let list := create ok st
  if list.1 then listLoop ok h buffer size.toNat 0 [] list.2 else .ok (none, list.2)

/-- python/libspotmodule.c:42-48 `excesses`, :223-225 `Spot_excesses` -/
def excessesRefs (ok : ℕ → Bool) (h : Heap F64) (u : Ubend F64) (st : Interp) : C (Option Value × Interp) :=
  listRefs ok h u.data (if u.filled ≠ 0 then u.capacity else u.cursor) st

/-- an argument of a variadic call; a pointer to an object may be NULL -/
inductive RArg where
  | string (s : String)
  | double (v : F64)
  | int (n : ℤ)
  | ulong (n : UInt64)
  | object (v : Option Value)

/-- `do_mkvalue` on the units that make a value; `N` takes the reference over, NULL is an exception -/
def mkvalue (ok : ℕ → Bool) (f : Char) (a : RArg) (st : Interp) : C (Option Value × Interp) :=
  match f, a with
  | 'd', .double v => let r := create ok st; .ok (if r.1 then some (.float v) else none, r.2)
  | 'i', .int n => let r := create ok st; .ok (if r.1 then some (.int n) else none, r.2)
  | 'k', .ulong n => let r := create ok st; .ok (if r.1 then some (.int n.toNat) else none, r.2)
  | 'N', .object (some v) => .ok (some v, st)
  | 'N', .object none => .ok (none, { st with err := true })
  | _, _ => .error .uninitRead

/-- `do_ignore`: the remaining arguments are built and released, for the sake of the references given with `N`; the pending exception
is kept -/
def ignore (ok : ℕ → Bool) : List Char → List RArg → Interp → C Interp
  | [], _, st => .ok st
  | 's' :: fs, .string _ :: as, st =>
    let r := create ok st
    ignore ok fs as { (if r.1 then r.2.release 1 else r.2) with err := st.err }
  | f :: fs, a :: as, st => do
    let r ← mkvalue ok f a st
    ignore ok fs as { (match r.1 with | some w => r.2.release w.refs | none => r.2) with err := st.err }
  | _, _, _ => .error .uninitRead

/-- the loop of `do_mkdict`, `items` being in the dictionary already -/
def mkitems (ok : ℕ → Bool) : List Char → List RArg → List (String × Value) → Interp → C (Option Value × Interp)
  | [], _, items, st => .ok (some (.dict items), st)
  | 's' :: f :: fs, .string key :: a :: as, items, st =>
    let k := create ok st
    if k.1 then do
      let v ← mkvalue ok f a k.2
      match v.1 with
      | none => do
        let st ← ignore ok fs as v.2
        .ok (none, (st.release 1).release (Value.dict items).refs)
      | some w =>
        let set := attempt ok v.2
        if set.1 then mkitems ok fs as (items ++ [(key, w)]) set.2
        else do
          let st ← ignore ok fs as set.2
          .ok (none, ((st.release 1).release w.refs).release (Value.dict items).refs)
    else do
      let st ← ignore ok (f :: fs) (a :: as) k.2
      .ok (none, st.release (Value.dict items).refs)
  | _, _, _, _ => .error .uninitRead

/-- `Py_BuildValue("{...}", ...)`: `do_mkdict` -/
def buildRefs (ok : ℕ → Bool) (format : String) (args : List RArg) (st : Interp) : C (Option Value × Interp) :=
  match format.toList with
  | '{' :: rest =>
    let d := create ok st
    if d.1 then mkitems ok rest.dropLast args [] d.2
    else do
      let st ← ignore ok rest.dropLast args d.2
      .ok (none, st)
  | _ => .error .uninitRead

/-- python/libspotmodule.c:54-61 `Ubend_as_dict` -/
def ubendRefs (ok : ℕ → Bool) (h : Heap F64) (u : Ubend F64) (st : Interp) : C (Option Value × Interp) := do
  let data ← excessesRefs ok h u st
  buildRefs ok "{sksksdsisN}" [.string "cursor", .ulong u.cursor, .string "capacity", .ulong u.capacity,
    .string "last_erased_data", .double u.last_erased_data, .string "filled", .int u.filled, .string "data", .object data.1] data.2

/-- python/libspotmodule.c:63-68 `Peaks_as_dict` -/
def peaksRefs (ok : ℕ → Bool) (h : Heap F64) (p : Peaks F64) (st : Interp) : C (Option Value × Interp) := do
  let container ← ubendRefs ok h p.container st
  buildRefs ok "{sdsdsdsdsN}" [.string "e", .double p.e, .string "e2", .double p.e2, .string "min", .double p.min,
    .string "max", .double p.max, .string "container", .object container.1] container.2

/-- python/libspotmodule.c:70-74 `Tail_as_dict` -/
def tailRefs (ok : ℕ → Bool) (h : Heap F64) (t : Tail F64) (st : Interp) : C (Option Value × Interp) := do
  let peaks ← peaksRefs ok h t.peaks st
  buildRefs ok "{sdsdsN}" [.string "gamma", .double t.gamma, .string "sigma", .double t.sigma, .string "peaks", .object peaks.1] peaks.2

/-- python/libspotmodule.c:232-241 `Spot_as_dict` -/
def asDictRefs (ok : ℕ → Bool) (h : Heap F64) (self : Spot F64) (st : Interp) : C (Option Value × Interp) := do
  let tail ← tailRefs ok h self.tail st
  buildRefs ok "{sdsdsisisdsdsksksN}" [.string "q", .double self.q, .string "level", .double self.level,
    .string "discard_anomalies", .int self.discard_anomalies, .string "low", .int self.low,
    .string "anomaly_threshold", .double self.anomaly_threshold, .string "excess_threshold", .double self.excess_threshold,
    .string "Nt", .ulong self.Nt, .string "n", .ulong self.n, .string "tail", .object tail.1] tail.2

/-! ### the argument of `fit` -/

/-- the references taken by `PySequence_Fast`: one more to a list or a tuple; another iterable is copied to a new list, which holds a
reference to itself and one to each item -/
def sequenceRefs (ok : ℕ → Bool) (data : Arg) (st : Interp) : Bool × Interp :=
  match data with
  | .list _ => (true, { st with live := st.live + 1 })
  | .tuple _ => (true, { st with live := st.live + 1 })
  | .iterable l =>
    let r := attempt ok st
    if r.1 then (true, { r.2 with live := r.2.live + (1 + l.length) }) else r
  | .notIterable => (false, { st with err := true })

/-- python/libspotmodule.c:131-157 `Spot_fit`: what `PySequence_Fast` returned is never released; `None` is returned with a new reference
(`Py_RETURN_NONE`) -/
def fitRefs (M : MathFns F64) (m : MallocFn F64) (ok : ℕ → Bool) (h : Heap F64) (self : Spot F64) (data : Arg) (st : Interp) :
    C (Ret Unit × Interp) :=
  let seq := sequenceRefs ok data st
  if seq.1 then do
    let r ← Spot_fit M m h self data
    .ok (r, { seq.2 with live := seq.2.live + 1, err := seq.2.err || r.exc.isSome })
  else .ok (⟨none, some .typeError, self, h⟩, seq.2)

/-- python/libspotmodule.c:162-169 `Spot_step`: the borrowed argument is not kept; `PyLong_FromLong` may fail -/
def stepRefs (M : MathFns F64) (ok : ℕ → Bool) (h : Heap F64) (self : Spot F64) (x : Obj) (st : Interp) : C (Ret ℤ × Interp) := do
  let r ← Spot_step M h self x
  let c := create ok { st with err := st.err || r.exc.isSome }
  .ok (⟨if c.1 then r.value else none, r.exc, r.self, r.heap⟩, c.2)

end Verif.Py

/-
python/libspotmodule.c:326-364 — initialisation of the module

Continues Model/PyRefs.lean: every request to the interpreter may fail, as an arbitrary function `ok` of the number of requests decides.
After docs.python.org/3/c-api/module.html: `PyModule_AddIntConstant` and `PyModule_AddStringConstant` create an object and add it,
on failure they return -1 with an exception and keep nothing; `PyModule_AddObject` takes the reference over on success only.
Simplification: a module that is created is not registered anywhere else (`m_size = -1`, single-phase initialisation).
-/
import Verif.Model.PyRefs

namespace Verif.Py
open Verif F64

/-- an attribute of the module -/
inductive Attr where
  | text (bytes : List UInt8)
  | int (n : ℤ)
  | spotType
  deriving DecidableEq

/-- the attributes added so far, in order -/
abbrev Attrs := List (String × Attr)

/-- the value of an attribute: the last one that was added under this name -/
def Attrs.get (m : Attrs) (name : String) : Option Attr := ((m.reverse.find? (fun p => p.1 == name)).map Prod.snd)

/-- `PyModule_AddStringConstant`, `PyModule_AddIntConstant`: false is a negative return value -/
def addConstant (ok : ℕ → Bool) (m : Attrs) (name : String) (v : Attr) (st : Interp) : Bool × Attrs × Interp :=
  let obj := create ok st
  if obj.1 then
    let set := attempt ok obj.2
    if set.1 then (true, m ++ [(name, v)], set.2) else (false, m, set.2.release 1)
  else (false, m, obj.2)

/-- `PyModule_AddObject(m, name, value)`: the reference to the value is taken over on success only -/
def addObject (ok : ℕ → Bool) (m : Attrs) (name : String) (v : Attr) (st : Interp) : Bool × Attrs × Interp :=
  let set := attempt ok st
  if set.1 then (true, m ++ [(name, v)], set.2) else (false, m, set.2)

/-- the bytes of a buffer up to the first NUL; without NUL it is read beyond its end -/
def textOf : CBuf → C (List UInt8)
  | some b => if 0 ∈ b then .ok (b.takeWhile (· ≠ 0)) else .error .outOfBounds
  | none => .error .badPointer

/-- What the initialisation leaves: the module that is returned (`none` is NULL), the interpreter, and whether `set_allocators(malloc, free)`
was called -/
structure Init where
  module : Option Attrs
  st : Interp
  registered : Bool

/-- lines 339-355: the version and the constants; false as soon as one of them cannot be added -/
def addConstants (ok : ℕ → Bool) (text : List UInt8) (st : Interp) : Bool × Attrs × Interp :=
  let v := addConstant ok [] "__version__" (.text text) st
  if v.1 then
    let n := addConstant ok v.2.1 "NORMAL" (.int NORMAL) v.2.2
    if n.1 then
      let e := addConstant ok n.2.1 "EXCESS" (.int EXCESS) n.2.2
      if e.1 then addConstant ok e.2.1 "ANOMALY" (.int ANOMALY) e.2.2 else e
    else n
  else v

/-- lines 326-364 `PyInit_libspot`. `junk` is the unknown initial content of `buffer`. -/
def PyInit_libspot (ok : ℕ → Bool) (version : CStr) (junk : List UInt8) (st : Interp) : C Init :=
  let t := create ok st
  if t.1 then
    let ready := attempt ok t.2
    if ready.1 then
      let m := create ok ready.2
      if m.1 then do
        -- Py_INCREF(SpotType)
        let st : Interp := { m.2 with live := m.2.live + 1 }
        let b ← libspot_version version (some junk) 64
        let text ← textOf b
        let c := addConstants ok text st
        if c.1 then
          -- the result of PyModule_AddObject is not looked at
          let s := addObject ok c.2.1 "Spot" .spotType c.2.2
          .ok ⟨some s.2.1, s.2.2, true⟩
        else .ok ⟨none, c.2.2, false⟩
      else .ok ⟨none, m.2, false⟩
    else .ok ⟨none, ready.2, false⟩
  else
    -- PyType_Ready(NULL) reads the members of the type
    .error .badPointer

end Verif.Py

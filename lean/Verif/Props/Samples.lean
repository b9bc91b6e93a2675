/-
Concrete inputs used to show that the hypotheses of the property theorems can be met, and in counterexamples.
-/
import Verif.Model.History
import Verif.Model.Xmath
import Verif.XR.Basic

namespace Verif.Sample

/-- the undefined behaviour of a computation, if any -/
def errOf {β : Type} : C β → Option UB
  | .ok _ => none
  | .error e => some e

theorem errOf_some {β : Type} {x : C β} {e : UB} (h : errOf x = some e) : x = .error e := by
  cases x with
  | ok v => simp [errOf] at h
  | error e' => simp only [errOf, Option.some.injEq] at h; rw [h]

/-- a conforming allocator with room for two blocks -/
def alloc (α : Type) : MallocFn α := fun h _ =>
  if (h 4096).isNone then some 4096 else if (h 8192).isNone then some 8192 else none

/-- library with that allocator, `free` registered, built-in float functions -/
def lib : Lib F64 := ⟨some (alloc F64), true, muslFU⟩

def emptyHeap {α : Type} : Heap α := fun _ => none

def ubendZ : Ubend F64 := ⟨0, 0, lit 0, 0, none⟩
/-- a zero-initialised structure -/
def zeroed : Spot F64 := ⟨lit 0, lit 0, 0, 0, lit 0, lit 0, lit 0, 0, 0, ⟨lit 0, lit 0, ⟨lit 0, lit 0, lit 0, lit 0, ubendZ⟩⟩⟩

/-- q = 1/100, level = 9/10, capacity 20 -/
def init : ℤ × Spot F64 × Heap F64 := spot_init lib emptyHeap zeroed (lit (1 / 100)) 0 1 (lit (9 / 10)) 20

def data : List F64 := [lit 1, lit 2, lit 3, lit 4, lit 5, lit 7, lit 11]

/-- the detector `init` -/
def spot : Spot F64 := init.2.1
def heap : Heap F64 := init.2.2

/-- a fitted detector: excess threshold 4, anomaly threshold 5, upper tail, anomalies discarded, one excess recorded -/
def fitted : Spot F64 :=
  ⟨lit (1 / 100), lit (9 / 10), 1, 0, lit 1, lit 5, lit 4, 1, 10,
    ⟨lit (1 / 2), lit 1, ⟨lit 1, lit 1, lit 1, lit 1, ⟨1, 20, cNAN, 0, some 4096⟩⟩⟩⟩

end Verif.Sample

/-
The example program examples/basic.py: the detector driven from Python and the figure it draws.
-/
import Verif.Model.PyObject
import Verif.Model.Xmath

namespace Verif.Figure
open Py

/-- examples/basic.py:31, 36, 37 what is drawn: the positions and the values of the marked points, the dashed line -/
structure Plot where
  Ax : List ℕ
  Ay : List F64
  THRESHOLD : List F64
  deriving DecidableEq

/-- how the script ends: an exception, or a figure (with the detector and the memory at that time) -/
inductive Outcome where
  | raised
  | drawn (p : Plot) (spot : Spot F64) (heap : Heap F64)

/-- examples/basic.py:38-43 the loop, from position `i` -/
def loop (M : MathFns F64) (i : ℕ) (p : Plot) (spot : Spot F64) (h : Heap F64) : List F64 → C Outcome
  | [] => .ok (.drawn p spot h)
  | x :: xs => do
    let r ← Spot_step M h spot (.float x)
    if r.exc ≠ none then .ok .raised
    else
      let p := if r.value = some ANOMALY then { p with Ax := p.Ax ++ [i], Ay := p.Ay ++ [x] } else p
      loop M (i + 1) { p with THRESHOLD := p.THRESHOLD.set i r.self.anomaly_threshold } r.self r.heap xs

/-- examples/basic.py:29-43 with any training data, stream and values of the three arguments; `m` is the policy of `malloc`. The arrays of
numpy are iterables of floats. -/
def script (m : MallocFn F64) (fu : FloatUtils F64) (h : Heap F64) (q : F64) (max_excess : ℤ) (level : F64) (TRAIN STREAM : List F64) :
    C Outcome := do
  let i ← Spot_init_args m fu h newObject [] [("q", .float q), ("max_excess", .int max_excess), ("level", .float level)]
  if i.exc ≠ none then .ok .raised
  else
    let f ← Spot_fit (codeMath fu) m i.heap i.self (.iterable (TRAIN.map .float))
    if f.exc ≠ none then .ok .raised
    else loop (codeMath fu) 0 ⟨[], [], List.replicate STREAM.length (lit 0)⟩ f.self f.heap STREAM

/-- examples/basic.py:33 the arguments in the file -/
def basic (m : MallocFn F64) (fu : FloatUtils F64) (h : Heap F64) (TRAIN STREAM : List F64) : C Outcome :=
  script m fu h (lit (5 / 1000000)) 2000 (lit (99 / 100)) TRAIN STREAM

end Verif.Figure

/-
What the positions of the extreme markers count (C47).
-/
import Verif.F64.Order

namespace Verif.Spec

/-- `x` lies in the range of the values seen before -/
def inside (seen : List F64) (x : F64) : Bool := seen.any (fun y => F64.le y x) && seen.any (fun y => F64.le x y)

/-- `x` repeats the smallest of the values seen before -/
def repeatsMin (seen : List F64) (x : F64) : Bool := seen.any (fun y => F64.le y x) && seen.all (fun y => F64.le x y)

/-- the number of values of a series, read from left to right, with a property that refers to the values before -/
def tally (f : List F64 → F64 → Bool) : List F64 → List F64 → ℕ
  | _, [] => 0
  | seen, x :: l => (if f seen x then 1 else 0) + tally f (seen ++ [x]) l

end Verif.Spec

/-
The example program examples/basic.c.
-/
import Verif.Model.History
import Verif.Model.Xmath

namespace Verif.Example

variable {α : Type} [CDouble α]

/-- examples/basic.c:57-59 the three counters (`int`) -/
structure Counters where
  normal : ℤ
  excess : ℤ
  anomaly : ℤ
  deriving DecidableEq, Repr

/-- examples/basic.c:64-74 the `switch` on the result of `spot_step` -/
def Counters.count (c : Counters) (r : ℤ) : Counters :=
  if r = ANOMALY then { c with anomaly := c.anomaly + 1 }
  else if r = EXCESS then { c with excess := c.excess + 1 }
  else if r = NORMAL then { c with normal := c.normal + 1 }
  else c

/-- examples/basic.c:62-75 the loop over the observations -/
def loop (M : MathFns α) (h : Heap α) (spot : Spot α) (c : Counters) : List α → C (Counters × Spot α × Heap α)
  | [] => .ok (c, spot, h)
  | x :: xs => do
    let r ← spot_step M h spot x
    loop M r.2.2 r.2.1 (c.count r.1) xs

/-- what is printed at the end (but for the time) -/
structure Printed (α : Type) where
  counters : Counters
  Z : α
  T : α
  deriving DecidableEq

/-- examples/basic.c:20-82 `main` with `N` training values and `K` observations. `rexp i` is the result of call `i` of the function `rexp`,
`malloc` the allocator of the C library, `stack` the indeterminate content of the variable `spot`. Result: exit status, what is printed,
the variable `spot` and the heap at the end. -/
def program (N : UInt64) (K : ℕ) (lib : Lib α) (malloc : MallocFn α) (h : Heap α) (stack : Spot α) (rexp : ℕ → α) :
    C (ℤ × Option (Printed α) × Spot α × Heap α) := do
  let lib := internal_set_allocators lib (some malloc) true
  let r := spot_init lib h stack (lit (1 / 10000)) 0 1 (lit (998 / 1000)) 200
  if r.1 < 0 then .ok (-r.1, none, r.2.1, r.2.2)
  else
    let initial_data := (List.range N.toNat).map rexp
    let f ← spot_fit (codeMath lib.fu) r.2.2 r.2.1 initial_data N
    if f.1 < 0 then .ok (-f.1, none, f.2.1, f.2.2)
    else
      let l ← loop (codeMath lib.fu) f.2.2 f.2.1 ⟨0, 0, 0⟩ ((List.range K).map (fun k => rexp (N.toNat + k)))
      .ok (0, some ⟨l.1, l.2.1.anomaly_threshold, l.2.1.excess_threshold⟩, l.2.1, l.2.2)

/-- examples/basic.c:43, 56: 20000 training values, 50000000 observations -/
def main (lib : Lib α) (malloc : MallocFn α) (h : Heap α) (stack : Spot α) (rexp : ℕ → α) :
    C (ℤ × Option (Printed α) × Spot α × Heap α) := program 20000 50000000 lib malloc h stack rexp

end Verif.Example

/-
The P2 algorithm as published (R. Jain, I. Chlamtac, "The P2 algorithm for dynamic calculation of quantiles and histograms without
storing observations", CACM 28(10), 1985, box 1), over an ordered field. The markers and the positions are numbered from 0.
-/
import Mathlib.Algebra.Order.Field.Basic
import Mathlib.Data.List.Sort
import Mathlib.Algebra.Field.Rat
import Mathlib.Algebra.Order.Ring.Rat

namespace Verif.Spec.P2Paper
variable {K : Type} [Field K] [LinearOrder K]

/-- heights and positions of the five markers -/
structure Markers (K : Type) where
  q : ℕ → K
  n : ℕ → ℤ

/-- increments of the desired positions -/
def inc (p : K) : ℕ → K
  | 0 => 0
  | 1 => p / 2
  | 2 => p
  | 3 => (1 + p) / 2
  | _ => 1

/-- desired position of marker `i` after `m` observations -/
def desired (p : K) (m i : ℕ) : K := ((m : K) - 1) * inc p i

/-- piecewise-parabolic prediction -/
def parabola (s : Markers K) (i : ℕ) (d : ℤ) : K :=
  s.q i + (d : K) / ((s.n (i + 1) : K) - s.n (i - 1)) *
    (((s.n i : K) - s.n (i - 1) + d) * (s.q (i + 1) - s.q i) / ((s.n (i + 1) : K) - s.n i) +
     ((s.n (i + 1) : K) - s.n i - d) * (s.q i - s.q (i - 1)) / ((s.n i : K) - s.n (i - 1)))

/-- linear prediction -/
def line (s : Markers K) (i : ℕ) (d : ℤ) : K :=
  let j := ((i : ℤ) + d).toNat
  s.q i + (d : K) * (s.q j - s.q i) / ((s.n j : K) - s.n i)

/-- step B3: adjust marker `i` if it is off its desired position by one or more -/
def move (p : K) (m : ℕ) (s : Markers K) (i : ℕ) : Markers K :=
  let e := desired p m i - s.n i
  if (1 ≤ e ∧ 1 < s.n (i + 1) - s.n i) ∨ (e ≤ -1 ∧ s.n (i - 1) - s.n i < -1) then
    let d : ℤ := if 0 < e then 1 else -1
    let v := parabola s i d
    { q := Function.update s.q i (if s.q (i - 1) < v ∧ v < s.q (i + 1) then v else line s i d)
      n := Function.update s.n i (s.n i + d) }
  else s

/-- step B1: the cell of `x` (the cell `k` lies between the markers `k` and `k + 1`) -/
def cell (s : Markers K) (x : K) : ℕ := if x < s.q 1 then 0 else if x < s.q 2 then 1 else if x < s.q 3 then 2 else 3

/-- the `m`-th observation `x`, `m > 5`: extreme heights, positions above the cell, adjustment of the inner markers -/
def observe (p : K) (m : ℕ) (s : Markers K) (x : K) : Markers K :=
  let q := if x < s.q 0 then Function.update s.q 0 x else if s.q 4 < x then Function.update s.q 4 x else s.q
  let n := fun i => if cell s x < i then s.n i + 1 else s.n i
  move p m (move p m (move p m ⟨q, n⟩ 1) 2) 3

/-- part A: the five first observations, sorted -/
def start (five : List K) : Markers K := ⟨fun i => (five.insertionSort (· ≤ ·)).getD i 0, fun i => i⟩

/-- the markers after all the observations -/
def run (p : K) (data : List K) : Markers K :=
  ((data.drop 5).foldl (fun (ms : ℕ × Markers K) x => (ms.1 + 1, observe p (ms.1 + 1) ms.2 x)) (5, start (data.take 5))).2

/-- the estimate is the height of the middle marker -/
def estimate (p : K) (data : List K) : K := (run p data).q 2

/-- No observation after the fifth is a new extreme, repeats the smallest one or coincides with the height of an inner marker. -/
def Clean (p : K) (data : List K) : Prop := ∀ j (hj : j < data.length), 5 ≤ j →
  (run p (data.take j)).q 0 < data[j] ∧ data[j] ≤ (run p (data.take j)).q 4 ∧
  data[j] ≠ (run p (data.take j)).q 1 ∧ data[j] ≠ (run p (data.take j)).q 2 ∧ data[j] ≠ (run p (data.take j)).q 3

end Verif.Spec.P2Paper

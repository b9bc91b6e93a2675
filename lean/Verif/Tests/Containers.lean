/-
test/src/ubend_test.c, test/src/peaks_test.c (without the table of likelihoods), test/src/brent_test.c, the deterministic part of
test/src/p2_test.c and of test/src/spot_test.c, on the model.
-/
import Verif.Tests.Common

namespace Verif.Tests
open Verif F64

/-- `ubend_init(&Ubend, capacity)` on an empty heap -/
def newUbend (cap : UInt64) : Ubend F64 × Heap F64 := (ubend_init lib emptyHeap cap).2

/-- pushes of the same value, with an assertion on what each returns and on the container after it -/
def pushes (n : ℕ) (v : F64) (ok : ℕ → F64 → Ubend F64 → Bool) (st : Ubend F64 × Heap F64) : C (Bool × Ubend F64 × Heap F64) :=
  (List.range n).foldlM (fun acc i => do
    let r ← ubend_push acc.2.2 acc.2.1 v
    .ok (acc.1 && ok i r.1 r.2.1, r.2)) (true, st)

/-- ubend_test.c:5-13 -/
theorem test_ubend_init : (newUbend 5).1.cursor = 0 ∧ (newUbend 5).1.filled = 0 ∧ (newUbend 5).1.capacity = 5 ∧
    (newUbend 5).1.last_erased_data = nan := by decide +kernel

/-- ubend_test.c:15-28 -/
theorem test_ubend_push : passes (do
    let r ← pushes 10 (lit 42) (fun _ v _ => is_nan v) (newUbend 10)
    let s ← ubend_push r.2.2 r.2.1 (lit 0)
    .ok (r.1 && equal (lit 42) s.1)) id = true := by decide +kernel

/-- ubend_test.c:30-47 -/
theorem test_ubend_size : (ubend_size (newUbend 15).1 == 0 && passes (do
    let r ← pushes 15 (lit (-1)) (fun i _ u => (ubend_size u).toNat == i + 1) (newUbend 15)
    let s ← pushes 15 (lit (-1)) (fun _ _ u => ubend_size u == 15) r.2
    .ok (r.1 && s.1)) id) = true := by decide +kernel

/-- ubend_test.c:49-58 -/
theorem test_ubend_free : passes (ubend_free lib (newUbend 15).2 (newUbend 15).1) (fun r =>
    r.1.cursor == 0 && r.1.capacity == 0 && r.1.filled == -1 && is_nan r.1.last_erased_data) = true := by decide +kernel

/-- `peaks_init(&Peaks, size)` on an empty heap -/
def newPeaks (size : UInt64) : Peaks F64 × Heap F64 := (peaks_init lib emptyHeap size).2

/-- for each element of a list: the pushes it stands for, then an assertion on the structure -/
def runPeaks {ι : Type} (l : List ι) (vs : ι → Peaks F64 → List F64) (ok : ι → Peaks F64 → Bool) (st : Peaks F64 × Heap F64) :
    C (Bool × Peaks F64 × Heap F64) :=
  l.foldlM (fun acc i => do
    let r ← (vs i acc.2.1).foldlM (fun (s : Peaks F64 × Heap F64) x => peaks_push s.2 s.1 x) acc.2
    .ok (acc.1 && ok i r.1, r)) (true, st)

/-- `(double)i` -/
def nat (i : ℕ) : F64 := lit (i : ℚ)

/-- peaks_test.c:7-18 -/
theorem test_peaks_init : (newPeaks 10).1.e = lit 0 ∧ (newPeaks 10).1.e2 = lit 0 ∧ (newPeaks 10).1.min = nan ∧
    (newPeaks 10).1.max = nan := by decide +kernel

/-- peaks_test.c:20-48 -/
theorem test_peaks_push : passes (do
    let r ← runPeaks (List.range 5) (fun i _ => [nat (i + 1), -. nat (i + 1)])
      (fun i p => equal (-. nat (i + 1)) p.min && equal (nat (i + 1)) p.max) (newPeaks 10)
    let s ← peaks_push r.2.2 r.2.1 (nat 6)
    let t ← peaks_push s.2 s.1 (-. nat 6)
    let u ← runPeaks (List.range 10) (fun _ p => [p.min]) (fun _ _ => true) t
    .ok (r.1 && peaks_size s.1 == 10 && equal (nat 6) s.1.max && peaks_size t.1 == 10 && equal (-. nat 6) t.1.min &&
      !(t.1.max ==. u.2.1.min))) id = true := by decide +kernel

/-- peaks_test.c:50-68 -/
theorem test_peaks_mean : passes (do
    let r ← runPeaks (List.range 50) (fun i _ => [nat (i + 1)]) (fun i p => equal (lit (1 / 2) *. nat (i + 2)) (peaks_mean p)) (newPeaks 50)
    let s ← runPeaks (List.range 50) (fun _ _ => [lit 0])
      (fun i p => equal ((nat 1275 -. nat ((i + 1) * (i + 2) / 2)) /. nat 50) (peaks_mean p)) r.2
    .ok (r.1 && s.1)) id = true := by decide +kernel

/-- peaks_test.c:70-81 -/
theorem test_peaks_var : passes (do
    let r ← runPeaks (List.range 25) (fun i _ => [nat (i + 1), -. nat (i + 1)])
      (fun i p => equal ((nat (i + 1) +. lit 1) *. (lit 2 *. nat (i + 1) +. lit 1) /. lit 6) (peaks_var p)) (newPeaks 50)
    .ok r.1) id = true := by decide +kernel

/-- peaks_test.c:83-98 -/
theorem test_peaks_size : passes (do
    let r ← runPeaks (List.range 30) (fun _ _ => [lit 1]) (fun i p => (peaks_size p).toNat == i + 1) (newPeaks 30)
    let s ← runPeaks (List.range 30) (fun _ _ => [lit 1]) (fun _ p => peaks_size p == 30) r.2
    .ok (r.1 && s.1)) id = true := by decide +kernel

/-- peaks_test.c:255-271 -/
theorem test_peaks_free : passes (peaks_free lib (newPeaks 10).2
      { (newPeaks 10).1 with e := lit 10, e2 := lit 5, min := lit (-5), max := lit (172 / 10) })
    (fun r => is_nan r.1.e && is_nan r.1.e2 && is_nan r.1.min && is_nan r.1.max) = true := by decide +kernel

/-! brent_test.c:5-30, the functions, with `*extra` as a parameter -/
def linearF (root x : F64) : F64 := x -. root
def squareF (root x : F64) : F64 := (x -. root) *. (x +. root)
def cubicF (root x : F64) : F64 := x *. (x -. root) *. (x +. root)
def norootF (p x : F64) : F64 := x *. x +. p *. p +. lit 1

/-- `2 * BRENT_DEFAULT_EPSILON` -/
def epsilon : F64 := lit 2 *. BRENT_DEFAULT_EPSILON

/-- `brent(&found, a, b, f, extra, epsilon)` finds a root close to the expected one -/
def rootAt (a b : F64) (f : F64 → F64) (root : F64) : Bool :=
  let r := Id.run (brent (m := Id) (fun x => pure (f x)) a b epsilon)
  r.1 && within epsilon.toQ root r.2

/-- brent_test.c:32-43 -/
theorem test_brent_linear : rootAt (lit (-5)) (lit 5) (linearF (lit 1)) (lit 1) = true := by decide +kernel

/-- `3. + 1. / 3.` -/
def ten_thirds : F64 := lit 3 +. lit 1 /. lit 3

/-- brent_test.c:45-62 -/
theorem test_brent_square : (rootAt (lit 0) (lit 5) (squareF ten_thirds) ten_thirds &&
    rootAt (-. lit 5) (lit 0) (squareF ten_thirds) (-. ten_thirds)) = true := by decide +kernel

/-- brent_test.c:64-89 -/
theorem test_brent_cubic : (rootAt (lit 1) (lit 5) (cubicF (lit 2)) (lit 2) && rootAt (-. lit 5) (-. lit 1) (cubicF (lit 2)) (-. lit 2) &&
    rootAt (-. lit 1) (lit 1) (cubicF (lit 2)) (lit 0) && rootAt (-. lit 5) (lit 5) (cubicF (lit 2)) (lit 0)) = true := by decide +kernel

-- brent_test.c:91-103 `test_brent_log`, with the logarithm of the library instead of the one of the C library
#guard rootAt (-. lit 3 +. lit (1 / 2)) (lit 3 +. lit 1) (fun x => xlog muslFU (lit 3 +. x)) (lit 1 -. lit 3)

-- brent_test.c:105-117 `test_brent_exp`, with the exponential of the library
#guard rootAt (lit (-3)) (lit 3) (fun x => match xexp muslFU x with | .ok y => x *. y -. lit 1 | .error _ => nan)
  (dec 56714329040978384011140178699861280620098114013671875 53)

/-- brent_test.c:119-129 -/
theorem test_brent_noroot : (Id.run (brent (m := Id) (fun x => pure (norootF (lit 1) x)) (lit (-10)) (lit 10) epsilon)).1 = false := by
  decide +kernel

/-- p2_test.c:67-71 -/
theorem test_sort5 : sort5 (⟨lit 5, lit 3, lit 4, lit 1, lit 2⟩ : Arr5 F64) = ⟨lit 1, lit 2, lit 3, lit 4, lit 5⟩ := by decide +kernel

/-- the structure before `spot_init`: its content does not matter -/
def anySpot : Spot F64 := ⟨lit 7, lit 7, 7, 7, lit 7, lit 7, lit 7, 7, 7, ⟨lit 7, lit 7, ⟨lit 7, lit 7, lit 7, lit 7, ⟨7, 7, lit 7, 7, none⟩⟩⟩⟩

/-- the assertions of `test_spot_init` after a successful initialisation -/
def initOk (low discard : ℤ) : Bool :=
  let r := spot_init lib emptyHeap anySpot (lit (1 / 10 ^ 5)) low discard (lit (995 / 1000)) 1000
  r.1 == 0 && r.2.1.low == low && r.2.1.discard_anomalies == discard && equal (lit (1 / 10 ^ 5)) r.2.1.q &&
    equal (lit (995 / 1000)) r.2.1.level && is_nan r.2.1.anomaly_threshold && is_nan r.2.1.excess_threshold && r.2.1.Nt == 0 && r.2.1.n == 0

/-- spot_test.c:54-91 (`Nt` is 1000, test_tail_fit.h) -/
theorem test_spot_init : (initOk 0 1 && initOk 1 0 &&
    (spot_init lib emptyHeap anySpot (lit (1 / 10 ^ 5)) 0 1 (lit (-1 / 2)) 1000).1 == -ERR_LEVEL_OUT_OF_BOUNDS &&
    (spot_init lib emptyHeap anySpot (lit 1 -. lit (995 / 1000) +. (lit 1 +. lit (995 / 1000)) /. lit 2) 0 1 (lit (995 / 1000)) 1000).1 ==
      -ERR_Q_OUT_OF_BOUNDS) = true := by decide +kernel

-- spot_test.c:384-389 `test_libspot_license`
#guard passes (libspot_license (some (List.replicate 64 1)) 64) fun b => match b with
  | some l => l.takeWhile (· ≠ 0) == "LGPL-3.0-or-later".toUTF8.toList && l.contains 0
  | none => false

end Verif.Tests

/-
C92: the threshold estimate is that of the published P2 algorithm.
-/
import Verif.Proofs.P2Paper
import Verif.F64.Basic
import Mathlib.Tactic.IntervalCases

namespace Verif
open XR Spec.P2Paper

theorem run_snoc {K : Type} [Field K] [LinearOrder K] (p : K) (pre : List K) (x : K) (h5 : 5 ≤ pre.length) :
    run p (pre ++ [x]) = observe p (pre.length + 1) (run p pre) x := by
  have hlen : ∀ (l : List K) (a : ℕ × Markers K),
      (l.foldl (fun (ms : ℕ × Markers K) x => (ms.1 + 1, observe p (ms.1 + 1) ms.2 x)) a).1 = a.1 + l.length := by
    intro l
    induction l with
    | nil => intro a; rfl
    | cons y l ih => intro a; rw [List.foldl_cons, ih]; simp only [List.length_cons]; omega
  unfold run
  rw [List.drop_append_of_le_length h5, List.take_append_of_le_length h5, List.foldl_append, List.foldl_cons, List.foldl_nil]
  dsimp only
  rw [hlen, List.length_drop]
  congr 1
  omega

theorem clean_init {K : Type} [Field K] [LinearOrder K] {p : K} {pre : List K} {x : K} (h : Clean p (pre ++ [x])) :
    Clean p pre := by
  intro j hj h5
  have := h j (by rw [List.length_append]; omega) h5
  rwa [List.take_append_of_le_length hj.le, List.getElem_append_left hj] at this

theorem Holds.run {p : ℝ} (x0 x1 x2 x3 x4 : ℝ) (rest : List ℝ) (hc : Clean p ([x0, x1, x2, x3, x4] ++ rest)) :
    Holds p (5 + rest.length) ((rest.map XR.fin).foldl Verif.upd (Verif.start (fin p) (fin x0) (fin x1) (fin x2) (fin x3) (fin x4)))
      (Spec.P2Paper.run p ([x0, x1, x2, x3, x4] ++ rest)) := by
  induction rest using List.reverseRecOn with
  | nil => exact Holds.start p x0 x1 x2 x3 x4
  | append_singleton l x ih =>
    rw [← List.append_assoc] at hc ⊢
    have H := ih (clean_init hc)
    rw [run_snoc _ _ _ (by simp), List.map_append, List.foldl_append]
    obtain ⟨a0, a4, a1, a2, a3⟩ := hc ([x0, x1, x2, x3, x4] ++ l).length (by simp) (by simp)
    rw [List.take_left] at a0 a1 a2 a3 a4
    simp only [List.getElem_concat_length] at a0 a1 a2 a3 a4
    have := H.upd a0 a4 a1 a2 a3
    simpa [add_comm, add_left_comm, add_assoc] using this

/-- In exact arithmetic, for data none of which (after the fifth) is a new extreme, repeats the smallest one or coincides with the height
of an inner marker, `p2_quantile` returns the estimate of the published algorithm.
Missing (false of the code, `C92_false`): new extremes, which the code does not count. -/
theorem C92_partial (p : ℝ) (data : List ℝ) (size : UInt64) (hs : size.toNat = data.length) (h5 : 5 ≤ data.length)
    (hc : Clean p data) : p2_quantile (fin p) (data.map XR.fin) size = .ok (fin (estimate p data)) := by
  rcases data with _ | ⟨x0, _ | ⟨x1, _ | ⟨x2, _ | ⟨x3, _ | ⟨x4, l⟩⟩⟩⟩⟩ <;> simp only [List.length_cons, List.length_nil] at h5 hs <;>
    try omega
  have H := Holds.run x0 x1 x2 x3 x4 l hc
  have e := p2_quantile_eq (fin p) (fin x0) (fin x1) (fin x2) (fin x3) (fin x4) (l.map XR.fin) [] size (by simpa using hs)
  rw [List.append_nil] at e
  rw [List.map_cons, List.map_cons, List.map_cons, List.map_cons, List.map_cons, e, H.q]
  rfl

/-- False of the code for the data 1, 2, ..., 8 and the median: the code returns 3, the published algorithm 4. -/
theorem C92_false : p2_quantile (lit (1 / 2) : F64) [lit 1, lit 2, lit 3, lit 4, lit 5, lit 6, lit 7, lit 8] 8 = .ok (lit 3) ∧
    estimate (1 / 2 : ℚ) [1, 2, 3, 4, 5, 6, 7, 8] = 4 := by
  constructor
  · decide +kernel
  · decide +kernel

/-- The specification reproduces the example of the paper (table I: the median of these 20 observations is estimated at 4.44). -/
example : |estimate (1 / 2 : ℚ) [2 / 100, 15 / 100, 74 / 100, 339 / 100, 83 / 100, 2237 / 100, 1015 / 100, 1543 / 100, 3862 / 100,
    1592 / 100, 3460 / 100, 1028 / 100, 147 / 100, 40 / 100, 5 / 100, 1139 / 100, 27 / 100, 42 / 100, 9 / 100, 1137 / 100] - 444 / 100| ≤
    5 / 1000 := by decide +kernel

/-- Data that meet the hypotheses. -/
example : Clean (1 / 2 : ℝ) [1, 3, 5, 7, 10, 2] := by
  have hr : Spec.P2Paper.run (1 / 2 : ℝ) [1, 3, 5, 7, 10] = Spec.P2Paper.start [1, 3, 5, 7, 10] := rfl
  have hs : ([1, 3, 5, 7, 10] : List ℝ).insertionSort (· ≤ ·) = [1, 3, 5, 7, 10] := by
    refine List.Pairwise.insertionSort_eq ?_
    norm_num [List.pairwise_cons]
  intro j hj h5
  simp only [List.length_cons, List.length_nil] at hj
  interval_cases j
  have ht : ([1, 3, 5, 7, 10, 2] : List ℝ).take 5 = [1, 3, 5, 7, 10] := rfl
  rw [ht, hr]
  unfold Spec.P2Paper.start
  rw [hs]
  norm_num

end Verif

/-
C137: what a call costs.
-/
import Verif.Proofs.Cost
import Verif.Props.Samples

namespace Verif
open Cost in
/-- **C137**. For every reachable detector, on doubles and in exact arithmetic, with any elementary functions: a call of `spot_step` accesses the buffer and calls elementary functions
at most 819·max_excess + 8 times, whatever the value and however long the detector has lived; `spot_quantile` and `spot_probability` at most twice; `spot_fit` on n values at most
n·(max_excess + 4) + 818·max_excess + 6 times (counting the accesses to the data). The counted functions (Spec/Cost.lean) do what the functions of the model do. -/
theorem C137_cost {α : Type} [CDouble α] [CDoubleLaws α] {M : MathFns α} {lib : Lib α} {q level : α} {low disc : ℤ} {me : UInt64} {s : Spot α} {h : Heap α}
    (R : Reaches M lib q low disc level me s h) :
    (∀ x, ∃ j, j ≤ 819 * me.toNat + 8 ∧ Cost.spot_step M h s x 0 = (Verif.spot_step M h s x).map (fun r => (r, j))) ∧
    (∀ p, ∃ j, j ≤ 2 ∧ Cost.spot_quantile M s p 0 = (Verif.spot_quantile M s p).map (fun r => (r, j))) ∧
    (∀ z, ∃ j, j ≤ 2 ∧ Cost.spot_probability M s z 0 = (Verif.spot_probability M s z).map (fun r => (r, j))) ∧
    ∀ data (size : UInt64), ∃ j, j ≤ size.toNat * (me.toNat + 4) + 818 * me.toNat + 6 ∧
      Cost.spot_fit M h s data size 0 = (Verif.spot_fit M h s data size).map (fun r => (r, j)) := by
  obtain ⟨a, xs, I, _⟩ := R.inv
  have i : Inside me.toNat s.tail.peaks.container := by
    have r := I.ring
    refine ⟨?_, r.cap.le⟩
    rw [r.cursor, r.cap]
    exact Nat.mod_lt _ r.pos
  have z : ∀ {β : Type} {f' : CT β} {f : C β} {k : ℕ}, Costs f' f k → ∃ j, j ≤ k ∧ f' 0 = f.map (fun r => (r, j)) := fun hc => by
    obtain ⟨j, h1, h2⟩ := hc 0
    exact ⟨j, h1, by rw [h2]; simp only [Nat.zero_add]⟩
  exact ⟨fun x => z (costs_step x i), fun p => z (costs_quantile s p), fun p => z (costs_probability s p), fun data size => z (costs_fit data size i)⟩

/-- An observation that is not an excess costs nothing: no access to the buffer and no elementary function. -/
theorem C137_quiet {α : Type} [CDouble α] (M : MathFns α) (h h' : Heap α) (s s' : Spot α) (x : α) (o : ℤ) (n : ℕ)
    (e : Cost.spot_step M h s x 0 = .ok ((o, s', h'), n)) (ho : o ≠ 1) : n = 0 := by
  unfold Cost.spot_step at e
  split at e
  · cases e; rfl
  split at e
  · cases e; rfl
  dsimp only at e
  split at e
  · exfalso
    obtain ⟨⟨r, n1⟩, _, e⟩ := C.bind_ok e
    obtain ⟨⟨f, n2⟩, _, e⟩ := C.bind_ok e
    obtain ⟨⟨z, n3⟩, _, e⟩ := C.bind_ok e
    cases e
    exact ho rfl
  · cases e; rfl

/-- The sample detector after its fit: the excess 5 costs 55 operations, the normal value 1 costs none, and a second fit on the seven values costs 102. -/
example : ∃ s h, (∃ outs, runOps (codeMath muslFU) Sample.init.2.2 Sample.init.2.1 [.fit Sample.data 7] = .ok (outs, s, h)) ∧
    (∃ s1 h1, Cost.spot_step (codeMath muslFU) h s (lit 5) 0 = .ok ((1, s1, h1), 55)) ∧ (∃ s2 h2, Cost.spot_step (codeMath muslFU) h s (lit 1) 0 = .ok ((0, s2, h2), 0)) ∧
    ∃ r, Cost.spot_fit (codeMath muslFU) h s Sample.data 7 0 = .ok (r, 102) := by
  have hd : (match runOps (codeMath muslFU) Sample.init.2.2 Sample.init.2.1 [.fit Sample.data 7] with
    | .ok (_, s, h) =>
      match Cost.spot_step (codeMath muslFU) h s (lit 5) 0, Cost.spot_step (codeMath muslFU) h s (lit 1) 0, Cost.spot_fit (codeMath muslFU) h s Sample.data 7 0 with
      | .ok ((o1, _, _), n1), .ok ((o2, _, _), n2), .ok (_, n3) => decide (o1 = 1) && decide (n1 = 55) && decide (o2 = 0) && decide (n2 = 0) && decide (n3 = 102)
      | _, _, _ => false
    | .error _ => false) = true := by decide +kernel
  split at hd
  · rename_i o s h e
    split at hd
    · rename_i o1 s1 h1 n1 o2 s2 h2 n2 r n3 e1 e2 e3
      simp only [Bool.and_eq_true, decide_eq_true_iff] at hd
      obtain ⟨⟨⟨⟨rfl, rfl⟩, rfl⟩, rfl⟩, rfl⟩ := hd
      exact ⟨s, h, ⟨o, e⟩, ⟨s1, h1, e1⟩, ⟨s2, h2, e2⟩, r, e3⟩
    · cases hd
  · cases hd

/-- The detectors of the first theorem exist: the sample detector is reachable. -/
example : Reaches (codeMath muslFU) Sample.lib (lit (1 / 100)) 0 1 (lit (9 / 10)) 20 Sample.init.2.1 Sample.init.2.2 :=
  ⟨by decide, by decide, Sample.emptyHeap, Sample.zeroed, by decide +kernel, [], [], by simp, rfl⟩

end Verif

/-
C136: what a detector remembers of a stream.
-/
import Verif.Proofs.Step
import Verif.Props.Samples

namespace Verif

/-- What counts in a stream of observations that were answered by the given codes: a normal observation counts by its presence (`none`), an excess by its value, and observations that were
reported as anomalies or refused (NaN) do not count. -/
def Spec.trace {α : Type} : List α → List ℤ → List (Option α)
  | x :: xs, o :: os => if o = 0 then none :: Spec.trace xs os else if o = 1 then some x :: Spec.trace xs os else Spec.trace xs os
  | _, _ => []

namespace Trace
variable {α : Type} [CDouble α] {M : MathFns α}

/-- the effect of one entry of a trace -/
def act (M : MathFns α) (st : Spot α × Heap α) : Option α → C (Spot α × Heap α)
  | none => .ok ({ st.1 with n := st.1.n + 1 }, st.2)
  | some x => do
    let s : Spot α := { st.1 with n := st.1.n + 1 }
    let r ← tail_push st.2 s.tail (s.up_down *. (x -. s.excess_threshold))
    let f ← tail_fit M r.2 r.1
    let s : Spot α := { s with Nt := s.Nt + 1, tail := f.2 }
    let z ← spot_quantile M s s.q
    .ok ({ s with anomaly_threshold := z }, r.2)

theorem step_act {h h' : Heap α} {s s' : Spot α} {x : α} {o : ℤ} (e : spot_step M h s x = .ok (o, s', h')) :
    (o = 0 ∧ act M (s, h) none = .ok (s', h')) ∨ (o = 1 ∧ act M (s, h) (some x) = .ok (s', h')) ∨ (o ≠ 0 ∧ o ≠ 1 ∧ s' = s ∧ h' = h) := by
  unfold spot_step at e
  split at e
  · simp only [Except.ok.injEq, Prod.mk.injEq] at e
    obtain ⟨rfl, rfl, rfl⟩ := e
    exact .inr (.inr ⟨by decide, by decide, rfl, rfl⟩)
  split at e
  · simp only [Except.ok.injEq, Prod.mk.injEq] at e
    obtain ⟨rfl, rfl, rfl⟩ := e
    exact .inr (.inr ⟨by decide, by decide, rfl, rfl⟩)
  dsimp only at e
  split at e
  · obtain ⟨r, e1, e⟩ := C.bind_ok e
    obtain ⟨f, e2, e⟩ := C.bind_ok e
    obtain ⟨z, e3, e⟩ := C.bind_ok e
    simp only [Except.ok.injEq, Prod.mk.injEq] at e
    obtain ⟨rfl, rfl, rfl⟩ := e
    refine .inr (.inl ⟨rfl, ?_⟩)
    unfold act
    dsimp only
    rw [e1]
    change (tail_fit M r.2 r.1 >>= _) = _
    rw [e2]
    change (spot_quantile M _ _ >>= _) = _
    rw [e3]
    rfl
  · simp only [Except.ok.injEq, Prod.mk.injEq] at e
    obtain ⟨rfl, rfl, rfl⟩ := e
    exact .inl ⟨rfl, rfl⟩

/-- a run is the run of its trace -/
theorem run_act (xs : List α) : ∀ {h h' : Heap α} {s s' : Spot α} {os : List ℤ} (_ : runOps M h s (xs.map .step) = .ok (os.map .code, s', h')),
    (Spec.trace xs os).foldlM (act M) (s, h) = .ok (s', h') := by
  induction xs with
  | nil =>
    intro h h' s s' os e
    simp only [List.map_nil, runOps, Except.ok.injEq, Prod.mk.injEq] at e
    obtain ⟨-, rfl, rfl⟩ := e
    rfl
  | cons x xs ih =>
    intro h h' s s' os e
    rw [List.map_cons] at e
    unfold runOps exec at e
    obtain ⟨r, e1, e⟩ := C.bind_ok e
    obtain ⟨w, ew, e1⟩ := C.bind_ok e1
    obtain ⟨r', e2, e⟩ := C.bind_ok e
    obtain ⟨w1, s1, h1⟩ := w
    obtain ⟨o', s2, h2⟩ := r'
    simp only [Except.ok.injEq] at e1
    subst e1
    simp only [Except.ok.injEq, Prod.mk.injEq] at e
    obtain ⟨eo, rfl, rfl⟩ := e
    rcases os with _ | ⟨o, os⟩
    · cases eo
    simp only [List.map_cons, List.cons.injEq, Out.code.injEq] at eo
    obtain ⟨rfl, rfl⟩ := eo
    have e2 : runOps M h1 s1 (xs.map .step) = .ok (os.map .code, s2, h2) := e2
    have k := ih e2
    unfold Spec.trace
    rcases step_act ew with ⟨rfl, a⟩ | ⟨rfl, a⟩ | ⟨n0, n1, rfl, rfl⟩
    · rw [if_pos rfl, List.foldlM_cons, a]; exact k
    · rw [if_neg (by decide), if_pos rfl, List.foldlM_cons, a]; exact k
    · rw [if_neg n0, if_neg n1]; exact k

end Trace

/-- **C136**. For every detector in any state, on doubles and in exact arithmetic, with any elementary functions: two streams with the same trace — the same excesses in the same order with the same
numbers of normal observations between them — leave the same detector and the same memory behind. The values of the normal observations, and all that was flagged or refused, leave no trace. -/
theorem C136_trace {α : Type} [CDouble α] (M : MathFns α) (s : Spot α) (h : Heap α) (xs ys : List α) (os ps : List ℤ) (s1 s2 : Spot α) (h1 h2 : Heap α)
    (r1 : runOps M h s (xs.map .step) = .ok (os.map .code, s1, h1)) (r2 : runOps M h s (ys.map .step) = .ok (ps.map .code, s2, h2))
    (ht : Spec.trace xs os = Spec.trace ys ps) : s1 = s2 ∧ h1 = h2 := by
  have a := Trace.run_act xs r1
  have b := Trace.run_act ys r2
  rw [ht, b] at a
  have := Except.ok.inj a
  simp only [Prod.mk.injEq] at this
  exact ⟨this.1.symm, this.2.symm⟩

/-- The hypotheses are met by the streams 1, 5, 1000, NaN, 2 and 0, 5, 3/2 after the fit of the sample data: 1000 is flagged, NaN is refused. -/
example : ∃ s h s1 s2 h1 h2, runOps (codeMath muslFU) h s ([lit 1, lit 5, lit 1000, cNAN, lit 2].map .step) = .ok ([0, 1, 2, -1005, 0].map .code, s1, h1) ∧
    runOps (codeMath muslFU) h s ([lit 0, lit 5, lit (3 / 2)].map .step) = .ok ([0, 1, 0].map .code, s2, h2) ∧
    Spec.trace [lit 1, lit 5, lit 1000, cNAN, lit 2] [0, 1, 2, -1005, 0] = Spec.trace [lit 0, lit 5, (lit (3 / 2) : F64)] [0, 1, 0] ∧ s1 = s2 ∧ h1 = h2 := by
  have hd : (match runOps (codeMath muslFU) Sample.init.2.2 Sample.init.2.1 [.fit Sample.data 7] with
    | .ok (_, s, h) =>
      match runOps (codeMath muslFU) h s ([lit 1, lit 5, lit 1000, cNAN, lit 2].map .step), runOps (codeMath muslFU) h s ([lit 0, lit 5, lit (3 / 2)].map .step) with
      | .ok (o1, _, _), .ok (o2, _, _) => decide (o1 = [0, 1, 2, -1005, 0].map .code) && decide (o2 = [0, 1, 0].map .code)
      | _, _ => false
    | .error _ => false) = true := by decide +kernel
  split at hd
  · rename_i o s h e
    split at hd
    · rename_i o1 s1 h1 o2 s2 h2 e1 e2
      simp only [Bool.and_eq_true, decide_eq_true_iff] at hd
      obtain ⟨rfl, rfl⟩ := hd
      have ht : Spec.trace [lit 1, lit 5, lit 1000, cNAN, lit 2] [0, 1, 2, -1005, 0] = Spec.trace [lit 0, lit 5, (lit (3 / 2) : F64)] [0, 1, 0] := rfl
      obtain ⟨a, b⟩ := C136_trace _ s h _ _ _ _ s1 s2 h1 h2 e1 e2 ht
      exact ⟨s, h, s1, s2, h1, h2, e1, e2, ht, a, b⟩
    · cases hd
  · cases hd

end Verif

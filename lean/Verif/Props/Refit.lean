/-
C91: the tail parameters are those estimated from the stored excesses.
-/
import Verif.Props.Estim
import Verif.Props.Step

namespace Verif
open F64 (notNaN isFin)

/-- The parameters of the tail `t` are those of one of the two estimators on the excesses stored in `t`, and no estimator that has a
likelihood has a greater one. -/
def Spec.MostLikely (M : MathFns F64) (h : Heap F64) (t : Tail F64) : Prop :=
  ∃ e1 e2 ll, mom_estimator M h t.peaks = .ok e1 ∧ grimshaw_estimator M h t.peaks = .ok e2 ∧
    log_likelihood M h t.peaks t.gamma t.sigma = .ok ll ∧
    ((t.gamma, t.sigma) = (e1.gamma, e1.sigma) ∨ (t.gamma, t.sigma) = (e2.gamma, e2.sigma)) ∧
    (notNaN e1.llhood → (e1.llhood <=. ll) = true) ∧ (notNaN e2.llhood → (e2.llhood <=. ll) = true)

theorem tail_fit_mostLikely {M : MathFns F64} {h : Heap F64} {t t' : Tail F64} {ll : F64} (he : tail_fit M h t = .ok (ll, t')) :
    Spec.MostLikely M h t' ∧ t'.peaks = t.peaks := by
  obtain ⟨e1, e2, h1, h2, hc, l1, l2, l3⟩ := C17_tail_fit M h t t' ll he
  have hp : t'.peaks = t.peaks := by rcases hc with ⟨_, rfl⟩ | ⟨_, rfl⟩ <;> rfl
  refine ⟨⟨e1, e2, ll, by rw [hp]; exact h1, by rw [hp]; exact h2, by rw [hp]; exact l3, ?_,
    fun hn => l1 ((F64.is_nan_false _).mpr hn), fun hn => l2 ((F64.is_nan_false _).mpr hn)⟩, hp⟩
  rcases hc with ⟨_, rfl⟩ | ⟨_, rfl⟩
  · exact Or.inl rfl
  · exact Or.inr rfl

/-- After an excess, the tail has the most likely parameters for the stored excesses, the new one included. -/
theorem C91_step (lib : Lib F64) (h : Heap F64) (s : Spot F64) (x : F64) (s' : Spot F64) (h' : Heap F64)
    (hs : spot_step (codeMath lib.fu) h s x = .ok (1, s', h')) :
    Spec.MostLikely (codeMath lib.fu) h' s'.tail ∧
      ∃ t, tail_push h s.tail (s.up_down *. (x -. s.excess_threshold)) = .ok (t, h') ∧ s'.tail.peaks = t.peaks := by
  unfold spot_step at hs
  split at hs
  · simp [ERR_DATA_IS_NAN] at hs
  split at hs
  · simp [ANOMALY] at hs
  dsimp only at hs
  split at hs
  · obtain ⟨p, hp, hs⟩ := C.bind_ok hs
    obtain ⟨f, hf, hs⟩ := C.bind_ok hs
    obtain ⟨z, hz, hs⟩ := C.bind_ok hs
    simp only [Except.ok.injEq, Prod.mk.injEq] at hs
    obtain ⟨-, rfl, rfl⟩ := hs
    obtain ⟨m1, m2⟩ := tail_fit_mostLikely (t := p.1) (t' := f.2) (ll := f.1) hf
    exact ⟨m1, p.1, hp, m2⟩
  · simp [NORMAL] at hs

/-- After a fit that found an excess threshold, the tail has the most likely parameters for the stored excesses. -/
theorem C91_fit (lib : Lib F64) (h : Heap F64) (s : Spot F64) (data : List F64) (size : UInt64) (r : ℤ) (s' : Spot F64)
    (h' : Heap F64) (hs : spot_fit (codeMath lib.fu) h s data size = .ok (r, s', h')) (hr : r ≠ -1003) :
    Spec.MostLikely (codeMath lib.fu) h' s'.tail := by
  unfold spot_fit at hs
  dsimp only at hs
  obtain ⟨et, het, hs⟩ := C.bind_ok hs
  split at hs
  · simp only [Except.ok.injEq, Prod.mk.injEq] at hs
    exact absurd hs.1.symm hr
  · obtain ⟨st, hst, hs⟩ := C.bind_ok hs
    obtain ⟨f, hf, hs⟩ := C.bind_ok hs
    obtain ⟨z, hz, hs⟩ := C.bind_ok hs
    obtain ⟨m1, -⟩ := tail_fit_mostLikely (t' := f.2) (ll := f.1) hf
    split at hs <;>
    · simp only [Except.ok.injEq, Prod.mk.injEq] at hs
      obtain ⟨-, rfl, rfl⟩ := hs
      exact m1

/-- A detector keeps this property whatever is called afterwards. -/
theorem C91_kept (lib : Lib F64) (h : Heap F64) (s : Spot F64) (hm : Spec.MostLikely (codeMath lib.fu) h s.tail)
    (ops : List (Op F64)) (outs : List (Out F64)) (s' : Spot F64) (h' : Heap F64)
    (hrun : runOps (codeMath lib.fu) h s ops = .ok (outs, s', h')) : Spec.MostLikely (codeMath lib.fu) h' s'.tail := by
  induction ops generalizing h s outs with
  | nil => cases hrun; exact hm
  | cons op ops ih =>
    unfold runOps at hrun
    obtain ⟨r, hr1, hrun⟩ := C.bind_ok hrun
    obtain ⟨rs, hr2, hrun⟩ := C.bind_ok hrun
    simp only [Except.ok.injEq, Prod.mk.injEq] at hrun
    obtain ⟨rfl, rfl, rfl⟩ := hrun
    refine ih _ _ ?_ _ hr2
    unfold exec at hr1
    cases op with
    | fit data size =>
      obtain ⟨f, hf, hr1⟩ := C.bind_ok hr1
      simp only [Except.ok.injEq] at hr1
      subst hr1
      by_cases hc : f.1 = -1003
      · have hf' := hf
        unfold spot_fit at hf'
        dsimp only at hf'
        obtain ⟨et, het, hs⟩ := C.bind_ok hf'
        split at hs
        · simp only [Except.ok.injEq] at hs
          rw [← hs]; exact hm
        · obtain ⟨st, hst, hs⟩ := C.bind_ok hs
          obtain ⟨g, hg, hs⟩ := C.bind_ok hs
          obtain ⟨z, hz, hs⟩ := C.bind_ok hs
          split at hs <;>
          · simp only [Except.ok.injEq] at hs
            rw [← hs] at hc
            revert hc
            simp [ERR_ANOMALY_THRESHOLD_IS_NAN]
      · exact C91_fit lib h s data size f.1 f.2.1 f.2.2 hf hc
    | step x =>
      obtain ⟨f, hf, hr1⟩ := C.bind_ok hr1
      simp only [Except.ok.injEq] at hr1
      subst hr1
      rcases step_cases (r := f.1) (s' := f.2.1) (h' := f.2.2) hf with ⟨_, _, h1, h2⟩ | ⟨_, _, _, h1, h2⟩ | ⟨_, _, _, h1, _⟩ | ⟨_, _, _, _, h1, h2⟩
      · rw [h1, h2]; exact hm
      · rw [h1, h2]; exact hm
      · exact (C91_step lib h s x f.2.1 f.2.2 (by rw [hf, ← Prod.mk.eta (p := f), h1]; rfl)).1
      · rw [h1, h2]; exact hm
    | quantile q =>
      obtain ⟨f, hf, hr1⟩ := C.bind_ok hr1
      simp only [Except.ok.injEq] at hr1
      subst hr1; exact hm
    | probability z =>
      obtain ⟨f, hf, hr1⟩ := C.bind_ok hr1
      simp only [Except.ok.injEq] at hr1
      subst hr1; exact hm

/-- The sample history has a fit and an excess. -/
example : (runOps (codeMath muslFU) Sample.heap Sample.spot Sample.ops).map (fun r => r.1.take 3) =
    .ok [.code 0, .code 0, .code 1] := by
  have := Sample.ops_run
  cases h : runOps (codeMath muslFU) Sample.heap Sample.spot Sample.ops with
  | error e => rw [h] at this; cases this
  | ok r =>
    rw [h] at this
    have h2 := congrArg (fun x : C _ => x.map (fun y => y.1.take 3)) this
    simpa [Except.map, List.take_take] using h2

end Verif

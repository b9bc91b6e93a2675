/-
C139: q and discard_anomalies have no influence on the model until something is flagged.
-/
import Verif.Proofs.Step
import Verif.Props.Samples

namespace Verif

/-- the two detectors have the same contents but for `q`, `discard_anomalies` and the anomaly threshold -/
def Spec.Agree {α : Type} (s t : Spot α) : Prop :=
  s.level = t.level ∧ s.low = t.low ∧ s.up_down = t.up_down ∧ s.excess_threshold = t.excess_threshold ∧ s.Nt = t.Nt ∧ s.n = t.n ∧ s.tail = t.tail

namespace Alarms
variable {α : Type} [CDouble α] {M : MathFns α} {h : Heap α} {s t : Spot α}

omit [CDouble α] in
theorem eq_of (A : Spec.Agree s t) : t = { s with q := t.q, anomaly_threshold := t.anomaly_threshold, discard_anomalies := t.discard_anomalies } := by
  obtain ⟨q1, l1, d1, w1, u1, a1, e1, N1, n1, t1⟩ := s
  obtain ⟨q2, l2, d2, w2, u2, a2, e2, N2, n2, t2⟩ := t
  obtain ⟨a, b, c, d, e, f, g⟩ := A
  simp only at a b c d e f g
  subst a b c d e f g
  rfl

theorem quantile_eq (A : Spec.Agree s t) (p : α) : spot_quantile M s p = spot_quantile M t p := by rw [eq_of A]; rfl
theorem probability_eq (A : Spec.Agree s t) (z : α) : spot_probability M s z = spot_probability M t z := by rw [eq_of A]; rfl

/-- a step that flags nothing in either detector -/
theorem step_agree (A : Spec.Agree s t) {x : α} {o o' : ℤ} {s' t' : Spot α} {h1 h2 : Heap α} (e : spot_step M h s x = .ok (o, s', h1)) (e' : spot_step M h t x = .ok (o', t', h2))
    (ho : o ≠ 2) (ho' : o' ≠ 2) : o = o' ∧ Spec.Agree s' t' ∧ h1 = h2 := by
  rw [eq_of A] at e'
  obtain ⟨A1, A2, A3, A4, A5, A6, A7⟩ := A
  unfold spot_step at e e'
  split at e
  · rename_i c
    rw [if_pos c] at e'
    cases e; cases e'
    exact ⟨rfl, ⟨rfl, rfl, rfl, rfl, rfl, rfl, rfl⟩, rfl⟩
  rename_i c
  rw [if_neg c] at e'
  split at e
  · cases e; exact absurd rfl ho
  split at e'
  · cases e'; exact absurd rfl ho'
  dsimp only at e e'
  split at e
  · rename_i c1
    rw [if_pos c1] at e'
    obtain ⟨r, b1, e⟩ := C.bind_ok e
    obtain ⟨f, b2, e⟩ := C.bind_ok e
    obtain ⟨z, b3, e⟩ := C.bind_ok e
    obtain ⟨r', b1', e'⟩ := C.bind_ok e'
    obtain ⟨f', b2', e'⟩ := C.bind_ok e'
    obtain ⟨z', b3', e'⟩ := C.bind_ok e'
    rw [b1] at b1'; cases b1'
    rw [b2] at b2'; cases b2'
    cases e; cases e'
    exact ⟨rfl, ⟨rfl, rfl, rfl, rfl, rfl, rfl, rfl⟩, rfl⟩
  · rename_i c1
    rw [if_neg c1] at e'
    cases e; cases e'
    exact ⟨rfl, ⟨rfl, rfl, rfl, rfl, rfl, rfl, rfl⟩, rfl⟩

/-- one training value -/
theorem body_agree (A : Spec.Agree s t) {et x : α} {r r' : Spot α × Heap α} (e : fit_body et (s, h) x = .ok r) (e' : fit_body et (t, h) x = .ok r') :
    Spec.Agree r.1 r'.1 ∧ r.2 = r'.2 := by
  rw [eq_of A] at e'
  unfold fit_body at e e'
  dsimp only at e e'
  split at e
  · rename_i c
    rw [if_pos c] at e'
    obtain ⟨w, b, e⟩ := C.bind_ok e
    obtain ⟨w', b', e'⟩ := C.bind_ok e'
    rw [b] at b'; cases b'
    cases e; cases e'
    exact ⟨⟨rfl, rfl, rfl, rfl, rfl, rfl, rfl⟩, rfl⟩
  · rename_i c
    rw [if_neg c] at e'
    cases e; cases e'
    exact ⟨⟨rfl, rfl, rfl, rfl, rfl, rfl, rfl⟩, rfl⟩

theorem loop_agree {data : List α} {et : α} (l : List ℕ) : ∀ {s t : Spot α} {h : Heap α} {r r' : Spot α × Heap α} (_ : Spec.Agree s t)
    (_ : (l.foldlM (fun st i => do let x ← loadBuf data i; fit_body et st x) (s, h) : C (Spot α × Heap α)) = .ok r)
    (_ : (l.foldlM (fun st i => do let x ← loadBuf data i; fit_body et st x) (t, h) : C (Spot α × Heap α)) = .ok r'), Spec.Agree r.1 r'.1 ∧ r.2 = r'.2 := by
  induction l with
  | nil => intro s t h r r' A e e'; cases e; cases e'; exact ⟨A, rfl⟩
  | cons i l ih =>
    intro s t h r r' A e e'
    rw [List.foldlM_cons] at e e'
    obtain ⟨⟨s1, h1⟩, b, e⟩ := C.bind_ok e
    obtain ⟨⟨t1, h2⟩, b', e'⟩ := C.bind_ok e'
    obtain ⟨x, c, b⟩ := C.bind_ok b
    obtain ⟨x', c', b'⟩ := C.bind_ok b'
    rw [c] at c'; cases c'
    obtain ⟨A1, hh⟩ := body_agree A b b'
    dsimp only at A1 hh
    subst hh
    exact ih A1 e e'

/-- a fit -/
theorem fit_agree (A : Spec.Agree s t) {data : List α} {size : UInt64} {r r' : ℤ × Spot α × Heap α} (e : spot_fit M h s data size = .ok r) (e' : spot_fit M h t data size = .ok r') :
    Spec.Agree r.2.1 r'.2.1 ∧ r.2.2 = r'.2.2 := by
  rw [eq_of A] at e'
  unfold spot_fit at e e'
  dsimp only at e e'
  obtain ⟨et, b, e⟩ := C.bind_ok e
  obtain ⟨et', b', e'⟩ := C.bind_ok e'
  rw [b] at b'; cases b'
  split at e
  · rename_i c
    rw [if_pos c] at e'
    cases e; cases e'
    exact ⟨⟨rfl, rfl, rfl, rfl, rfl, rfl, rfl⟩, rfl⟩
  · rename_i c
    rw [if_neg c] at e'
    obtain ⟨st, b1, e⟩ := C.bind_ok e
    obtain ⟨st', b1', e'⟩ := C.bind_ok e'
    obtain ⟨B, hh⟩ : Spec.Agree st.1 st'.1 ∧ st.2 = st'.2 := by
      refine loop_agree _ ?_ b1 b1'
      exact ⟨rfl, rfl, rfl, rfl, rfl, rfl, rfl⟩
    obtain ⟨st, g⟩ := st
    obtain ⟨st', g'⟩ := st'
    dsimp only at B hh
    subst hh
    obtain ⟨B1, B2, B3, B4, B5, B6, B7⟩ := B
    obtain ⟨f, b2, e⟩ := C.bind_ok e
    obtain ⟨f', b2', e'⟩ := C.bind_ok e'
    dsimp only at b2 b2'
    rw [← B7, b2] at b2'
    cases b2'
    obtain ⟨z, b3, e⟩ := C.bind_ok e
    obtain ⟨z', b3', e'⟩ := C.bind_ok e'
    have k : r.2.1 = { st with tail := f.2, anomaly_threshold := z } ∧ r.2.2 = g := by
      split at e <;> (cases e; exact ⟨rfl, rfl⟩)
    have k' : r'.2.1 = { st' with tail := f.2, anomaly_threshold := z' } ∧ r'.2.2 = g := by
      split at e' <;> (cases e'; exact ⟨rfl, rfl⟩)
    rw [k.1, k'.1, k.2, k'.2]
    exact ⟨⟨B1, B2, B3, B4, B5, B6, rfl⟩, rfl⟩

end Alarms

/-- **C139**. For every number type of the model, any elementary functions and any states: run the same calls on two detectors whose contents agree but for `q`, `discard_anomalies` and the anomaly
threshold. As long as neither of them flags anything, they give the same answers (the return code of `spot_fit`, which says whether the anomaly threshold is usable, excepted), and their contents
still agree. -/
theorem C139_same {α : Type} [CDouble α] {M : MathFns α} (ops : List (Op α)) (h : Heap α) (s t : Spot α) (A : Spec.Agree s t)
    (os ps : List (Out α)) (s' t' : Spot α) (h1 h2 : Heap α) (e : runOps M h s ops = .ok (os, s', h1)) (e' : runOps M h t ops = .ok (ps, t', h2))
    (ho : .code 2 ∉ os) (hp : .code 2 ∉ ps) :
    (∀ (i : ℕ) (op : Op α), ops[i]? = some op → op.notFit → os[i]? = ps[i]?) ∧ Spec.Agree s' t' ∧ h1 = h2 := by
  induction ops generalizing h s t os ps with
  | nil => cases e; cases e'; exact ⟨fun i op hi => by simp at hi, A, rfl⟩
  | cons op ops ih =>
    unfold runOps at e e'
    obtain ⟨⟨o, s1, g1⟩, b, e⟩ := C.bind_ok e
    obtain ⟨⟨os, s2, g2⟩, b2, e⟩ := C.bind_ok e
    obtain ⟨⟨p, t1, k1⟩, b', e'⟩ := C.bind_ok e'
    obtain ⟨⟨ps, t2, k2⟩, b2', e'⟩ := C.bind_ok e'
    cases e; cases e'
    rw [List.mem_cons, not_or] at ho hp
    have main : (op.notFit → o = p) ∧ Spec.Agree s1 t1 ∧ g1 = k1 := by
      unfold exec at b b'
      cases op with
      | fit data size =>
        obtain ⟨r, c, b⟩ := C.bind_ok b
        obtain ⟨r', c', b'⟩ := C.bind_ok b'
        cases b; cases b'
        exact ⟨fun hf => absurd hf id, Alarms.fit_agree A c c'⟩
      | step x =>
        obtain ⟨r, c, b⟩ := C.bind_ok b
        obtain ⟨r', c', b'⟩ := C.bind_ok b'
        cases b; cases b'
        obtain ⟨k1, k2, k3⟩ := Alarms.step_agree A c c' (fun he => ho.1 (by rw [he])) (fun he => hp.1 (by rw [he]))
        exact ⟨fun _ => by rw [k1], k2, k3⟩
      | quantile p =>
        obtain ⟨r, c, b⟩ := C.bind_ok b
        obtain ⟨r', c', b'⟩ := C.bind_ok b'
        rw [← Alarms.quantile_eq A, c] at c'
        cases c'; cases b; cases b'
        exact ⟨fun _ => rfl, A, rfl⟩
      | probability z =>
        obtain ⟨r, c, b⟩ := C.bind_ok b
        obtain ⟨r', c', b'⟩ := C.bind_ok b'
        rw [← Alarms.probability_eq A, c] at c'
        cases c'; cases b; cases b'
        exact ⟨fun _ => rfl, A, rfl⟩
    obtain ⟨m1, m2, rfl⟩ := main
    obtain ⟨i1, i2, i3⟩ := ih _ _ _ m2 _ _ b2 b2' ho.2 hp.2
    refine ⟨fun i op' hi hf => ?_, i2, i3⟩
    cases i with
    | zero =>
      simp only [List.getElem?_cons_zero, Option.some.injEq] at hi ⊢
      subst hi
      exact m1 hf
    | succ i =>
      simp only [List.getElem?_cons_succ] at hi ⊢
      exact i1 i op' hi hf

/-- Two initialisations that differ in `q` and `discard_anomalies` only give such detectors, in the same memory. -/
theorem C139_init {α : Type} [CDouble α] (lib : Lib α) (h : Heap α) (s0 : Spot α) (q q' level : α) (low disc disc' : ℤ) (me : UInt64)
    (e : (spot_init lib h s0 q low disc level me).1 = 0) (e' : (spot_init lib h s0 q' low disc' level me).1 = 0) :
    Spec.Agree (spot_init lib h s0 q low disc level me).2.1 (spot_init lib h s0 q' low disc' level me).2.1 ∧
    (spot_init lib h s0 q low disc level me).2.2 = (spot_init lib h s0 q' low disc' level me).2.2 := by
  unfold spot_init at e e' ⊢
  by_cases c : (level <. lit 0 || level >=. lit 1) = true
  · rw [if_pos c] at e; cases e
  by_cases c1 : (q >=. (lit 1 -. level) || q <=. lit 0) = true
  · rw [if_neg c, if_pos c1] at e; cases e
  by_cases c2 : (q' >=. (lit 1 -. level) || q' <=. lit 0) = true
  · rw [if_neg c, if_pos c2] at e'; cases e'
  rw [if_neg c, if_neg c1] at e ⊢
  rw [if_neg c, if_neg c2] at e' ⊢
  unfold Spec.Agree
  dsimp only at e e' ⊢
  have hr : ¬ (tail_init lib h me).1 < 0 := fun hc => by rw [if_pos hc] at e; cases e
  rw [if_neg hr, if_neg hr]
  by_cases c3 : low = 0 <;> by_cases c4 : disc = 0 <;> by_cases c5 : disc' = 0 <;> simp [c3, c4, c5]

/-- Non-vacuity: two initialisations of the sample detector with q = 1/100, discarding, and q = 1/1000, not discarding; after the fit of the sample data and the calls below nothing was flagged, and
the anomaly thresholds differ. -/
example : ∃ os ps s t h1 h2, runOps (codeMath muslFU) Sample.init.2.2 Sample.init.2.1 [.fit Sample.data 7, .step (lit 5), .step (lit 1), .quantile (lit (1 / 50))] = .ok (os, s, h1) ∧
    runOps (codeMath muslFU) Sample.init.2.2 (spot_init Sample.lib Sample.emptyHeap Sample.zeroed (lit (1 / 1000)) 0 0 (lit (9 / 10)) 20).2.1
      [.fit Sample.data 7, .step (lit 5), .step (lit 1), .quantile (lit (1 / 50))] = .ok (ps, t, h2) ∧
    .code 2 ∉ os ∧ .code 2 ∉ ps ∧ s.anomaly_threshold ≠ t.anomaly_threshold ∧
    Spec.Agree Sample.init.2.1 (spot_init Sample.lib Sample.emptyHeap Sample.zeroed (lit (1 / 1000)) 0 0 (lit (9 / 10)) 20).2.1 := by
  have ha := (C139_init Sample.lib Sample.emptyHeap Sample.zeroed (lit (1 / 100)) (lit (1 / 1000)) (lit (9 / 10)) 0 1 0 20 (by decide +kernel) (by decide +kernel)).1
  have hd : (match runOps (codeMath muslFU) Sample.init.2.2 Sample.init.2.1 [.fit Sample.data 7, .step (lit 5), .step (lit 1), .quantile (lit (1 / 50))],
      runOps (codeMath muslFU) Sample.init.2.2 (spot_init Sample.lib Sample.emptyHeap Sample.zeroed (lit (1 / 1000)) 0 0 (lit (9 / 10)) 20).2.1
        [.fit Sample.data 7, .step (lit 5), .step (lit 1), .quantile (lit (1 / 50))] with
    | .ok (os, s, _), .ok (ps, t, _) => decide (Out.code 2 ∉ os) && decide (Out.code 2 ∉ ps) && decide (s.anomaly_threshold ≠ t.anomaly_threshold)
    | _, _ => false) = true := by decide +kernel
  split at hd
  · rename_i os s h1 ps t h2 e1 e2
    simp only [Bool.and_eq_true, decide_eq_true_iff] at hd
    exact ⟨os, ps, s, t, h1, h2, e1, e2, hd.1.1, hd.1.2, hd.2, ha⟩
  · cases hd

end Verif

/-
Two detectors that differ in `q` only, fed with the same calls.
-/
import Verif.Proofs.Step
import Verif.Model.History

namespace Verif
variable {α : Type} [CDouble α] {M : MathFns α}

/-- the same detector with another `q` and another anomaly threshold -/
def withQ (s : Spot α) (q z : α) : Spot α := { s with q := q, anomaly_threshold := z }

theorem fit_body_twin (q z et x : α) (s : Spot α) (h : Heap α) :
    fit_body et (withQ s q z, h) x = (fit_body et (s, h) x).map fun r => (withQ r.1 q z, r.2) := by
  unfold fit_body
  dsimp only
  change (if s.up_down *. (x -. et) >. lit 0 then _ else _) = _
  split
  · change (tail_push h s.tail (s.up_down *. (x -. et)) >>= _) = _
    cases tail_push h s.tail (s.up_down *. (x -. et)) with
    | error e => rfl
    | ok r => rfl
  · rfl

theorem fit_fold_twin (q z et : α) (data : List α) (l : List ℕ) (s : Spot α) (h : Heap α) :
    l.foldlM (fun st i => do
        let x ← loadBuf data i
        fit_body et st x) (withQ s q z, h) =
      (l.foldlM (fun st i => do
        let x ← loadBuf data i
        fit_body et st x) (s, h)).map fun r : Spot α × Heap α => (withQ r.1 q z, r.2) := by
  induction l generalizing s h with
  | nil => rfl
  | cons i l ih =>
    rw [List.foldlM_cons, List.foldlM_cons]
    cases loadBuf data i with
    | error e => rfl
    | ok x =>
      simp only [C.ok_bind]
      rw [fit_body_twin]
      cases fit_body et (s, h) x with
      | error e => rfl
      | ok r =>
        change List.foldlM _ (withQ r.1 q z, r.2) l = _
        rw [ih]
        rfl

theorem fit_fold_keep (et : α) (data : List α) (l : List ℕ) (s : Spot α) (h : Heap α) (st : Spot α × Heap α)
    (hs : l.foldlM (fun st i => do
        let x ← loadBuf data i
        fit_body et st x) (s, h) = .ok st) :
    st.1.q = s.q ∧ st.1.up_down = s.up_down ∧ st.1.discard_anomalies = s.discard_anomalies := by
  induction l generalizing s h with
  | nil => cases hs; exact ⟨rfl, rfl, rfl⟩
  | cons i l ih =>
    rw [List.foldlM_cons] at hs
    obtain ⟨r, hr, hs⟩ := C.bind_ok hs
    obtain ⟨x, -, hr⟩ := C.bind_ok hr
    obtain ⟨i1, i2, i3⟩ := ih r.1 r.2 hs
    have hk : r.1.q = s.q ∧ r.1.up_down = s.up_down ∧ r.1.discard_anomalies = s.discard_anomalies := by
      unfold fit_body at hr
      dsimp only at hr
      split at hr
      · obtain ⟨p, -, hr⟩ := C.bind_ok hr
        cases hr; exact ⟨rfl, rfl, rfl⟩
      · cases hr; exact ⟨rfl, rfl, rfl⟩
    exact ⟨i1.trans hk.1, i2.trans hk.2.1, i3.trans hk.2.2⟩

omit [CDouble α] in
theorem code_ne {a b : ℤ} (h : a ≠ b) : (Out.code a : Out α) ≠ Out.code b := fun hc => h (Out.code.inj hc)

/-- what a call does to the two thresholds -/
def Moved (M : MathFns α) (s t : Spot α) (q' z' z1 : α) : Prop :=
  (t.anomaly_threshold = s.anomaly_threshold ∧ z1 = z') ∨
    (spot_quantile M t s.q = .ok t.anomaly_threshold ∧ spot_quantile M (withQ t q' z1) q' = .ok z1)

/-- the two detectors stay twins as long as the second one flags nothing -/
theorem twin_exec {h g g' : Heap α} {s t t' : Spot α} {q' z' : α} {op : Op α} {o o' : Out α}
    (ha : ∀ x, anomTest s x = true → anomTest (withQ s q' z') x = true)
    (hA : exec M h s op = .ok (o, t, g)) (hB : exec M h (withQ s q' z') op = .ok (o', t', g')) (ho : o' ≠ .code ANOMALY) :
    o ≠ .code ANOMALY ∧ ∃ z1, t' = withQ t q' z1 ∧ g' = g ∧ t.q = s.q ∧ t.up_down = s.up_down ∧
      t.discard_anomalies = s.discard_anomalies ∧ Moved M s t q' z' z1 := by
  cases op with
  | quantile q =>
    unfold exec at hA hB
    obtain ⟨v, -, hA⟩ := C.bind_ok hA
    obtain ⟨v', -, hB⟩ := C.bind_ok hB
    cases hA; cases hB
    exact ⟨by simp, z', rfl, rfl, rfl, rfl, rfl, .inl ⟨rfl, rfl⟩⟩
  | probability z =>
    unfold exec at hA hB
    obtain ⟨v, -, hA⟩ := C.bind_ok hA
    obtain ⟨v', -, hB⟩ := C.bind_ok hB
    cases hA; cases hB
    exact ⟨by simp, z', rfl, rfl, rfl, rfl, rfl, .inl ⟨rfl, rfl⟩⟩
  | fit data size =>
    unfold exec at hA hB
    obtain ⟨⟨r, s1, h1⟩, hA', hA⟩ := C.bind_ok hA
    obtain ⟨⟨r', s1', h1'⟩, hB', hB⟩ := C.bind_ok hB
    cases hA; cases hB
    unfold spot_fit at hA' hB'
    obtain ⟨et, het, hA'⟩ := C.bind_ok hA'
    obtain ⟨et', het', hB'⟩ := C.bind_ok hB'
    have : et' = et := by
      have h2 : (Except.ok et' : C α) = .ok et := het'.symm.trans het
      cases h2; rfl
    subst this
    by_cases hn : is_nan et' = true
    · rw [if_pos hn] at hA' hB'
      cases hA'; cases hB'
      exact ⟨code_ne (a := -ERR_EXCESS_THRESHOLD_IS_NAN) (by decide), z', rfl, rfl, rfl, rfl, rfl, .inl ⟨rfl, rfl⟩⟩
    · rw [if_neg hn] at hA' hB'
      dsimp only at hA' hB'
      obtain ⟨st, hst, hA'⟩ := C.bind_ok hA'
      obtain ⟨st', hst', hB'⟩ := C.bind_ok hB'
      have e1 := fit_fold_twin q' z' et' data (List.range size.toNat) { s with Nt := 0, n := size, excess_threshold := et' } h
      rw [hst] at e1
      have e2 : st' = (withQ st.1 q' z', st.2) := by
        have h2 : (Except.ok st' : C (Spot α × Heap α)) = .ok (withQ st.1 q' z', st.2) := hst'.symm.trans e1
        cases h2; rfl
      subst e2
      obtain ⟨k1, k2, k3⟩ := fit_fold_keep et' data _ _ _ _ hst
      obtain ⟨f, hf, hA'⟩ := C.bind_ok hA'
      obtain ⟨f', hf', hB'⟩ := C.bind_ok hB'
      have e3 : f' = f := by
        have h2 : (Except.ok f' : C _) = .ok f := hf'.symm.trans hf
        cases h2; rfl
      subst e3
      obtain ⟨z, hz, hA'⟩ := C.bind_ok hA'
      obtain ⟨z1, hz1, hB'⟩ := C.bind_ok hB'
      have c1 : r ≠ ANOMALY := by
        split at hA' <;> (cases hA'; decide)
      have t1 : s1 = { st.1 with tail := f'.2, anomaly_threshold := z } ∧ h1 = st.2 := by
        split at hA' <;> (cases hA'; exact ⟨rfl, rfl⟩)
      have t2 : s1' = { withQ st.1 q' z' with tail := f'.2, anomaly_threshold := z1 } ∧ h1' = st.2 := by
        split at hB' <;> (cases hB'; exact ⟨rfl, rfl⟩)
      obtain ⟨rfl, rfl⟩ := t1
      obtain ⟨rfl, rfl⟩ := t2
      refine ⟨fun hc => c1 (Out.code.inj hc), z1, rfl, rfl, k1, k2, k3, .inr ⟨?_, hz1⟩⟩
      dsimp only at k1 hz
      rw [← k1]
      exact hz
  | step x =>
    unfold exec at hA hB
    obtain ⟨⟨r, s1, h1⟩, hA', hA⟩ := C.bind_ok hA
    obtain ⟨⟨r', s1', h1'⟩, hB', hB⟩ := C.bind_ok hB
    cases hA; cases hB
    unfold spot_step at hA' hB'
    by_cases hx : is_nan x = true
    · rw [if_pos hx] at hA' hB'
      cases hA'; cases hB'
      exact ⟨code_ne (a := -ERR_DATA_IS_NAN) (by decide), z', rfl, rfl, rfl, rfl, rfl, .inl ⟨rfl, rfl⟩⟩
    rw [if_neg hx] at hA' hB'
    by_cases hb : anomTest (withQ s q' z') x = true
    · have hb' := hb
      unfold anomTest at hb'
      rw [if_pos hb'] at hB'
      cases hB'
      exact absurd rfl ho
    · have hna : ¬ anomTest s x = true := fun h => hb (ha x h)
      have hb' := hb
      have hna' := hna
      unfold anomTest at hb' hna'
      rw [if_neg hb'] at hB'
      rw [if_neg hna'] at hA'
      dsimp only at hA' hB'
      by_cases hex : (s.up_down *. (x -. s.excess_threshold) >=. lit 0) = true
      · rw [if_pos hex] at hA'
        rw [if_pos (show ((withQ s q' z').up_down *. (x -. (withQ s q' z').excess_threshold) >=. lit 0) = true from hex)] at hB'
        obtain ⟨p, hp, hA'⟩ := C.bind_ok hA'
        obtain ⟨p', hp', hB'⟩ := C.bind_ok hB'
        have e1 : p' = p := by
          have h2 : (Except.ok p' : C _) = .ok p := hp'.symm.trans hp
          cases h2; rfl
        subst e1
        obtain ⟨f, hf, hA'⟩ := C.bind_ok hA'
        obtain ⟨f', hf', hB'⟩ := C.bind_ok hB'
        have e3 : f' = f := by
          have h2 : (Except.ok f' : C _) = .ok f := hf'.symm.trans hf
          cases h2; rfl
        subst e3
        obtain ⟨z, hz, hA'⟩ := C.bind_ok hA'
        obtain ⟨z1, hz1, hB'⟩ := C.bind_ok hB'
        cases hA'; cases hB'
        exact ⟨code_ne (a := EXCESS) (by decide), z1, rfl, rfl, rfl, rfl, rfl, .inr ⟨hz, hz1⟩⟩
      · rw [if_neg hex] at hA'
        rw [if_neg (show ¬ ((withQ s q' z').up_down *. (x -. (withQ s q' z').excess_threshold) >=. lit 0) = true from hex)] at hB'
        cases hA'; cases hB'
        exact ⟨code_ne (a := NORMAL) (by decide), z', rfl, rfl, rfl, rfl, rfl, .inl ⟨rfl, rfl⟩⟩

/-- The alarms of the two detectors, for any arithmetic: `G` says of the second detector that it is in a state where the order of
the thresholds is known. -/
theorem first_alarm {q q' ud : α} {G : Spot α → Prop}
    (hG : ∀ (t : Spot α) (z1 : α), t.up_down = ud → G (withQ t q' z1) → spot_quantile M t q = .ok t.anomaly_threshold →
      spot_quantile M (withQ t q' z1) q' = .ok z1 → ∀ x, anomTest t x = true → anomTest (withQ t q' z1) x = true)
    (ops : List (Op α)) :
    ∀ (h : Heap α) (s : Spot α) (z' : α), s.up_down = ud → s.q = q →
      (∀ x, anomTest s x = true → anomTest (withQ s q' z') x = true) →
      (∀ k o t g, runOps M h (withQ s q' z') (ops.take k) = .ok (o, t, g) → Out.code 2 ∉ o → G t) →
      ∀ outs t g outs' t' g', runOps M h s ops = .ok (outs, t, g) → runOps M h (withQ s q' z') ops = .ok (outs', t', g') →
        ∀ k : ℕ, outs[k]? = some (Out.code 2) → ∃ j ≤ k, outs'[j]? = some (Out.code 2) := by
  induction ops with
  | nil =>
    intro h s z' _ _ _ _ outs t g outs' t' g' hA _ k hk
    cases hA
    simp at hk
  | cons op ops ih =>
    intro h s z' hu hsq ha good outs t g outs' t' g' hA hB k hk
    unfold runOps at hA hB
    obtain ⟨⟨o, s1, h1'⟩, eA, hA⟩ := C.bind_ok hA
    obtain ⟨⟨os, s2, h2⟩, rA, hA⟩ := C.bind_ok hA
    obtain ⟨⟨o', s1', h1''⟩, eB, hB⟩ := C.bind_ok hB
    obtain ⟨⟨os', s2', h2'⟩, rB, hB⟩ := C.bind_ok hB
    cases hA; cases hB
    by_cases ho : o' = .code 2
    · exact ⟨0, Nat.zero_le _, by simp [ho]⟩
    obtain ⟨on, z1, e1, e2, tq, tu, td, hm⟩ := twin_exec ha eA eB ho
    subst e1 e2
    cases k with
    | zero =>
      simp only [List.getElem?_cons_zero, Option.some.injEq] at hk
      exact absurd hk on
    | succ k =>
      simp only [List.getElem?_cons_succ] at hk
      have hu1 : s1.up_down = ud := tu.trans hu
      have hC : G (withQ s1 q' z1) := by
        refine good 1 [o'] (withQ s1 q' z1) h1'' ?_ (by simpa using fun h => ho h.symm)
        rw [List.take_succ_cons, List.take_zero]
        unfold runOps
        rw [eB]
        rfl
      have ha1 : ∀ x, anomTest s1 x = true → anomTest (withQ s1 q' z1) x = true := by
        intro x hx
        rcases hm with ⟨m1, m2⟩ | ⟨m1, m2⟩
        · have := ha x
          unfold anomTest at this hx ⊢
          unfold withQ at this ⊢
          dsimp only at this hx ⊢
          rw [tu, td, m1] at hx
          rw [tu, td, m2]
          exact this hx
        · rw [hsq] at m1
          exact hG s1 z1 hu1 hC m1 m2 x hx
      obtain ⟨j, hj, hj'⟩ := ih h1'' s1 z1 hu1 (tq.trans hsq) ha1 (by
        intro k o t g hr hno
        refine good (k + 1) (o' :: o) t g ?_ ?_
        · rw [List.take_succ_cons]
          unfold runOps
          rw [eB]
          simp only [C.ok_bind]
          rw [hr]
          rfl
        · rw [List.mem_cons, not_or]
          exact ⟨fun h => ho h.symm, hno⟩) _ _ _ _ _ _ rA rB k hk
      exact ⟨j + 1, by omega, by simpa using hj'⟩

/-- the detector made by a successful `spot_init` -/
theorem init_form {lib : Lib α} {h0 : Heap α} {s0 : Spot α} {level : α} {low disc : ℤ} {me : UInt64} (p : α)
    (hp : (spot_init lib h0 s0 p low disc level me).1 = 0) :
    (spot_init lib h0 s0 p low disc level me).2.2 = (tail_init lib h0 me).2.2 ∧
      (spot_init lib h0 s0 p low disc level me).2.1 =
        ⟨p, level, if disc ≠ 0 then 1 else 0, if low ≠ 0 then 1 else 0, if low ≠ 0 then lit (-1) else lit 1, cNAN, cNAN, 0, 0,
          (tail_init lib h0 me).2.1⟩ := by
  unfold spot_init at hp ⊢
  split at hp
  · exact absurd (show (-1001 : ℤ) = 0 from hp) (by decide)
  next c1 =>
  split at hp
  · exact absurd (show (-1002 : ℤ) = 0 from hp) (by decide)
  next c2 =>
  rw [if_neg c1, if_neg c2]
  dsimp only at hp ⊢
  split at hp
  · exact absurd (show (-1000 : ℤ) = 0 from hp) (by decide)
  next c3 =>
  rw [if_neg c3]
  refine ⟨rfl, ?_⟩
  by_cases hl : low ≠ 0 <;> by_cases hd : disc ≠ 0 <;> simp [hl, hd]

/-- two detectors that differ in `q`, from their initialisation on -/
theorem init_alarm {q q' : α} {G : Spot α → Prop} {lib : Lib α} {h0 : Heap α} {s0 : Spot α} {level : α} {low disc : ℤ} {me : UInt64}
    (hG : ∀ (t : Spot α) (z1 : α), (t.up_down = if low ≠ 0 then lit (-1) else lit 1) → G (withQ t q' z1) →
      spot_quantile M t q = .ok t.anomaly_threshold → spot_quantile M (withQ t q' z1) q' = .ok z1 →
      ∀ x, anomTest t x = true → anomTest (withQ t q' z1) x = true)
    (hi : (spot_init lib h0 s0 q low disc level me).1 = 0) (hi' : (spot_init lib h0 s0 q' low disc level me).1 = 0)
    (ops : List (Op α)) (outs outs' : List (Out α)) (s s' : Spot α) (h h' : Heap α)
    (hA : runOps M (spot_init lib h0 s0 q low disc level me).2.2 (spot_init lib h0 s0 q low disc level me).2.1 ops = .ok (outs, s, h))
    (hB : runOps M (spot_init lib h0 s0 q' low disc level me).2.2 (spot_init lib h0 s0 q' low disc level me).2.1 ops =
      .ok (outs', s', h'))
    (hr : ∀ k o t g, runOps M (spot_init lib h0 s0 q' low disc level me).2.2
        (spot_init lib h0 s0 q' low disc level me).2.1 (ops.take k) = .ok (o, t, g) → Out.code 2 ∉ o → G t)
    (k : ℕ) (hk : outs[k]? = some (.code 2)) : ∃ j ≤ k, outs'[j]? = some (.code 2) := by
  obtain ⟨a1, a2⟩ := init_form q hi
  obtain ⟨b1, b2⟩ := init_form q' hi'
  rw [a1, a2] at hA
  rw [b1, b2] at hB hr
  exact first_alarm hG ops _ _ cNAN rfl rfl (fun x hx => hx) hr _ _ _ _ _ _ hA hB k hk

end Verif

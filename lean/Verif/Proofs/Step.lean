/-
Case analysis of `spot_step` and `spot_fit`, invariants of reachable detectors.
-/
import Verif.Proofs.Two
import Verif.Proofs.Init

set_option linter.unusedSectionVars false

namespace Verif
variable {α : Type} [CDouble α]
variable {M : MathFns α} {h h' : Heap α} {s s' : Spot α} {a c : ℕ} {xs : List α} {x : α} {r : ℤ}

/-- the test of src/spot.c:128 -/
def anomTest (s : Spot α) (x : α) : Bool :=
  s.discard_anomalies ≠ 0 && s.up_down *. (x -. s.anomaly_threshold) >. lit 0

/-- the test of src/spot.c:135 -/
def exTest (s : Spot α) (x : α) : Bool := s.up_down *. (x -. s.excess_threshold) >=. lit 0

theorem step_cases (hs : spot_step M h s x = .ok (r, s', h')) :
    (is_nan x = true ∧ r = -ERR_DATA_IS_NAN ∧ s' = s ∧ h' = h) ∨
    (is_nan x = false ∧ anomTest s x = true ∧ r = ANOMALY ∧ s' = s ∧ h' = h) ∨
    (is_nan x = false ∧ anomTest s x = false ∧ exTest s x = true ∧ r = EXCESS ∧
      ∃ t', s' = { s with n := s.n + 1, Nt := s.Nt + 1, tail := t', anomaly_threshold := s'.anomaly_threshold } ∧
        spot_quantile M s' s'.q = .ok s'.anomaly_threshold) ∨
    (is_nan x = false ∧ anomTest s x = false ∧ exTest s x = false ∧ r = NORMAL ∧ s' = { s with n := s.n + 1 } ∧
      h' = h) := by
  unfold spot_step at hs
  by_cases h1 : is_nan x
  · left
    simp only [h1, if_true, Except.ok.injEq, Prod.mk.injEq] at hs
    obtain ⟨rfl, rfl, rfl⟩ := hs
    exact ⟨h1, rfl, rfl, rfl⟩
  right
  simp only [h1] at hs
  have h1' : is_nan x = false := by simpa using h1
  by_cases h2 : anomTest s x
  · left
    have h2' : s.discard_anomalies ≠ 0 && s.up_down *. (x -. s.anomaly_threshold) >. lit 0 := h2
    rw [if_pos h2'] at hs
    simp only [Bool.false_eq_true, if_false, Except.ok.injEq, Prod.mk.injEq] at hs
    obtain ⟨rfl, rfl, rfl⟩ := hs
    exact ⟨h1', h2, rfl, rfl, rfl⟩
  right
  have h2' : ¬ (s.discard_anomalies ≠ 0 && s.up_down *. (x -. s.anomaly_threshold) >. lit 0) = true := h2
  rw [if_neg h2'] at hs
  simp only [Bool.false_eq_true, if_false] at hs
  by_cases h3 : exTest s x
  · left
    have h3' : (s.up_down *. (x -. s.excess_threshold)) >=. lit 0 := h3
    rw [if_pos h3'] at hs
    obtain ⟨p, _, hs⟩ := C.bind_ok hs
    obtain ⟨f, _, hs⟩ := C.bind_ok hs
    obtain ⟨z, hz, hs⟩ := C.bind_ok hs
    simp only [Except.ok.injEq, Prod.mk.injEq] at hs
    obtain ⟨rfl, rfl, rfl⟩ := hs
    exact ⟨h1', by simpa using h2, h3, rfl, f.2, rfl, hz⟩
  · right
    have h3' : ¬ ((s.up_down *. (x -. s.excess_threshold)) >=. lit 0) = true := h3
    rw [if_neg h3'] at hs
    simp only [Except.ok.injEq, Prod.mk.injEq] at hs
    obtain ⟨rfl, rfl, rfl⟩ := hs
    exact ⟨h1', by simpa using h2, by simpa using h3, rfl, rfl, rfl⟩

/-- undefined behaviour only in the excess branch -/
theorem step_error {e : UB} (hs : spot_step M h s x = .error e) :
    is_nan x = false ∧ anomTest s x = false ∧ exTest s x = true := by
  unfold spot_step at hs
  by_cases h1 : is_nan x
  · simp [h1] at hs
  have h1' : is_nan x = false := by simpa using h1
  refine ⟨h1', ?_⟩
  simp only [h1] at hs
  by_cases h2 : anomTest s x
  · have h2' : s.discard_anomalies ≠ 0 && s.up_down *. (x -. s.anomaly_threshold) >. lit 0 := h2
    rw [if_pos h2'] at hs
    simp at hs
  have h2' : ¬ (s.discard_anomalies ≠ 0 && s.up_down *. (x -. s.anomaly_threshold) >. lit 0) = true := h2
  refine ⟨by simpa using h2, ?_⟩
  rw [if_neg h2'] at hs
  by_cases h3 : exTest s x
  · exact h3
  · have h3' : ¬ ((s.up_down *. (x -. s.excess_threshold)) >=. lit 0) = true := h3
    rw [if_neg h3'] at hs
    simp at hs

/-- the threshold estimate computed by `spot_fit` -/
def fitEt (s : Spot α) (data : List α) (size : UInt64) : C α :=
  if s.low ≠ 0 then p2_quantile (lit 1 -. s.level) data size else p2_quantile s.level data size

theorem fit_cases [CDoubleLaws α] (I : SpotInv h s a c xs) {data : List α} {size : UInt64}
    (hsz : size.toNat ≤ data.length) (hs : spot_fit M h s data size = .ok (r, s', h')) :
    ∃ et, fitEt s data size = .ok et ∧
      ((is_nan et = true ∧ r = -ERR_EXCESS_THRESHOLD_IS_NAN ∧ s' = { s with Nt := 0, n := size } ∧ h' = h) ∨
       (is_nan et = false ∧
        (∃ t', s' = { s with
            n := size
            Nt := UInt64.ofNat (fitExcesses s.up_down et (data.take size.toNat)).length
            excess_threshold := et
            tail := t'
            anomaly_threshold := s'.anomaly_threshold }) ∧
        SpotInv h' s' a c (xs ++ fitExcesses s.up_down et (data.take size.toNat)) ∧
        spot_quantile M s' s'.q = .ok s'.anomaly_threshold ∧
        r = (if is_nan s'.anomaly_threshold then -ERR_ANOMALY_THRESHOLD_IS_NAN else 0))) := by
  have href := fit_refines (M := M) I data size hsz
  obtain ⟨et, het⟩ : ∃ et, fitEt s data size = .ok et := by
    unfold fitEt; split <;> exact p2_quantile_ok _ _ _ hsz
  refine ⟨et, het, ?_⟩
  unfold fitEt at het
  by_cases hn : is_nan et
  · left
    refine ⟨hn, ?_⟩
    unfold spot_fit at hs
    simp only [het, C.ok_bind, hn, if_true, Except.ok.injEq, Prod.mk.injEq] at hs
    obtain ⟨rfl, rfl, rfl⟩ := hs
    exact ⟨rfl, rfl, rfl⟩
  · right
    have hn' : is_nan et = false := by simpa using hn
    refine ⟨hn', ?_⟩
    rw [hs] at href
    unfold fitC at href
    have hlow : s.core.low = s.low := rfl
    have hlev : s.core.level = s.level := rfl
    simp only [hlow, hlev, het, C.ok_bind] at href
    rw [if_neg hn] at href
    have hud : s.core.up_down = s.up_down := rfl
    simp only [hud] at href
    generalize hK : refit M c { s.core with
        level := s.level, low := s.low, up_down := s.up_down, n := size, et := et,
        Nt := UInt64.ofNat (fitExcesses s.up_down et (data.take size.toNat)).length } (xs ++ fitExcesses s.up_down et (data.take size.toNat)) = K at href
    cases hz : quantileC M K K.q with
    | error e => rw [hz] at href; exact absurd href (by simp [Refines, bind, Except.bind])
    | ok z =>
      rw [hz] at href
      simp only [C.ok_bind] at href
      have key : ∃ code, code = (if is_nan z then -ERR_ANOMALY_THRESHOLD_IS_NAN else 0) ∧
          Refines h a c (.ok (r, s', h')) (.ok (code, { K with at_ := z },
            xs ++ fitExcesses s.up_down et (data.take size.toNat))) := by
        by_cases hnz : is_nan z
        · rw [if_pos hnz] at href; exact ⟨_, by rw [if_pos hnz], href⟩
        · rw [if_neg hnz] at href; exact ⟨_, by rw [if_neg hnz], href⟩
      obtain ⟨code, hcode, s2, h2, e, hc, I', F⟩ := key
      simp only [Except.ok.injEq, Prod.mk.injEq] at e
      obtain ⟨rfl, rfl, rfl⟩ := e
      have hat : s'.anomaly_threshold = z := by
        have := congrArg Core.at_ hc; simpa [Spot.core] using this
      refine ⟨⟨s'.tail, ?_⟩, I', ?_, ?_⟩
      · have e1 := congrArg Core.q hc
        have e2 := congrArg Core.level hc
        have e3 := congrArg Core.discard hc
        have e4 := congrArg Core.low hc
        have e5 := congrArg Core.up_down hc
        have e6 := congrArg Core.et hc
        have e7 := congrArg Core.Nt hc
        have e8 := congrArg Core.n hc
        rw [← hK] at e1 e2 e3 e4 e5 e6 e7 e8
        simp only [Spot.core, refit] at e1 e2 e3 e4 e5 e6 e7 e8
        rcases s' with ⟨_, _, _, _, _, _, _, _, _, _⟩
        simp only at *
        subst e1 e2 e3 e4 e5 e6 e7 e8
        rfl
      · have hq : s'.q = K.q := congrArg Core.q hc
        rw [spot_quantile_core, hc, hat, hq]
        exact hz
      · rw [hat]; exact hcode

/-! ### reachable detectors -/

/-- the parameters that no call changes -/
structure Params (q level : α) (low disc : ℤ) (k : Core α) : Prop where
  pq : k.q = q
  plevel : k.level = level
  plow : k.low = if low ≠ 0 then 1 else 0
  pdisc : k.discard = if disc ≠ 0 then 1 else 0
  pud : k.up_down = if low ≠ 0 then lit (-1) else lit 1

theorem execC_params [CDoubleLaws α] {q level : α} {low disc : ℤ} {k k' : Core α} {xs xs' : List α} {o : Out α} {op : Op α}
    (P : Params q level low disc k) (he : execC M c k xs op = .ok (o, k', xs')) : Params q level low disc k' := by
  cases op with
  | fit data size =>
    unfold execC at he
    dsimp only at he
    obtain ⟨p, hp, he⟩ := C.bind_ok he
    simp only [Except.ok.injEq, Prod.mk.injEq] at he
    obtain ⟨_, rfl, rfl⟩ := he
    unfold fitC at hp
    dsimp only at hp
    obtain ⟨et, _, hp⟩ := C.bind_ok hp
    split at hp
    · cases hp
      exact ⟨P.pq, P.plevel, P.plow, P.pdisc, P.pud⟩
    · obtain ⟨z, _, hp⟩ := C.bind_ok hp
      split at hp <;> cases hp <;> exact ⟨P.pq, P.plevel, P.plow, P.pdisc, P.pud⟩
  | step x =>
    unfold execC at he
    dsimp only at he
    obtain ⟨p, hp, he⟩ := C.bind_ok he
    simp only [Except.ok.injEq, Prod.mk.injEq] at he
    obtain ⟨_, rfl, rfl⟩ := he
    unfold stepC at hp
    dsimp only at hp
    split at hp
    · cases hp; exact P
    split at hp
    · cases hp; exact P
    split at hp
    · obtain ⟨z, _, hp⟩ := C.bind_ok hp
      cases hp; exact ⟨P.pq, P.plevel, P.plow, P.pdisc, P.pud⟩
    · cases hp; exact ⟨P.pq, P.plevel, P.plow, P.pdisc, P.pud⟩
  | quantile q =>
    unfold execC at he
    dsimp only at he
    obtain ⟨p, hp, he⟩ := C.bind_ok he
    cases he; exact P
  | probability q =>
    unfold execC at he
    dsimp only at he
    obtain ⟨p, hp, he⟩ := C.bind_ok he
    cases he; exact P

theorem runC_params [CDoubleLaws α] {q level : α} {low disc : ℤ} {k k' : Core α} {xs xs' : List α} {o : List (Out α)}
    {ops : List (Op α)}
    (P : Params q level low disc k) (he : runC M c k xs ops = .ok (o, k', xs')) : Params q level low disc k' := by
  induction ops generalizing k xs o with
  | nil => cases he; exact P
  | cons op ops ih =>
    unfold runC at he
    obtain ⟨p, hp, he⟩ := C.bind_ok he
    obtain ⟨p', hp', he⟩ := C.bind_ok he
    simp only [Except.ok.injEq, Prod.mk.injEq] at he
    obtain ⟨_, rfl, rfl⟩ := he
    exact ih (execC_params P hp) hp'

theorem Reaches.inv [CDoubleLaws α] {lib : Lib α} {q level : α} {low disc : ℤ} {me : UInt64}
    (R : Reaches M lib q low disc level me s h) :
    ∃ a xs, SpotInv h s a me.toNat xs ∧ Params q level low disc s.core := by
  obtain ⟨h1, h2, h0, s0, hi, ops, outs, hv, hrun⟩ := R
  obtain ⟨a, _, _, hc, I⟩ := init_ok hi h1 h2
  obtain ⟨ys, hr, I', _⟩ := run_iff I ops hv hrun
  refine ⟨a, ys, I', runC_params ?_ hr⟩
  rw [hc]
  exact ⟨rfl, rfl, rfl, rfl, rfl⟩

theorem runOps_append (M : MathFns α) (h : Heap α) (s : Spot α) (ops ops' : List (Op α)) :
    runOps M h s (ops ++ ops') = (do
      let r ← runOps M h s ops
      let r' ← runOps M r.2.2 r.2.1 ops'
      .ok (r.1 ++ r'.1, r'.2.1, r'.2.2)) := by
  induction ops generalizing h s with
  | nil =>
    simp only [List.nil_append, runOps, C.ok_bind]
    cases runOps M h s ops' <;> rfl
  | cons op ops ih =>
    simp only [List.cons_append, runOps]
    cases exec M h s op with
    | error e => rfl
    | ok r =>
      simp only [C.ok_bind, ih]
      cases runOps M r.2.2 r.2.1 ops with
      | error e => rfl
      | ok r1 =>
        simp only [C.ok_bind]
        cases runOps M r1.2.2 r1.2.1 ops' with
        | error e => rfl
        | ok r2 => rfl

theorem Reaches.run {lib : Lib α} {q level : α} {low disc : ℤ} {me : UInt64}
    (R : Reaches M lib q low disc level me s h) {ops : List (Op α)} (hv : ∀ op ∈ ops, op.valid) {outs : List (Out α)}
    (hr : runOps M h s ops = .ok (outs, s', h')) : Reaches M lib q low disc level me s' h' := by
  obtain ⟨h1, h2, h0, s0, hi, ops0, outs0, hv0, hrun⟩ := R
  refine ⟨h1, h2, h0, s0, hi, ops0 ++ ops, outs0 ++ outs, ?_, ?_⟩
  · intro op hop
    rcases List.mem_append.mp hop with g | g
    · exact hv0 op g
    · exact hv op g
  · rw [runOps_append, hrun]
    simp only [C.ok_bind, hr]

end Verif

/-
Histories: sequences of API calls on an initialised detector refine the pure machine.
-/
import Verif.Proofs.SpotRef
import Verif.Model.History

namespace Verif
variable {α : Type} [CDouble α]

/-- one API call on the pure machine -/
def execC (M : MathFns α) (c : ℕ) (k : Core α) (xs : List α) : Op α → C (Out α × Core α × List α)
  | .fit data size => do
    let r ← fitC M c k xs data size
    .ok (.code r.1, r.2.1, r.2.2)
  | .step x => do
    let r ← stepC M c k xs x
    .ok (.code r.1, r.2.1, r.2.2)
  | .quantile q => do
    let v ← quantileC M k q
    .ok (.value v, k, xs)
  | .probability z => do
    let v ← probabilityC M k z
    .ok (.value v, k, xs)

def runC (M : MathFns α) (c : ℕ) (k : Core α) (xs : List α) : List (Op α) → C (List (Out α) × Core α × List α)
  | [] => .ok ([], k, xs)
  | op :: ops => do
    let r ← execC M c k xs op
    let rs ← runC M c r.2.1 r.2.2 ops
    .ok (r.1 :: rs.1, rs.2.1, rs.2.2)

/-- correspondence of results with output of type `β` -/
def RefinesO {β : Type} (h : Heap α) (a c : ℕ) (r : C (β × Spot α × Heap α)) (p : C (β × Core α × List α)) : Prop :=
  match p with
  | .error e => r = .error e
  | .ok (o, k, xs) => ∃ s' h', r = .ok (o, s', h') ∧ s'.core = k ∧ SpotInv h' s' a c xs ∧ Frame h h' a c

variable {M : MathFns α} {h : Heap α} {s : Spot α} {a c : ℕ} {xs : List α}

theorem exec_refines [CDoubleLaws α] (I : SpotInv h s a c xs) (op : Op α) (hv : op.valid) :
    RefinesO h a c (exec M h s op) (execC M c s.core xs op) := by
  cases op with
  | fit data size =>
    have := fit_refines (M := M) I data size hv
    unfold exec execC
    cases hp : fitC M c s.core xs data size with
    | error e =>
      simp only [hp, Refines] at this
      simp [this, hp, RefinesO]
    | ok p =>
      obtain ⟨code, k, ys⟩ := p
      simp only [hp, Refines] at this
      obtain ⟨s', h', e1, e2, e3, e4⟩ := this
      simp only [hp, C.ok_bind, RefinesO]
      exact ⟨s', h', by rw [e1]; rfl, e2, e3, e4⟩
  | step x =>
    have := step_refines (M := M) I x
    unfold exec execC
    cases hp : stepC M c s.core xs x with
    | error e =>
      simp only [hp, Refines] at this
      simp [this, hp, RefinesO]
    | ok p =>
      obtain ⟨code, k, ys⟩ := p
      simp only [hp, Refines] at this
      obtain ⟨s', h', e1, e2, e3, e4⟩ := this
      simp only [hp, C.ok_bind, RefinesO]
      exact ⟨s', h', by rw [e1]; rfl, e2, e3, e4⟩
  | quantile q =>
    unfold exec execC
    dsimp only
    rw [spot_quantile_core]
    cases quantileC M s.core q with
    | error e => simp [RefinesO]
    | ok v => exact ⟨s, h, rfl, rfl, I, I.ring.frame_refl⟩
  | probability q =>
    unfold exec execC
    dsimp only
    rw [spot_probability_core]
    cases probabilityC M s.core q with
    | error e => simp [RefinesO]
    | ok v => exact ⟨s, h, rfl, rfl, I, I.ring.frame_refl⟩

theorem run_refines [CDoubleLaws α] (I : SpotInv h s a c xs) (ops : List (Op α)) (hv : ∀ op ∈ ops, op.valid) :
    RefinesO h a c (runOps M h s ops) (runC M c s.core xs ops) := by
  induction ops generalizing h s xs with
  | nil => exact ⟨s, h, rfl, rfl, I, I.ring.frame_refl⟩
  | cons op ops ih =>
    have h1 := exec_refines (M := M) I op (hv _ (by simp))
    unfold runOps runC
    cases hp : execC M c s.core xs op with
    | error e =>
      simp only [hp, RefinesO] at h1
      simp [h1, RefinesO]
    | ok p =>
      obtain ⟨o, k, ys⟩ := p
      simp only [hp, RefinesO] at h1
      obtain ⟨s', h', e1, e2, e3, e4⟩ := h1
      have h2 := ih e3 (fun op' hop => hv _ (by simp [hop]))
      rw [e1]
      simp only [C.ok_bind]
      rw [e2] at h2
      cases hr : runC M c k ys ops with
      | error e =>
        simp only [hr, RefinesO] at h2
        simp [h2, RefinesO]
      | ok pr =>
        obtain ⟨os, k2, zs⟩ := pr
        simp only [hr, RefinesO] at h2
        obtain ⟨s2, h2', f1, f2, f3, f4⟩ := h2
        rw [f1]
        exact ⟨s2, h2', rfl, f2, f3, e4.trans f4⟩

/-! ### what undefined behaviour can remain -/

theorem toUInt32_error {x : α} {e : UB} (h : toUInt32 x = .error e) : e = .floatConv := by
  unfold toUInt32 at h
  split at h
  · split at h
    · cases h
    · cases h; rfl
  · cases h; rfl

theorem xexpNonneg_error {fu : FloatUtils α} {x : α} {e : UB} (h : xexpNonneg fu x = .error e) : e = .floatConv := by
  unfold xexpNonneg at h
  split at h
  · cases hk : toUInt32 (x /. LOG2) with
    | error e' =>
      rw [hk] at h
      have : e' = e := by simpa using h
      exact this ▸ toUInt32_error hk
    | ok k => rw [hk] at h; cases h
  · cases h

theorem xexp_error {fu : FloatUtils α} {x : α} {e : UB} (h : xexp fu x = .error e) : e = .floatConv := by
  unfold xexp at h
  split at h
  · cases h
  · split at h
    · cases hk : xexpNonneg fu (-. x) with
      | error e' =>
        rw [hk] at h
        have : e' = e := by simpa using h
        exact this ▸ xexpNonneg_error hk
      | ok k => rw [hk] at h; cases h
    · exact xexpNonneg_error h

/-- the only undefined behaviour of `M.exp` is a float conversion -/
def ExpConv (M : MathFns α) : Prop := ∀ x e, M.exp x = .error e → e = UB.floatConv

theorem codeMath_expConv (fu : FloatUtils α) : ExpConv (codeMath fu) := fun _ _ h => xexp_error h

theorem bind_conv {β γ : Type} {x : C β} {f : β → C γ} (hx : ∀ e, x = .error e → e = UB.floatConv)
    (hf : ∀ b, x = .ok b → ∀ e, f b = .error e → e = UB.floatConv) : ∀ e, (x >>= f) = .error e → e = UB.floatConv := by
  intro e h
  cases x with
  | error e' => exact (by simpa using h : e' = e) ▸ hx e' rfl
  | ok b => exact hf b rfl e h

theorem quantileC_conv (HM : ExpConv M) (k : Core α) (q : α) :
    ∀ e, quantileC M k q = .error e → e = UB.floatConv := by
  unfold quantileC
  apply bind_conv
  · unfold tail_quantile
    split
    · simp
    · unfold xpow
      apply bind_conv
      · exact HM _
      · simp
  · simp

theorem probabilityC_conv (HM : ExpConv M) (k : Core α) (z : α) :
    ∀ e, probabilityC M k z = .error e → e = UB.floatConv := by
  unfold probabilityC tail_probability
  split
  · apply bind_conv
    · exact HM _
    · simp
  · unfold xpow
    apply bind_conv
    · exact HM _
    · simp

theorem stepC_conv (HM : ExpConv M) (k : Core α) (x : α) :
    ∀ e, stepC M c k xs x = .error e → e = UB.floatConv := by
  unfold stepC
  split
  · simp
  · split
    · simp
    · dsimp only
      split
      · exact bind_conv (quantileC_conv HM _ _) (by simp)
      · simp

theorem fitC_conv [CDoubleLaws α] (HM : ExpConv M) (k : Core α) (data : List α) (size : UInt64)
    (hs : size.toNat ≤ data.length) : ∀ e, fitC M c k xs data size = .error e → e = UB.floatConv := by
  unfold fitC
  apply bind_conv
  · intro e he
    split at he
    · obtain ⟨v, hv⟩ := p2_quantile_ok (lit 1 -. k.level) data size hs
      dsimp only at he
      rw [hv] at he; cases he
    · obtain ⟨v, hv⟩ := p2_quantile_ok k.level data size hs
      dsimp only at he
      rw [hv] at he; cases he
  · intro et _
    split
    · simp
    · apply bind_conv (quantileC_conv HM _ _)
      intro z _ e he
      split at he <;> cases he

theorem execC_conv [CDoubleLaws α] (HM : ExpConv M) (k : Core α) (op : Op α) (hv : op.valid) :
    ∀ e, execC M c k xs op = .error e → e = UB.floatConv := by
  cases op with
  | fit data size => exact bind_conv (fitC_conv HM k data size hv) (by simp)
  | step x => exact bind_conv (stepC_conv HM k x) (by simp)
  | quantile q => exact bind_conv (quantileC_conv HM k q) (by simp)
  | probability z => exact bind_conv (probabilityC_conv HM k z) (by simp)

theorem runC_conv [CDoubleLaws α] (HM : ExpConv M) (k : Core α) (ops : List (Op α)) (hv : ∀ op ∈ ops, op.valid) :
    ∀ e, runC M c k xs ops = .error e → e = UB.floatConv := by
  induction ops generalizing k xs with
  | nil => intro e h; cases h
  | cons op ops ih =>
    unfold runC
    apply bind_conv (execC_conv HM k op (hv _ (by simp)))
    intro r _
    apply bind_conv (ih r.2.1 (fun op' h' => hv _ (by simp [h'])))
    simp

/-! ### the invariant determines the structure -/

theorem Ring.unique {h h' : Heap α} {u u' : Ubend α} (R : Ring h u a c xs) (R' : Ring h' u' a c xs) :
    u = u' ∧ h a = h' a := by
  constructor
  · have e1 : u.cursor = u'.cursor := by
      have h1 := R.cursor; have h2 := R'.cursor
      rw [← UInt64.toNat_inj, h1, h2]
    have e2 : u.capacity = u'.capacity := by
      rw [← UInt64.toNat_inj, R.cap, R'.cap]
    have e3 : u.last_erased_data = u'.last_erased_data := by rw [R.erased_eq, R'.erased_eq]
    have e4 : u.data = u'.data := by rw [R.data, R'.data]
    have e5 : u.filled = u'.filled := by
      rw [R.filled, R'.filled]
    cases u; cases u'; simp_all
  · rw [R.cells, R'.cells]

theorem SpotInv.unique {h h' : Heap α} {s s' : Spot α} (I : SpotInv h s a c xs) (I' : SpotInv h' s' a c xs)
    (hk : s.core = s'.core) : s = s' ∧ h a = h' a := by
  obtain ⟨e1, e2⟩ := Ring.unique I.ring I'.ring
  refine ⟨?_, e2⟩
  have e3 : s.tail.peaks.stats = s'.tail.peaks.stats := by rw [I.stats, I'.stats]
  obtain ⟨q, l, d, lo, ud, at_, et, Nt, n, ⟨g, sg, ⟨e, e2, mn, mx, u⟩⟩⟩ := s
  obtain ⟨q, l, d, lo, ud, at_, et, Nt, n, ⟨g, sg, ⟨e, e2, mn, mx, u⟩⟩⟩ := s'
  simp only [Spot.core, Core.mk.injEq, Peaks.stats, Stats.mk.injEq] at *
  simp_all

end Verif

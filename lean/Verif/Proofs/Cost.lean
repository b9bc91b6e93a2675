/-
The counted functions compute what the model computes, and what they count is bounded.
-/
import Verif.Spec.Cost
import Verif.Proofs.Step

namespace Verif
namespace Cost
variable {α β γ : Type} [CDouble α]

/-- the counted computation `f'` does what `f` does and counts at most `k` operations -/
def Costs (f' : CT β) (f : C β) (k : ℕ) : Prop := ∀ c, ∃ j, j ≤ k ∧ f' c = f.map (fun r => (r, c + j))

theorem Costs.mono {f' : CT β} {f : C β} {k m : ℕ} (h : Costs f' f k) (hk : k ≤ m) : Costs f' f m := fun c => by
  obtain ⟨j, h1, h2⟩ := h c; exact ⟨j, h1.trans hk, h2⟩

theorem Costs.ret (x : β) : Costs (pure x) (.ok x) 0 := fun _ => ⟨0, le_refl _, rfl⟩

theorem Costs.ofFree (f : C β) : Costs (free f) f 0 := fun _ => ⟨0, le_refl _, rfl⟩

theorem Costs.bind {f' : CT β} {f : C β} {g' : β → CT γ} {g : β → C γ} {k m : ℕ} (hf : Costs f' f k) (hg : ∀ r, f = .ok r → Costs (g' r) (g r) m) :
    Costs (f' >>= g') (f >>= g) (k + m) := fun c => by
  obtain ⟨j, h1, h2⟩ := hf c
  cases f with
  | error e =>
    refine ⟨0, Nat.zero_le _, ?_⟩
    change (f' c >>= fun p => g' p.1 p.2) = _
    rw [h2]; rfl
  | ok r =>
    obtain ⟨i, h3, h4⟩ := hg r rfl (c + j)
    refine ⟨j + i, by omega, ?_⟩
    change (f' c >>= fun p => g' p.1 p.2) = _
    rw [h2]
    change g' r (c + j) = _
    rw [h4, ← Nat.add_assoc]; rfl

/-- the same after a counted operation that only yields a value -/
theorem Costs.tick {f' : CT β} {f : C β} {k : ℕ} (hf : Costs f' f k) : Costs (Cost.tick >>= fun _ => f') f (k + 1) := fun c => by
  obtain ⟨j, h1, h2⟩ := hf (c + 1)
  refine ⟨j + 1, by omega, ?_⟩
  change f' (c + 1) = _
  rw [h2, show c + 1 + j = c + (j + 1) by omega]

omit [CDouble α] in
theorem Costs.load (h : Heap α) (p : Ptr) (i : ℕ) : Costs (load h p i) (Verif.load h p i) 1 := .tick (.ofFree _)
omit [CDouble α] in
theorem Costs.store (h : Heap α) (p : Ptr) (i : ℕ) (v : α) : Costs (store h p i v) (Verif.store h p i v) 1 := .tick (.ofFree _)
omit [CDouble α] in
theorem Costs.loadBuf (l : List α) (i : ℕ) : Costs (loadBuf l i) (Verif.loadBuf l i) 1 := .tick (.ofFree _)
omit [CDouble α] in
theorem Costs.exp (M : MathFns α) (x : α) : Costs (exp M x) (M.exp x) 1 := .tick (.ofFree _)
omit [CDouble α] in
theorem Costs.log {M : MathFns α} {x : α} {g' : α → CT γ} {g : C γ} {k : ℕ} (hg : Costs (g' (M.log x)) g k) : Costs (log M x >>= g') g (k + 1) :=
  fun c => by obtain ⟨j, h1, h2⟩ := (Costs.tick hg) c; exact ⟨j, h1, h2⟩

theorem Costs.xpow (M : MathFns α) (a x : α) : Costs (xpow M a x) (Verif.xpow M a x) 2 := .log (.exp _ _)

theorem Costs.ite {p : Prop} [Decidable p] {f' g' : CT β} {f g : C β} {k : ℕ} (hf : p → Costs f' f k) (hg : ¬p → Costs g' g k) :
    Costs (if p then f' else g') (if p then f else g) k := by
  split
  · exact hf ‹_›
  · exact hg ‹_›

/-- a loop whose state keeps an invariant -/
theorem Costs.fold {ι : Type} {P : β → Prop} {f' : β → ι → CT β} {f : β → ι → C β} {k : ℕ} (hf : ∀ b i, P b → Costs (f' b i) (f b i) k)
    (hp : ∀ b i b', P b → f b i = .ok b' → P b') (l : List ι) : ∀ b, P b → Costs (l.foldlM f' b) (l.foldlM f b) (l.length * k) := by
  induction l with
  | nil => intro b _; exact (Costs.ret b).mono (Nat.zero_le _)
  | cons i l ih =>
    intro b hb
    rw [List.foldlM_cons, List.foldlM_cons]
    refine (Costs.bind (hf b i hb) (fun r hr => ih r (hp _ _ _ hb hr))).mono ?_
    rw [List.length_cons]; ring_nf; exact le_refl _

theorem Costs.fold' {ι : Type} {f' : β → ι → CT β} {f : β → ι → C β} {k : ℕ} (hf : ∀ b i, Costs (f' b i) (f b i) k)
    (l : List ι) (b : β) : Costs (l.foldlM f' b) (l.foldlM f b) (l.length * k) :=
  Costs.fold (P := fun _ => True) (fun b i _ => hf b i) (fun _ _ _ _ _ => trivial) l b trivial

theorem Costs.brentLoop {f' : α → CT α} {f : α → C α} {k : ℕ} (hf : ∀ x, Costs (f' x) (f x) k) (tol : α) :
    ∀ n s, Costs (brentLoop f' tol n s) (brentLoop f tol n s) (n * k) := by
  intro n
  induction n with
  | zero => intro s; exact (Costs.ret _).mono (Nat.zero_le _)
  | succ n ih =>
    intro s
    unfold Verif.brentLoop
    dsimp only
    refine Costs.ite (fun _ => (Costs.ret _).mono (Nat.zero_le _)) (fun _ => ?_)
    refine (Costs.bind (hf _) (fun r _ => ih _)).mono ?_
    ring_nf; exact le_refl _

theorem Costs.brent {f' : α → CT α} {f : α → C α} {k : ℕ} (hf : ∀ x, Costs (f' x) (f x) k) (x1 x2 tol : α) :
    Costs (brent f' x1 x2 tol) (brent f x1 x2 tol) (202 * k) := by
  unfold Verif.brent
  refine (Costs.bind (hf x1) (fun fa _ => Costs.bind (hf x2) (fun fb _ => Costs.ite (k := 200 * k) (fun _ => (Costs.ret _).mono (Nat.zero_le _))
    (fun _ => ?_)))).mono ?_
  · exact (Costs.brentLoop hf tol 200 _).mono (le_refl _)
  · ring_nf; exact le_refl _

variable {M : MathFns α} {h : Heap α}

/-- the container is inside its buffer: what `ubend_push` keeps -/
def Inside (m : ℕ) (u : Ubend α) : Prop := u.cursor.toNat < u.capacity.toNat ∧ u.capacity.toNat ≤ m

omit [CDouble α] in
theorem Inside.size {m : ℕ} {u : Ubend α} (i : Inside m u) : (ubend_size u).toNat ≤ m := by
  unfold ubend_size
  split
  · exact i.2
  · exact i.1.le.trans i.2

omit [CDouble α] in
theorem Inside.push {m : ℕ} {u : Ubend α} {x : α} (i : Inside m u) {r} (e : Verif.ubend_push h u x = .ok r) : Inside m r.2.1 := by
  unfold Verif.ubend_push at e
  obtain ⟨last, _, e⟩ := C.bind_ok e
  obtain ⟨h', _, e⟩ := C.bind_ok e
  cases e
  dsimp only
  obtain ⟨i1, i2⟩ := i
  split
  · exact ⟨by change 0 < u.capacity.toNat; omega, i2⟩
  · rename_i hc
    refine ⟨?_, i2⟩
    change (u.cursor + 1).toNat < u.capacity.toNat
    have h0 : u.cursor ≠ u.capacity - 1 := hc
    have h1 : (u.capacity - 1).toNat = u.capacity.toNat - 1 := UInt64.toNat_sub_of_le _ _ (by
      rw [UInt64.le_iff_toNat_le]; rw [show (1 : UInt64).toNat = 1 from rfl]; omega)
    have h2 : u.cursor.toNat ≠ u.capacity.toNat - 1 := fun he => h0 (UInt64.toNat_inj.mp (by rw [h1, he]))
    have h3 := u.capacity.toNat_lt
    rw [UInt64.toNat_add, show (1 : UInt64).toNat = 1 from rfl, Nat.mod_eq_of_lt (by omega)]
    omega

omit [CDouble α] in
theorem costs_ubend_push (u : Ubend α) (x : α) : Costs (ubend_push h u x) (Verif.ubend_push h u x) 2 := by
  unfold ubend_push Verif.ubend_push
  refine Costs.bind (k := 1) (m := 1) (Costs.ite (p := u.filled ≠ 0) (fun _ => .load _ _ _) (fun _ => (Costs.ret _).mono (Nat.zero_le _))) (fun r _ => ?_)
  exact Costs.bind (k := 1) (m := 0) (.store _ _ _ _) (fun r _ => Costs.ret _)

theorem costs_update (p : Peaks α) : Costs (peaks_update_stats h p) (Verif.peaks_update_stats h p) (ubend_size p.container).toNat := by
  unfold peaks_update_stats Verif.peaks_update_stats
  refine (Costs.fold' (k := 1) (fun b i => ?_) _ _).mono (by rw [List.length_range, Nat.mul_one])
  exact Costs.bind (k := 1) (m := 0) (.load _ _ _) (fun r _ => Costs.ret _)

/-- `peaks_update_stats` leaves the container as it is -/
theorem update_container (p : Peaks α) {p' : Peaks α} (e : Verif.peaks_update_stats h p = .ok p') : p'.container = p.container := by
  unfold Verif.peaks_update_stats at e
  revert e
  generalize List.range (ubend_size p.container).toNat = l
  suffices ∀ (l : List ℕ) (q q' : Peaks α), (l.foldlM (fun acc i => do
      let value ← Verif.load h acc.container.data i
      .ok (update_stats_body acc value)) q : C (Peaks α)) = .ok q' → q'.container = q.container from fun e => by have k := this l _ _ e; exact k
  intro l
  induction l with
  | nil => intro q q' e; cases e; rfl
  | cons i l ih =>
    intro q q' e
    rw [List.foldlM_cons] at e
    obtain ⟨q1, e1, e⟩ := C.bind_ok e
    obtain ⟨v, _, e1⟩ := C.bind_ok e1
    cases e1
    rw [ih _ _ e]
    unfold update_stats_body
    dsimp only
    split <;> split <;> rfl

theorem costs_peaks_push {m : ℕ} {p : Peaks α} (x : α) (i : Inside m p.container) : Costs (peaks_push h p x) (Verif.peaks_push h p x) (2 + m) := by
  unfold peaks_push Verif.peaks_push
  refine Costs.bind (costs_ubend_push _ _) (fun r hr => ?_)
  have ir := i.push hr
  refine Costs.ite (fun _ => Costs.ite (fun _ => ?_) (fun _ => (Costs.ret _).mono (Nat.zero_le _))) (fun _ => (Costs.ret _).mono (Nat.zero_le _))
  refine (Costs.bind (costs_update _) (fun p _ => Costs.ret _)).mono ?_
  rw [Nat.add_zero]
  refine le_trans (le_of_eq ?_) ir.size
  congr 2
  split <;> split <;> rfl

theorem inside_peaks_push {m : ℕ} {p : Peaks α} {x : α} (i : Inside m p.container) {r} (e : Verif.peaks_push h p x = .ok r) : Inside m r.1.container := by
  unfold Verif.peaks_push at e
  obtain ⟨u, e1, e⟩ := C.bind_ok e
  have iu := i.push e1
  extract_lets er p1 h1 size p2 p3 p4 p5 at e
  have c4 : p4.container = u.2.1 := by
    simp only [p4, p3, p2, p1]
    split <;> split <;> rfl
  split at e
  · split at e
    · obtain ⟨p', e2, e⟩ := C.bind_ok e
      cases e
      change Inside m p'.container
      rw [update_container _ e2]
      change Inside m p4.container
      rw [c4]; exact iu
    · cases e
      change Inside m p4.container
      rw [c4]; exact iu
  · cases e
    change Inside m p4.container
    rw [c4]; exact iu

variable {p : Peaks α} {m : ℕ}

theorem costs_llhood (hm : (ubend_size p.container).toNat ≤ m) (g s : α) : Costs (log_likelihood M h p g s) (Verif.log_likelihood M h p g s) (2 * m + 1) := by
  unfold log_likelihood Verif.log_likelihood
  refine Costs.log ?_
  refine Costs.ite (fun _ => (Costs.ret _).mono (Nat.zero_le _)) (fun _ => ?_)
  refine (Costs.fold' (k := 2) (fun b i => ?_) _ _).mono (by rw [List.length_range]; omega)
  exact Costs.bind (k := 1) (m := 1) (.load _ _ _) (fun r _ => Costs.log (Costs.ret _))

theorem costs_mom (hm : (ubend_size p.container).toNat ≤ m) : Costs (mom_estimator M h p) (Verif.mom_estimator M h p) (2 * m + 1) := by
  unfold mom_estimator Verif.mom_estimator
  exact (Costs.bind (costs_llhood hm _ _) (fun r _ => Costs.ret _)).mono (by omega)

theorem costs_w (hm : (ubend_size p.container).toNat ≤ m) (x : α) : Costs (grimshaw_w M h p x) (Verif.grimshaw_w M h p x) (2 * m) := by
  unfold grimshaw_w Verif.grimshaw_w
  refine (Costs.bind (k := 2 * m) ((Costs.fold' (k := 2) (fun b i => ?_) _ _).mono (by rw [List.length_range]; unfold peaks_size; omega)) (fun r _ => Costs.ret _)).mono (by omega)
  exact Costs.bind (k := 1) (m := 1) (.load _ _ _) (fun r _ => Costs.log (Costs.ret _))

theorem costs_v (hm : (ubend_size p.container).toNat ≤ m) (x : α) : Costs (grimshaw_v M h p x) (Verif.grimshaw_v M h p x) (2 * m) := by
  unfold grimshaw_v Verif.grimshaw_v
  refine (Costs.bind (k := 2 * m) ((Costs.fold' (k := 2) (fun b i => ?_) _ _).mono (by rw [List.length_range]; unfold peaks_size; omega)) (fun r _ => Costs.ret _)).mono (by omega)
  exact Costs.bind (k := 1) (m := 1) (.load _ _ _) (fun r _ => Costs.log (Costs.ret _))

theorem costs_simplified (hm : (ubend_size p.container).toNat ≤ m) (x : α) :
    Costs (grimshaw_simplified_log_likelihood M h p x) (Verif.grimshaw_simplified_log_likelihood M h p x) (4 * m + 1) := by
  unfold grimshaw_simplified_log_likelihood Verif.grimshaw_simplified_log_likelihood
  refine Costs.ite (fun _ => ?_) (fun _ => ?_)
  · exact (Costs.bind (costs_llhood hm _ _) (fun r _ => Costs.ret _)).mono (by omega)
  · exact (Costs.bind (costs_v hm _) (fun r _ => Costs.bind (costs_llhood hm _ _) (fun r _ => Costs.ret _))).mono (by omega)

/-- the candidate of the exponential tail costs one logarithm -/
theorem costs_simplified_zero [CDoubleLaws α] : Costs (grimshaw_simplified_log_likelihood M h p (lit 0)) (Verif.grimshaw_simplified_log_likelihood M h p (lit 0)) 1 := by
  have z : ((lit 0 : α) ==. lit 0) = true := (CDoubleLaws.eq_iff _ _).mpr ⟨CDoubleLaws.nan_lit 0, CDoubleLaws.nan_lit 0, rfl⟩
  unfold grimshaw_simplified_log_likelihood Verif.grimshaw_simplified_log_likelihood
  rw [if_pos z, if_pos z]
  refine Costs.bind (k := 1) (m := 0) ?_ (fun r _ => Costs.ret _)
  unfold log_likelihood Verif.log_likelihood
  refine Costs.log (k := 0) ?_
  dsimp only
  rw [if_pos z, if_pos z]
  exact Costs.ret _

theorem costs_better (hm : (ubend_size p.container).toNat ≤ m) (b : Est α) (x : Bool × α) :
    Costs (grimshaw_better M h p b x) (Verif.grimshaw_better M h p b x) (4 * m + 1) := by
  unfold grimshaw_better Verif.grimshaw_better
  refine Costs.ite (fun _ => ?_) (fun _ => (Costs.ret _).mono (Nat.zero_le _))
  exact (Costs.bind (costs_simplified hm _) (fun r _ => Costs.ite (fun _ => Costs.ret _) (fun _ => Costs.ret _))).mono (by omega)

theorem costs_grimshaw [CDoubleLaws α] (hm : (ubend_size p.container).toNat ≤ m) : Costs (grimshaw_estimator M h p) (Verif.grimshaw_estimator M h p) (816 * m + 3) := by
  unfold grimshaw_estimator Verif.grimshaw_estimator
  refine (Costs.bind (Costs.brent (costs_w hm) _ _ _) (fun _ _ => Costs.bind (Costs.brent (costs_w hm) _ _ _) (fun _ _ =>
    Costs.bind costs_simplified_zero (fun _ _ => Costs.bind (costs_better hm _ _) (fun _ _ => costs_better hm _ _))))).mono (by omega)

theorem costs_tail_fit [CDoubleLaws α] {t : Tail α} (hm : (ubend_size t.peaks.container).toNat ≤ m) : Costs (tail_fit M h t) (Verif.tail_fit M h t) (818 * m + 4) := by
  unfold tail_fit Verif.tail_fit
  exact (Costs.bind (costs_mom hm) (fun _ _ => Costs.bind (costs_grimshaw hm) (fun _ _ => Costs.ret _))).mono (by omega)

theorem costs_tail_push {t : Tail α} (x : α) (i : Inside m t.peaks.container) : Costs (tail_push h t x) (Verif.tail_push h t x) (2 + m) := by
  unfold tail_push Verif.tail_push
  exact Costs.bind (m := 0) (costs_peaks_push x i) (fun _ _ => Costs.ret _)

theorem inside_tail_push {t : Tail α} {x : α} (i : Inside m t.peaks.container) {r} (e : Verif.tail_push h t x = .ok r) : Inside m r.1.peaks.container := by
  unfold Verif.tail_push at e
  obtain ⟨u, e1, e⟩ := C.bind_ok e
  cases e
  exact inside_peaks_push i e1

theorem costs_quantile (s : Spot α) (q : α) : Costs (spot_quantile M s q) (Verif.spot_quantile M s q) 2 := by
  unfold spot_quantile Verif.spot_quantile tail_quantile Verif.tail_quantile
  refine Costs.bind (k := 2) (m := 0) (Costs.ite (fun _ => ?_) (fun _ => ?_)) (fun _ _ => Costs.ret _)
  · exact Costs.log (k := 1) ((Costs.ret _).mono (by omega))
  · exact Costs.bind (m := 0) (Costs.xpow _ _ _) (fun _ _ => Costs.ret _)

theorem costs_probability (s : Spot α) (z : α) : Costs (spot_probability M s z) (Verif.spot_probability M s z) 2 := by
  unfold spot_probability Verif.spot_probability tail_probability Verif.tail_probability
  refine Costs.ite (fun _ => ?_) (fun _ => ?_)
  · exact (Costs.bind (m := 0) (Costs.exp _ _) (fun _ _ => Costs.ret _)).mono (by omega)
  · exact Costs.bind (m := 0) (Costs.xpow _ _ _) (fun _ _ => Costs.ret _)

theorem costs_step [CDoubleLaws α] {s : Spot α} (x : α) (i : Inside m s.tail.peaks.container) : Costs (spot_step M h s x) (Verif.spot_step M h s x) (819 * m + 8) := by
  unfold spot_step Verif.spot_step
  refine Costs.ite (fun _ => (Costs.ret _).mono (Nat.zero_le _)) (fun _ => Costs.ite (fun _ => (Costs.ret _).mono (Nat.zero_le _)) (fun _ =>
    Costs.ite (fun _ => ?_) (fun _ => (Costs.ret _).mono (Nat.zero_le _))))
  refine (Costs.bind (costs_tail_push _ i) (fun r hr => Costs.bind (costs_tail_fit (inside_tail_push i hr).size) (fun _ _ =>
    Costs.bind (costs_quantile _ _) (fun _ _ => Costs.ret _)))).mono (by omega)

theorem costs_p2 (p : α) (data : List α) (size : UInt64) : Costs (p2_quantile p data size) (Verif.p2_quantile p data size) size.toNat := by
  unfold p2_quantile Verif.p2_quantile quantile Verif.quantile
  refine Costs.ite (fun _ => (Costs.ret _).mono (Nat.zero_le _)) (fun h5 => ?_)
  refine (Costs.bind (Costs.loadBuf _ _) (fun _ _ => Costs.bind (Costs.loadBuf _ _) (fun _ _ => Costs.bind (Costs.loadBuf _ _) (fun _ _ =>
    Costs.bind (Costs.loadBuf _ _) (fun _ _ => Costs.bind (Costs.loadBuf _ _) (fun _ _ => Costs.bind (k := size.toNat - 5)
      ((Costs.fold' (k := 1) (fun b i => ?_) _ _).mono (by rw [List.length_range', Nat.mul_one])) (fun _ _ => Costs.ret _))))))).mono (by omega)
  exact Costs.bind (k := 1) (m := 0) (Costs.loadBuf _ _) (fun _ _ => Costs.ofFree _)

theorem costs_fit_body (et : α) {st : Spot α × Heap α} (x : α) (i : Inside m st.1.tail.peaks.container) : Costs (fit_body et st x) (Verif.fit_body et st x) (2 + m) := by
  unfold fit_body Verif.fit_body
  refine Costs.ite (fun _ => ?_) (fun _ => (Costs.ret _).mono (Nat.zero_le _))
  exact Costs.bind (m := 0) (costs_tail_push _ i) (fun _ _ => Costs.ret _)

theorem inside_fit_body {et : α} {st st' : Spot α × Heap α} {x : α} (i : Inside m st.1.tail.peaks.container) (e : Verif.fit_body et st x = .ok st') :
    Inside m st'.1.tail.peaks.container := by
  unfold Verif.fit_body at e
  dsimp only at e
  split at e
  · obtain ⟨r, e1, e⟩ := C.bind_ok e
    cases e
    exact inside_tail_push i e1
  · cases e
    exact i

theorem costs_fit [CDoubleLaws α] {s : Spot α} (data : List α) (size : UInt64) (i : Inside m s.tail.peaks.container) :
    Costs (spot_fit M h s data size) (Verif.spot_fit M h s data size) (size.toNat * (m + 4) + 818 * m + 6) := by
  unfold spot_fit Verif.spot_fit
  refine (Costs.bind (k := size.toNat) (m := size.toNat * (m + 3) + (818 * m + 6)) (Costs.ite (fun _ => costs_p2 _ _ _) (fun _ => costs_p2 _ _ _)) (fun et _ =>
    Costs.ite (fun _ => (Costs.ret _).mono (Nat.zero_le _)) (fun _ => ?_))).mono (by ring_nf; omega)
  have hfold : ∀ (l : List ℕ) (b b' : Spot α × Heap α), Inside m b.1.tail.peaks.container →
      (l.foldlM (fun st i => do
        let x ← Verif.loadBuf data i
        Verif.fit_body et st x) b : C _) = .ok b' → Inside m b'.1.tail.peaks.container := by
    intro l
    induction l with
    | nil => intro b b' hb e; cases e; exact hb
    | cons j l ih =>
      intro b b' hb e
      rw [List.foldlM_cons] at e
      obtain ⟨b1, e1, e⟩ := C.bind_ok e
      obtain ⟨x, _, e1⟩ := C.bind_ok e1
      exact ih _ _ (inside_fit_body hb e1) e
  refine Costs.bind (k := size.toNat * (m + 3)) (m := 818 * m + 6) ?_ (fun st hst => ?_)
  · refine (Costs.fold (k := m + 3) (P := fun st : Spot α × Heap α => Inside m st.1.tail.peaks.container) (fun b j hb => ?_) (fun b j b' hb e => ?_) _ _ i).mono (by rw [List.length_range])
    · exact (Costs.bind (Costs.loadBuf _ _) (fun x _ => costs_fit_body et x hb)).mono (by omega)
    · obtain ⟨x, _, e⟩ := C.bind_ok e
      exact inside_fit_body hb e
  · have ist := hfold _ _ _ (by exact i) hst
    refine (Costs.bind (costs_tail_fit ist.size) (fun _ _ => Costs.bind (costs_quantile _ _) (fun _ _ => Costs.ite (fun _ => Costs.ret _) (fun _ => Costs.ret _)))).mono (by omega)

end Cost
end Verif

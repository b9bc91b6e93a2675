/-
Peaks: insertion and statistics, on top of the container.
-/
import Verif.Proofs.Ring

namespace Verif
variable {α : Type} [CDouble α]

/-- the four tracked statistics -/
structure Stats (α : Type) where
  e : α
  e2 : α
  min : α
  max : α

def Peaks.stats (p : Peaks α) : Stats α := ⟨p.e, p.e2, p.min, p.max⟩

/-- effect of `update_stats_body` on the statistics -/
def Stats.body (s : Stats α) (v : α) : Stats α where
  e := s.e +. v
  e2 := v *. v
  min := if is_nan s.min || v <. s.min then v else s.min
  max := if is_nan s.max || v >. s.max then v else s.max

/-- recomputation from the stored values -/
def Stats.recompute (l : List α) : Stats α := l.foldl Stats.body ⟨lit 0, lit 0, cNAN, cNAN⟩

/-- lines 64-73 of src/peaks.c -/
def Stats.incr (s : Stats α) (size : UInt64) (x : α) : Stats α where
  e := s.e +. x
  e2 := s.e2 +. x *. x
  min := if size = 1 || x <. s.min then x else s.min
  max := if size = 1 || x >. s.max then x else s.max

/-- lines 78-88 of src/peaks.c, `l` being the stored values -/
def Stats.evict (s : Stats α) (erased : α) (l : List α) : Stats α :=
  if !is_nan erased then
    let s : Stats α := { s with e := s.e -. erased, e2 := s.e2 -. erased *. erased }
    if erased <=. s.min || erased >=. s.max then Stats.recompute l else s
  else s

theorem body_stats (p : Peaks α) (v : α) :
    (update_stats_body p v).stats = p.stats.body v ∧ (update_stats_body p v).container = p.container := by
  unfold update_stats_body Peaks.stats Stats.body
  simp only
  split <;> split <;> simp_all

theorem foldl_body_stats (l : List α) (p : Peaks α) :
    (l.foldl update_stats_body p).stats = l.foldl Stats.body p.stats ∧
      (l.foldl update_stats_body p).container = p.container := by
  induction l generalizing p with
  | nil => exact ⟨rfl, rfl⟩
  | cons v vs ih =>
    obtain ⟨h1, h2⟩ := ih (update_stats_body p v)
    obtain ⟨g1, g2⟩ := body_stats p v
    simp only [List.foldl_cons]
    rw [h1, h2, g1, g2]; exact ⟨rfl, rfl⟩

theorem foldlM_body {h : Heap α} (L : List ℕ) (p : Peaks α) :
    L.foldlM (fun acc i => do let value ← load h acc.container.data i; .ok (update_stats_body acc value)) p =
    L.foldlM (fun acc i => do let value ← load h p.container.data i; (.ok (update_stats_body acc value) : C _)) p := by
  suffices H : ∀ (q : Peaks α), q.container = p.container →
      L.foldlM (fun acc i => do let value ← load h acc.container.data i; .ok (update_stats_body acc value)) q =
      L.foldlM (fun acc i => do let value ← load h p.container.data i; (.ok (update_stats_body acc value) : C _)) q from
    H p rfl
  induction L with
  | nil => intro q _; rfl
  | cons i L ih =>
    intro q hq
    simp only [List.foldlM_cons, hq]
    cases load h p.container.data i with
    | error e => rfl
    | ok v =>
      simp only [C.ok_bind]
      exact ih _ (by rw [(body_stats q v).2, hq])

theorem update_stats_eq {h : Heap α} {p : Peaks α} {l : List α} (H : Stored h p.container l) :
    ∃ p', peaks_update_stats h p = .ok p' ∧ p'.stats = Stats.recompute l ∧ p'.container = p.container := by
  unfold peaks_update_stats
  rw [foldlM_body, foldlM_read' l _ _ H.size H.read, foldlM_ok]
  refine ⟨_, rfl, ?_⟩
  obtain ⟨h1, h2⟩ := foldl_body_stats l { p with min := cNAN, max := cNAN, e := lit 0, e2 := lit 0 }
  exact ⟨h1, h2⟩

theorem Ring.peaks_push {h : Heap α} {p : Peaks α} {a c : ℕ} {xs : List α} (R : Ring h p.container a c xs) (x : α) :
    ∃ p' h' cells', Verif.peaks_push h p x = .ok (p', h') ∧ Ring h' p'.container a c (xs ++ [x]) ∧
      h' = Function.update h a (some cells') ∧ cells'.length = c ∧
      p'.stats = (p.stats.incr (ubend_size p'.container) x).evict p'.container.last_erased_data (slots c (xs ++ [x])) := by
  obtain ⟨u', h', cells', hp, R', hh, hl⟩ := R.push x
  unfold Verif.peaks_push peaks_size
  rw [hp]
  simp only [C.ok_bind]
  set p1 : Peaks α := { p with container := u', e := p.e +. x, e2 := p.e2 +. x *. x } with hp1
  set p2 : Peaks α := if ubend_size u' = 1 || x <. p1.min then { p1 with min := x } else p1 with hp2
  set p3 : Peaks α := if ubend_size u' = 1 || x >. p2.max then { p2 with max := x } else p2 with hp3
  have hs : p3.stats = p.stats.incr (ubend_size u') x ∧ p3.container = u' := by
    rw [hp3, hp2, hp1]
    unfold Peaks.stats Stats.incr
    simp only
    split <;> split <;> simp_all
  obtain ⟨hs, hc⟩ := hs
  by_cases hn : is_nan u'.last_erased_data
  · refine ⟨p3, h', cells', by simp [hn], by rw [hc]; exact R', hh, hl, ?_⟩
    rw [hs, hc]; unfold Stats.evict; simp [hn]
  · have hs2 := hs
    rw [Stats.mk.injEq] at hs2
    simp only [hn, Bool.not_false, if_true]
    split
    · next hcond =>
      obtain ⟨p', hp', hst, hct⟩ := update_stats_eq (h := h') (p := { p3 with
        e := p3.e -. u'.last_erased_data, e2 := p3.e2 -. u'.last_erased_data *. u'.last_erased_data })
        (l := slots c (xs ++ [x])) (by simp only [hc]; exact R'.stored)
      rw [hp']
      refine ⟨p', h', cells', rfl, by rw [hct]; simp only [hc]; exact R', hh, hl, ?_⟩
      rw [hst, hct]
      simp only [hc]
      unfold Stats.evict
      simp only [hn, Bool.not_false, if_true]
      rw [← hs2.2.2.1, ← hs2.2.2.2]
      exact (if_pos hcond).symm
    · next hcond =>
      refine ⟨_, h', cells', rfl, by simp only [hc]; exact R', hh, hl, ?_⟩
      simp only [hc]
      unfold Stats.evict
      simp only [hn, Bool.not_false, if_true]
      rw [← hs2.2.2.1, ← hs2.2.2.2, ← hs2.1, ← hs2.2.1]
      exact (if_neg hcond).symm

omit [CDouble α] in
theorem xmalloc_some {lib : Lib α} {h : Heap α} {size : UInt64} {a : ℕ} (hs : (xmalloc lib h size).1 = some a) :
    (xmalloc lib h size).2 = Function.update h a (some (List.replicate (size.toNat / 8) none)) := by
  unfold xmalloc at *
  cases hm : lib.malloc with
  | none => simp [hm] at hs
  | some m =>
    simp only [hm] at *
    by_cases h1 : size.toNat > SIZE_MAX
    · simp [h1] at hs
    · simp only [h1, if_false] at *
      cases hmm : m h size with
      | none => simp [hmm] at hs
      | some b => simp only [hmm] at *; simp at hs; rw [hs]

omit [CDouble α] in
theorem xmalloc_none {lib : Lib α} {h : Heap α} {size : UInt64} (hs : (xmalloc lib h size).1 = none) :
    (xmalloc lib h size).2 = h := by
  unfold xmalloc at *
  cases hm : lib.malloc with
  | none => rfl
  | some m =>
    simp only [hm] at *
    by_cases h1 : size.toNat > SIZE_MAX
    · simp [h1]
    · simp only [h1, if_false] at *
      cases hmm : m h size with
      | none => simp
      | some b => simp [hmm] at hs

theorem Ring.init {lib : Lib α} {h : Heap α} {cap : UInt64} {a : ℕ} (hc : 0 < cap.toNat) (hb : cap.toNat < 2 ^ 61)
    (hok : (xmalloc lib h (cap * 8)).1 = some a) :
    (ubend_init lib h cap).1 = 0 ∧
    (ubend_init lib h cap).2.2 = Function.update h a (some (List.replicate cap.toNat none)) ∧
    Ring (ubend_init lib h cap).2.2 (ubend_init lib h cap).2.1 a cap.toNat [] := by
  have h8 : (cap * 8).toNat = cap.toNat * 8 := by
    rw [UInt64.toNat_mul, show (8 : UInt64).toNat = 8 from rfl, Nat.mod_eq_of_lt]; omega
  have h2 := xmalloc_some hok
  rw [h8, Nat.mul_div_cancel _ (by norm_num)] at h2
  unfold ubend_init
  simp only [hok, h2]
  refine ⟨by simp, trivial, ?_⟩
  refine ⟨rfl, rfl, hc, hb, ?_, by simp, ?_, ?_⟩
  · simp [slots_nil]
  · simp; omega
  · simp

end Verif

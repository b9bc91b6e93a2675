/-
C17, C18: selection among the estimators. Valid for IEEE doubles and for exact arithmetic, whatever the elementary functions.
-/
import Verif.Proofs.Estim
import Verif.Proofs.Stats
import Verif.Props.SampleRun

namespace Verif
set_option linter.unusedSectionVars false
variable {α : Type} [CDouble α] [L : CDoubleLaws α]

theorem tail_fit_step_spec (acc : α × Tail α) (e : Est α) :
    ((tail_fit_step acc e).1 = e.llhood ∧ (tail_fit_step acc e).2.gamma = e.gamma ∧ (tail_fit_step acc e).2.sigma = e.sigma ∨
      tail_fit_step acc e = acc ∧ is_nan acc.1 = false) ∧
    (is_nan e.llhood = false → (e.llhood <=. (tail_fit_step acc e).1) = true) ∧
    (is_nan acc.1 = false → (acc.1 <=. (tail_fit_step acc e).1) = true) := by
  unfold tail_fit_step
  by_cases h1 : is_nan acc.1 = true
  · rw [if_pos (by simp [h1])]
    refine ⟨Or.inl ⟨rfl, rfl, rfl⟩, fun h => le_refl' h, fun h => ?_⟩
    rw [h1] at h; cases h
  · rw [Bool.not_eq_true] at h1
    by_cases h2 : (e.llhood >. acc.1) = true
    · rw [if_pos (by simp [h2])]
      exact ⟨Or.inl ⟨rfl, rfl, rfl⟩, fun h => le_refl' h, fun _ => le_of_lt' h2⟩
    · rw [if_neg (by simp [h1, h2])]
      rw [Bool.not_eq_true] at h2
      exact ⟨Or.inr ⟨rfl, h1⟩, fun h => le_of_not_lt h1 h h2, fun h => le_refl' h⟩

theorem mom_ll {M : MathFns α} {h : Heap α} {p : Peaks α} {e : Est α} (he : mom_estimator M h p = .ok e) :
    log_likelihood M h p e.gamma e.sigma = .ok e.llhood := by
  unfold mom_estimator at he
  dsimp only at he
  obtain ⟨l, h1, he⟩ := C.bind_ok he
  cases he
  exact h1

theorem simplified_ll {M : MathFns α} {h : Heap α} {p : Peaks α} {x : α} {e : Est α}
    (he : grimshaw_simplified_log_likelihood M h p x = .ok e) :
    log_likelihood M h p e.gamma e.sigma = .ok e.llhood := by
  unfold grimshaw_simplified_log_likelihood at he
  split at he
  · dsimp only at he
    obtain ⟨l, h1, he⟩ := C.bind_ok he
    cases he
    exact h1
  · obtain ⟨v, h0, he⟩ := C.bind_ok he
    dsimp only at he
    obtain ⟨l, h1, he⟩ := C.bind_ok he
    cases he
    exact h1

theorem better_spec {M : MathFns α} {h : Heap α} {p : Peaks α} {best e : Est α} {root : Bool × α}
    (he : grimshaw_better M h p best root = .ok e) :
    (e = best ∨ root.1 = true ∧ grimshaw_simplified_log_likelihood M h p root.2 = .ok e) ∧
    (is_nan best.llhood = false → (best.llhood <=. e.llhood) = true ∧
      (root.1 = true → ∃ c, grimshaw_simplified_log_likelihood M h p root.2 = .ok c ∧
        (is_nan c.llhood = false → (c.llhood <=. e.llhood) = true))) := by
  unfold grimshaw_better at he
  by_cases hr : root.1 = true
  · rw [if_pos hr] at he
    obtain ⟨c, h1, he⟩ := C.bind_ok he
    split at he
    · next h2 =>
      cases he
      exact ⟨Or.inr ⟨hr, h1⟩, fun _ => ⟨le_of_lt' h2, fun _ => ⟨e, h1, fun h => le_refl' h⟩⟩⟩
    · next h2 =>
      cases he
      rw [Bool.not_eq_true] at h2
      exact ⟨Or.inl rfl, fun hb => ⟨le_refl' hb, fun _ => ⟨c, h1, fun h => le_of_not_lt hb h h2⟩⟩⟩
  · rw [if_neg hr] at he
    cases he
    exact ⟨Or.inl rfl, fun hb => ⟨le_refl' hb, fun h => absurd h hr⟩⟩

/-! ### C18 -/

/-- The Grimshaw estimator: its value is the likelihood of the parameters it returns; if the exponential fit has a
likelihood (not NaN) it is at least as good as this fit and as each reported root that has a likelihood. -/
theorem C18_grimshaw (M : MathFns α) (h : Heap α) (p : Peaks α) (est : Est α)
    (he : grimshaw_estimator M h p = .ok est) :
    log_likelihood M h p est.gamma est.sigma = .ok est.llhood ∧
    ∃ l0 left right,
      log_likelihood M h p (lit 0) (peaks_mean p) = .ok l0 ∧
      brent (grimshaw_w M h p) (lit (-1) /. p.max +. xmin (lit (2 / 10 ^ 8)) (lit (1 / 2) /. p.max))
        (-. xmin (lit (2 / 10 ^ 8)) (lit (1 / 2) /. p.max)) (lit (2 / 10 ^ 8)) = .ok left ∧
      brent (grimshaw_w M h p) (xmin (lit (2 / 10 ^ 8)) (lit (1 / 2) /. p.max))
        (lit 2 *. (peaks_mean p -. p.min) /. (p.min *. p.min)) (lit (2 / 10 ^ 8)) = .ok right ∧
      (is_nan l0 = false → (l0 <=. est.llhood) = true ∧
        ∀ r ∈ [left, right], r.1 = true → ∃ cand, grimshaw_simplified_log_likelihood M h p r.2 = .ok cand ∧
          (is_nan cand.llhood = false → (cand.llhood <=. est.llhood) = true)) := by
  unfold grimshaw_estimator grimshaw_eps at he
  dsimp only at he
  obtain ⟨left, hl, he⟩ := C.bind_ok he
  obtain ⟨right, hr, he⟩ := C.bind_ok he
  obtain ⟨e0, h0, he⟩ := C.bind_ok he
  obtain ⟨e1, h1, he⟩ := C.bind_ok he
  have b1 := better_spec h1
  have b2 := better_spec he
  have hz : (lit 0 ==. (lit 0 : α)) = true := by
    rw [L.eq_iff]; exact ⟨L.nan_lit 0, L.nan_lit 0, rfl⟩
  have k0 : log_likelihood M h p (lit 0) (peaks_mean p) = .ok e0.llhood := by
    unfold grimshaw_simplified_log_likelihood at h0
    rw [if_pos hz] at h0
    dsimp only at h0
    obtain ⟨l, h3, h0⟩ := C.bind_ok h0
    cases h0
    exact h3
  constructor
  · rcases b2.1 with rfl | ⟨_, g⟩
    · rcases b1.1 with rfl | ⟨_, g⟩
      · exact simplified_ll h0
      · exact simplified_ll g
    · exact simplified_ll g
  · refine ⟨e0.llhood, left, right, k0, hl, hr, fun hn => ?_⟩
    obtain ⟨c1, c2⟩ := b1.2 hn
    have hn1 : is_nan e1.llhood = false := ((L.le_iff _ _).mp c1).2.1
    obtain ⟨d1, d2⟩ := b2.2 hn1
    refine ⟨le_trans' c1 d1, ?_⟩
    intro r hr hr1
    simp only [List.mem_cons, List.not_mem_nil, or_false] at hr
    rcases hr with rfl | rfl
    · obtain ⟨c, g1, g2⟩ := c2 hr1
      exact ⟨c, g1, fun h => le_trans' (g2 h) d1⟩
    · exact d2 hr1

/-! ### C17 -/

/-- `tail_fit` keeps the most likely of the candidates. -/
theorem C17_tail_fit (M : MathFns α) (h : Heap α) (t t' : Tail α) (ll : α) (he : tail_fit M h t = .ok (ll, t')) :
    ∃ e1 e2, mom_estimator M h t.peaks = .ok e1 ∧ grimshaw_estimator M h t.peaks = .ok e2 ∧
      (ll = e1.llhood ∧ t' = { t with gamma := e1.gamma, sigma := e1.sigma } ∨
        ll = e2.llhood ∧ t' = { t with gamma := e2.gamma, sigma := e2.sigma }) ∧
      (is_nan e1.llhood = false → (e1.llhood <=. ll) = true) ∧
      (is_nan e2.llhood = false → (e2.llhood <=. ll) = true) ∧
      log_likelihood M h t.peaks t'.gamma t'.sigma = .ok ll := by
  unfold tail_fit at he
  obtain ⟨e1, h1, he⟩ := C.bind_ok he
  dsimp only at he
  obtain ⟨e2, h2, he⟩ := C.bind_ok he
  have he : tail_fit_step (tail_fit_step (cNAN, t) e1) e2 = (ll, t') := by injection he
  have s1 := tail_fit_step_spec (cNAN, t) e1
  have s2 := tail_fit_step_spec (tail_fit_step (cNAN, t) e1) e2
  have f1 : tail_fit_step (cNAN, t) e1 = (e1.llhood, { t with gamma := e1.gamma, sigma := e1.sigma }) := by
    unfold tail_fit_step
    rw [if_pos (by simp [L.nan_cNAN])]
  rw [he, f1] at s2
  have hcase : ll = e1.llhood ∧ t' = { t with gamma := e1.gamma, sigma := e1.sigma } ∨
        ll = e2.llhood ∧ t' = { t with gamma := e2.gamma, sigma := e2.sigma } := by
    rw [f1] at he
    unfold tail_fit_step at he
    split at he
    · cases he; exact Or.inr ⟨rfl, rfl⟩
    · cases he; exact Or.inl ⟨rfl, rfl⟩
  refine ⟨e1, e2, h1, h2, hcase, s2.2.2, s2.2.1, ?_⟩
  rcases hcase with ⟨rfl, rfl⟩ | ⟨rfl, rfl⟩
  · exact mom_ll h1
  · exact (C18_grimshaw M h t.peaks e2 h2).1

/-- In particular the result is NaN only if the likelihoods of both estimators are NaN. -/
theorem C17_nan (M : MathFns α) (h : Heap α) (t t' : Tail α) (ll : α) (he : tail_fit M h t = .ok (ll, t'))
    (hn : is_nan ll = true) :
    ∃ e1 e2, mom_estimator M h t.peaks = .ok e1 ∧ grimshaw_estimator M h t.peaks = .ok e2 ∧
      is_nan e1.llhood = true ∧ is_nan e2.llhood = true := by
  obtain ⟨e1, e2, h1, h2, _, k1, k2, _⟩ := C17_tail_fit M h t t' ll he
  refine ⟨e1, e2, h1, h2, ?_, ?_⟩
  · by_contra hc
    rw [Bool.not_eq_true] at hc
    have := ((L.le_iff _ _).mp (k1 hc)).2.1
    rw [hn] at this; cases this
  · by_contra hc
    rw [Bool.not_eq_true] at hc
    have := ((L.le_iff _ _).mp (k2 hc)).2.1
    rw [hn] at this; cases this

/-- Both estimators and `tail_fit` are defined (no undefined behaviour, always terminate) on what a client can have built:
initialisation followed by any insertions. -/
theorem C17_C18_defined (M : MathFns α) (lib : Lib α) (h : Heap α) (cap : UInt64) (h1 : 1 ≤ cap.toNat)
    (h2 : cap.toNat < 2 ^ 61) (h0 : (peaks_init lib h cap).1 = 0) (xs : List α) (gamma sigma : α) (p : Peaks α) (h' : Heap α)
    (hp : peaksPushAll (peaks_init lib h cap).2.2 (peaks_init lib h cap).2.1 xs = .ok (p, h')) :
    ∃ e1 e2 r, mom_estimator M h' p = .ok e1 ∧ grimshaw_estimator M h' p = .ok e2 ∧
      tail_fit M h' ⟨gamma, sigma, p⟩ = .ok r := by
  obtain ⟨a, I⟩ := peaks_init_inv h1 h2 h0
  obtain ⟨p', h'', e, I'⟩ := peaksPushAll_inv I xs
  rw [e] at hp
  cases hp
  have S := I'.ring.stored
  exact ⟨_, _, _, mom_eq S, grimshaw_eq S, tail_fit_eq (t := ⟨gamma, sigma, p⟩) S⟩

end Verif

namespace Verif.Sample

/-- three excesses in a container of capacity 20 -/
def tail3 : C (Peaks F64 × Heap F64) :=
  peaksPushAll (peaks_init lib emptyHeap 20).2.2 (peaks_init lib emptyHeap 20).2.1
    [lit (1 / 2), lit 1, lit 100]

/-- on these the likelihood of the exponential fit is a number and a root is found and kept (positive shape) -/
example : (tail3 >>= fun r => do
    let e0 ← log_likelihood (codeMath muslFU) r.2 r.1 (lit 0) (peaks_mean r.1)
    let f ← grimshaw_estimator (codeMath muslFU) r.2 r.1
    .ok (is_nan e0, is_nan f.llhood, f.gamma >. lit 0, f.sigma >. lit 0)) =
    .ok (false, false, true, true) := by decide +kernel

end Verif.Sample

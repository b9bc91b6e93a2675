/-
The fitted model and the stored excesses, in exact arithmetic.
-/
import Verif.Proofs.Equal

namespace Verif
open XR

namespace Support

/-- a model with a positive scale under which none of the values `l` lies beyond the end of the tail -/
def Ok (l : List ℝ) (g s : XR) : Prop := ∃ γ σ : ℝ, g = fin γ ∧ s = fin σ ∧ 0 < σ ∧ ∀ y ∈ l, 0 ≤ 1 + γ / σ * y

theorem foldl_has_nan (g : XR → XR) {l : List XR} (h : ∃ v ∈ l, g v = nan) (a : XR) : l.foldl (fun r v => r +. g v) a = nan := by
  induction l generalizing a with
  | nil => simp at h
  | cons w l ih =>
    rw [List.foldl_cons]
    obtain ⟨v, hv, e⟩ := h
    rcases List.mem_cons.mp hv with rfl | hv
    · rw [e, Equal.add_nan', Equal.foldl_nanR]
    · exact ih ⟨v, hv, e⟩ _

theorem log_neg {r : ℝ} (h : r < 0) : exactMath.log (fin r) = nan := if_pos h
theorem log_zero : exactMath.log (fin 0) = ninf := by
  show (if (0 : ℝ) < 0 then nan else if (0 : ℝ) = 0 then ninf else _) = ninf
  simp

theorem mul_pos_inf {a : ℝ} (h : 0 < a) : (fin a *. pinf : XR) = pinf := by
  show infSign a = _
  unfold infSign; simp [h.ne', h]

theorem mul_neg_inf {a : ℝ} (h : a < 0) : (fin a *. pinf : XR) = ninf := by
  show infSign a = _
  unfold infSign; simp [h.ne, h.le]

theorem mul_neg_ninf {a : ℝ} (h : a < 0) : (fin a *. ninf : XR) = pinf := by
  show infSign (-a) = _
  unfold infSign; simp [h.ne, h]

theorem pinf_mul {a : ℝ} (h : 0 < a) : (pinf *. fin a : XR) = pinf := by
  show infSign a = _
  unfold infSign; simp [h.ne', h]

theorem ninf_mul {a : ℝ} (h : 0 < a) : (ninf *. fin a : XR) = ninf := by
  show infSign (-a) = _
  unfold infSign; simp [h.ne', h.le]

theorem pinf_mul_zero : (pinf *. fin 0 : XR) = nan := by
  show infSign 0 = _
  unfold infSign; simp

set_option linter.unusedSectionVars false

section
variable {l : List ℝ} (hl : l ≠ []) (h0 : ∀ y ∈ l, 0 ≤ y) (hp : ∃ y ∈ l, 0 < y)
include hl h0 hp

/-- a likelihood that is not NaN -/
theorem lik_ok {e γ σ : ℝ} (he : 0 < e) (h : logLikL exactMath (fin e) (l.map fin) (fin γ) (fin σ) ≠ nan) :
    0 < σ ∧ ∀ y ∈ l, 0 ≤ 1 + γ / σ * y := by
  have n0 : (0 : ℝ) < l.length := by exact_mod_cast List.length_pos_of_ne_nil hl
  have hn : (-. lit (l.map fin).length : XR) = fin (-l.length) := by
    rw [List.length_map, lit_fin, neg_f]; push_cast; rfl
  obtain ⟨p, hpm, hp⟩ := hp
  rcases lt_trichotomy σ 0 with hσ | rfl | hσ
  · exact absurd (Equal.logLikL_nan (log_neg hσ)) h
  · refine absurd ?_ h
    unfold logLikL
    rw [log_zero, hn, mul_neg_ninf (by linarith)]
    by_cases hγ : γ = 0
    · rw [if_pos (by rw [lit_fin, eq_ff]; simp [hγ])]
      have : (fin e /. fin 0 : XR) = pinf := by
        show XR.div _ _ = _
        unfold XR.div infSign
        simp [he.ne', he]
      rw [this]
      rfl
    · rw [if_neg (by rw [lit_fin, eq_ff]; simpa using hγ)]
      have hd : (fin γ /. fin 0 : XR) = infSign γ := by
        show XR.div _ _ = _
        unfold XR.div
        simp
      rw [hd]
      unfold infSign
      rw [if_neg hγ]
      by_cases hg : 0 < γ
      · rw [if_pos hg]
        obtain ⟨v, t, rfl⟩ := List.exists_cons_of_ne_nil hl
        rw [List.map_cons, List.foldl_cons]
        have hc : (-. (lit 1 +. lit 1 /. fin γ) : XR) = fin (-(1 + 1 / γ)) := by
          rw [lit_fin, div_ff hγ, add_ff, neg_f]; push_cast; rfl
        rcases (h0 v List.mem_cons_self).eq_or_lt with hv | hv
        · rw [← hv, pinf_mul_zero, show exactMath.log (lit 1 +. nan : XR) = nan from rfl, Equal.mul_nan', Equal.add_nan', Equal.foldl_nanR]
        · rw [pinf_mul hv, show exactMath.log (lit 1 +. pinf : XR) = pinf from rfl, hc, mul_neg_inf (by have := one_div_pos.mpr hg; linarith),
            show (pinf +. ninf : XR) = nan from rfl, Equal.foldl_nanR]
      · rw [if_neg hg]
        apply foldl_has_nan (fun v => (-. (lit 1 +. lit 1 /. fin γ)) *. exactMath.log (lit 1 +. ninf *. v))
        refine ⟨fin p, List.mem_map_of_mem hpm, ?_⟩
        rw [ninf_mul hp, show exactMath.log (lit 1 +. ninf : XR) = nan from rfl, Equal.mul_nan']
  · refine ⟨hσ, fun y hy => ?_⟩
    by_contra hc
    refine h ?_
    unfold logLikL
    rw [if_neg, div_ff hσ.ne']
    · apply foldl_has_nan (fun v => (-. (lit 1 +. lit 1 /. fin γ)) *. exactMath.log (lit 1 +. fin (γ / σ) *. v))
      refine ⟨fin y, List.mem_map_of_mem hy, ?_⟩
      rw [lit_fin, mul_ff, add_ff, log_neg (by push_cast; linarith), Equal.mul_nan']
    · rw [lit_fin, eq_ff]
      rintro h
      have h : γ = 0 := by simpa using h
      rw [h] at hc
      simp at hc

theorem mean_real {e : ℝ} : meanL (fin e) (l.map fin) = fin (e / l.length) := by
  have n0 : (l.length : ℝ) ≠ 0 := by exact_mod_cast (List.length_pos_of_ne_nil hl).ne'
  unfold meanL
  rw [List.length_map, lit_fin, div_ff (by push_cast; exact n0)]
  push_cast
  rfl

theorem lik_inf (e : XR) : logLikL exactMath e (l.map fin) ninf pinf = nan := by
  obtain ⟨p, hpm, hp⟩ := hp
  unfold logLikL
  rw [if_neg (by rw [lit_fin]; show ¬ XR.eq _ _ = true; unfold XR.eq; simp [XR.val]), show (ninf /. pinf : XR) = nan from rfl]
  apply foldl_has_nan (fun v => (-. (lit 1 +. lit 1 /. ninf)) *. exactMath.log (lit 1 +. nan *. v))
  refine ⟨fin p, List.mem_map_of_mem hpm, ?_⟩
  rw [show exactMath.log (lit 1 +. nan *. fin p : XR) = nan from rfl, Equal.mul_nan']

theorem mom_ok {e e2 : ℝ} (he : 0 < e) (h : (momL exactMath (fin e) (fin e2) (l.map fin)).llhood ≠ nan) :
    Ok l (momL exactMath (fin e) (fin e2) (l.map fin)).gamma (momL exactMath (fin e) (fin e2) (l.map fin)).sigma := by
  have n0 : (0 : ℝ) < l.length := by exact_mod_cast List.length_pos_of_ne_nil hl
  have hm := mean_real hl h0 hp (e := e)
  have hv : ∃ v, varL (fin e) (fin e2) (l.map fin) = fin v := by
    unfold varL
    rw [List.length_map, lit_fin, div_ff (by push_cast; exact n0.ne'), div_ff (by push_cast; exact n0.ne'), mul_ff, sub_ff]
    exact ⟨_, rfl⟩
  obtain ⟨v, hv⟩ := hv
  unfold momL at h ⊢
  dsimp only at h ⊢
  rw [hm, hv] at h ⊢
  have m0 : 0 < e / l.length := div_pos he n0
  rw [mul_ff] at h ⊢
  by_cases v0 : v = 0
  · subst v0
    have hR : (fin (e / l.length * (e / l.length)) /. fin 0 : XR) = pinf := by
      show XR.div _ _ = _
      unfold XR.div XR.infSign
      have := mul_pos m0 m0
      simp only [if_pos, if_neg this.ne', if_pos this]
    rw [hR] at h
    refine absurd ?_ h
    have a : (lit (1 / 2) *. (lit 1 -. pinf) : XR) = ninf := by
      rw [show (lit 1 -. pinf : XR) = ninf from rfl, lit_fin]
      show XR.mul _ _ = _
      unfold XR.mul XR.infSign
      norm_num
    have b : (lit (1 / 2) *. fin (e / l.length) *. (lit 1 +. pinf) : XR) = pinf := by
      rw [show (lit 1 +. pinf : XR) = pinf from rfl, lit_fin, mul_ff, mul_pos_inf (mul_pos (by norm_num) m0)]
    rw [a, b, lik_inf hl h0 hp]
  · rw [div_ff v0] at h ⊢
    have a : ∀ R : ℝ, (lit (1 / 2) *. (lit 1 -. fin R) : XR) = fin (1 / 2 * (1 - R)) := fun R => by
      rw [lit_fin, lit_fin, sub_ff, mul_ff]; push_cast; rfl
    have b : ∀ m R : ℝ, (lit (1 / 2) *. fin m *. (lit 1 +. fin R) : XR) = fin (1 / 2 * m * (1 + R)) := fun m R => by
      rw [lit_fin, lit_fin, add_ff, mul_ff, mul_ff]; push_cast; rfl
    rw [a, b] at h ⊢
    obtain ⟨h1, h2⟩ := lik_ok hl h0 hp he h
    exact ⟨_, _, rfl, rfl, h1, h2⟩

theorem zero_ok {e : ℝ} (he : 0 < e) : (simplifiedL exactMath (fin e) (l.map fin) (lit 0)).llhood ≠ nan ∧
    Ok l (simplifiedL exactMath (fin e) (l.map fin) (lit 0)).gamma (simplifiedL exactMath (fin e) (l.map fin) (lit 0)).sigma := by
  have n0 : (0 : ℝ) < l.length := by exact_mod_cast List.length_pos_of_ne_nil hl
  have m0 : 0 < e / l.length := div_pos he n0
  have z : ((lit 0 : XR) ==. lit 0) = true := by rw [lit_fin, eq_ff]; simp
  unfold simplifiedL
  rw [if_pos z, mean_real hl h0 hp]
  dsimp only
  constructor
  · unfold logLikL
    rw [if_pos z, log_f m0, div_ff m0.ne', lit_fin, neg_f, mul_ff, sub_ff]
    simp
  · refine ⟨0, e / l.length, by rw [lit_fin]; simp, rfl, m0, fun y _ => by simp⟩

theorem nan_cand {e x : XR} (hx : (x ==. lit 0) = false) (h : grimshawVL exactMath (l.map fin) x -. lit 1 = nan) :
    (simplifiedL exactMath e (l.map fin) x).llhood = nan := by
  unfold simplifiedL
  rw [if_neg (by rw [hx]; simp)]
  dsimp only
  rw [h]
  exact Equal.logLikL_nan rfl

theorem fold_nan_cand {x : XR} (h : (l.map fin).foldl (fun v y => v +. exactMath.log (lit 1 +. x *. y)) (lit 0) = nan) :
    grimshawVL exactMath (l.map fin) x -. lit 1 = nan := by
  unfold grimshawVL
  rw [h, show (nan /. lit (l.map fin).length : XR) = nan from rfl, Equal.add_nan']
  rfl

theorem root_ok {e : ℝ} (he : 0 < e) (x : XR) (h : (simplifiedL exactMath (fin e) (l.map fin) x).llhood ≠ nan) :
    Ok l (simplifiedL exactMath (fin e) (l.map fin) x).gamma (simplifiedL exactMath (fin e) (l.map fin) x).sigma := by
  have n0 : (0 : ℝ) < l.length := by exact_mod_cast List.length_pos_of_ne_nil hl
  by_cases hx : (x ==. lit 0) = true
  · have : simplifiedL exactMath (fin e) (l.map fin) x = simplifiedL exactMath (fin e) (l.map fin) (lit 0) := by
      have z : ((lit 0 : XR) ==. lit 0) = true := by rw [lit_fin, eq_ff]; simp
      unfold simplifiedL
      rw [if_pos hx, if_pos z]
    rw [this]
    exact (zero_ok hl h0 hp he).2
  rw [Bool.not_eq_true] at hx
  obtain ⟨p, hpm, hp'⟩ := hp
  have hpm' := List.mem_map_of_mem (f := fin) hpm
  have hfold : ∀ y : XR, y = nan → (∃ v ∈ l.map fin, exactMath.log (lit 1 +. x *. v) = y) → False := fun y hy ⟨v, hv, e⟩ =>
    h (nan_cand hl h0 ⟨p, hpm, hp'⟩ hx (fold_nan_cand hl h0 ⟨p, hpm, hp'⟩ (foldl_has_nan (fun y => exactMath.log (lit 1 +. x *. y)) ⟨v, hv, e.trans hy⟩ _)))
  match x, hx, h, hfold with
  | nan, hx, h, hfold => exact (hfold nan rfl ⟨_, hpm', rfl⟩).elim
  | ninf, hx, h, hfold => exact (hfold nan rfl ⟨_, hpm', by rw [ninf_mul hp']; rfl⟩).elim
  | pinf, hx, h, hfold =>
    refine absurd ?_ h
    have hpos : ∀ y ∈ l, 0 < y := fun y hy => by
      rcases (h0 y hy).eq_or_lt with e | e
      · exact (hfold nan rfl ⟨_, List.mem_map_of_mem hy, by rw [← e, pinf_mul_zero]; rfl⟩).elim
      · exact e
    have hf : ∀ (t : List ℝ), (∀ y ∈ t, 0 < y) → (t.map fin).foldl (fun v y => v +. exactMath.log (lit 1 +. pinf *. y)) pinf = pinf := by
      intro t ht
      induction t with
      | nil => rfl
      | cons y t ih =>
        rw [List.map_cons, List.foldl_cons, pinf_mul (ht y List.mem_cons_self)]
        exact ih fun z hz => ht z (List.mem_cons_of_mem _ hz)
    have hg : grimshawVL exactMath (l.map fin) pinf -. lit 1 = pinf := by
      unfold grimshawVL
      obtain ⟨v, t, rfl⟩ := List.exists_cons_of_ne_nil hl
      rw [List.map_cons, List.foldl_cons, pinf_mul (hpos v List.mem_cons_self),
        show (lit 0 +. exactMath.log (lit 1 +. pinf) : XR) = pinf from rfl, hf t fun z hz => hpos z (List.mem_cons_of_mem _ hz), lit_fin, lit_fin]
      have : (pinf /. fin (((fin v :: List.map fin t).length : ℚ) : ℝ) : XR) = pinf := by
        exact if_pos (by positivity)
      rw [this]
      rfl
    unfold simplifiedL
    rw [if_neg (by rw [hx]; simp)]
    dsimp only
    rw [hg]
    exact Equal.logLikL_nan rfl
  | fin r, hx, h, hfold =>
    have r0 : r ≠ 0 := by
      rw [lit_fin, eq_ff] at hx
      simpa using hx
    have hn1 : ∀ y ∈ l, 0 ≤ 1 + r * y := fun y hy => by
      by_contra hc
      exact hfold nan rfl ⟨_, List.mem_map_of_mem hy, by rw [mul_ff, lit_fin, add_ff, log_neg (by push_cast; linarith)]⟩
    by_cases hz : ∃ y ∈ l, 1 + r * y = 0
    · refine absurd ?_ h
      obtain ⟨y, hy, hz⟩ := hz
      have rneg : r < 0 := by
        by_contra hc
        have := mul_nonneg (not_lt.mp hc) (h0 y hy)
        linarith
      have hlog : ∀ y ∈ l, exactMath.log (lit 1 +. fin r *. fin y) = ninf ∨ ∃ z, exactMath.log (lit 1 +. fin r *. fin y) = fin z := by
        intro y hy
        have := hn1 y hy
        rw [mul_ff, lit_fin, add_ff]
        push_cast
        rcases this.eq_or_lt with e | e
        · left; rw [← e, log_zero]
        · right; exact ⟨_, log_f e⟩
      have hf : ∀ (t : List ℝ), (∀ y ∈ t, y ∈ l) → (t.map fin).foldl (fun v y => v +. exactMath.log (lit 1 +. fin r *. y)) ninf = ninf := by
        intro t ht
        induction t with
        | nil => rfl
        | cons y t ih =>
          rw [List.map_cons, List.foldl_cons]
          have : (ninf +. exactMath.log (lit 1 +. fin r *. fin y) : XR) = ninf := by
            rcases hlog y (ht y List.mem_cons_self) with e | ⟨z, e⟩ <;> rw [e] <;> rfl
          rw [this]
          exact ih fun z hz => ht z (List.mem_cons_of_mem _ hz)
      have hf2 : ∀ (t : List ℝ) (a : ℝ), (∀ y ∈ t, y ∈ l) → (∃ y ∈ t, 1 + r * y = 0) →
          (t.map fin).foldl (fun v y => v +. exactMath.log (lit 1 +. fin r *. y)) (fin a) = ninf := by
        intro t
        induction t with
        | nil => rintro a - ⟨y, hy, -⟩; simp at hy
        | cons w t ih =>
          rintro a ht ⟨y, hy, hz⟩
          rw [List.map_cons, List.foldl_cons]
          rcases hlog w (ht w List.mem_cons_self) with e | ⟨z, e⟩
          · rw [e, show (fin a +. ninf : XR) = ninf from rfl]
            exact hf t fun z hz => ht z (List.mem_cons_of_mem _ hz)
          · rw [e, add_ff]
            refine ih _ (fun z hz => ht z (List.mem_cons_of_mem _ hz)) ⟨y, ?_, hz⟩
            rcases List.mem_cons.mp hy with rfl | hy
            · rw [mul_ff, lit_fin, add_ff] at e
              push_cast at e
              rw [hz, log_zero] at e
              cases e
            · exact hy
      have hg : grimshawVL exactMath (l.map fin) (fin r) -. lit 1 = ninf := by
        unfold grimshawVL
        have := hf2 l ((0 : ℚ) : ℝ) (fun _ h => h) ⟨y, hy, hz⟩
        rw [lit_fin 0, this, lit_fin, lit_fin]
        have : (ninf /. fin (((List.map fin l).length : ℚ) : ℝ) : XR) = ninf := by
          exact if_pos (by positivity)
        rw [this]
        rfl
      unfold simplifiedL
      rw [if_neg (by rw [hx]; simp)]
      dsimp only
      rw [hg]
      have : (ninf /. fin r : XR) = pinf := by
        exact if_neg (by linarith)
      rw [this]
      exact lik_inf hl h0 ⟨p, hpm, hp'⟩ _
    · have hpos : ∀ y ∈ l, 0 < 1 + r * y := fun y hy => lt_of_le_of_ne (hn1 y hy) fun e => hz ⟨y, hy, e.symm⟩
      have hg : grimshawVL exactMath (l.map fin) (fin r) -. lit 1 = fin (sumLog r l / l.length) := by
        rw [grimshawVL_exact hl hpos, lit_fin, sub_ff]
        congr 1
        push_cast
        ring
      unfold simplifiedL at h ⊢
      rw [if_neg (by rw [hx]; simp)] at h ⊢
      dsimp only at h ⊢
      rw [hg, div_ff r0] at h ⊢
      obtain ⟨h1, h2⟩ := lik_ok hl h0 ⟨p, hpm, hp'⟩ he h
      exact ⟨_, _, rfl, rfl, h1, h2⟩

theorem better_ok {e : ℝ} (he : 0 < e) {best : Est XR} (hb : best.llhood ≠ nan ∧ Ok l best.gamma best.sigma) (root : Bool × XR) :
    (betterL exactMath (fin e) (l.map fin) best root).llhood ≠ nan ∧
      Ok l (betterL exactMath (fin e) (l.map fin) best root).gamma (betterL exactMath (fin e) (l.map fin) best root).sigma := by
  unfold betterL
  split
  · split
    · rename_i h
      have : (simplifiedL exactMath (fin e) (l.map fin) root.2).llhood ≠ nan := fun hn => by
        rw [hn] at h
        have := ((CDoubleLaws.lt_iff _ _).mp h).2.1
        rw [nan_nan] at this
        cases this
      exact ⟨this, root_ok hl h0 hp he _ this⟩
    · exact hb
  · exact hb

/-- the result of a fit has a likelihood, and covers the stored excesses -/
theorem fit_ok {e e2 : ℝ} (he : 0 < e) (mini maxi γ σ : XR) :
    (fitL exactMath γ σ ⟨fin e, fin e2, mini, maxi⟩ (l.map fin)).1 ≠ nan ∧
      Ok l (fitL exactMath γ σ ⟨fin e, fin e2, mini, maxi⟩ (l.map fin)).2.1 (fitL exactMath γ σ ⟨fin e, fin e2, mini, maxi⟩ (l.map fin)).2.2 := by
  have hg : (grimshawL exactMath (fin e) mini maxi (l.map fin)).llhood ≠ nan ∧
      Ok l (grimshawL exactMath (fin e) mini maxi (l.map fin)).gamma (grimshawL exactMath (fin e) mini maxi (l.map fin)).sigma := by
    unfold grimshawL
    exact better_ok hl h0 hp he (better_ok hl h0 hp he (zero_ok hl h0 hp he) _) _
  unfold fitL
  dsimp only
  generalize grimshawL exactMath (fin e) mini maxi (l.map fin) = G at hg
  have hm := mom_ok hl h0 hp he (e2 := e2)
  generalize momL exactMath (fin e) (fin e2) (l.map fin) = m at hm
  unfold fitStepL
  dsimp only
  rw [CDoubleLaws.nan_cNAN, Bool.true_or, if_pos rfl]
  dsimp only
  split
  · exact hg
  · rename_i h
    have : m.llhood ≠ nan := fun hn => by
      rw [hn, nan_nan] at h
      simp at h
    exact ⟨this, hm this⟩
end

/-- the tracked sum of squares is a number -/
theorem e2_real {c : ℕ} (hc : 0 < c) (xs : List ℝ) : ∃ r, (statsOf c (xs.map fin)).e2 = fin r := by
  induction xs using List.reverseRecOn with
  | nil => exact ⟨0, by simp [statsOf, statsRev, lit_fin]⟩
  | append_singleton xs x ih =>
    obtain ⟨r, hr⟩ := ih
    rw [List.map_append, List.map_singleton, statsOf_snoc]
    have hi : ((statsOf c (xs.map fin)).incr (UInt64.ofNat (min ((xs.map fin).length + 1) c)) (fin x)).e2 = fin (r + x * x) := by
      unfold Stats.incr
      dsimp only
      rw [hr, mul_ff, add_ff]
    generalize (statsOf c (xs.map fin)).incr (UInt64.ofNat (min ((xs.map fin).length + 1) c)) (fin x) = S at hi
    unfold Stats.evict
    dsimp only
    split
    · rename_i hn
      split
      · obtain ⟨t, v, hv⟩ : ∃ t v, slots c (xs.map fin ++ [fin x]) = (t ++ [v] : List ℝ).map fin := by
          have hm : slots c (xs.map fin ++ [fin x]) = (slots c (xs ++ [x])).map fin := by
            rw [← slots_map, List.map_append, List.map_singleton]
          have hne : slots c (xs ++ [x]) ≠ [] := by
            intro h
            have := congrArg List.length h
            rw [slots_length] at this
            simp at this
            omega
          exact ⟨_, _, by rw [hm, List.dropLast_append_getLast hne]⟩
        rw [hv, List.map_append, List.map_singleton, Equal.recompute_last, mul_ff]
        exact ⟨_, rfl⟩
      · have : ∃ w, erasedOf c (xs.map fin ++ [fin x]) = fin w := by
          by_cases hlen : xs.length < c
          · unfold erasedOf at hn
            rw [if_pos (by simp; omega), CDoubleLaws.nan_cNAN] at hn
            cases hn
          · have hl : xs.length % c < (slots c xs).length := by
              rw [slots_length]
              have := Nat.mod_lt xs.length hc
              omega
            exact ⟨_, erasedOf_fin hc xs x hlen hl⟩
        obtain ⟨w, hw⟩ := this
        dsimp only
        rw [hw, hi, mul_ff, sub_ff]
        exact ⟨_, rfl⟩
    · exact ⟨_, hi⟩

end Support

end Verif

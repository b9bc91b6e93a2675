/-
C100, C101: accuracy of the log-likelihood in binary64, and what it means for the parameters that are kept.
-/
import Verif.Proofs.LogLik
import Verif.Props.Drift
import Verif.Props.Estim
import Verif.Props.Accuracy

namespace Verif
open F64

namespace Spec

/-- parameters and excesses for which nothing overflows, the shape is 0 or not too small, and no excess is at the end of the support -/
structure Evaluable (γ σ : F64) (l : List F64) : Prop where
  gamma : isFin γ
  sigma : isFin σ ∧ 1 / 10 ^ 100 ≤ toQ σ ∧ toQ σ ≤ 10 ^ 100
  shape : toQ γ = 0 ∨ 1 / 2 ^ 20 ≤ |toQ γ| ∧ |toQ γ| ≤ 2 ^ 20 ∧
    ∀ v ∈ l, 1 / 10 ^ 5 ≤ 1 + toQ γ * toQ v / toQ σ ∧ 1 + toQ γ * toQ v / toQ σ ≤ 10 ^ 100

/-- error of the logarithms -/
noncomputable def logsErr (drift γ σ : ℝ) (ys : List ℝ) : ℝ :=
  ys.length * (logErr σ * |Real.log σ| + 1 / (2 * 10 ^ 14)) +
    if γ = 0 then drift / σ
    else (ys.map fun y => (1 + 1 / |γ|) * (logErr (1 + γ * y / σ) * |Real.log (1 + γ * y / σ)| + (1 + 1 / (1 + γ * y / σ)) / (2 * 10 ^ 14))).sum

/-- magnitude of the terms -/
noncomputable def logsSize (γ σ : ℝ) (ys : List ℝ) : ℝ :=
  ys.length * |Real.log σ| + if γ = 0 then ys.sum / σ else (ys.map fun y => (1 + 1 / |γ|) * |Real.log (1 + γ * y / σ)|).sum

/-- error of the log-likelihood -/
noncomputable def logLikErr (drift γ σ : ℝ) (ys : List ℝ) : ℝ :=
  3 / 2 * logsErr drift γ σ ys + ys.length / 10 ^ 15 * logsSize γ σ ys

end Spec

open Spec

theorem gpdLogLik_terms {γ σ : ℝ} (σ0 : 0 < σ) (hγ : γ ≠ 0) (ys : List ℝ) (h : ∀ y ∈ ys, 0 < 1 + γ * y / σ) :
    gpdLogLik γ σ ys = -(ys.length : ℝ) * Real.log σ + (ys.map fun y => -(1 + 1 / γ) * Real.log (1 + γ * y / σ)).sum := by
  unfold gpdLogLik
  induction ys with
  | nil => simp
  | cons y ys ih =>
    have hy := h y (by simp)
    simp only [List.map_cons, List.sum_cons, List.length_cons, Nat.cast_succ]
    rw [ih fun z hz => h z (by simp [hz])]
    have : Real.log (gpdPdf γ σ y) = -Real.log σ + -(1 + 1 / γ) * Real.log (1 + γ * y / σ) := by
      unfold gpdPdf
      rw [if_neg hγ, Real.log_mul (by positivity) (Real.rpow_pos_of_pos hy _).ne', Real.log_rpow hy, one_div, Real.log_inv]
    rw [this]; ring

theorem gpdLogLik_exponential {σ : ℝ} (σ0 : 0 < σ) (ys : List ℝ) :
    gpdLogLik 0 σ ys = -(ys.length : ℝ) * Real.log σ - ys.sum / σ := by
  unfold gpdLogLik
  induction ys with
  | nil => simp
  | cons y ys ih =>
    simp only [List.map_cons, List.sum_cons, List.length_cons, Nat.cast_succ]
    rw [ih]
    have : Real.log (gpdPdf 0 σ y) = -Real.log σ - y / σ := by
      unfold gpdPdf
      rw [if_pos rfl, Real.log_mul (by positivity) (Real.exp_pos _).ne', Real.log_exp, one_div, Real.log_inv]
      ring
    rw [this]; ring

theorem toR_sum (l : List F64) : (((l.map toQ).sum : ℚ) : ℝ) = (l.map toR).sum := by
  induction l with
  | nil => simp
  | cons v l ih => simp only [List.map_cons, List.sum_cons]; rw [Rat.cast_add, ih]; rfl

/-! ### C100 -/

/-- In binary64, rounding errors included: after any sequence of at most 2^49 / c insertions (c the capacity, at most 2^24) of
non-negative numbers up to 2^250, the log-likelihood computed for `Evaluable` parameters is a finite number, and its distance to the
exact log-likelihood of the stored excesses is bounded.
Missing (false in general, `C100_false`): shapes close to 0, excesses close to the end of the support. -/
theorem C100_partial (lib : Lib F64) (h : Heap F64) (cap : UInt64) (h1 : 1 ≤ cap.toNat) (h2 : cap.toNat ≤ 2 ^ 24)
    (h0 : (peaks_init lib h cap).1 = 0) (xs : List F64) (hne : xs ≠ [])
    (hx : ∀ x ∈ xs, isFin x ∧ 0 ≤ toQ x ∧ toQ x ≤ 2 ^ 250) (hN : xs.length * cap.toNat ≤ 2 ^ 49)
    (p : Peaks F64) (h' : Heap F64) (hp : peaksPushAll (peaks_init lib h cap).2.2 (peaks_init lib h cap).2.1 xs = .ok (p, h'))
    (M : ℝ) (hM : ∀ v ∈ Spec.lastN cap.toNat xs, toR v ≤ M) (γ σ : F64) (hE : Evaluable γ σ (Spec.lastN cap.toNat xs)) :
    ∃ ll, log_likelihood (codeMath muslFU) h' p γ σ = .ok ll ∧ isFin ll ∧
      |toR ll - gpdLogLik (toR γ) (toR σ) ((Spec.lastN cap.toNat xs).map toR)| ≤
        logLikErr (xs.length * cap.toNat / 2 ^ 50 * M) (toR γ) (toR σ) ((Spec.lastN cap.toNat xs).map toR) := by
  have h2' : cap.toNat < 2 ^ 61 := lt_of_le_of_lt h2 (by norm_num)
  have hc : cap.toNat * cap.toNat ≤ 2 ^ 49 := (Nat.mul_le_mul h2 h2).trans (by norm_num)
  obtain ⟨p2, h3, hp2, e1, m, hm, hmax, hdrift⟩ := C86_sum_drift lib h cap h1 h2' h0 xs hne
    (fun x hx' => ⟨(hx x hx').1, (hx x hx').2.1, (hx x hx').2.2.trans (by gcongr <;> norm_num)⟩) hN hc
  rw [hp] at hp2
  cases hp2
  obtain ⟨a, I⟩ := peaks_init_inv h1 h2' h0
  obtain ⟨p', h'', e, I'⟩ := peaksPushAll_inv I xs
  rw [List.nil_append] at I'
  rw [e] at hp
  cases hp
  have P := slots_perm h1 xs
  have S := I'.ring.stored
  have hlen : (slots cap.toNat xs).length ≤ 2 ^ 24 := by rw [slots_length]; exact (min_le_right _ _).trans h2
  have n1 : 1 ≤ (slots cap.toNat xs).length := by
    rw [P.length_eq]; exact List.length_pos_iff.mpr (List.ne_nil_of_mem hm)
  have hv : ∀ v ∈ slots cap.toNat xs, isFin v ∧ 0 ≤ toQ v ∧ toQ v ≤ 2 ^ 250 := fun v hv => hx v (slots_mem h1 hv)
  have PR := P.map toR
  have hLL : ∀ γ σ, gpdLogLik γ σ ((Spec.lastN cap.toNat xs).map toR) = gpdLogLik γ σ ((slots cap.toNat xs).map toR) := fun γ σ => by
    unfold gpdLogLik; rw [(PR.map _).sum_eq]
  have hEr : ∀ d γ σ, logLikErr d γ σ ((Spec.lastN cap.toNat xs).map toR) = logLikErr d γ σ ((slots cap.toNat xs).map toR) := fun d γ σ => by
    unfold logLikErr logsErr logsSize
    rw [(PR.map _).sum_eq, (PR.map _).sum_eq, PR.sum_eq, PR.length_eq]
  rw [hLL, hEr]
  simp only [← P.mem_iff] at hM hmax
  have hE : Evaluable γ σ (slots cap.toNat xs) := ⟨hE.gamma, hE.sigma, hE.shape.imp id fun ⟨a, b, c⟩ => ⟨a, b, fun v hv => c v (P.mem_iff.mp hv)⟩⟩
  have hm := P.mem_iff.mpr hm
  rw [← (P.map toQ).sum_eq] at hdrift
  generalize slots cap.toNat xs = l at *
  refine ⟨_, log_likelihood_eq S γ σ, ?_⟩
  obtain ⟨g1, ⟨g2, g3, g4⟩, g5⟩ := hE
  have σ0 : 1 / 10 ^ 100 ≤ toR σ := by
    have : ((1 / 10 ^ 100 : ℚ) : ℝ) ≤ (toQ σ : ℝ) := Rat.cast_le.mpr g3
    push_cast at this; exact this
  have σ1 : toR σ ≤ 10 ^ 100 := by unfold toR; exact_mod_cast g4
  have σp : 0 < toR σ := lt_of_lt_of_le (by norm_num) σ0
  have nR : (1 : ℝ) ≤ l.length := by exact_mod_cast n1
  unfold logLikErr logsErr logsSize
  rcases g5 with hz | ⟨g5, g6, g7⟩
  · have hz' : toR γ = 0 := by unfold toR; rw [hz]; norm_num
    have hs0 : 0 ≤ (l.map toQ).sum := List.sum_nonneg (by
      intro x hx; obtain ⟨v, hv', rfl⟩ := List.mem_map.mp hx; exact (hv v hv').2.1)
    have hs1 : (l.map toQ).sum ≤ 2 ^ 24 * 2 ^ 250 := by
      have := List.sum_le_card_nsmul (l.map toQ) (2 ^ 250) (by
        intro x hx; obtain ⟨v, hv', rfl⟩ := List.mem_map.mp hx; exact (hv v hv').2.2)
      rw [List.length_map, nsmul_eq_mul] at this
      have h4 : (l.length : ℚ) * 2 ^ 250 ≤ 2 ^ 24 * 2 ^ 250 :=
        mul_le_mul_of_nonneg_right (by exact_mod_cast hlen) (by positivity)
      exact this.trans h4
    have hk : (xs.length : ℚ) * cap.toNat / 2 ^ 50 ≤ 1 := by
      rw [div_le_one (by norm_num)]
      have : (xs.length : ℚ) * cap.toNat ≤ 2 ^ 49 := by exact_mod_cast hN
      linarith
    have hk0 : 0 ≤ (xs.length : ℚ) * cap.toNat / 2 ^ 50 := by positivity
    have hd1 : |toQ p.e - (l.map toQ).sum| ≤ 2 ^ 250 :=
      hdrift.trans ((mul_le_mul hk (hv m hm).2.2 (hv m hm).2.1 (by norm_num)).trans (by rw [_root_.one_mul]))
    have b1 : (2 : ℝ) ^ 250 ≤ 10 ^ 100 := by norm_num
    have b2 : (2 : ℝ) ^ 24 * 2 ^ 250 ≤ 10 ^ 100 := by norm_num
    have hs0' : 0 ≤ (l.map toR).sum := by rw [← toR_sum]; exact_mod_cast hs0
    have hs1' : (l.map toR).sum ≤ 10 ^ 100 := by
      rw [← toR_sum]; refine le_trans ?_ b2; exact_mod_cast hs1
    have hdR : |toR p.e - (l.map toR).sum| = ((|toQ p.e - (l.map toQ).sum| : ℚ) : ℝ) := by
      rw [← toR_sum]; rw [Rat.cast_abs, Rat.cast_sub]; rfl
    obtain ⟨r1, r2⟩ := logLikL_acc0 (E := (l.map toR).sum) g1 hz' g2 σ0 σ1 n1 hlen e1 hs0' hs1' (by
      rw [hdR]; refine le_trans ?_ b1; exact_mod_cast hd1)
    refine ⟨r1, ?_⟩
    rw [hz', gpdLogLik_exponential σp, if_pos rfl, if_pos rfl, List.length_map]
    refine r2.trans ?_
    have d2 : |toR p.e - (l.map toR).sum| ≤ xs.length * cap.toNat / 2 ^ 50 * M := by
      rw [hdR]
      have h4 : ((|toQ p.e - (l.map toQ).sum| : ℚ) : ℝ) ≤ ((xs.length * cap.toNat / 2 ^ 50 * toQ m : ℚ) : ℝ) := Rat.cast_le.mpr hdrift
      refine h4.trans ?_
      push_cast
      exact mul_le_mul_of_nonneg_left (hM m hm) (by positivity)
    have d3 : |toR p.e - (l.map toR).sum| / toR σ ≤ xs.length * cap.toNat / 2 ^ 50 * M / toR σ := div_le_div_of_nonneg_right d2 σp.le
    have d4 : 1 / 10 ^ 15 * ((l.length : ℝ) * |Real.log (toR σ)| + (l.map toR).sum / toR σ) ≤
        l.length / 10 ^ 15 * ((l.length : ℝ) * |Real.log (toR σ)| + (l.map toR).sum / toR σ) :=
      mul_le_mul_of_nonneg_right (div_le_div_of_nonneg_right nR (by norm_num)) (by positivity)
    linarith
  · have γ0 : 1 / 2 ^ 20 ≤ |toR γ| := by
      have : ((1 / 2 ^ 20 : ℚ) : ℝ) ≤ ((|toQ γ| : ℚ) : ℝ) := Rat.cast_le.mpr g5
      push_cast at this; exact this
    have γ1 : |toR γ| ≤ 2 ^ 20 := by
      have : ((|toQ γ| : ℚ) : ℝ) ≤ ((2 ^ 20 : ℚ) : ℝ) := Rat.cast_le.mpr g6
      push_cast at this; exact this
    have γne : toR γ ≠ 0 := abs_pos.mp (lt_of_lt_of_le (by norm_num) γ0)
    have ha : ∀ v ∈ l, 1 / 10 ^ 5 ≤ 1 + toR γ * toR v / toR σ ∧ 1 + toR γ * toR v / toR σ ≤ 10 ^ 100 := by
      intro v hv
      obtain ⟨u1, u2⟩ := g7 v hv
      have u1 : ((1 / 10 ^ 5 : ℚ) : ℝ) ≤ ((1 + toQ γ * toQ v / toQ σ : ℚ) : ℝ) := Rat.cast_le.mpr u1
      have u2 : ((1 + toQ γ * toQ v / toQ σ : ℚ) : ℝ) ≤ ((10 ^ 100 : ℚ) : ℝ) := Rat.cast_le.mpr u2
      push_cast at u1 u2
      exact ⟨u1, u2⟩
    obtain ⟨r1, r2⟩ := logLikL_acc p.e g1 g2 γ0 γ1 σ0 σ1 n1 hlen (fun v hv' => ⟨(hv v hv').1, ha v hv'⟩)
    refine ⟨r1, ?_⟩
    rw [gpdLogLik_terms σp γne _ (by
      intro y hy; obtain ⟨v, hv', rfl⟩ := List.mem_map.mp hy; exact lt_of_lt_of_le (by norm_num) (ha v hv').1),
      if_neg γne, if_neg γne, List.length_map, List.map_map, List.map_map, List.map_map]
    exact r2

/-- C100 does not hold for all the parameters that are kept: after the excesses 1, 2 and about 12.245 (`Sample.flatOps`), the shape is
-2^-53 and the log-likelihood is overestimated by more than 1/2. -/
theorem C100_false : ∃ p h' ll t, peaksPushAll (peaks_init Sample.lib Sample.emptyHeap 20).2.2 (peaks_init Sample.lib Sample.emptyHeap 20).2.1
      [lit 1, lit 2, lit (1723330263210609 / 140737488355328)] = .ok (p, h') ∧
    tail_fit (codeMath muslFU) h' ⟨nan, nan, p⟩ = .ok (ll, t) ∧ log_likelihood (codeMath muslFU) h' p t.gamma t.sigma = .ok ll ∧ isFin ll ∧
    gpdLogLik (toR t.gamma) (toR t.sigma) [1, 2, 1723330263210609 / 140737488355328] + 1 / 2 < toR ll := by
  have hd : (match peaksPushAll (peaks_init Sample.lib Sample.emptyHeap 20).2.2 (peaks_init Sample.lib Sample.emptyHeap 20).2.1
      [lit 1, lit 2, lit (1723330263210609 / 140737488355328)] with
    | .ok r => (match tail_fit (codeMath muslFU) r.2 ⟨nan, nan, r.1⟩ with
      | .ok f => decide (isFin f.1) && decide (-7 ≤ toQ f.1) && decide (toQ f.2.gamma = -1 / 2 ^ 53) &&
        decide (toQ f.2.sigma = 715180909425531 / 140737488355328)
      | .error _ => false)
    | .error _ => false) = true := by decide +kernel
  cases hr : peaksPushAll (peaks_init Sample.lib Sample.emptyHeap 20).2.2 (peaks_init Sample.lib Sample.emptyHeap 20).2.1
      [lit 1, lit 2, lit (1723330263210609 / 140737488355328)] with
  | error e => rw [hr] at hd; cases hd
  | ok r =>
    rw [hr] at hd
    dsimp only at hd
    cases hf : tail_fit (codeMath muslFU) r.2 ⟨nan, nan, r.1⟩ with
    | error e => rw [hf] at hd; cases hd
    | ok f =>
      rw [hf] at hd
      simp only [Bool.and_eq_true, decide_eq_true_iff] at hd
      obtain ⟨⟨⟨d1, d2⟩, d3⟩, d4⟩ := hd
      obtain ⟨e1, e2, -, -, -, -, -, hl⟩ := C17_tail_fit (codeMath muslFU) r.2 ⟨nan, nan, r.1⟩ f.2 f.1 hf
      refine ⟨r.1, r.2, f.1, f.2, rfl, hf, hl, d1, ?_⟩
      have d2' : (-7 : ℝ) ≤ toR f.1 := by unfold toR; exact_mod_cast d2
      refine lt_of_lt_of_le ?_ d2'
      have g : toR f.2.gamma = -1 / 2 ^ 53 := by unfold toR; rw [d3]; norm_num
      have si : toR f.2.sigma = 715180909425531 / 140737488355328 := by unfold toR; rw [d4]; norm_num
      rw [g, si, gpdLogLik_terms (by norm_num) (by norm_num) _ (by
        intro y hy; simp only [List.mem_cons, List.not_mem_nil, or_false] at hy
        rcases hy with rfl | rfl | rfl <;> norm_num)]
      have hlog : ∀ y : ℝ, 0 ≤ y → y ≤ 13 → -(1 + 1 / (-1 / 2 ^ 53 : ℝ)) * Real.log (1 + -1 / 2 ^ 53 * y / (715180909425531 / 140737488355328)) ≤
          (2 ^ 53 - 1) * (-1 / 2 ^ 53 * y / (715180909425531 / 140737488355328)) := by
        intro y y0 y1
        rw [show -(1 + 1 / (-1 / 2 ^ 53 : ℝ)) = 2 ^ 53 - 1 by norm_num]
        refine mul_le_mul_of_nonneg_left ?_ (by norm_num)
        have := Real.log_le_sub_one_of_pos (x := 1 + -1 / 2 ^ 53 * y / (715180909425531 / 140737488355328)) (by linarith)
        linarith
      have hs : 159 / 100 ≤ Real.log (715180909425531 / 140737488355328) := by
        have h4 : Real.log (715180909425531 / 140737488355328) = 2 * Real.log 2 + Real.log (715180909425531 / 140737488355328 / 4) := by
          rw [show (2 : ℝ) * Real.log 2 = Real.log (2 ^ 2) by rw [Real.log_pow]; norm_num, ← Real.log_mul (by norm_num) (by norm_num)]
          congr 1; norm_num
        have h5 := Real.one_sub_inv_le_log_of_pos (show (0 : ℝ) < 715180909425531 / 140737488355328 / 4 by norm_num)
        have h6 := Real.log_two_gt_d9
        norm_num at h5
        rw [h4]; norm_num
        linarith
      have a1 := hlog 1 (by norm_num) (by norm_num)
      have a2 := hlog 2 (by norm_num) (by norm_num)
      have a3 := hlog (1723330263210609 / 140737488355328) (by norm_num) (by norm_num)
      simp only [List.map_cons, List.map_nil, List.sum_cons, List.sum_nil, List.length_cons, List.length_nil]
      push_cast
      generalize -(1 + 1 / (-1 / 2 ^ 53 : ℝ)) * Real.log (1 + -1 / 2 ^ 53 * 1 / (715180909425531 / 140737488355328)) = A1 at *
      generalize -(1 + 1 / (-1 / 2 ^ 53 : ℝ)) * Real.log (1 + -1 / 2 ^ 53 * 2 / (715180909425531 / 140737488355328)) = A2 at *
      generalize -(1 + 1 / (-1 / 2 ^ 53 : ℝ)) * Real.log (1 + -1 / 2 ^ 53 * (1723330263210609 / 140737488355328) / (715180909425531 / 140737488355328)) = A3 at *
      generalize Real.log (715180909425531 / 140737488355328) = LS at *
      norm_num at a1 a2 a3 ⊢
      linarith

/-! ### C101 -/

/-- In binary64, rounding errors included: the exact log-likelihood of the parameters that a fit of the tail keeps is at least that of the
method of moments, that of Grimshaw's procedure and that of the exponential model with the tracked mean, up to the errors of C100 on both
sides. -/
theorem C101_choice (lib : Lib F64) (h : Heap F64) (cap : UInt64) (h1 : 1 ≤ cap.toNat) (h2 : cap.toNat ≤ 2 ^ 24)
    (h0 : (peaks_init lib h cap).1 = 0) (xs : List F64) (hne : xs ≠ [])
    (hx : ∀ x ∈ xs, isFin x ∧ 0 ≤ toQ x ∧ toQ x ≤ 2 ^ 250) (hN : xs.length * cap.toNat ≤ 2 ^ 49)
    (p : Peaks F64) (h' : Heap F64) (hp : peaksPushAll (peaks_init lib h cap).2.2 (peaks_init lib h cap).2.1 xs = .ok (p, h'))
    (M : ℝ) (hM : ∀ v ∈ Spec.lastN cap.toNat xs, toR v ≤ M) (g0 s0 ll : F64) (t : Tail F64)
    (ht : tail_fit (codeMath muslFU) h' ⟨g0, s0, p⟩ = .ok (ll, t)) (hE : Evaluable t.gamma t.sigma (Spec.lastN cap.toNat xs))
    (γ σ : F64) (hc : (γ, σ) = (lit 0, peaks_mean p) ∨ (∃ e, mom_estimator (codeMath muslFU) h' p = .ok e ∧ (γ, σ) = (e.gamma, e.sigma)) ∨
      ∃ e, grimshaw_estimator (codeMath muslFU) h' p = .ok e ∧ (γ, σ) = (e.gamma, e.sigma))
    (hE2 : Evaluable γ σ (Spec.lastN cap.toNat xs)) :
    gpdLogLik (toR γ) (toR σ) ((Spec.lastN cap.toNat xs).map toR) ≤
      gpdLogLik (toR t.gamma) (toR t.sigma) ((Spec.lastN cap.toNat xs).map toR) +
      logLikErr (xs.length * cap.toNat / 2 ^ 50 * M) (toR γ) (toR σ) ((Spec.lastN cap.toNat xs).map toR) +
      logLikErr (xs.length * cap.toNat / 2 ^ 50 * M) (toR t.gamma) (toR t.sigma) ((Spec.lastN cap.toNat xs).map toR) := by
  obtain ⟨l1, a1, a2, a3⟩ := C100_partial lib h cap h1 h2 h0 xs hne hx hN p h' hp M hM _ _ hE
  obtain ⟨l2, b1, b2, b3⟩ := C100_partial lib h cap h1 h2 h0 xs hne hx hN p h' hp M hM _ _ hE2
  obtain ⟨e1, e2, m1, m2, -, k1, k2, k3⟩ := C17_tail_fit (codeMath muslFU) h' ⟨g0, s0, p⟩ t ll ht
  dsimp only at m1 m2 k3
  rw [a1] at k3
  have k3 := Except.ok.inj k3
  subst k3
  have hle : (l2 <=. l1) = true := by
    have nn : ∀ {x : F64}, isFin x → is_nan x = false := fun hx => (F64.is_nan_false _).mpr hx.notNaN
    rcases hc with hc | ⟨e, he, hc⟩ | ⟨e, he, hc⟩
    · cases hc
      obtain ⟨-, l0, left, right, c1, -, -, c2⟩ := C18_grimshaw (codeMath muslFU) h' p e2 m2
      rw [b1] at c1
      cases c1
      have c3 := ((F64.le_iff _ _).mp (c2 (nn b2)).1)
      have c4 := ((F64.le_iff _ _).mp (k2 ((F64.is_nan_false _).mpr c3.2.1)))
      exact (F64.le_iff _ _).mpr ⟨c3.1, c4.2.1, c3.2.2.trans c4.2.2⟩
    · rw [m1] at he
      cases he
      cases hc
      have c1 : log_likelihood (codeMath muslFU) h' p e1.gamma e1.sigma = .ok e1.llhood := by
        unfold mom_estimator at m1
        dsimp only at m1
        obtain ⟨q, hq, m1⟩ := C.bind_ok m1
        cases m1
        exact hq
      rw [b1] at c1
      have c1 := Except.ok.inj c1
      rw [c1] at b2 ⊢
      exact k1 (nn b2)
    · rw [m2] at he
      cases he
      cases hc
      obtain ⟨c1, -⟩ := C18_grimshaw (codeMath muslFU) h' p e2 m2
      rw [b1] at c1
      have c1 := Except.ok.inj c1
      rw [c1] at b2 ⊢
      exact k2 (nn b2)
  have hR : toR l2 ≤ toR l1 := by
    have := ((F64.le_iff _ _).mp hle).2.2
    rw [val_fin b2, val_fin a2] at this
    unfold toR
    exact_mod_cast this
  have := abs_le.mp a3
  have := abs_le.mp b3
  linarith [abs_le.mp a3, abs_le.mp b3]

/-- `Evaluable`, for a shape that is not 0, as a test -/
def Sample.evaluableB (γ σ : F64) (l : List F64) : Bool :=
  decide (isFin γ) && decide (isFin σ ∧ 1 / 10 ^ 100 ≤ toQ σ ∧ toQ σ ≤ 10 ^ 100) && decide (1 / 2 ^ 20 ≤ |toQ γ| ∧ |toQ γ| ≤ 2 ^ 20) &&
    l.all fun v => decide (1 / 10 ^ 5 ≤ 1 + toQ γ * toQ v / toQ σ ∧ 1 + toQ γ * toQ v / toQ σ ≤ 10 ^ 100)

theorem Sample.evaluable_of {γ σ : F64} {l : List F64} (h : Sample.evaluableB γ σ l = true) : Evaluable γ σ l := by
  unfold Sample.evaluableB at h
  simp only [Bool.and_eq_true, decide_eq_true_iff, List.all_eq_true] at h
  obtain ⟨⟨⟨a, b⟩, c⟩, d⟩ := h
  exact ⟨a, b, Or.inr ⟨c.1, c.2, d⟩⟩

/-- three excesses -/
def Sample.three : List F64 := [lit 2, lit 1, lit 8]

/-- inserted into a container of capacity two, then a fit of the tail -/
def Sample.fitThree : C (Peaks F64 × Heap F64 × F64 × Tail F64) := do
  let r ← peaksPushAll (peaks_init Sample.lib Sample.emptyHeap 2).2.2 (peaks_init Sample.lib Sample.emptyHeap 2).2.1 Sample.three
  let f ← tail_fit (codeMath muslFU) r.2 ⟨nan, nan, r.1⟩
  .ok (r.1, r.2, f)

/-- no undefined behaviour, and a result that passes the test -/
def Sample.okAnd {β : Type} (c : C β) (b : β → Bool) : Bool :=
  match c with
  | .ok r => b r
  | .error _ => false

theorem Sample.okAnd_iff {β : Type} {c : C β} {b : β → Bool} (h : Sample.okAnd c b = true) : ∃ r, c = .ok r ∧ b r = true := by
  rcases c with e | r
  · cases h
  · exact ⟨r, rfl, h⟩

theorem Sample.fitThree_test : Sample.okAnd Sample.fitThree (fun r => Sample.evaluableB r.2.2.2.gamma r.2.2.2.sigma (Spec.lastN 2 Sample.three) &&
    decide (isFin (peaks_mean r.1) ∧ 1 / 10 ^ 100 ≤ toQ (peaks_mean r.1) ∧ toQ (peaks_mean r.1) ≤ 10 ^ 100)) = true := by decide +kernel

theorem Sample.fitThree_ok : ∃ r, Sample.fitThree = .ok r ∧ Sample.evaluableB r.2.2.2.gamma r.2.2.2.sigma (Spec.lastN 2 Sample.three) = true ∧
    (isFin (peaks_mean r.1) ∧ 1 / 10 ^ 100 ≤ toQ (peaks_mean r.1) ∧ toQ (peaks_mean r.1) ≤ 10 ^ 100) := by
  obtain ⟨r, hr, hb⟩ := Sample.okAnd_iff Sample.fitThree_test
  rw [Bool.and_eq_true, decide_eq_true_iff] at hb
  exact ⟨r, hr, hb.1, hb.2⟩

/-- three insertions into a container of capacity two: the hypotheses hold, and the shape that is kept is not 0 -/
example : (peaks_init Sample.lib Sample.emptyHeap 2).1 = 0 ∧ (∀ x ∈ Sample.three, isFin x ∧ 0 ≤ toQ x ∧ toQ x ≤ 2 ^ 250) ∧
    ∃ p h' ll t, peaksPushAll (peaks_init Sample.lib Sample.emptyHeap 2).2.2 (peaks_init Sample.lib Sample.emptyHeap 2).2.1 Sample.three =
      .ok (p, h') ∧ tail_fit (codeMath muslFU) h' ⟨nan, nan, p⟩ = .ok (ll, t) ∧
      toQ t.gamma ≠ 0 ∧ Evaluable t.gamma t.sigma (Spec.lastN 2 Sample.three) ∧ Evaluable (lit 0) (peaks_mean p) (Spec.lastN 2 Sample.three) := by
  refine ⟨by decide +kernel, by decide +kernel, ?_⟩
  obtain ⟨r, hr, h1, h2⟩ := Sample.fitThree_ok
  unfold Sample.fitThree at hr
  obtain ⟨r1, e1, hr⟩ := C.bind_ok hr
  obtain ⟨f, e2, hr⟩ := C.bind_ok hr
  cases hr
  refine ⟨r1.1, r1.2, f.1, f.2, e1, e2, ?_, Sample.evaluable_of h1, ⟨by decide +kernel, h2, Or.inl (by decide +kernel)⟩⟩
  intro h0
  have := (Sample.evaluable_of h1).shape
  unfold Sample.evaluableB at h1
  simp only [Bool.and_eq_true, decide_eq_true_iff] at h1
  have h3 := h1.1.2.1
  rw [h0] at h3
  norm_num at h3

end Verif

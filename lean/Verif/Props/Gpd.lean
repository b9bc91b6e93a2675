/-
C16, C24–C27, C59, C60: the generalised Pareto model in exact arithmetic (`exactMath`: exact log and exp).
-/
import Verif.Proofs.Grimshaw
import Verif.Proofs.Step
import Verif.Props.Tail

namespace Verif
open XR

/-! ### C16 -/

/-- After initialisation and any non-empty sequence of insertions of real numbers, `log_likelihood(gamma, sigma)` is the
GPD log-likelihood of the stored values (the last `cap` insertions), for every `sigma > 0` and `gamma` for which they are in
the support. -/
theorem C16_log_likelihood (lib : Lib XR) (h : Heap XR) (cap : UInt64) (h1 : 1 ≤ cap.toNat) (h2 : cap.toNat < 2 ^ 61)
    (h0 : (peaks_init lib h cap).1 = 0) (xs : List ℝ) (γ σ : ℝ) (hσ : 0 < σ)
    (hx : ∀ x ∈ Spec.lastN cap.toNat xs, Spec.InSupport γ σ x) :
    ∃ p' h', peaksPushAll (peaks_init lib h cap).2.2 (peaks_init lib h cap).2.1 (xs.map fin) = .ok (p', h') ∧
      log_likelihood exactMath h' p' (fin γ) (fin σ) = .ok (fin (Spec.gpdLogLik γ σ (Spec.lastN cap.toNat xs))) := by
  obtain ⟨a, I⟩ := peaks_init_inv h1 h2 h0
  obtain ⟨p', h', e, I'⟩ := peaksPushAll_inv I (xs.map fin)
  rw [List.nil_append] at I'
  refine ⟨p', h', e, ?_⟩
  have he : p'.e = fin (slots cap.toNat xs).sum := by
    have h3 : p'.stats.e = (statsOf cap.toNat (xs.map fin)).e := by rw [I'.stats]
    rw [statsOf_sum h1] at h3
    exact h3
  have hp := slots_perm h1 xs
  rw [log_likelihood_eq I'.ring.stored, he, slots_map, logLikL_exact hσ (fun x hxs => hx x (hp.mem_iff.mp hxs))]
  unfold Spec.gpdLogLik
  rw [(hp.map _).sum_eq]

example : (peaks_init Sample.xlib Sample.emptyHeap 2).1 = 0 ∧
    ∀ x ∈ Spec.lastN 2 [(5 : ℝ), 1, 3], Spec.InSupport (-1 / 4) 1 x := by
  refine ⟨Sample.xinit 2, ?_⟩
  intro x hx
  simp [Spec.lastN] at hx
  unfold Spec.InSupport
  rcases hx with rfl | rfl <;> norm_num

/-! ### C24 -/

/-- `tail_quantile(s, q)` is a point of the support exceeded with probability `q/s` by the GPD, and `tail_probability`
takes it back to `q`. -/
theorem C24_probability_quantile (t : Tail XR) (γ σ s q : ℝ) (hg : t.gamma = fin γ) (hs : t.sigma = fin σ) (hσ : 0 < σ)
    (hs0 : 0 < s) (hq : 0 < q) :
    ∃ d, tail_quantile exactMath t (fin s) (fin q) = .ok (fin d) ∧ Spec.InSupport γ σ d ∧
      s * Spec.gpdSurvival γ σ d = q ∧ tail_probability exactMath t (fin s) (fin d) = .ok (fin q) := by
  refine ⟨_, tail_quantile_exact hg hs hs0 hq, quantR_inSupport hσ hs0 hq, survival_quantR hσ hs0 hq, ?_⟩
  rw [tail_probability_exact hg hs hσ (quantR_inSupport hσ hs0 hq), survival_quantR hσ hs0 hq]

/-- `tail_probability(s, d)` is `s` times the survival function, and `tail_quantile` takes it back to `d`. -/
theorem C24_quantile_probability (t : Tail XR) (γ σ s d : ℝ) (hg : t.gamma = fin γ) (hs : t.sigma = fin σ) (hσ : 0 < σ)
    (hs0 : 0 < s) (hd : Spec.InSupport γ σ d) :
    tail_probability exactMath t (fin s) (fin d) = .ok (fin (s * Spec.gpdSurvival γ σ d)) ∧
    tail_quantile exactMath t (fin s) (fin (s * Spec.gpdSurvival γ σ d)) = .ok (fin d) := by
  refine ⟨tail_probability_exact hg hs hσ hd, ?_⟩
  rw [tail_quantile_exact hg hs hs0 (mul_pos hs0 (survival_pos hd)), quantR_survival hσ hs0 hd]

example : (⟨fin (1 / 2), fin 3, ⟨nan, nan, nan, nan, ⟨0, 0, nan, 0, none⟩⟩⟩ : Tail XR).gamma = fin (1 / 2) ∧
    Spec.InSupport (1 / 2) 3 7 := ⟨rfl, by unfold Spec.InSupport; norm_num⟩

/-! ### C25 -/

theorem C25_quantile_decreasing (t : Tail XR) (γ σ s q q' : ℝ) (hg : t.gamma = fin γ) (hs : t.sigma = fin σ) (hσ : 0 < σ)
    (hs0 : 0 < s) (hq : 0 < q) (hlt : q < q') :
    ∃ d d', tail_quantile exactMath t (fin s) (fin q) = .ok (fin d) ∧
      tail_quantile exactMath t (fin s) (fin q') = .ok (fin d') ∧ d' < d :=
  ⟨_, _, tail_quantile_exact hg hs hs0 hq, tail_quantile_exact hg hs hs0 (hq.trans hlt), quantR_strictAnti hσ hs0 hq hlt⟩

theorem C25_probability_decreasing (t : Tail XR) (γ σ s d d' : ℝ) (hg : t.gamma = fin γ) (hs : t.sigma = fin σ)
    (hσ : 0 < σ) (hs0 : 0 < s) (hd : Spec.InSupport γ σ d) (hd' : Spec.InSupport γ σ d') (hlt : d < d') :
    ∃ p p', tail_probability exactMath t (fin s) (fin d) = .ok (fin p) ∧
      tail_probability exactMath t (fin s) (fin d') = .ok (fin p') ∧ p' < p :=
  ⟨_, _, tail_probability_exact hg hs hσ hd, tail_probability_exact hg hs hσ hd',
    mul_lt_mul_of_pos_left (survival_strictAnti hσ hd hd' hlt) hs0⟩

example : Spec.InSupport (-1 / 2) 3 1 ∧ Spec.InSupport (-1 / 2) 3 2 := by
  constructor <;> (unfold Spec.InSupport; norm_num)

/-! ### C26, C27 -/

/-- A fitted detector in exact arithmetic: real thresholds and tail parameters, positive scale, at least one excess. -/
structure FittedXR (s : Spot XR) (low : Prop) (et γ σ : ℝ) : Prop where
  up_down : s.up_down = lit 1 ∧ ¬ low ∨ s.up_down = lit (-1) ∧ low
  et : s.excess_threshold = fin et
  gamma : s.tail.gamma = fin γ
  sigma : s.tail.sigma = fin σ
  pos : 0 < σ
  Nt : 0 < s.Nt.toNat
  n : 0 < s.n.toNat

theorem FittedXR.sign {s : Spot XR} {low : Prop} {et γ σ : ℝ} (F : FittedXR s low et γ σ) :
    ∃ u : ℝ, s.up_down = fin u ∧ (u = 1 ∧ ¬ low ∨ u = -1 ∧ low) := by
  rcases F.up_down with ⟨h, hl⟩ | ⟨h, hl⟩
  · exact ⟨1, by rw [h, lit_fin]; norm_num, Or.inl ⟨rfl, hl⟩⟩
  · exact ⟨-1, by rw [h, lit_fin]; norm_num, Or.inr ⟨rfl, hl⟩⟩

theorem spot_quantile_exact {s : Spot XR} {low : Prop} {et γ σ u : ℝ} (F : FittedXR s low et γ σ) (hu : s.up_down = fin u)
    {q : ℝ} (hq : 0 < q) :
    spot_quantile exactMath s (fin q) = .ok (fin (et + u * quantR γ σ (s.Nt.toNat / s.n.toNat) q)) := by
  have hn : (0 : ℝ) < s.n.toNat := by exact_mod_cast F.n
  have hN : (0 : ℝ) < s.Nt.toNat := by exact_mod_cast F.Nt
  unfold spot_quantile
  simp only [lit_fin, Rat.cast_natCast]
  rw [div_ff hn.ne', tail_quantile_exact F.gamma F.sigma (div_pos hN hn) hq]
  simp only [F.et, hu]
  rfl

/-- If q < Nt/n the quantile of q is strictly beyond the excess threshold, if q > Nt/n strictly inside (and equal to it if
q = Nt/n). -/
theorem C26_quantile_beyond (s : Spot XR) (low : Prop) (et γ σ : ℝ) (F : FittedXR s low et γ σ) (q : ℝ) (hq : 0 < q) :
    ∃ z, spot_quantile exactMath s (fin q) = .ok (fin z) ∧
      (q < s.Nt.toNat / s.n.toNat → (¬ low → et < z) ∧ (low → z < et)) ∧
      (s.Nt.toNat / s.n.toNat < q → (¬ low → z < et) ∧ (low → et < z)) ∧
      (q = s.Nt.toNat / s.n.toNat → z = et) := by
  obtain ⟨u, hu, hl⟩ := F.sign
  refine ⟨_, spot_quantile_exact F hu hq, ?_⟩
  have hn : (0 : ℝ) < s.n.toNat := by exact_mod_cast F.n
  have hN : (0 : ℝ) < s.Nt.toNat := by exact_mod_cast F.Nt
  have hs := div_pos hN hn
  have h0 := quantR_self (γ := γ) (σ := σ) hs
  have k1 : q < s.Nt.toNat / s.n.toNat → 0 < quantR γ σ (s.Nt.toNat / s.n.toNat) q := fun h => by
    have := quantR_strictAnti (γ := γ) F.pos hs hq h; linarith
  have k2 : (s.Nt.toNat : ℝ) / s.n.toNat < q → quantR γ σ (s.Nt.toNat / s.n.toNat) q < 0 := fun h => by
    have := quantR_strictAnti (γ := γ) F.pos hs hs h; linarith
  rcases hl with ⟨rfl, hl⟩ | ⟨rfl, hl⟩
  · refine ⟨fun g => ⟨fun _ => ?_, fun g' => absurd g' hl⟩, fun g => ⟨fun _ => ?_, fun g' => absurd g' hl⟩, fun g => ?_⟩
    · have := k1 g; linarith
    · have := k2 g; linarith
    · rw [g, h0]; ring
  · refine ⟨fun g => ⟨fun g' => absurd hl g', fun _ => ?_⟩, fun g => ⟨fun g' => absurd hl g', fun _ => ?_⟩, fun g => ?_⟩
    · have := k1 g; linarith
    · have := k2 g; linarith
    · rw [g, h0]; ring

/-- `spot_probability(spot_quantile(q)) = q`, both tail modes. -/
theorem C27_inverse (s : Spot XR) (low : Prop) (et γ σ : ℝ) (F : FittedXR s low et γ σ) (q : ℝ) (hq : 0 < q) :
    ∃ z, spot_quantile exactMath s (fin q) = .ok (fin z) ∧ spot_probability exactMath s (fin z) = .ok (fin q) := by
  obtain ⟨u, hu, hl⟩ := F.sign
  refine ⟨_, spot_quantile_exact F hu hq, ?_⟩
  have hn : (0 : ℝ) < s.n.toNat := by exact_mod_cast F.n
  have hN : (0 : ℝ) < s.Nt.toNat := by exact_mod_cast F.Nt
  have hs := div_pos hN hn
  unfold spot_probability
  simp only [lit_fin, Rat.cast_natCast]
  rw [div_ff hn.ne', F.et, sub_ff, hu, mul_ff]
  have key : u * (et + u * quantR γ σ (s.Nt.toNat / s.n.toNat) q - et) = quantR γ σ (s.Nt.toNat / s.n.toNat) q := by
    rcases hl with ⟨rfl, _⟩ | ⟨rfl, _⟩ <;> ring
  rw [key, tail_probability_exact F.gamma F.sigma F.pos (quantR_inSupport F.pos hs hq), survival_quantR F.pos hs hq]

/-- a fitted lower-tail detector with negative shape -/
noncomputable def Sample.xfitted : Spot XR :=
  ⟨fin (1 / 1000), fin (9 / 10), 1, 1, lit (-1), fin (-5), fin (-4), 10, 100,
    ⟨fin (-1 / 10), fin 2, ⟨fin 1, fin 1, fin 1, fin 1, ⟨1, 20, nan, 0, some 1⟩⟩⟩⟩

example : FittedXR Sample.xfitted True (-4) (-1 / 10) 2 ∧
    ((1 : ℝ) / 1000 < Sample.xfitted.Nt.toNat / Sample.xfitted.n.toNat) := by
  refine ⟨⟨Or.inr ⟨rfl, trivial⟩, rfl, rfl, rfl, by norm_num, by decide, by decide⟩, ?_⟩
  have h1 : Sample.xfitted.Nt.toNat = 10 := by decide
  have h2 : Sample.xfitted.n.toNat = 100 := by decide
  rw [h1, h2]; norm_num

/-! ### C59 -/

/-- The moment estimator solves the moment equations: whatever was inserted, if the reported mean and variance are positive
reals, it returns without undefined behaviour parameters for which the GPD has exactly this mean and this variance. -/
theorem C59_moments (lib : Lib XR) (h : Heap XR) (cap : UInt64) (h1 : 1 ≤ cap.toNat) (h2 : cap.toNat < 2 ^ 61)
    (h0 : (peaks_init lib h cap).1 = 0) (xs : List XR) (p : Peaks XR) (h' : Heap XR)
    (hp : peaksPushAll (peaks_init lib h cap).2.2 (peaks_init lib h cap).2.1 xs = .ok (p, h'))
    (m v : ℝ) (hm : peaks_mean p = fin m) (hv : peaks_var p = fin v) (hm0 : 0 < m) (hv0 : 0 < v) :
    ∃ est γ σ, mom_estimator exactMath h' p = .ok est ∧ est.gamma = fin γ ∧ est.sigma = fin σ ∧ γ < 1 / 2 ∧ 0 < σ ∧
      Spec.gpdMean γ σ = m ∧ Spec.gpdVar γ σ = v := by
  obtain ⟨a, I⟩ := peaks_init_inv h1 h2 h0
  obtain ⟨p', h'', e, I'⟩ := peaksPushAll_inv I xs
  rw [e] at hp
  cases hp
  have he := mom_eq (M := exactMath) I'.ring.stored
  generalize hest : momL exactMath p.e p.e2 _ = est at he
  have hR : 0 < m * m / v := by positivity
  refine ⟨est, 1 / 2 * (1 - m * m / v), 1 / 2 * m * (1 + m * m / v), he, ?_⟩
  unfold mom_estimator at he
  simp only [hm, hv] at he
  obtain ⟨l, _, he⟩ := C.bind_ok he
  cases he
  refine ⟨?_, ?_, ?_, by positivity, ?_, ?_⟩
  · simp only [lit_fin, mul_ff, div_ff hv0.ne', sub_ff]; norm_num
  · simp only [lit_fin, mul_ff, div_ff hv0.ne', add_ff]; norm_num
  · linarith
  · unfold Spec.gpdMean
    have h1 : 1 - 1 / 2 * (1 - m * m / v) = 1 / 2 * (1 + m * m / v) := by ring
    have h2 : 1 + m * m / v ≠ 0 := by positivity
    rw [h1]
    field_simp
  · unfold Spec.gpdVar
    have h1 : 1 - 1 / 2 * (1 - m * m / v) = 1 / 2 * (1 + m * m / v) := by ring
    have h3 : 1 - 2 * (1 / 2 * (1 - m * m / v)) = m * m / v := by ring
    have h2 : 1 + m * m / v ≠ 0 := by positivity
    rw [h1, h3]
    field_simp

/-- inserting 1 and 3: mean 2, variance 1 -/
example : ∃ p h', (peaks_init Sample.xlib Sample.emptyHeap 2).1 = 0 ∧
    peaksPushAll (peaks_init Sample.xlib Sample.emptyHeap 2).2.2 (peaks_init Sample.xlib Sample.emptyHeap 2).2.1
      [fin 1, fin 3] = .ok (p, h') ∧ peaks_mean p = fin 2 ∧ peaks_var p = fin 1 := by
  obtain ⟨a, I⟩ := peaks_init_inv (by decide) (by decide) (Sample.xinit 2)
  obtain ⟨p', h', e, I'⟩ := peaksPushAll_inv I [fin 1, fin 3]
  rw [List.nil_append] at I'
  have hs := I'.ring.stored
  have hst : p'.stats = statsOf 2 ([1, 3].map fin) := I'.stats
  have h2 : slots 2 [(1 : ℝ), 3] = [1, 3] := rfl
  have e1 : p'.e = fin 4 := by
    rw [show p'.e = p'.stats.e from rfl, hst, statsOf_sum (by norm_num), h2]
    norm_num
  have e2 : p'.e2 = fin 10 := by
    have h3 : Spec.NoExtremeEvicted 2 [1, 3] := by
      intro j h4 h5
      simp at h5
      omega
    rw [show p'.e2 = p'.stats.e2 from rfl, hst, statsOf_sumsq (by norm_num) (by norm_num) _ (Or.inr h3), h2]
    norm_num
  have hl : (slots (UInt64.toNat 2) [fin 1, fin 3]).length = 2 := rfl
  refine ⟨p', h', Sample.xinit 2, e, ?_, ?_⟩
  · rw [peaks_mean_eq hs]
    unfold meanL
    rw [hl, e1, lit_fin, div_ff (by norm_num)]
    norm_num
  · rw [peaks_var_eq hs]
    unfold varL
    rw [hl, e1, e2, lit_fin, div_ff (by norm_num), div_ff (by norm_num), mul_ff, sub_ff]
    norm_num

/-! ### C60 -/

/-- A non-zero zero of the function given to the root finder yields a critical point of the log-likelihood (with a positive
scale), whose log-likelihood is returned. -/
theorem C60_stationary (lib : Lib XR) (h : Heap XR) (cap : UInt64) (h1 : 1 ≤ cap.toNat) (h2 : cap.toNat < 2 ^ 61)
    (h0 : (peaks_init lib h cap).1 = 0) (xs : List ℝ) (p : Peaks XR) (h' : Heap XR)
    (hp : peaksPushAll (peaks_init lib h cap).2.2 (peaks_init lib h cap).2.1 (xs.map fin) = .ok (p, h'))
    (x : ℝ) (hx : x ≠ 0) (hs : ∀ y ∈ Spec.lastN cap.toNat xs, 0 < 1 + x * y)
    (hy : ∀ y ∈ Spec.lastN cap.toNat xs, 0 ≤ y) (hy0 : ∃ y ∈ Spec.lastN cap.toNat xs, 0 < y)
    (hw : grimshaw_w exactMath h' p (fin x) = .ok (fin 0)) :
    ∃ γ σ : ℝ, grimshaw_simplified_log_likelihood exactMath h' p (fin x) =
        .ok ⟨fin (Spec.gpdLogLik γ σ (Spec.lastN cap.toNat xs)), fin γ, fin σ⟩ ∧ 0 < σ ∧ γ ≠ 0 ∧
      HasDerivAt (fun g => Spec.gpdLogLik g σ (Spec.lastN cap.toNat xs)) 0 γ ∧
      HasDerivAt (fun s => Spec.gpdLogLik γ s (Spec.lastN cap.toNat xs)) 0 σ := by
  obtain ⟨a, I⟩ := peaks_init_inv h1 h2 h0
  obtain ⟨p', h'', e, I'⟩ := peaksPushAll_inv I (xs.map fin)
  rw [e] at hp
  cases hp
  rw [List.nil_append] at I'
  have he : p.e = fin (slots cap.toNat xs).sum := by
    have h3 : p.stats.e = (statsOf cap.toNat (xs.map fin)).e := by rw [I'.stats]
    rw [statsOf_sum h1] at h3
    exact h3
  have hst := I'.ring.stored
  rw [slots_map] at hst
  have hpm := slots_perm h1 xs
  have hll : ∀ γ σ, Spec.gpdLogLik γ σ (Spec.lastN cap.toNat xs) = Spec.gpdLogLik γ σ (slots cap.toNat xs) := by
    intro γ σ; unfold Spec.gpdLogLik; rw [(hpm.map _).sum_eq]
  simp only [hll]
  have hs' : ∀ y ∈ slots cap.toNat xs, 0 < 1 + x * y := fun y hy => hs y (hpm.mem_iff.mp hy)
  have hy' : ∀ y ∈ slots cap.toNat xs, 0 ≤ y := fun y h => hy y (hpm.mem_iff.mp h)
  have hy0' : ∃ y ∈ slots cap.toNat xs, 0 < y := by
    obtain ⟨y, h, h'⟩ := hy0; exact ⟨y, hpm.mem_iff.mpr h, h'⟩
  generalize slots cap.toNat xs = l at *
  have hl : l ≠ [] := by
    obtain ⟨y, h, _⟩ := hy0'; exact List.ne_nil_of_mem h
  have hn : (0 : ℝ) < l.length := by exact_mod_cast List.length_pos_of_ne_nil hl
  rw [grimshaw_w_eq hst, grimshawWL_exact hl hs'] at hw
  have hw' : sumInv x l / l.length * (1 + sumLog x l / l.length) - 1 = 0 := by
    injection hw with hw; exact (fin_inj ..).mp hw
  have hsg := sumLog_sign hx hs' hy' hy0'
  set γ := sumLog x l / l.length with hγ
  have hγσ : γ / x = sumLog x l / x / l.length := by rw [hγ]; ring
  have hσ : 0 < γ / x := by rw [hγσ]; positivity
  have hγ0 : γ ≠ 0 := by rintro h; rw [h] at hσ; simp at hσ
  have hxe : x = γ / (γ / x) := by field_simp
  have hS : sumLog x l = l.length * γ := by rw [hγ]; field_simp
  have h1γ : 1 + γ ≠ 0 := by
    intro h; rw [h] at hw'; norm_num at hw'
  have hI : sumInv x l = l.length / (1 + γ) := by
    field_simp at hw' ⊢
    linarith
  refine ⟨γ, γ / x, ?_, hσ, hγ0, ?_, ?_⟩
  · rw [simplified_eq hst]
    unfold simplifiedL
    rw [lit_fin, eq_ff, grimshawVL_exact hl hs', lit_fin, sub_ff, ← hγ]
    have e1 : (1 : ℝ) + γ - ((1 : ℚ) : ℝ) = γ := by push_cast; ring
    simp only [hx, Rat.cast_zero, decide_false, if_false, Bool.false_eq_true, e1]
    rw [div_ff hx, he, logLikL_exact hσ]
    intro y hyl
    unfold Spec.InSupport
    have := hs' y hyl
    rw [hxe] at this
    convert this using 1
    ring
  · refine (hasDerivAt_logLik_gamma hγ0 hσ hxe hs').congr_deriv ?_
    rw [hS, hI]
    field_simp
    ring
  · refine (hasDerivAt_logLik_sigma hγ0 hσ hxe hs').congr_deriv ?_
    rw [hI]
    field_simp
    ring

/-- Two excesses t and 1/t with t + 1/t = e² - 2: x = 1 is a zero. -/
example : ∃ (t : ℝ) (p : Peaks XR) (h' : Heap XR), 0 < t ∧ 0 < 1 / t ∧ (peaks_init Sample.xlib Sample.emptyHeap 2).1 = 0 ∧
    peaksPushAll (peaks_init Sample.xlib Sample.emptyHeap 2).2.2 (peaks_init Sample.xlib Sample.emptyHeap 2).2.1
      ([t, 1 / t].map fin) = .ok (p, h') ∧
    grimshaw_w exactMath h' p (fin 1) = .ok (fin 0) := by
  obtain ⟨t, ht, hK⟩ : ∃ t : ℝ, 0 < t ∧ (1 + t) * (1 + 1 / t) = Real.exp 2 := by
    have h4 : (4 : ℝ) ≤ Real.exp 2 := by
      have h := Real.add_one_le_exp (1 : ℝ)
      have : Real.exp 2 = Real.exp 1 * Real.exp 1 := by rw [← Real.exp_add]; norm_num
      nlinarith
    have hd : 0 ≤ (Real.exp 2 - 2) ^ 2 - 4 := by nlinarith
    refine ⟨((Real.exp 2 - 2) + Real.sqrt ((Real.exp 2 - 2) ^ 2 - 4)) / 2, ?_, ?_⟩
    · have := Real.sqrt_nonneg ((Real.exp 2 - 2) ^ 2 - 4)
      linarith
    · have h5 := Real.sq_sqrt hd
      have h6 := Real.sqrt_nonneg ((Real.exp 2 - 2) ^ 2 - 4)
      have : (Real.exp 2 - 2) + Real.sqrt ((Real.exp 2 - 2) ^ 2 - 4) ≠ 0 := by
        have : 0 < (Real.exp 2 - 2) + Real.sqrt ((Real.exp 2 - 2) ^ 2 - 4) := by linarith
        exact this.ne'
      field_simp
      nlinarith
  obtain ⟨a, I⟩ := peaks_init_inv (by decide) (by decide) (Sample.xinit 2)
  obtain ⟨p', h', e, I'⟩ := peaksPushAll_inv I ([t, 1 / t].map fin)
  have hst := I'.ring.stored
  rw [List.nil_append, slots_map] at hst
  refine ⟨t, p', h', ht, by positivity, Sample.xinit 2, e, ?_⟩
  have hpm := slots_perm (c := 2) (by norm_num) [t, 1 / t]
  have hl : Spec.lastN 2 [t, 1 / t] = [t, 1 / t] := by simp [Spec.lastN]
  rw [hl] at hpm
  have hp2 : ∀ y ∈ slots 2 [t, 1 / t], 0 < 1 + 1 * y := by
    intro y hy
    have := hpm.mem_iff.mp hy
    simp at this
    rcases this with rfl | rfl <;> positivity
  have hne : slots 2 [t, 1 / t] ≠ [] := by
    intro h; rw [h] at hpm; simpa using hpm.length_eq
  rw [grimshaw_w_eq hst]
  show Except.ok (grimshawWL exactMath (List.map fin (slots 2 [t, 1 / t])) (fin 1)) = _
  rw [grimshawWL_exact hne hp2, hpm.length_eq]
  unfold sumInv sumLog
  rw [(hpm.map _).sum_eq, (hpm.map _).sum_eq]
  simp only [List.map_cons, List.map_nil, List.sum_cons, List.sum_nil, List.length_cons, List.length_nil]
  have h7 : Real.log (1 + 1 * t) + (Real.log (1 + 1 * (1 / t)) + 0) = 2 := by
    rw [add_zero, one_mul, one_mul, ← Real.log_mul (by positivity) (by positivity), hK, Real.log_exp]
  have h8 : 1 / (1 + 1 * t) + (1 / (1 + 1 * (1 / t)) + 0) = 1 := by field_simp; ring
  rw [h7, h8]
  norm_num

end Verif

/-
C94: what is flagged is what lies beyond the exact quantile of the fitted model, up to an explicit rounding error.
-/
import Verif.Props.Regular
import Verif.Props.Accuracy
import Verif.Props.Step

namespace Verif
open F64 Spec

/-! ### C94 -/

namespace Spec

/-- bound on the distance between the computed quantile and the exact one (`C89_partial`) -/
noncomputable def quantileError (low : Prop) [Decidable low] (t γ σ P q : ℝ) : ℝ :=
  (if γ = 0 then σ * (2 * (logErr (q / P) * |Real.log (q / P)|) + 1 / 10 ^ 14)
    else σ * (q / P) ^ (-γ) * (2 * (logErr (q / P) * |Real.log (q / P)|) + (1 + 1 / |γ|) / 10 ^ 14)) +
  (|gpdQuantile γ σ (q / P)| + |spotQuantile low t γ σ P q|) / 10 ^ 15

/-- the proportion of excesses -/
noncomputable def proportion (s : Spot F64) : ℝ := (s.Nt.toNat : ℝ) / s.n.toNat

/-- the value beyond which a proportion `q` of the observations lies, in the exact model with the parameters held by the detector -/
noncomputable def exactThreshold (low : Prop) [Decidable low] (s : Spot F64) (q : F64) : ℝ :=
  spotQuantile low (toR s.excess_threshold) (toR s.tail.gamma) (toR s.tail.sigma) (proportion s) (toR q)

noncomputable def thresholdError (low : Prop) [Decidable low] (s : Spot F64) (q : F64) : ℝ :=
  quantileError low (toR s.excess_threshold) (toR s.tail.gamma) (toR s.tail.sigma) (proportion s) (toR q)

/-- parameters that are not extreme: threshold up to 1e200, scale between 1e-100 and 1e100, (q/P)^-gamma between e^-100 and e^100 -/
structure Tame (s : Spot F64) (q : F64) : Prop where
  et : |toR s.excess_threshold| ≤ 10 ^ 200
  sigma : 1 / 10 ^ 100 ≤ toR s.tail.sigma ∧ toR s.tail.sigma ≤ 10 ^ 100
  pow : |toR s.tail.gamma * Real.log (toR q / proportion s)| ≤ 100

/-- the stored anomaly threshold is the exact one up to the error -/
def Calibrated (low : Prop) [Decidable low] (s : Spot F64) (q : F64) : Prop :=
  isFin s.anomaly_threshold ∧ |toR s.anomaly_threshold - exactThreshold low s q| ≤ thresholdError low s q

end Spec

theorem calibrated_of {s : Spot F64} {low : Prop} [Decidable low] (F : FittedF64 s low) (M : Moderate s.tail.gamma s.tail.sigma) {q : F64}
    (hq : isFin q) (q0 : 1 / 10 ^ 100 ≤ toR q) (q1 : toR q ≤ 1) (T : Tame s q)
    (hz : spot_quantile (codeMath muslFU) s q = .ok s.anomaly_threshold) : Calibrated low s q := by
  have hg : toR s.tail.gamma = 0 ∨ 1 / 10 ^ 30 ≤ |toR s.tail.gamma| := by
    rcases M.gamma0 with h | h
    · left; unfold toR; rw [h]; norm_num
    · right
      have h1 : (1 / 10 ^ 30 : ℚ) ≤ |toQ s.tail.gamma| := le_trans (by decide +kernel) h
      have h2 := (Rat.cast_le (K := ℝ)).mpr h1
      unfold toR
      push_cast at h2
      exact h2
  obtain ⟨z, e1, e2, e3, e4⟩ := C89_partial s low F ⟨T.et, T.sigma, hg⟩ q hq q0 q1 _ _ _ _ _ rfl rfl rfl rfl rfl T.pow
  rw [hz] at e1
  cases e1
  refine ⟨e2, ?_⟩
  unfold exactThreshold thresholdError quantileError
  by_cases h : toR s.tail.gamma = 0
  · rw [if_pos h]; exact e3 h
  · rw [if_neg h]; exact e4 h

/-- After a fit: on any detector reached by calls of the API, if the excess threshold of the fit is finite, and the loop over the data
found at least one excess and left a buffer of regular excesses, then the fit is defined and returns 0, and, if the parameters
are tame, the anomaly threshold is the exact quantile of the model up to the error. Missing: irregular excesses, extreme parameters. -/
theorem C94_fit_partial (lib : Lib F64) (q level : F64) (low disc : ℤ) (me : UInt64) (s : Spot F64) (h : Heap F64)
    (R : Reaches (codeMath muslFU) lib q low disc level me s h) (hq : isFin q) (q0 : 1 / 10 ^ 100 ≤ toR q) (q1 : toR q ≤ 1)
    (data : List F64) (size : UInt64) (hs : size.toNat ≤ data.length) (hs' : size.toNat ≤ 2 ^ 53) (et : F64) (st : Spot F64 × Heap F64)
    (het : p2_quantile (if low ≠ 0 then lit 1 -. level else level) data size = .ok et) (hef : isFin et)
    (hst : (data.take size.toNat).foldlM (fit_body et) ({ s with Nt := 0, n := size, excess_threshold := et }, h) = .ok st)
    (hNt : 0 < st.1.Nt.toNat) (hreg : Spec.Regular st.1.tail.peaks) :
    ∃ s' h', spot_fit (codeMath muslFU) h s data size = .ok (0, s', h') ∧ FittedF64 s' (low ≠ 0) ∧
      (Tame s' q → Calibrated (low ≠ 0) s' q) := by
  have Q0 : 0 < toQ q := by
    have : (0 : ℝ) < toR q := lt_of_lt_of_le (by positivity) q0
    unfold toR at this
    exact_mod_cast this
  have Q1 : toQ q ≤ 1 := by unfold toR at q1; exact_mod_cast q1
  obtain ⟨s', h', e, -, F, M, -⟩ := C88_fit_partial lib q level low disc me s h R hq Q0 Q1 data size hs hs' et st het hef hst hNt hreg
  refine ⟨s', h', e, F, fun T => ?_⟩
  obtain ⟨c1, c2⟩ := C33_fit ⟨lib.malloc, lib.freeSet, muslFU⟩ q level low disc me s h R data size hs 0 s' h' e (.inl rfl)
  rw [c1] at c2
  exact calibrated_of F M hq q0 q1 T c2

/-- After an excess: on any detector reached by calls of the API that has a finite excess threshold and at most 2^53 observations, a
step that would leave a buffer of regular excesses is defined, and if it returns EXCESS and the parameters are tame, the new
anomaly threshold is the exact quantile of the model up to the error. Missing: irregular excesses, extreme parameters. -/
theorem C94_step_partial (lib : Lib F64) (q level : F64) (low disc : ℤ) (me : UInt64) (s : Spot F64) (h : Heap F64)
    (R : Reaches (codeMath muslFU) lib q low disc level me s h) (hq : isFin q) (q0 : 1 / 10 ^ 100 ≤ toR q) (q1 : toR q ≤ 1)
    (hef : isFin s.excess_threshold) (hc : s.Nt.toNat ≤ s.n.toNat) (hc' : s.n.toNat + 1 ≤ 2 ^ 53) (x : F64) (r : Tail F64 × Heap F64)
    (hr : tail_push h s.tail (s.up_down *. (x -. s.excess_threshold)) = .ok r) (hreg : Spec.Regular r.1.peaks) :
    ∃ c s' h', spot_step (codeMath muslFU) h s x = .ok (c, s', h') ∧
      (c = 1 → FittedF64 s' (low ≠ 0) ∧ (Tame s' q → Calibrated (low ≠ 0) s' q)) := by
  have Q0 : 0 < toQ q := by
    have : (0 : ℝ) < toR q := lt_of_lt_of_le (by positivity) q0
    unfold toR at this
    exact_mod_cast this
  have Q1 : toQ q ≤ 1 := by unfold toR at q1; exact_mod_cast q1
  obtain ⟨c, s', h', e, k⟩ := C88_step_partial lib q level low disc me s h R hq Q0 Q1 hef hc hc' x r hr hreg
  refine ⟨c, s', h', e, fun h1 => ?_⟩
  obtain ⟨-, F, M, -⟩ := k h1
  refine ⟨F, fun T => ?_⟩
  subst h1
  obtain ⟨c1, c2⟩ := C33_excess ⟨lib.malloc, lib.freeSet, muslFU⟩ h s x s' h' e
  obtain ⟨a, xs, I, P⟩ := R.inv
  have hsq : s.q = q := P.pq
  rw [c1, hsq] at c2
  exact calibrated_of F M hq q0 q1 T c2

/-- What is flagged: let the anomaly threshold of a detector `s` be exact up to the error. Then after any calls other than `spot_fit`
none of which returns EXCESS, a step that returns ANOMALY was given a number beyond the exact quantile or within the error of
it, and a step with a finite number that returns something else, when anomalies are discarded, a number not beyond it or
within the error of it. Missing: as above, the cases in which the threshold is not calibrated. -/
theorem C94_flag_partial (lib : Lib F64) (q level : F64) (low disc : ℤ) (me : UInt64) (s : Spot F64) (h : Heap F64)
    (R : Reaches (codeMath muslFU) lib q low disc level me s h) (hcal : Calibrated (low ≠ 0) s q)
    (ops : List (Op F64)) (hv : ∀ op ∈ ops, op.valid) (hops : ∀ op ∈ ops, op.notFit) (outs : List (Out F64)) (s' : Spot F64) (h' : Heap F64)
    (hrun : runOps (codeMath muslFU) h s ops = .ok (outs, s', h')) (hno : Out.code 1 ∉ outs)
    (x : F64) (hx : isFin x) (c : ℤ) (s'' : Spot F64) (h'' : Heap F64) (hstep : spot_step (codeMath muslFU) h' s' x = .ok (c, s'', h'')) :
    (c = 2 → disc ≠ 0 ∧
      if low ≠ 0 then toR x < exactThreshold (low ≠ 0) s q + thresholdError (low ≠ 0) s q
      else exactThreshold (low ≠ 0) s q - thresholdError (low ≠ 0) s q < toR x) ∧
    (c ≠ 2 → disc ≠ 0 →
      if low ≠ 0 then exactThreshold (low ≠ 0) s q - thresholdError (low ≠ 0) s q ≤ toR x
      else toR x ≤ exactThreshold (low ≠ 0) s q + thresholdError (low ≠ 0) s q) := by
  obtain ⟨hf, hd⟩ := hcal
  obtain ⟨b1, -⟩ := C33_between ⟨lib.malloc, lib.freeSet, muslFU⟩ h s ops hops outs s' h' hrun hno
  obtain ⟨a, xs, I, P⟩ := (R.run hv hrun).inv
  have hA := anomTest_iff P x
  rw [b1] at hA
  simp only [hx.notNaN, hf.notNaN, true_and, ← not_le, val_fin_le hx hf, val_fin_le hf hx] at hA
  have c1 : ∀ u v : F64, toQ u ≤ toQ v ↔ toR u ≤ toR v := fun u v => by unfold toR; exact Rat.cast_le.symm
  rw [c1, c1, not_le, not_le] at hA
  obtain ⟨d1, d2⟩ := abs_le.mp hd
  have hn := (F64.is_nan_false x).mpr hx.notNaN
  constructor
  · intro hc
    have ht : anomTest s' x = true := by
      rcases step_cases hstep with ⟨g, -⟩ | ⟨-, g, -⟩ | ⟨-, -, -, g, -⟩ | ⟨-, -, -, g, -⟩
      · rw [hn] at g; cases g
      · exact g
      · rw [hc] at g; exact absurd g (by decide)
      · rw [hc] at g; exact absurd g (by decide)
    obtain ⟨k1, k2⟩ := hA.mp ht
    refine ⟨k1, ?_⟩
    split at k2
    · rw [if_pos (by assumption)]; linarith
    · rw [if_neg (by assumption)]; linarith
  · intro hc hdis
    have ht : ¬ anomTest s' x = true := by
      intro ht
      rcases step_cases hstep with ⟨g, -⟩ | ⟨-, -, g, -⟩ | ⟨-, g, -⟩ | ⟨-, g, -⟩
      · rw [hn] at g; cases g
      · exact hc (by rw [g]; decide)
      · rw [ht] at g; cases g
      · rw [ht] at g; cases g
    rw [hA] at ht
    split
    · rename_i hl
      have : ¬ toR x < toR s.anomaly_threshold := fun hlt => ht ⟨hdis, by rw [if_pos hl]; exact hlt⟩
      linarith
    · rename_i hl
      have : ¬ toR s.anomaly_threshold < toR x := fun hlt => ht ⟨hdis, by rw [if_neg hl]; exact hlt⟩
      linarith

/-- a detector that discards anomalies, with q = 1/4 -/
def Sample.quarter : ℤ × Spot F64 × Heap F64 := spot_init Sample.lib Sample.emptyHeap Sample.zeroed (lit (1 / 4)) 0 1 (lit (1 / 2)) 20

/-- six observations three of which exceed 0, by 1, 2 and about 12.245 -/
def Sample.flatData : List F64 := [lit (-2), lit (-1), lit 0, lit 1, lit 2, lit (1723330263210609 / 140737488355328)]

/-- C94 does not hold for all detectors: after a fit of six observations the value 1 is flagged, whereas in the model the value
beyond which a quarter of the observations lies is greater than 3. -/
theorem C94_false : ∃ s h s' h', runOps (codeMath muslFU) Sample.quarter.2.2 Sample.quarter.2.1 [.fit Sample.flatData 6] = .ok ([.code 0], s, h) ∧
    FittedF64 s ((0 : ℤ) ≠ 0) ∧ spot_step (codeMath muslFU) h s (lit 1) = .ok (2, s', h') ∧ toR (lit 1 : F64) = 1 ∧
    3 < exactThreshold ((0 : ℤ) ≠ 0) s (lit (1 / 4)) := by
  have hd : (match runOps (codeMath muslFU) Sample.quarter.2.2 Sample.quarter.2.1 [.fit Sample.flatData 6] with
    | .ok r => decide (r.1 = [.code 0]) && Sample.fittedB r.2.1 &&
      decide (toQ r.2.1.tail.gamma = -1 / 2 ^ 53) && decide (toQ r.2.1.tail.sigma = 715180909425531 / 140737488355328) &&
      decide (r.2.1.Nt.toNat = 3 ∧ r.2.1.n.toNat = 6) && decide (toQ r.2.1.excess_threshold = 0) &&
      (match spot_step (codeMath muslFU) r.2.2 r.2.1 (lit 1) with | .ok w => decide (w.1 = 2) | .error _ => false)
    | .error _ => false) = true := by decide +kernel
  cases hr : runOps (codeMath muslFU) Sample.quarter.2.2 Sample.quarter.2.1 [.fit Sample.flatData 6] with
  | error e => rw [hr] at hd; cases hd
  | ok r =>
    rw [hr] at hd
    simp only [Bool.and_eq_true, decide_eq_true_iff] at hd
    obtain ⟨⟨⟨⟨⟨⟨h1, h2⟩, g⟩, si⟩, h5⟩, ht⟩, h7⟩ := hd
    cases hw : spot_step (codeMath muslFU) r.2.2 r.2.1 (lit 1) with
    | error e => rw [hw] at h7; cases h7
    | ok w =>
      rw [hw] at h7
      simp only [decide_eq_true_iff] at h7
      refine ⟨r.2.1, r.2.2, w.2.1, w.2.2, by rw [← h1], Sample.fitted_of h2, by rw [hw, ← h7], ?_, ?_⟩
      · unfold toR; rw [show toQ (lit 1 : F64) = 1 by decide +kernel]; norm_num
      have := Sample.flat_quantile g si h5.1 h5.2 ht
      unfold exactThreshold Spec.proportion
      rwa [show toR (lit (1 / 4) : F64) = 1 / 4 by unfold toR; rw [show toQ (lit (1 / 4) : F64) = 1 / 4 by decide +kernel]; norm_num]

/-- a rational bound on the logarithm -/
theorem abs_log_le {x : ℝ} (h : 0 < x) : |Real.log x| ≤ x + 1 / x := by
  have h1 := Real.log_le_sub_one_of_pos h
  have h2 := Real.log_le_sub_one_of_pos (x := 1 / x) (by positivity)
  rw [one_div, Real.log_inv] at h2
  rw [one_div, abs_le]
  have : 0 < x⁻¹ := by positivity
  constructor <;> linarith

/-- a decidable condition for `Tame` -/
def Sample.tameB (s : Spot F64) (q : F64) : Bool :=
  decide (0 < toQ q / ((s.Nt.toNat : ℚ) / s.n.toNat)) && decide (|toQ s.excess_threshold| ≤ 10 ^ 200) &&
    decide (1 / 10 ^ 100 ≤ toQ s.tail.sigma) && decide (toQ s.tail.sigma ≤ 10 ^ 100) &&
    decide (|toQ s.tail.gamma| * (toQ q / ((s.Nt.toNat : ℚ) / s.n.toNat) + 1 / (toQ q / ((s.Nt.toNat : ℚ) / s.n.toNat))) ≤ 100)

theorem Sample.tame_of {s : Spot F64} {q : F64} (h : Sample.tameB s q = true) : Tame s q := by
  unfold Sample.tameB at h
  simp only [Bool.and_eq_true, decide_eq_true_iff] at h
  obtain ⟨⟨⟨⟨h0, h1⟩, h2⟩, h3⟩, h4⟩ := h
  have h0 := (Rat.cast_lt (K := ℝ)).mpr h0
  have h1 := (Rat.cast_le (K := ℝ)).mpr h1
  have h2 := (Rat.cast_le (K := ℝ)).mpr h2
  have h3 := (Rat.cast_le (K := ℝ)).mpr h3
  have h4 := (Rat.cast_le (K := ℝ)).mpr h4
  push_cast at h0 h1 h2 h3 h4
  refine ⟨h1, ⟨h2, h3⟩, ?_⟩
  rw [abs_mul]
  exact (mul_le_mul_of_nonneg_left (abs_log_le h0) (abs_nonneg _)).trans h4

/-- The hypotheses are met by the fit of twelve numbers, with tame parameters (the other hypotheses of the theorem on `spot_fit` are
in the example of C88), and by the value 15 that follows: it is an excess that leaves tame parameters; and then the value 1000 is
an anomaly. -/
example : ∃ s h s1 h1, runOps (codeMath muslFU) Sample.init.2.2 Sample.init.2.1 [.fit Sample.data12 12] = .ok ([.code 0], s, h) ∧ Tame s (lit (1 / 100)) ∧
    spot_step (codeMath muslFU) h s (lit 15) = .ok (1, s1, h1) ∧ Tame s1 (lit (1 / 100)) ∧
    (spot_step (codeMath muslFU) h1 s1 (lit 1000)).map (·.1) = .ok 2 := by
  have hd : (match runOps (codeMath muslFU) Sample.init.2.2 Sample.init.2.1 [.fit Sample.data12 12] with
    | .ok r => match spot_step (codeMath muslFU) r.2.2 r.2.1 (lit 15) with
      | .ok w => match spot_step (codeMath muslFU) w.2.2 w.2.1 (lit 1000) with
        | .ok v => decide (r.1 = [.code 0]) && Sample.tameB r.2.1 (lit (1 / 100)) && decide (w.1 = 1) && Sample.tameB w.2.1 (lit (1 / 100)) && decide (v.1 = 2)
        | .error _ => false
      | .error _ => false
    | .error _ => false) = true := by decide +kernel
  cases hr : runOps (codeMath muslFU) Sample.init.2.2 Sample.init.2.1 [.fit Sample.data12 12] with
  | error e => rw [hr] at hd; cases hd
  | ok r =>
    rw [hr] at hd
    dsimp only at hd
    cases hw : spot_step (codeMath muslFU) r.2.2 r.2.1 (lit 15) with
    | error e => rw [hw] at hd; cases hd
    | ok w =>
      rw [hw] at hd
      dsimp only at hd
      cases hv : spot_step (codeMath muslFU) w.2.2 w.2.1 (lit 1000) with
      | error e => rw [hv] at hd; cases hd
      | ok v =>
        rw [hv] at hd
        simp only [Bool.and_eq_true, decide_eq_true_iff] at hd
        obtain ⟨⟨⟨⟨a, b⟩, c⟩, d⟩, e⟩ := hd
        refine ⟨r.2.1, r.2.2, w.2.1, w.2.2, by rw [← a], Sample.tame_of b, by rw [hw, ← c], Sample.tame_of d, ?_⟩
        rw [hv]
        change Except.ok v.1 = _
        rw [e]

end Verif

/-
C104: the probability that an observation is flagged.
-/
import Verif.Props.Gpd
import Verif.Props.Threshold
import Mathlib.MeasureTheory.Measure.Lebesgue.Basic

namespace Verif
open F64 Spec MeasureTheory

/-! ### C104 -/

namespace Spec

/-- The tail of the random variable `X` beyond `t` (below `t` if `low`) is, up to the distance `b`, that of the peaks-over-threshold model: the
probability to exceed `t` by more than `y` is `p` times the survival function of the generalised Pareto distribution. -/
def GpdTail {Ω : Type} [MeasurableSpace Ω] (ℙ : Measure Ω) (X : Ω → ℝ) (low : Prop) [Decidable low] (t p γ σ b : ℝ) : Prop :=
  ∀ y, 0 ≤ y → y ≤ b → InSupport γ σ y →
    ℙ {ω | if low then X ω < t - y else t + y < X ω} = ENNReal.ofReal (p * gpdSurvival γ σ y)

end Spec

/-- the survival function decreases at most at the rate `1/min(σ, σ + γ y)` -/
theorem survival_le {γ σ x y : ℝ} (hσ : 0 < σ) (hx : 0 ≤ x) (hxy : x ≤ y) (hy : InSupport γ σ y) :
    InSupport γ σ x ∧ gpdSurvival γ σ x ≤ gpdSurvival γ σ y * Real.exp ((y - x) / min σ (σ + γ * y)) := by
  have hy' : 0 < σ + γ * y := by
    unfold InSupport at hy
    have := mul_pos hσ hy
    rwa [mul_add, mul_one, mul_div_cancel₀ _ hσ.ne'] at this
  have hm : 0 < min σ (σ + γ * y) := lt_min hσ hy'
  have hx' : 0 < σ + γ * x := by
    rcases le_or_gt 0 γ with h | h
    · have := mul_nonneg h hx; linarith
    · have := mul_le_mul_of_nonpos_left hxy h.le; linarith
  have e : ∀ z, 1 + γ * z / σ = (σ + γ * z) / σ := fun z => by field_simp
  have sx : InSupport γ σ x := by unfold InSupport; rw [e]; positivity
  refine ⟨sx, ?_⟩
  have hd : 0 ≤ y - x := by linarith
  unfold gpdSurvival
  split
  · rename_i h
    rw [← Real.exp_add]
    apply Real.exp_le_exp.mpr
    have e1 : min σ (σ + γ * y) = σ := by rw [h]; simp
    rw [e1]
    apply le_of_eq
    field_simp
    ring
  · rename_i h
    rw [e, e, Real.rpow_def_of_pos (by positivity), Real.rpow_def_of_pos (by positivity), ← Real.exp_add]
    apply Real.exp_le_exp.mpr
    rw [Real.log_div hx'.ne' hσ.ne', Real.log_div hy'.ne' hσ.ne']
    suffices H : (Real.log (σ + γ * y) - Real.log (σ + γ * x)) / γ ≤ (y - x) / min σ (σ + γ * y) by
      have : (Real.log (σ + γ * x) - Real.log σ) * (-1 / γ) =
        (Real.log (σ + γ * y) - Real.log σ) * (-1 / γ) + (Real.log (σ + γ * y) - Real.log (σ + γ * x)) / γ := by
        field_simp; ring
      rw [this]; linarith
    rcases lt_or_gt_of_ne h with hg | hg
    · have h1 := Real.log_le_sub_one_of_pos (x := (σ + γ * x) / (σ + γ * y)) (by positivity)
      rw [Real.log_div hx'.ne' hy'.ne'] at h1
      have e2 : (σ + γ * x) / (σ + γ * y) - 1 = -γ * ((y - x) / (σ + γ * y)) := by field_simp; ring
      rw [e2] at h1
      have e3 : (Real.log (σ + γ * y) - Real.log (σ + γ * x)) / γ = (Real.log (σ + γ * x) - Real.log (σ + γ * y)) / -γ := by
        field_simp; ring
      rw [e3, div_le_iff₀ (by linarith)]
      refine h1.trans ?_
      rw [mul_comm]
      refine mul_le_mul_of_nonneg_right ?_ (by linarith)
      exact div_le_div_of_nonneg_left hd hm (min_le_right _ _)
    · have h1 := Real.log_le_sub_one_of_pos (x := (σ + γ * y) / (σ + γ * x)) (by positivity)
      rw [Real.log_div hy'.ne' hx'.ne'] at h1
      have e2 : (σ + γ * y) / (σ + γ * x) - 1 = γ * ((y - x) / (σ + γ * x)) := by field_simp; ring
      rw [e2] at h1
      rw [div_le_iff₀ hg]
      refine h1.trans ?_
      rw [mul_comm]
      refine mul_le_mul_of_nonneg_right ?_ hg.le
      refine div_le_div_of_nonneg_left hd hm ?_
      have := mul_nonneg hg.le hx
      exact (min_le_left _ _).trans (by linarith)

/-- a step flags exactly the observations that pass the test -/
theorem flag_iff {α : Type} [CDouble α] (M : MathFns α) (h : Heap α) (s : Spot α) (x : α) (hx : is_nan x = false) :
    (∃ s' h', spot_step M h s x = .ok (2, s', h')) ↔ anomTest s x = true := by
  constructor
  · rintro ⟨s', h', e⟩
    rcases step_cases e with ⟨_, g, _⟩ | ⟨_, g, _⟩ | ⟨_, _, _, g, _⟩ | ⟨_, _, _, g, _⟩
    · exact absurd g (by decide)
    · exact g
    · exact absurd g (by decide)
    · exact absurd g (by decide)
  · intro g
    refine ⟨s, h, ?_⟩
    unfold anomTest at g
    unfold spot_step
    rw [if_neg (by rw [hx]; simp), if_pos g]
    rfl

/-- In exact arithmetic: if the observations follow the model that the detector holds, the probability that an observation is flagged
is `q`. -/
theorem C104_exact {Ω : Type} [MeasurableSpace Ω] (ℙ : Measure Ω) (X : Ω → ℝ) (s : Spot XR) (h : Heap XR) (low : Prop) [Decidable low]
    (et γ σ : ℝ) (F : FittedXR s low et γ σ) (hd : s.discard_anomalies ≠ 0) (q b : ℝ) (hq : 0 < q) (hq' : q ≤ s.Nt.toNat / s.n.toNat)
    (hz : spot_quantile XR.exactMath s (XR.fin q) = .ok s.anomaly_threshold)
    (hX : GpdTail ℙ X low et (s.Nt.toNat / s.n.toNat) γ σ b) (hb : gpdQuantile γ σ (q / (s.Nt.toNat / s.n.toNat)) ≤ b) :
    ℙ {ω | ∃ s' h', spot_step XR.exactMath h s (XR.fin (X ω)) = .ok (2, s', h')} = ENNReal.ofReal q := by
  have hn : (0 : ℝ) < s.n.toNat := by exact_mod_cast F.n
  have hN : (0 : ℝ) < s.Nt.toNat := by exact_mod_cast F.Nt
  have hP : (0 : ℝ) < s.Nt.toNat / s.n.toNat := div_pos hN hn
  have hqd : gpdQuantile γ σ (q / (s.Nt.toNat / s.n.toNat)) = quantR γ σ (s.Nt.toNat / s.n.toNat) q := rfl
  obtain ⟨u, hu, hl⟩ := F.sign
  rw [spot_quantile_exact F hu hq] at hz
  have hz := (Except.ok.inj hz).symm
  have hd0 : 0 ≤ quantR γ σ (s.Nt.toNat / s.n.toNat) q := by
    rcases hq'.lt_or_eq with g | g
    · have := quantR_strictAnti (γ := γ) F.pos hP hq g
      rw [quantR_self hP] at this
      exact this.le
    · rw [g, quantR_self hP]
  have key : ∀ x : ℝ, (∃ s' h', spot_step XR.exactMath h s (XR.fin x) = .ok (2, s', h')) ↔
      (if low then x < et - quantR γ σ (s.Nt.toNat / s.n.toNat) q else et + quantR γ σ (s.Nt.toNat / s.n.toNat) q < x) := by
    intro x
    have ht : anomTest s (XR.fin x) = true ↔ 0 < u * (x - (et + u * quantR γ σ (s.Nt.toNat / s.n.toNat) q)) := by
      unfold anomTest
      rw [hz, hu, XR.sub_ff, XR.mul_ff, XR.lit_fin]
      show (_ && (XR.fin _ <. XR.fin _)) = true ↔ _
      rw [XR.lt_ff]
      simp [hd]
    rw [flag_iff _ _ _ _ (XR.nan_f x), ht]
    rcases hl with ⟨rfl, hl⟩ | ⟨rfl, hl⟩
    · rw [if_neg hl]; constructor <;> intro g <;> linarith
    · rw [if_pos hl]; constructor <;> intro g <;> linarith
  simp only [key]
  rw [hX _ hd0 (hqd ▸ hb) (quantR_inSupport F.pos hP hq), survival_quantR F.pos hP hq]

/-- In binary64: let the anomaly threshold of a detector be calibrated (`C94_fit_partial`, `C94_step_partial`), and let `X` be the
readings, with an error of at most `δ`, of observations `Y` that follow the model that the detector holds. After any calls other than
`spot_fit` that record no excess, the probability that a reading is flagged is `q` up to a factor that is close to 1 when the
error of the threshold and `δ` are small with respect to the scale. -/
theorem C104_binary64 {Ω : Type} [MeasurableSpace Ω] (ℙ : Measure Ω) (X : Ω → F64) (Y : Ω → ℝ) (lib : Lib F64) (q level : F64)
    (low disc : ℤ) (me : UInt64) (s : Spot F64) (h : Heap F64) (R : Reaches (codeMath muslFU) lib q low disc level me s h)
    (hdisc : disc ≠ 0) (F : FittedF64 s (low ≠ 0)) (hq : 0 < toR q) (hcal : Calibrated (low ≠ 0) s q)
    (ops : List (Op F64)) (hv : ∀ op ∈ ops, op.valid) (hops : ∀ op ∈ ops, op.notFit) (outs : List (Out F64)) (s' : Spot F64) (h' : Heap F64)
    (hrun : runOps (codeMath muslFU) h s ops = .ok (outs, s', h')) (hno : Out.code 1 ∉ outs)
    (γ σ d δ η b : ℝ) (hγ : γ = toR s.tail.gamma) (hσ : σ = toR s.tail.sigma) (hdd : d = gpdQuantile γ σ (toR q / Spec.proportion s))
    (hη : η = thresholdError (low ≠ 0) s q + δ) (hXf : ∀ ω, isFin (X ω)) (hδ0 : 0 ≤ δ) (hδ : ∀ ω, |toR (X ω) - Y ω| ≤ δ)
    (hY : GpdTail ℙ Y (low ≠ 0) (toR s.excess_threshold) (Spec.proportion s) γ σ b) (hdη : η ≤ d) (hb : d + η ≤ b) :
    (InSupport γ σ (d + η) → ENNReal.ofReal (toR q * Real.exp (-(η / min σ (σ + γ * (d + η))))) ≤
      ℙ {ω | ∃ s'' h'', spot_step (codeMath muslFU) h' s' (X ω) = .ok (2, s'', h'')}) ∧
    ℙ {ω | ∃ s'' h'', spot_step (codeMath muslFU) h' s' (X ω) = .ok (2, s'', h'')} ≤
      ENNReal.ofReal (toR q * Real.exp (η / min σ (σ + γ * d))) := by
  obtain ⟨hcf, hce⟩ := hcal
  have hflag : ∀ ω, (∃ s'' h'', spot_step (codeMath muslFU) h' s' (X ω) = .ok (2, s'', h'')) ↔
      (if low ≠ 0 then toR (X ω) < toR s.anomaly_threshold else toR s.anomaly_threshold < toR (X ω)) := by
    intro ω
    obtain ⟨b1, -⟩ := C33_between ⟨lib.malloc, lib.freeSet, muslFU⟩ h s ops hops outs s' h' hrun hno
    obtain ⟨a, xs, I, P⟩ := (R.run hv hrun).inv
    have hA := anomTest_iff P (X ω)
    rw [b1] at hA
    simp only [(hXf ω).notNaN, hcf.notNaN, true_and, ← not_le, val_fin_le (hXf ω) hcf, val_fin_le hcf (hXf ω)] at hA
    have c1 : ∀ u v : F64, toQ u ≤ toQ v ↔ toR u ≤ toR v := fun u v => by unfold toR; exact Rat.cast_le.symm
    rw [c1, c1, not_le, not_le] at hA
    rw [flag_iff _ _ _ _ ((F64.is_nan_false _).mpr (hXf ω).notNaN), hA]
    exact ⟨fun g => g.2, fun g => ⟨hdisc, g⟩⟩
  have σ0 : 0 < σ := by
    rw [hσ]; unfold toR
    exact_mod_cast F.sigma.2
  have hn : (0 : ℝ) < s.n.toNat := by exact_mod_cast lt_of_lt_of_le F.Nt F.le
  have hP : 0 < Spec.proportion s := by
    unfold Spec.proportion
    have : (0 : ℝ) < s.Nt.toNat := by exact_mod_cast F.Nt
    positivity
  have hQ : 0 < toR q / Spec.proportion s := div_pos hq hP
  have hS : Spec.proportion s * gpdSurvival γ σ d = toR q := by
    rw [hdd, gpdSurvival_gpdQuantile σ0 hQ, mul_div_cancel₀ _ hP.ne']
  have hds : InSupport γ σ d := by
    rw [hdd]
    exact quantR_inSupport σ0 hP hq
  have hT : exactThreshold (low ≠ 0) s q = toR s.excess_threshold + (if low ≠ 0 then -1 else 1) * d := by
    rw [hdd, hγ, hσ]; rfl
  have hη0 : 0 ≤ η := by
    have := (abs_nonneg _).trans hce
    linarith
  have hce' := abs_le.mp hce
  rw [hT] at hce'
  simp only [hflag]
  constructor
  · intro hsup
    have h1 := hY (d + η) (by linarith) hb hsup
    have h2 := (survival_le σ0 (x := d) (by linarith) (by linarith) hsup).2
    refine le_trans (ENNReal.ofReal_le_ofReal ?_) (h1.ge.trans (measure_mono ?_))
    · rw [← hS, mul_assoc]
      refine mul_le_mul_of_nonneg_left ?_ hP.le
      rw [show d + η - d = η by ring] at h2
      rw [Real.exp_neg]
      have := Real.exp_pos (η / min σ (σ + γ * (d + η)))
      rwa [← div_eq_mul_inv, div_le_iff₀ this]
    · intro ω hω
      have h4 := abs_le.mp (hδ ω)
      change if low ≠ 0 then _ else _ at hω
      show if low ≠ 0 then _ else _
      split
      · rename_i hl
        rw [if_pos hl] at hω hce'
        linarith
      · rename_i hl
        rw [if_neg hl] at hω hce'
        linarith
  · have h1 := hY (d - η) (by linarith) (by linarith) (survival_le σ0 (by linarith) (by linarith) hds).1
    have h2 := (survival_le σ0 (x := d - η) (by linarith) (by linarith) hds).2
    refine (measure_mono ?_).trans (h1.le.trans (ENNReal.ofReal_le_ofReal ?_))
    · intro ω hω
      have h4 := abs_le.mp (hδ ω)
      change if low ≠ 0 then _ else _ at hω
      show if low ≠ 0 then _ else _
      split
      · rename_i hl
        rw [if_pos hl] at hω hce'
        linarith
      · rename_i hl
        rw [if_neg hl] at hω hce'
        linarith
    · rw [← hS, mul_assoc]
      refine mul_le_mul_of_nonneg_left ?_ hP.le
      rwa [show d - (d - η) = η by ring] at h2

/-- There are observations that follow any such model up to any distance, with readings that are integers: inversion of the survival function
on the unit interval. -/
theorem exists_gpdTail (low : Prop) [Decidable low] {t p γ σ b : ℝ} (hσ : 0 < σ) (hp : 0 < p) (hp1 : p ≤ 1) (hb : 0 ≤ b)
    (ht : |t| + b ≤ 2 ^ 50) :
    ∃ (X : ℝ → F64) (Y : ℝ → ℝ), (∀ ω, isFin (X ω)) ∧ (∀ ω, |toR (X ω) - Y ω| ≤ 1) ∧
      GpdTail (volume.restrict (Set.Ioo 0 1)) Y low t p γ σ b := by
  obtain ⟨u, hu⟩ : ∃ u : ℝ, u = if low then -1 else 1 := ⟨_, rfl⟩
  have hu1 : |u| = 1 := by rw [hu]; split <;> norm_num
  obtain ⟨Z, hZ⟩ : ∃ Z : ℝ → ℝ, Z = fun ω => if 0 < ω ∧ ω < p then max (-1) (min (quantR γ σ p ω) (b + 1)) else -1 := ⟨_, rfl⟩
  have hZb : ∀ ω, -1 ≤ Z ω ∧ Z ω ≤ b + 1 := by
    intro ω
    rw [hZ]
    dsimp only
    split
    · exact ⟨le_max_left _ _, max_le (by linarith) (min_le_right _ _)⟩
    · exact ⟨le_rfl, by linarith⟩
  have hfl : ∀ ω, |⌊t + u * Z ω⌋| ≤ 2 ^ 53 := by
    intro ω
    have h1 : |t + u * Z ω| ≤ |t| + (b + 1) := by
      refine (abs_add_le _ _).trans ?_
      rw [abs_mul, hu1, _root_.one_mul]
      have : |Z ω| ≤ b + 1 := abs_le.mpr ⟨by linarith [(hZb ω).1], (hZb ω).2⟩
      linarith
    have h2 := abs_le.mp h1
    have h3 := Int.floor_le (t + u * Z ω)
    have h4 := Int.lt_floor_add_one (t + u * Z ω)
    have h5 : |((⌊t + u * Z ω⌋ : ℤ) : ℝ)| ≤ 2 ^ 53 := by
      rw [abs_le]; constructor <;> linarith
    exact_mod_cast h5
  refine ⟨fun ω => lit ((⌊t + u * Z ω⌋ : ℤ) : ℚ), fun ω => t + u * Z ω, fun ω => (lit_int (hfl ω)).1, fun ω => ?_, ?_⟩
  · have h3 := Int.floor_le (t + u * Z ω)
    have h4 := Int.lt_floor_add_one (t + u * Z ω)
    unfold toR
    rw [(lit_int (hfl ω)).2, abs_le]
    push_cast
    constructor <;> linarith
  · intro y hy hyb hs
    have hS0 := survival_pos hs
    have hS1 : gpdSurvival γ σ y ≤ 1 := by
      have h0 : gpdSurvival γ σ 0 = 1 := by unfold gpdSurvival; split <;> simp
      rcases hy.lt_or_eq with h | h
      · rw [← h0]
        exact (survival_strictAnti hσ (by unfold InSupport; simp) hs h).le
      · rw [← h, h0]
    have hpS : 0 < p * gpdSurvival γ σ y := mul_pos hp hS0
    have hpS1 : p * gpdSurvival γ σ y ≤ p := by nlinarith
    have hset : {ω | if low then t + u * Z ω < t - y else t + y < t + u * Z ω} = {ω | y < Z ω} := by
      ext ω
      simp only [Set.mem_ofPred_eq]
      split
      · rename_i hl
        rw [hu, if_pos hl]; constructor <;> intro g <;> linarith
      · rename_i hl
        rw [hu, if_neg hl]; constructor <;> intro g <;> linarith
    have hset2 : {ω | y < Z ω} = Set.Ioo 0 (p * gpdSurvival γ σ y) := by
      ext ω
      simp only [Set.mem_ofPred_eq, Set.mem_Ioo]
      rw [hZ]
      dsimp only
      constructor
      · intro g
        split at g
        · rename_i hω
          refine ⟨hω.1, ?_⟩
          have g1 : y < min (quantR γ σ p ω) (b + 1) := by
            rcases lt_max_iff.mp g with g | g
            · linarith
            · exact g
          have g2 := (lt_min_iff.mp g1).1
          by_contra hc
          push Not at hc
          have : quantR γ σ p ω ≤ y := by
            rw [← quantR_survival (γ := γ) hσ hp hs]
            rcases hc.lt_or_eq with hc | hc
            · exact (quantR_strictAnti hσ hp hpS hc).le
            · rw [hc]
          linarith
        · linarith
      · rintro ⟨h1, h2⟩
        rw [if_pos ⟨h1, by linarith⟩]
        refine lt_max_of_lt_right (lt_min ?_ (by linarith))
        rw [← quantR_survival (γ := γ) hσ hp hs]
        exact quantR_strictAnti hσ hp h1 h2
    rw [hset, hset2, Measure.restrict_apply measurableSet_Ioo, Set.inter_eq_left.mpr, Real.volume_Ioo, sub_zero]
    exact Set.Ioo_subset_Ioo le_rfl (by linarith)

/-- the lower-tail detector of C26 with its anomaly threshold -/
noncomputable def Sample.xrated : Spot XR :=
  ⟨XR.fin (1 / 1000), XR.fin (9 / 10), 1, 1, lit (-1), XR.fin (-4 + -1 * quantR (-1 / 10) 2 (10 / 100) (1 / 1000)), XR.fin (-4), 10, 100,
    ⟨XR.fin (-1 / 10), XR.fin 2, ⟨XR.fin 1, XR.fin 1, XR.fin 1, XR.fin 1, ⟨1, 20, XR.nan, 0, some 1⟩⟩⟩⟩

/-- non-vacuity of the exact theorem -/
example : ∃ Y : ℝ → ℝ, FittedXR Sample.xrated True (-4) (-1 / 10) 2 ∧ Sample.xrated.discard_anomalies ≠ 0 ∧
    spot_quantile XR.exactMath Sample.xrated (XR.fin (1 / 1000)) = .ok Sample.xrated.anomaly_threshold ∧
    (1 / 1000 : ℝ) ≤ Sample.xrated.Nt.toNat / Sample.xrated.n.toNat ∧
    GpdTail (volume.restrict (Set.Ioo 0 1)) Y True (-4) (Sample.xrated.Nt.toNat / Sample.xrated.n.toNat) (-1 / 10) 2 20 ∧
    gpdQuantile (-1 / 10) 2 ((1 / 1000) / (Sample.xrated.Nt.toNat / Sample.xrated.n.toNat)) ≤ 20 := by
  have hN : Sample.xrated.Nt.toNat = 10 := by decide
  have hn : Sample.xrated.n.toNat = 100 := by decide
  have F : FittedXR Sample.xrated True (-4) (-1 / 10) 2 :=
    ⟨Or.inr ⟨rfl, trivial⟩, rfl, rfl, rfl, by norm_num, by decide, by decide⟩
  obtain ⟨X, Y, _, _, hT⟩ := exists_gpdTail True (t := -4) (p := 10 / 100) (γ := -1 / 10) (σ := 2) (b := 20) (by norm_num) (by norm_num)
    (by norm_num) (by norm_num) (by norm_num)
  refine ⟨Y, F, by decide, ?_, ?_, ?_, ?_⟩
  · rw [spot_quantile_exact F (u := -1) (by rw [show Sample.xrated.up_down = lit (-1) from rfl, XR.lit_fin]; norm_num) (by norm_num), hN, hn]
    norm_num [Sample.xrated]
  · rw [hN, hn]; norm_num
  · rw [hN, hn]
    exact_mod_cast hT
  · rw [hN, hn]
    unfold gpdQuantile
    rw [if_neg (by norm_num)]
    have : (0 : ℝ) ≤ ((1 / 1000) / (((10 : ℕ) : ℝ) / ((100 : ℕ) : ℝ))) ^ (-(-1 / 10 : ℝ)) := by positivity
    linarith

theorem Sample.rate {s : Spot F64} (g : toQ s.tail.gamma = -1633523083514915 / 4503599627370496)
    (si : toQ s.tail.sigma = 4517604217735095 / 562949953421312) (hN : s.Nt.toNat = 9) (hn : s.n.toNat = 12) (ht : toQ s.excess_threshold = 3)
    (d : ℝ) (hd : d = gpdQuantile (toR s.tail.gamma) (toR s.tail.sigma) (toR (lit (1 / 100) : F64) / Spec.proportion s)) :
    16 ≤ d ∧ d ≤ 23 ∧ thresholdError ((0 : ℤ) ≠ 0) s (lit (1 / 100)) ≤ 1 / 1000 ∧
      InSupport (toR s.tail.gamma) (toR s.tail.sigma) (d + (thresholdError ((0 : ℤ) ≠ 0) s (lit (1 / 100)) + 1)) := by
  have hq : toQ (lit (1 / 100) : F64) = 5764607523034235 / 576460752303423488 := by decide +kernel
  have hQ : toR (lit (1 / 100) : F64) / Spec.proportion s = 5764607523034235 / 432345564227567616 := by
    unfold Spec.proportion toR
    rw [hq, hN, hn]; norm_num
  have hg : toR s.tail.gamma = -1633523083514915 / 4503599627370496 := by unfold toR; rw [g]; norm_num
  have hs : toR s.tail.sigma = 4517604217735095 / 562949953421312 := by unfold toR; rw [si]; norm_num
  have ht' : toR s.excess_threshold = 3 := by unfold toR; rw [ht]; norm_num
  have hT : thresholdError ((0 : ℤ) ≠ 0) s (lit (1 / 100)) = toR s.tail.sigma * (toR (lit (1 / 100) : F64) / Spec.proportion s) ^ (-toR s.tail.gamma) *
      (2 * (logErr (toR (lit (1 / 100) : F64) / Spec.proportion s) * |Real.log (toR (lit (1 / 100) : F64) / Spec.proportion s)|) +
        (1 + 1 / |toR s.tail.gamma|) / 10 ^ 14) + (|d| + |toR s.excess_threshold + d|) / 10 ^ 15 := by
    unfold thresholdError quantileError spotQuantile
    rw [if_neg (by rw [hg]; norm_num), if_neg (by simp), _root_.one_mul, ← hd]
  rw [hQ] at hd hT
  have l1 := abs_log_le (x := (5764607523034235 / 432345564227567616 : ℝ)) (by norm_num)
  have l2 := (logErr_bounds (5764607523034235 / 432345564227567616 : ℝ))
  rw [hg, hs] at hd hT ⊢
  rw [ht'] at hT
  generalize logErr (5764607523034235 / 432345564227567616 : ℝ) = le at *
  generalize |Real.log (5764607523034235 / 432345564227567616 : ℝ)| = L at *
  have hLn : L ≤ 80 := l1.trans (by norm_num)
  unfold gpdQuantile at hd
  rw [if_neg (by norm_num)] at hd
  have p1 : ((5764607523034235 / 432345564227567616 : ℝ)) ^ (-(-1633523083514915 / 4503599627370496) : ℝ) ≤ 1 / 4 := by
    calc _ ≤ ((5764607523034235 / 432345564227567616 : ℝ)) ^ (1 / 3 : ℝ) :=
          Real.rpow_le_rpow_of_exponent_ge (by norm_num) (by norm_num) (by norm_num)
      _ ≤ ((1 / 4) ^ (3 : ℝ) : ℝ) ^ (1 / 3 : ℝ) := Real.rpow_le_rpow (by norm_num) (by norm_num) (by norm_num)
      _ = 1 / 4 := by rw [← Real.rpow_mul (by norm_num)]; norm_num
  have p2 : 1 / 9 ≤ ((5764607523034235 / 432345564227567616 : ℝ)) ^ (-(-1633523083514915 / 4503599627370496) : ℝ) := by
    calc (1 / 9 : ℝ) = ((1 / 9) ^ (2 : ℝ) : ℝ) ^ (1 / 2 : ℝ) := by rw [← Real.rpow_mul (by norm_num)]; norm_num
      _ ≤ ((5764607523034235 / 432345564227567616 : ℝ)) ^ (1 / 2 : ℝ) := Real.rpow_le_rpow (by norm_num) (by norm_num) (by norm_num)
      _ ≤ _ := Real.rpow_le_rpow_of_exponent_ge (by norm_num) (by norm_num) (by norm_num)
  generalize ((5764607523034235 / 432345564227567616 : ℝ)) ^ (-(-1633523083514915 / 4503599627370496) : ℝ) = p at *
  have d1 : 16 ≤ d := by rw [hd]; linarith
  have d2 : d ≤ 23 := by rw [hd]; linarith
  have hle : le * L ≤ 11 / 10 ^ 10 * 80 := by
    calc le * L ≤ le * 80 := mul_le_mul_of_nonneg_left hLn (by linarith)
      _ ≤ _ := mul_le_mul_of_nonneg_right l2.2 (by norm_num)
  have hE : thresholdError ((0 : ℤ) ≠ 0) s (lit (1 / 100)) ≤ 1 / 1000 := by
    rw [hT, abs_of_pos (show 0 < d by linarith), abs_of_pos (show 0 < 3 + d by linarith)]
    have e1 : 2 * (le * L) + (1 + 1 / |(-1633523083514915 / 4503599627370496 : ℝ)|) / 10 ^ 14 ≤ 1 / 10 ^ 6 := by
      have : |(-1633523083514915 / 4503599627370496 : ℝ)| = 1633523083514915 / 4503599627370496 := by rw [abs_of_neg] <;> norm_num
      rw [this]
      norm_num at hle ⊢
      linarith
    have e2 : 4517604217735095 / 562949953421312 * p * (2 * (le * L) + (1 + 1 / |(-1633523083514915 / 4503599627370496 : ℝ)|) / 10 ^ 14) ≤
        4517604217735095 / 562949953421312 * p * (1 / 10 ^ 6) := mul_le_mul_of_nonneg_left e1 (by linarith)
    refine (add_le_add_left e2 _).trans ?_
    norm_num
    linarith
  refine ⟨d1, d2, hE, ?_⟩
  unfold InSupport
  have : (1 : ℝ) + -1633523083514915 / 4503599627370496 * (d + (thresholdError ((0 : ℤ) ≠ 0) s (lit (1 / 100)) + 1)) /
      (4517604217735095 / 562949953421312) = p + -1633523083514915 / 4503599627370496 *
        (thresholdError ((0 : ℤ) ≠ 0) s (lit (1 / 100)) + 1) / (4517604217735095 / 562949953421312) := by
    rw [hd]; ring
  rw [this]
  linarith

/-- non-vacuity in binary64: the detector fitted on twelve numbers; observations that follow its model up to the distance 30 and are read as
integers; the error of the threshold is negligible -/
example : ∃ s h, runOps (codeMath muslFU) Sample.init.2.2 Sample.init.2.1 [.fit Sample.data12 12] = .ok ([.code 0], s, h) ∧
    FittedF64 s ((0 : ℤ) ≠ 0) ∧ Calibrated ((0 : ℤ) ≠ 0) s (lit (1 / 100)) ∧
    ∃ (X : ℝ → F64) (Y : ℝ → ℝ) (d η : ℝ), d = gpdQuantile (toR s.tail.gamma) (toR s.tail.sigma) (toR (lit (1 / 100) : F64) / Spec.proportion s) ∧
      η = thresholdError ((0 : ℤ) ≠ 0) s (lit (1 / 100)) + 1 ∧ (∀ ω, isFin (X ω)) ∧ (∀ ω, |toR (X ω) - Y ω| ≤ 1) ∧
      GpdTail (volume.restrict (Set.Ioo 0 1)) Y ((0 : ℤ) ≠ 0) (toR s.excess_threshold) (Spec.proportion s) (toR s.tail.gamma)
        (toR s.tail.sigma) 30 ∧ η ≤ d ∧ d + η ≤ 30 ∧ InSupport (toR s.tail.gamma) (toR s.tail.sigma) (d + η) := by
  have hd : (match runOps (codeMath muslFU) Sample.init.2.2 Sample.init.2.1 [.fit Sample.data12 12] with
    | .ok r => decide (r.1 = [.code 0]) && Sample.fittedB r.2.1 && Sample.tameB r.2.1 (lit (1 / 100)) &&
      decide (toQ r.2.1.tail.gamma = -1633523083514915 / 4503599627370496) &&
      decide (toQ r.2.1.tail.sigma = 4517604217735095 / 562949953421312) && decide (r.2.1.Nt.toNat = 9 ∧ r.2.1.n.toNat = 12) &&
      decide (toQ r.2.1.excess_threshold = 3) && decide (isFin r.2.1.tail.gamma ∧ isFin r.2.1.tail.sigma) &&
      decide (spot_quantile (codeMath muslFU) r.2.1 (lit (1 / 100)) = .ok r.2.1.anomaly_threshold)
    | .error _ => false) = true := by decide +kernel
  cases hr : runOps (codeMath muslFU) Sample.init.2.2 Sample.init.2.1 [.fit Sample.data12 12] with
  | error e => rw [hr] at hd; cases hd
  | ok r =>
    rw [hr] at hd
    simp only [Bool.and_eq_true, decide_eq_true_iff] at hd
    obtain ⟨⟨⟨⟨⟨⟨⟨⟨h1, h2⟩, h3⟩, g⟩, si⟩, hN⟩, ht⟩, hf⟩, hz⟩ := hd
    have q0 : toQ (lit (1 / 100) : F64) = 5764607523034235 / 576460752303423488 := by decide +kernel
    obtain ⟨r1, r2, r3, r4⟩ := Sample.rate g si hN.1 hN.2 ht _ rfl
    have M : Moderate r.2.1.tail.gamma r.2.1.tail.sigma := by
      refine ⟨⟨hf.1, by rw [g]; decide +kernel⟩, .inr (by rw [g]; decide +kernel), hf.2, by rw [si]; decide +kernel, by rw [si]; decide +kernel⟩
    have hP : Spec.proportion r.2.1 = 3 / 4 := by unfold Spec.proportion; rw [hN.1, hN.2]; norm_num
    obtain ⟨X, Y, x1, x2, x3⟩ := exists_gpdTail ((0 : ℤ) ≠ 0) (t := toR r.2.1.excess_threshold) (p := Spec.proportion r.2.1)
      (γ := toR r.2.1.tail.gamma) (σ := toR r.2.1.tail.sigma) (b := 30) (by unfold toR; rw [si]; norm_num) (by rw [hP]; norm_num)
      (by rw [hP]; norm_num) (by norm_num) (by unfold toR; rw [ht]; norm_num)
    refine ⟨r.2.1, r.2.2, by rw [← h1], Sample.fitted_of h2, ?_, X, Y, _, _, rfl, rfl, x1, x2, x3, by linarith, by linarith, r4⟩
    exact calibrated_of (Sample.fitted_of h2) M (by decide +kernel) (by unfold toR; rw [q0]; norm_num) (by unfold toR; rw [q0]; norm_num)
      (Sample.tame_of h3) hz

end Verif

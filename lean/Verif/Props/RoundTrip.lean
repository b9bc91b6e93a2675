/-
C105, C106: `spot_probability(spot_quantile(q))` and `spot_quantile(spot_probability(z))` in binary64.
-/
import Verif.Props.Rate

namespace Verif
open F64 Spec

/-! ### C105 -/

/-- exp is close to 1 near 0 -/
theorem exp_near {x : ℝ} (h : |x| ≤ 1) : |Real.exp x - 1| ≤ 2 * |x| := Real.abs_exp_sub_one_le h

/-- log is close to 0 near 1 -/
theorem log_near {x : ℝ} (h : |x| ≤ 1 / 1000) : |Real.log (1 + x)| ≤ 11 / 10 * |x| := by
  obtain ⟨h1, h2⟩ := abs_le.mp h
  have h3 := Real.log_le_sub_one_of_pos (x := 1 + x) (by linarith)
  have h4 := Real.log_le_sub_one_of_pos (x := (1 + x)⁻¹) (by rw [inv_pos]; linarith)
  rw [Real.log_inv] at h4
  have h5 : (1 + x)⁻¹ - 1 = -x * (1 + x)⁻¹ := by
    have : (1 + x) ≠ 0 := by linarith
    field_simp; ring
  have h6 : (1 + x)⁻¹ ≤ 11 / 10 := by
    rw [inv_le_comm₀ (by linarith) (by norm_num)]; linarith
  have h7 : 0 < (1 + x)⁻¹ := by rw [inv_pos]; linarith
  rw [abs_le]
  rcases abs_cases x with ⟨e, hx⟩ | ⟨e, hx⟩
  · rw [e]; constructor <;> nlinarith
  · rw [e]; constructor <;> nlinarith

theorem exp_bound (x : ℝ) : |Real.exp x - 1| ≤ |x| * Real.exp |x| := by
  have h1 := Real.add_one_le_exp x
  have h2 := Real.add_one_le_exp (-x)
  rcases abs_cases x with ⟨e, hx⟩ | ⟨e, hx⟩
  · rw [e, abs_of_nonneg (by linarith)]
    have h3 : Real.exp x * Real.exp (-x) = 1 := by rw [← Real.exp_add]; simp
    nlinarith [Real.exp_pos x]
  · rw [e]
    have h4 : Real.exp x ≤ 1 := by rw [Real.exp_le_one_iff]; exact hx.le
    have h5 : 1 ≤ Real.exp (-x) := by rw [Real.one_le_exp_iff]; linarith
    rw [abs_of_nonpos (by linarith)]
    nlinarith

theorem exp5 : Real.exp 5 ≤ 149 ∧ 1 / 149 ≤ Real.exp (-5) := by
  have h : Real.exp 5 ≤ 149 := by
    have h1 : Real.exp 5 = Real.exp 1 ^ 5 := by rw [← Real.exp_nat_mul]; norm_num
    rw [h1]
    exact (pow_le_pow_left₀ (Real.exp_pos _).le Real.exp_one_lt_d9.le 5).trans (by norm_num)
  refine ⟨h, ?_⟩
  rw [Real.exp_neg, one_div]
  exact inv_anti₀ (Real.exp_pos _) h

/-- combination of two relative errors -/
theorem rel_comb {p w q a b : ℝ} (hq : 0 < q) (h1 : |p - q * w| ≤ q * w * a) (h2 : |w - 1| ≤ b) (ha : 0 ≤ a) (hb : b ≤ 1 / 10) :
    |p - q| ≤ q * (11 / 10 * a + b) := by
  have h3 := abs_le.mp h2
  have h4 : q * w * a ≤ q * (11 / 10 * a) := by
    have : w ≤ 11 / 10 := by linarith
    nlinarith [mul_nonneg hq.le ha]
  have h5 : |q * w - q| ≤ q * b := by
    rw [show q * w - q = q * (w - 1) by ring, abs_mul, abs_of_pos hq]
    exact mul_le_mul_of_nonneg_left h2 hq.le
  have := abs_add_le (p - q * w) (q * w - q)
  rw [show p - q * w + (q * w - q) = p - q by ring] at this
  linarith

/-- the error of the quantile (C89) in units of `sigma (q/P)^-gamma` -/
theorem quant_err {γ σ Q S T le : ℝ} (h0 : γ ≠ 0) (σ0 : 0 < σ) (Q0 : 0 < Q) (g0 : 1 / 2 ^ 20 ≤ |γ|)
    (hL : |Real.log Q| ≤ 20) (hpow : |γ * Real.log Q| ≤ 5) (hl : le ≤ 220 / 10 ^ 10)
    (hsp : |S| ≤ T + |gpdQuantile γ σ Q|) (ht1 : T ≤ 10 ^ 6 * σ) :
    σ * Q ^ (-γ) * (2 * le + (1 + 1 / |γ|) / 10 ^ 14) + (|gpdQuantile γ σ Q| + |S|) / 10 ^ 15 ≤ σ * Q ^ (-γ) * (21 / 10 ^ 8) := by
  have γ0 : 0 < |γ| := abs_pos.mpr h0
  obtain ⟨x5, y5⟩ := exp5
  obtain ⟨a, ha⟩ : ∃ a, a = -γ * Real.log Q := ⟨_, rfl⟩
  have ha5 : |a| ≤ 5 := by rw [ha, show -γ * Real.log Q = -(γ * Real.log Q) by ring, abs_neg]; exact hpow
  have hw : Q ^ (-γ) = Real.exp a := by rw [Real.rpow_def_of_pos Q0, ha]; congr 1; ring
  obtain ⟨w, hw'⟩ : ∃ w, w = Real.exp a := ⟨_, rfl⟩
  have w0 : 1 / 149 ≤ w := by
    rw [hw']; exact y5.trans (Real.exp_le_exp.mpr (abs_le.mp ha5).1)
  have wp : 0 < w := by linarith
  have hd : gpdQuantile γ σ Q = σ / γ * (w - 1) := by unfold gpdQuantile; rw [if_neg h0, hw, hw']
  have hda : |gpdQuantile γ σ Q| ≤ σ * 2980 := by
    rw [hd, abs_mul, abs_div, abs_of_pos σ0, hw']
    have e1 : |Real.exp a - 1| ≤ |a| * 149 :=
      (exp_bound a).trans (mul_le_mul_of_nonneg_left ((Real.exp_le_exp.mpr ha5).trans x5) (abs_nonneg _))
    have e2 : |a| = |γ| * |Real.log Q| := by rw [ha, abs_mul, abs_neg]
    calc σ / |γ| * |Real.exp a - 1| ≤ σ / |γ| * (|a| * 149) := mul_le_mul_of_nonneg_left e1 (by positivity)
      _ = σ * (|Real.log Q| * 149) := by rw [e2]; field_simp
      _ ≤ σ * 2980 := mul_le_mul_of_nonneg_left (by linarith) σ0.le
  rw [hw, ← hw']
  have e0 : 1 / |γ| ≤ 2 ^ 20 := by rw [div_le_comm₀ γ0 (by norm_num)]; exact g0
  have e1 : σ * w * (2 * le + (1 + 1 / |γ|) / 10 ^ 14) ≤
      σ * w * (2 * (220 / 10 ^ 10) + (1 + 2 ^ 20) / 10 ^ 14) := mul_le_mul_of_nonneg_left (by linarith) (by positivity)
  refine (add_le_add_left e1 _).trans ?_
  have e2 : σ ≤ 149 * (σ * w) := by nlinarith
  have e3 : |gpdQuantile γ σ Q| + |S| ≤ (2 * 2980 + 10 ^ 6) * (149 * (σ * w)) := by
    have : |gpdQuantile γ σ Q| + |S| ≤ (2 * 2980 + 10 ^ 6) * σ := by linarith
    exact this.trans (mul_le_mul_of_nonneg_left e2 (by norm_num))
  have e4 := div_le_div_of_nonneg_right e3 (show (0 : ℝ) ≤ 10 ^ 15 by norm_num)
  have e5 : 0 < σ * w := by positivity
  refine (add_le_add_right e4 _).trans ?_
  rw [show (2 * 2980 + 10 ^ 6) * (149 * (σ * w)) / 10 ^ 15 = σ * w * ((2 * 2980 + 10 ^ 6) * 149 / 10 ^ 15) by ring, ← mul_add]
  exact mul_le_mul_of_nonneg_left (by norm_num) e5.le

/-- the quantile with an error is the quantile of a probability with a small relative error -/
theorem round_rel {γ σ Q D : ℝ} (σ0 : 0 < σ) (Q0 : 0 < Q) (hγ1 : |γ| ≤ 10) (hpow : |γ * Real.log Q| ≤ 5)
    (hE : |D - gpdQuantile γ σ Q| ≤ σ * Q ^ (-γ) * (21 / 10 ^ 8)) :
    1 / 150 ≤ 1 + γ * D / σ ∧ 1 + γ * D / σ ≤ 150 ∧
      ∃ δ, |δ| ≤ 232 / 10 ^ 9 ∧ gpdSurvival γ σ D = Q * Real.exp (-δ) := by
  by_cases h0 : γ = 0
  · have hd : gpdQuantile γ σ Q = σ * (-Real.log Q) := by unfold gpdQuantile; rw [if_pos h0]; ring
    rw [hd, h0, _root_.neg_zero, Real.rpow_zero, _root_.mul_one] at hE
    rw [h0]
    refine ⟨by norm_num, by norm_num, (D - σ * (-Real.log Q)) / σ, ?_, ?_⟩
    · rw [abs_div, abs_of_pos σ0, div_le_iff₀ σ0]
      refine hE.trans ?_
      rw [_root_.mul_comm]
      exact mul_le_mul_of_nonneg_right (by norm_num) σ0.le
    · unfold gpdSurvival
      rw [if_pos rfl, show -D / σ = Real.log Q + -((D - σ * (-Real.log Q)) / σ) by field_simp; ring, Real.exp_add, Real.exp_log Q0]
  have γ0 : 0 < |γ| := abs_pos.mpr h0
  obtain ⟨x5, y5⟩ := exp5
  obtain ⟨a, ha⟩ : ∃ a, a = -γ * Real.log Q := ⟨_, rfl⟩
  have ha5 : |a| ≤ 5 := by rw [ha, show -γ * Real.log Q = -(γ * Real.log Q) by ring, abs_neg]; exact hpow
  have hw : Q ^ (-γ) = Real.exp a := by rw [Real.rpow_def_of_pos Q0, ha]; congr 1; ring
  obtain ⟨w, hw'⟩ : ∃ w, w = Real.exp a := ⟨_, rfl⟩
  have w0 : 1 / 149 ≤ w := by
    rw [hw']; exact y5.trans (Real.exp_le_exp.mpr (abs_le.mp ha5).1)
  have w1 : w ≤ 149 := by
    rw [hw']; exact (Real.exp_le_exp.mpr (abs_le.mp ha5).2).trans x5
  have wp : 0 < w := by linarith
  have hd : gpdQuantile γ σ Q = σ / γ * (w - 1) := by unfold gpdQuantile; rw [if_neg h0, hw, hw']
  rw [hw, ← hw'] at hE
  obtain ⟨e, he⟩ : ∃ e, e = (D - gpdQuantile γ σ Q) / (σ * w) := ⟨_, rfl⟩
  have he1 : |e| ≤ 21 / 10 ^ 8 := by
    rw [he, abs_div, abs_of_pos (show 0 < σ * w by positivity), div_le_iff₀ (by positivity)]; exact hE.trans (by linarith)
  have hge : |γ * e| ≤ 21 / 10 ^ 7 := by
    rw [abs_mul]
    calc |γ| * |e| ≤ 10 * (21 / 10 ^ 8) := mul_le_mul hγ1 he1 (abs_nonneg _) (by norm_num)
      _ = _ := by norm_num
  obtain ⟨hg1, hg2⟩ := abs_le.mp hge
  have g10 : 0 < 1 + γ * e := by norm_num at hg1; linarith
  have hv : 1 + γ * D / σ = w * (1 + γ * e) := by
    have : D = gpdQuantile γ σ Q + e * (σ * w) := by rw [he]; field_simp; ring
    rw [this, hd]
    field_simp
    ring
  obtain ⟨v, hv'⟩ : ∃ v, v = 1 + γ * D / σ := ⟨_, rfl⟩
  have v1 : 1 / 150 ≤ v := by rw [hv', hv]; norm_num at hg1; nlinarith
  have v2 : v ≤ 150 := by rw [hv', hv]; norm_num at hg2; nlinarith
  have vp : 0 < v := by linarith
  have hlog : Real.log v = a + Real.log (1 + γ * e) := by
    rw [hv', hv, Real.log_mul wp.ne' g10.ne', hw', Real.log_exp]
  have hl2 := log_near (hge.trans (by norm_num))
  obtain ⟨δ, hδ⟩ : ∃ δ, δ = Real.log (1 + γ * e) / γ := ⟨_, rfl⟩
  have hδ1 : |δ| ≤ 232 / 10 ^ 9 := by
    rw [hδ, abs_div, div_le_iff₀ γ0]
    refine hl2.trans ?_
    rw [abs_mul]
    have : |γ| * |e| ≤ |γ| * (21 / 10 ^ 8) := mul_le_mul_of_nonneg_left he1 γ0.le
    norm_num at this ⊢
    linarith
  have hlg : Real.log v / γ = -Real.log Q + δ := by rw [hlog, hδ, ha]; field_simp
  rw [← hv']
  refine ⟨v1, v2, δ, hδ1, ?_⟩
  unfold gpdSurvival
  rw [if_neg h0, ← hv', Real.rpow_def_of_pos vp, show Real.log v * (-1 / γ) = -(Real.log v / γ) by ring, hlg, neg_add,
    _root_.neg_neg, Real.exp_add, Real.exp_log Q0]

theorem round_err {γ L v x le : ℝ} (γ0 : 0 < |γ|) (g0 : 1 / 2 ^ 20 ≤ |γ|) (v1 : 1 / 150 ≤ v) (hx : x = v - 1) (k3 : 0 ≤ le)
    (k4 : le ≤ 11 / 10 ^ 10) (hlg' : |L / γ| ≤ 21) :
    0 ≤ (2 * (le * |L|) + 3 / 10 ^ 15 + 1 / 10 ^ 15 * ((1 + |x|) / v)) / |γ| + 6 / 10 ^ 15 ∧
    (2 * (le * |L|) + 3 / 10 ^ 15 + 1 / 10 ^ 15 * ((1 + |x|) / v)) / |γ| + 6 / 10 ^ 15 ≤ 38 / 10 ^ 8 := by
  have vp : 0 < v := by linarith
  have b1 : le * |L| ≤ 11 / 10 ^ 10 * (21 * |γ|) := by
    refine mul_le_mul k4 ?_ (abs_nonneg _) (by norm_num)
    rw [abs_div, div_le_iff₀ γ0] at hlg'
    exact hlg'
  have b2 : (1 + |x|) / v ≤ 302 := by
    rw [div_le_iff₀ vp, hx]
    have : |v - 1| ≤ v + 1 := by rw [abs_le]; constructor <;> linarith
    linarith
  refine ⟨by positivity, ?_⟩
  have : 2 * (le * |L|) + 3 / 10 ^ 15 + 1 / 10 ^ 15 * ((1 + |x|) / v) ≤ 37 / 10 ^ 8 * |γ| := by
    norm_num at b1 b2 g0 ⊢
    linarith
  have := (div_le_iff₀ γ0).mpr this
  norm_num at this ⊢
  linarith

/-- `spot_quantile` and the quantile of the model -/
theorem quantile_close (s : Spot F64) (low : Prop) [Decidable low] (F : FittedF64 s low) (q : F64) (hq : isFin q)
    (q0 : 1 / 10 ^ 100 ≤ toR q) (q1 : toR q ≤ 1) (P Q γ σ t : ℝ) (hP : P = (s.Nt.toNat : ℝ) / s.n.toNat) (hQ : Q = toR q / P)
    (hγ : γ = toR s.tail.gamma) (hσ : σ = toR s.tail.sigma) (ht : t = toR s.excess_threshold)
    (hσ0 : 1 / 10 ^ 100 ≤ σ) (hσ1 : σ ≤ 10 ^ 100) (ht1 : |t| ≤ 10 ^ 6 * σ) (hγ0 : γ = 0 ∨ 1 / 2 ^ 20 ≤ |γ|)
    (hL : |Real.log Q| ≤ 20) (hpow : |γ * Real.log Q| ≤ 5) :
    Spec.Ordinary s ∧ 0 < P ∧ P ≤ 1 ∧ ∃ z, spot_quantile (codeMath muslFU) s q = .ok z ∧ isFin z ∧
      |(if low then -1 else 1) * (toR z - t) - gpdQuantile γ σ Q| ≤ σ * Q ^ (-γ) * (21 / 10 ^ 8) := by
  have σ0 : 0 < σ := lt_of_lt_of_le (by norm_num) hσ0
  have P0 : 0 < P := by
    rw [hP]; exact div_pos (by exact_mod_cast F.Nt) (by exact_mod_cast F.Nt.trans_le F.le)
  have P1 : P ≤ 1 := by
    rw [hP, div_le_one (by exact_mod_cast F.Nt.trans_le F.le)]; exact_mod_cast F.le
  have q0' : 0 < toR q := lt_of_lt_of_le (by norm_num) q0
  have Q0 : 0 < Q := by rw [hQ]; exact div_pos q0' P0
  have O : Spec.Ordinary s := by
    refine ⟨?_, ⟨hσ ▸ hσ0, hσ ▸ hσ1⟩, ?_⟩
    · rw [← ht]
      have : (10 : ℝ) ^ 6 * σ ≤ 10 ^ 6 * 10 ^ 100 := mul_le_mul_of_nonneg_left hσ1 (by norm_num)
      exact ht1.trans (this.trans (by norm_num))
    · rw [← hγ]
      exact hγ0.imp id (fun h => le_trans (by norm_num) h)
  refine ⟨O, P0, P1, ?_⟩
  obtain ⟨z, z1, z2, z3, z4⟩ := C89_partial s low F O q hq q0 q1 P Q γ σ t hP hQ hγ hσ ht (hpow.trans (by norm_num))
  obtain ⟨k1, k2⟩ := logErr_bounds Q
  have hl : Spec.logErr Q * |Real.log Q| ≤ 220 / 10 ^ 10 := by
    calc _ ≤ 11 / 10 ^ 10 * 20 := mul_le_mul k2 hL (abs_nonneg _) (by norm_num)
      _ ≤ _ := by norm_num
  have hsp : |Spec.spotQuantile low t γ σ P (toR q)| ≤ |t| + |gpdQuantile γ σ Q| := by
    unfold Spec.spotQuantile
    rw [← hQ]
    refine (abs_add_le _ _).trans ?_
    rw [abs_mul]
    split_ifs <;> simp
  refine ⟨z, z1, z2, ?_⟩
  -- the distance to the threshold
  have hDd : ∀ (E : ℝ), |toR z - Spec.spotQuantile low t γ σ P (toR q)| ≤ E →
      |(if low then -1 else 1) * (toR z - t) - gpdQuantile γ σ Q| ≤ E := by
    intro E hE
    unfold Spec.spotQuantile at hE
    rw [← hQ] at hE
    split_ifs at hE ⊢ with hlow
    · rw [show (-1 : ℝ) * (toR z - t) - gpdQuantile γ σ Q = -(toR z - (t + -1 * gpdQuantile γ σ Q)) by ring, abs_neg]; exact hE
    · rw [show (1 : ℝ) * (toR z - t) - gpdQuantile γ σ Q = toR z - (t + 1 * gpdQuantile γ σ Q) by ring]; exact hE
  by_cases h0 : γ = 0
  · refine hDd _ ((z3 h0).trans ?_)
    have hda : |gpdQuantile γ σ Q| ≤ σ * 20 := by
      rw [show gpdQuantile γ σ Q = σ * (-Real.log Q) by unfold gpdQuantile; rw [if_pos h0]; ring, abs_mul, abs_of_pos σ0, abs_neg]
      exact mul_le_mul_of_nonneg_left hL σ0.le
    have e1 : σ * (2 * (Spec.logErr Q * |Real.log Q|) + 1 / 10 ^ 14) ≤ σ * (2 * (220 / 10 ^ 10) + 1 / 10 ^ 14) :=
      mul_le_mul_of_nonneg_left (by linarith) σ0.le
    refine (add_le_add_left e1 _).trans ?_
    rw [h0, _root_.neg_zero, Real.rpow_zero, _root_.mul_one, ← h0]
    norm_num at hda hsp ht1 ⊢
    linarith
  · exact hDd _ ((z4 h0).trans (quant_err h0 σ0 Q0 (hγ0.resolve_left h0) hL hpow hl hsp ht1))

/-- `spot_probability` and the probability of the model -/
theorem probability_close (s : Spot F64) (low : Prop) [Decidable low] (F : FittedF64 s low) (O : Spec.Ordinary s) (z : F64) (hz : isFin z)
    (P D γ σ t : ℝ) (hP : P = (s.Nt.toNat : ℝ) / s.n.toNat) (hγ : γ = toR s.tail.gamma) (hσ : σ = toR s.tail.sigma)
    (ht : t = toR s.excess_threshold) (hD : D = (if low then -1 else 1) * (toR z - t)) (hγ0 : γ = 0 ∨ 1 / 2 ^ 20 ≤ |γ|)
    (v1 : 1 / 150 ≤ 1 + γ * D / σ) (v2 : 1 + γ * D / σ ≤ 150) (hS : |Real.log (gpdSurvival γ σ D)| ≤ 21) :
    0 < gpdSurvival γ σ D ∧ ∃ p, spot_probability (codeMath muslFU) s z = .ok p ∧ isFin p ∧
      ∃ a, 0 ≤ a ∧ a ≤ 38 / 10 ^ 8 ∧ |toR p - P * gpdSurvival γ σ D| ≤ P * gpdSurvival γ σ D * a := by
  obtain ⟨c1, c2⟩ := C90_partial s low F O z hz P D γ σ t hP hγ hσ ht hD
  have hpr : Spec.spotProbability low t γ σ P (toR z) = P * gpdSurvival γ σ D := by
    unfold Spec.spotProbability; rw [← hD]
  rw [hpr] at c1 c2
  by_cases h0 : γ = 0
  · have hg : gpdSurvival γ σ D = Real.exp (-(D / σ)) := by unfold gpdSurvival; rw [if_pos h0, neg_div]
    have hD' : |D / σ| ≤ 21 := by rw [hg, Real.log_exp, abs_neg] at hS; exact hS
    obtain ⟨p, p1, p2, p3⟩ := c1 h0 (hD'.trans (by norm_num))
    refine ⟨by rw [hg]; exact Real.exp_pos _, p, p1, p2, _, by positivity, ?_, p3⟩
    norm_num
    linarith
  · have g0 := hγ0.resolve_left h0
    have γ0 : 0 < |γ| := abs_pos.mpr h0
    obtain ⟨v, hv'⟩ : ∃ v, v = 1 + γ * D / σ := ⟨_, rfl⟩
    rw [← hv'] at v1 v2
    have vp : 0 < v := by linarith
    have hg : gpdSurvival γ σ D = Real.exp (-(Real.log v / γ)) := by
      unfold gpdSurvival
      rw [if_neg h0, ← hv', Real.rpow_def_of_pos vp, show Real.log v * (-1 / γ) = -(Real.log v / γ) by ring]
    have hlg' : |Real.log v / γ| ≤ 21 := by rw [hg, Real.log_exp, abs_neg] at hS; exact hS
    obtain ⟨p, p1, p2, p3⟩ := c2 v hv' g0 (le_trans (by norm_num) v1) (v2.trans (by norm_num)) (hlg'.trans (by norm_num))
    obtain ⟨k3, k4⟩ := logErr_bounds v
    obtain ⟨b4, b3⟩ := round_err (x := γ * D / σ) γ0 g0 v1 (by rw [hv']; ring) (le_trans (by norm_num) k3) k4 hlg'
    exact ⟨by rw [hg]; exact Real.exp_pos _, p, p1, p2, _, b4, b3, p3⟩

/-- In binary64: on a fitted detector, for a shape that is 0 or between 2^-20 and 10 in magnitude, a threshold of at most a million scales,
and `q` between `e^-20 Nt/n` and `e^20 Nt/n` (and at most 1) with `|gamma log(q n/Nt)| ≤ 5`, the probability of the quantile of `q` is `q`
with a relative error of at most a millionth. Missing (false, see `C105_false`): shapes closer to 0. -/
theorem C105_partial (s : Spot F64) (low : Prop) [Decidable low] (F : FittedF64 s low) (q : F64) (hq : isFin q)
    (q0 : 1 / 10 ^ 100 ≤ toR q) (q1 : toR q ≤ 1) (P Q γ σ t : ℝ) (hP : P = (s.Nt.toNat : ℝ) / s.n.toNat) (hQ : Q = toR q / P)
    (hγ : γ = toR s.tail.gamma) (hσ : σ = toR s.tail.sigma) (ht : t = toR s.excess_threshold)
    (hσ0 : 1 / 10 ^ 100 ≤ σ) (hσ1 : σ ≤ 10 ^ 100) (ht1 : |t| ≤ 10 ^ 6 * σ) (hγ0 : γ = 0 ∨ 1 / 2 ^ 20 ≤ |γ|) (hγ1 : |γ| ≤ 10)
    (hL : |Real.log Q| ≤ 20) (hpow : |γ * Real.log Q| ≤ 5) :
    ∃ z p, spot_quantile (codeMath muslFU) s q = .ok z ∧ isFin z ∧ spot_probability (codeMath muslFU) s z = .ok p ∧ isFin p ∧
      |toR p - toR q| ≤ toR q / 10 ^ 6 := by
  obtain ⟨O, P0, P1, z, z1, z2, z3⟩ := quantile_close s low F q hq q0 q1 P Q γ σ t hP hQ hγ hσ ht hσ0 hσ1 ht1 hγ0 hL hpow
  have σ0 : 0 < σ := lt_of_lt_of_le (by norm_num) hσ0
  have q0' : 0 < toR q := lt_of_lt_of_le (by norm_num) q0
  have Q0 : 0 < Q := by rw [hQ]; exact div_pos q0' P0
  have hqP : toR q = P * Q := by rw [hQ]; field_simp
  obtain ⟨v1, v2, δ, hδ1, hS⟩ := round_rel σ0 Q0 hγ1 hpow z3
  obtain ⟨S0, p, p1, p2, a, a0, a1, p3⟩ := probability_close s low F O z z2 P _ γ σ t hP hγ hσ ht rfl hγ0 v1 v2 (by
    rw [hS, Real.log_mul Q0.ne' (Real.exp_pos _).ne', Real.log_exp]
    refine (abs_add_le _ _).trans ?_
    rw [abs_neg]
    norm_num at hδ1
    linarith)
  refine ⟨z, p, z1, z2, p1, p2, ?_⟩
  rw [hS, ← _root_.mul_assoc, ← hqP] at p3
  have h2 := exp_near (x := -δ) (by rw [abs_neg]; exact hδ1.trans (by norm_num))
  rw [abs_neg] at h2
  have h3 := rel_comb (b := 464 / 10 ^ 9) q0' p3 (h2.trans (by norm_num at hδ1 ⊢; linarith)) a0 (by norm_num)
  refine h3.trans ?_
  rw [div_eq_mul_one_div]
  refine mul_le_mul_of_nonneg_left ?_ q0'.le
  norm_num at a1 ⊢
  linarith

/-- non-vacuity: the detector fitted on twelve numbers and the level 1/100 -/
example : ∃ s h, runOps (codeMath muslFU) Sample.init.2.2 Sample.init.2.1 [.fit Sample.data12 12] = .ok ([.code 0], s, h) ∧
    ∃ z p, spot_quantile (codeMath muslFU) s (lit (1 / 100)) = .ok z ∧ isFin z ∧ spot_probability (codeMath muslFU) s z = .ok p ∧ isFin p ∧
      |toR p - toR (lit (1 / 100) : F64)| ≤ toR (lit (1 / 100) : F64) / 10 ^ 6 := by
  have hd : (match runOps (codeMath muslFU) Sample.init.2.2 Sample.init.2.1 [.fit Sample.data12 12] with
    | .ok r => decide (r.1 = [.code 0]) && Sample.fittedB r.2.1 &&
      decide (toQ r.2.1.tail.gamma = -1633523083514915 / 4503599627370496) &&
      decide (toQ r.2.1.tail.sigma = 4517604217735095 / 562949953421312) && decide (r.2.1.Nt.toNat = 9 ∧ r.2.1.n.toNat = 12) &&
      decide (toQ r.2.1.excess_threshold = 3)
    | .error _ => false) = true := by decide +kernel
  cases hr : runOps (codeMath muslFU) Sample.init.2.2 Sample.init.2.1 [.fit Sample.data12 12] with
  | error e => rw [hr] at hd; cases hd
  | ok r =>
    rw [hr] at hd
    simp only [Bool.and_eq_true, decide_eq_true_iff] at hd
    obtain ⟨⟨⟨⟨⟨h1, h2⟩, g⟩, si⟩, hN⟩, ht⟩ := hd
    have q0 : toQ (lit (1 / 100) : F64) = 5764607523034235 / 576460752303423488 := by decide +kernel
    have hq0 : toR (lit (1 / 100) : F64) = 5764607523034235 / 576460752303423488 := by unfold toR; rw [q0]; norm_num
    have hQ : toR (lit (1 / 100) : F64) / ((r.2.1.Nt.toNat : ℝ) / r.2.1.n.toNat) = 5764607523034235 / 432345564227567616 := by
      rw [hq0, hN.1, hN.2]; norm_num
    have hg : toR r.2.1.tail.gamma = -1633523083514915 / 4503599627370496 := by unfold toR; rw [g]; norm_num
    have hs : toR r.2.1.tail.sigma = 4517604217735095 / 562949953421312 := by unfold toR; rw [si]; norm_num
    have ht' : toR r.2.1.excess_threshold = 3 := by unfold toR; rw [ht]; norm_num
    have l1 : -13 ≤ Real.log (5764607523034235 / 432345564227567616 : ℝ) := by
      rw [Real.le_log_iff_exp_le (by norm_num), Real.exp_neg]
      have : (2 : ℝ) ^ 13 ≤ Real.exp 13 := by
        rw [show (13 : ℝ) = (13 : ℕ) * 1 by norm_num, Real.exp_nat_mul]
        refine pow_le_pow_left₀ (by norm_num) ?_ 13
        have := Real.exp_one_gt_d9
        linarith
      exact (inv_anti₀ (by norm_num) this).trans (by norm_num)
    have l2 : Real.log (5764607523034235 / 432345564227567616 : ℝ) ≤ 0 := Real.log_nonpos (by norm_num) (by norm_num)
    refine ⟨r.2.1, r.2.2, by rw [← h1], ?_⟩
    refine C105_partial r.2.1 ((0 : ℤ) ≠ 0) (Sample.fitted_of h2) _ (by decide +kernel) (by rw [hq0]; norm_num) (by rw [hq0]; norm_num) _ _ _ _ _ rfl rfl rfl rfl rfl
      (by rw [hs]; norm_num) (by rw [hs]; norm_num) (by rw [hs, ht']; norm_num) (.inr (by rw [hg]; norm_num [abs_of_neg]))
      (by rw [hg]; norm_num [abs_of_neg]) (by rw [hQ, abs_le]; constructor <;> linarith) ?_
    rw [hQ, hg, abs_le]
    constructor <;> linarith

/-- C105 does not hold for all fitted detectors: after a fit of six observations the quantile of 1/4 is the excess threshold, and its
probability is 1/2, i.e. the proportion of excesses. -/
theorem C105_false : ∃ s h, runOps (codeMath muslFU) Sample.quarter.2.2 Sample.quarter.2.1 [.fit Sample.flatData 6] = .ok ([.code 0], s, h) ∧
    FittedF64 s ((0 : ℤ) ≠ 0) ∧ toR s.excess_threshold = 0 ∧ toR s.tail.gamma = -1 / 2 ^ 53 ∧ 5 < toR s.tail.sigma ∧ toR s.tail.sigma < 6 ∧
    (s.Nt.toNat : ℝ) / s.n.toNat = 1 / 2 ∧ ∃ q z p : F64, toR q = 1 / 4 ∧ toR p = 1 / 2 ∧
    spot_quantile (codeMath muslFU) s q = .ok z ∧ spot_probability (codeMath muslFU) s z = .ok p := by
  have hd : (match runOps (codeMath muslFU) Sample.quarter.2.2 Sample.quarter.2.1 [.fit Sample.flatData 6] with
    | .ok r => decide (r.1 = [.code 0]) && Sample.fittedB r.2.1 &&
      decide (toQ r.2.1.tail.gamma = -1 / 2 ^ 53) && decide (toQ r.2.1.tail.sigma = 715180909425531 / 140737488355328) &&
      decide (r.2.1.Nt.toNat = 3 ∧ r.2.1.n.toNat = 6) && decide (toQ r.2.1.excess_threshold = 0) &&
      decide (spot_quantile (codeMath muslFU) r.2.1 (lit (1 / 4)) = .ok (lit 0)) &&
      decide (spot_probability (codeMath muslFU) r.2.1 (lit 0) = .ok (lit (1 / 2)))
    | .error _ => false) = true := by decide +kernel
  cases hr : runOps (codeMath muslFU) Sample.quarter.2.2 Sample.quarter.2.1 [.fit Sample.flatData 6] with
  | error e => rw [hr] at hd; cases hd
  | ok r =>
    rw [hr] at hd
    simp only [Bool.and_eq_true, decide_eq_true_iff] at hd
    obtain ⟨⟨⟨⟨⟨⟨⟨h1, h2⟩, g⟩, si⟩, h5⟩, ht⟩, h7⟩, h8⟩ := hd
    have a1 : toQ (lit (1 / 4) : F64) = 1 / 4 := by decide +kernel
    have a2 : toQ (lit (1 / 2) : F64) = 1 / 2 := by decide +kernel
    refine ⟨r.2.1, r.2.2, by rw [← h1], Sample.fitted_of h2, ?_, ?_, ?_, ?_, ?_, lit (1 / 4), lit 0, lit (1 / 2), ?_, ?_, h7, h8⟩
    · unfold toR; rw [ht]; norm_num
    · unfold toR; rw [g]; norm_num
    · unfold toR; rw [si]; norm_num
    · unfold toR; rw [si]; norm_num
    · rw [h5.1, h5.2]; norm_num
    · unfold toR; rw [a1]; norm_num
    · unfold toR; rw [a2]; norm_num

/-! ### C106 -/

/-- the quantile of a probability with a small relative error -/
theorem round_inv {γ σ D v S Q a : ℝ} (σ0 : 0 < σ) (hγ1 : |γ| ≤ 10) (hv : v = 1 + γ * D / σ) (vp : 0 < v) (hS : S = gpdSurvival γ σ D)
    (hQ : |Q - S| ≤ S * a) (ha : a ≤ 38 / 10 ^ 8) :
    0 < S ∧ 0 < Q ∧ γ * Real.log S = -Real.log v ∧ (∃ l, |l| ≤ 42 / 10 ^ 8 ∧ Real.log Q = Real.log S + l) ∧
      |gpdQuantile γ σ Q - D| ≤ σ * v * (43 / 10 ^ 8) ∧ Q ^ (-γ) ≤ v * (101 / 100) := by
  have hg : S = Real.exp (-(if γ = 0 then D / σ else Real.log v / γ)) := by
    rw [hS]
    unfold gpdSurvival
    split_ifs with h0
    · rw [neg_div]
    · rw [← hv, Real.rpow_def_of_pos vp, show Real.log v * (-1 / γ) = -(Real.log v / γ) by ring]
  have S0 : 0 < S := by rw [hg]; exact Real.exp_pos _
  have hlS : Real.log S = -(if γ = 0 then D / σ else Real.log v / γ) := by rw [hg, Real.log_exp]
  have hγS : γ * Real.log S = -Real.log v := by
    rw [hlS]
    split_ifs with h0
    · rw [hv, h0]; simp
    · field_simp
  obtain ⟨e, he⟩ : ∃ e, e = (Q - S) / S := ⟨_, rfl⟩
  have he1 : |e| ≤ 38 / 10 ^ 8 := by
    rw [he, abs_div, abs_of_pos S0, div_le_iff₀ S0]; refine hQ.trans ?_
    rw [_root_.mul_comm]; exact mul_le_mul_of_nonneg_right ha S0.le
  have hQe : Q = S * (1 + e) := by rw [he]; field_simp; ring
  obtain ⟨e1, e2⟩ := abs_le.mp he1
  have e10 : 0 < 1 + e := by norm_num at e1; linarith
  have Q0 : 0 < Q := by rw [hQe]; positivity
  obtain ⟨l, hl⟩ : ∃ l, l = Real.log (1 + e) := ⟨_, rfl⟩
  have hl1 : |l| ≤ 42 / 10 ^ 8 := by
    have := log_near (he1.trans (by norm_num))
    rw [hl]; norm_num at he1 ⊢; linarith
  have hlQ : Real.log Q = Real.log S + l := by rw [hQe, Real.log_mul S0.ne' e10.ne', hl]
  have hw : Q ^ (-γ) = v * Real.exp (-(γ * l)) := by
    rw [Real.rpow_def_of_pos Q0, hlQ, show (Real.log S + l) * -γ = -(γ * Real.log S) + -(γ * l) by ring, hγS, _root_.neg_neg, Real.exp_add,
      Real.exp_log vp]
  have hgl : |-(γ * l)| ≤ 42 / 10 ^ 7 := by
    rw [abs_neg, abs_mul]
    calc |γ| * |l| ≤ 10 * (42 / 10 ^ 8) := mul_le_mul hγ1 hl1 (abs_nonneg _) (by norm_num)
      _ = _ := by norm_num
  have hx : Real.exp |-(γ * l)| ≤ 101 / 100 := by
    have h1 := exp_near (x := |-(γ * l)|) (by rw [abs_abs]; exact hgl.trans (by norm_num))
    rw [abs_abs] at h1
    have := (abs_le.mp h1).2
    have h2 : (42 / 10 ^ 7 : ℝ) ≤ 1 / 1000 := by norm_num
    linarith
  refine ⟨S0, Q0, hγS, ⟨l, hl1, hlQ⟩, ?_, ?_⟩
  · by_cases h0 : γ = 0
    · have : gpdQuantile γ σ Q - D = -(σ * l) := by
        unfold gpdQuantile
        rw [if_pos h0, hlQ, hlS, if_pos h0]; field_simp; ring
      have hv1 : v = 1 := by rw [hv, h0]; simp
      rw [this, abs_neg, abs_mul, abs_of_pos σ0, hv1, _root_.mul_one]
      exact mul_le_mul_of_nonneg_left (hl1.trans (by norm_num)) σ0.le
    · have γ0 : 0 < |γ| := abs_pos.mpr h0
      have hD : D = σ / γ * (v - 1) := by rw [hv]; field_simp; ring
      have : gpdQuantile γ σ Q - D = σ * v * ((Real.exp (-(γ * l)) - 1) / γ) := by
        unfold gpdQuantile
        rw [if_neg h0, hw, hD]; field_simp; ring
      rw [this, abs_mul, abs_of_pos (by positivity), abs_div]
      refine mul_le_mul_of_nonneg_left ?_ (by positivity)
      rw [div_le_iff₀ γ0]
      refine (exp_bound _).trans ?_
      calc |-(γ * l)| * Real.exp |-(γ * l)| ≤ |-(γ * l)| * (101 / 100) := mul_le_mul_of_nonneg_left hx (abs_nonneg _)
        _ = |γ| * (|l| * (101 / 100)) := by rw [abs_neg, abs_mul]; ring
        _ ≤ |γ| * (43 / 10 ^ 8) := mul_le_mul_of_nonneg_left (by norm_num at hl1 ⊢; linarith) γ0.le
        _ = _ := _root_.mul_comm _ _
  · rw [hw]
    exact mul_le_mul_of_nonneg_left ((Real.exp_le_exp.mpr (le_abs_self _)).trans hx) vp.le

/-- In binary64: on a fitted detector, for a shape that is 0 or between 2^-20 and 10 in magnitude and a threshold of at most a million scales,
the quantile of the probability of `z` is `z`, up to a millionth of the local scale `sigma + gamma d` (`d` the distance of `z` to the
threshold), for `z` with a model probability `P S` of at most 999/1000, `e^-19 ≤ S ≤ e^19`, whose local scale is between 1/64 and 64 times sigma.
Missing (false, see `C106_false`): shapes closer to 0. -/
theorem C106_partial (s : Spot F64) (low : Prop) [Decidable low] (F : FittedF64 s low) (z : F64) (hz : isFin z)
    (P D v S γ σ t : ℝ) (hP : P = (s.Nt.toNat : ℝ) / s.n.toNat) (hγ : γ = toR s.tail.gamma) (hσ : σ = toR s.tail.sigma)
    (ht : t = toR s.excess_threshold) (hD : D = (if low then -1 else 1) * (toR z - t)) (hv : v = 1 + γ * D / σ)
    (hS : S = gpdSurvival γ σ D)
    (hσ0 : 1 / 10 ^ 100 ≤ σ) (hσ1 : σ ≤ 10 ^ 100) (ht1 : |t| ≤ 10 ^ 6 * σ) (hγ0 : γ = 0 ∨ 1 / 2 ^ 20 ≤ |γ|) (hγ1 : |γ| ≤ 10)
    (v1 : 1 / 64 ≤ v) (v2 : v ≤ 64) (hL : |Real.log S| ≤ 19) (hPS : P * S ≤ 999 / 1000) :
    ∃ p z', spot_probability (codeMath muslFU) s z = .ok p ∧ isFin p ∧ spot_quantile (codeMath muslFU) s p = .ok z' ∧ isFin z' ∧
      |toR z' - toR z| ≤ σ * v / 10 ^ 6 := by
  have σ0 : 0 < σ := lt_of_lt_of_le (by norm_num) hσ0
  have vp : 0 < v := by linarith
  have P0 : 1 / 2 ^ 53 ≤ P := by
    rw [hP]
    have h1 : (1 : ℝ) ≤ s.Nt.toNat := by exact_mod_cast F.Nt
    have h2 : (s.n.toNat : ℝ) ≤ 2 ^ 53 := by exact_mod_cast F.n
    exact div_le_div₀ (by linarith) h1 (by exact_mod_cast F.Nt.trans_le F.le) h2
  have P0' : 0 < P := lt_of_lt_of_le (by norm_num) P0
  have O : Spec.Ordinary s := by
    refine ⟨?_, ⟨hσ ▸ hσ0, hσ ▸ hσ1⟩, ?_⟩
    · rw [← ht]
      have : (10 : ℝ) ^ 6 * σ ≤ 10 ^ 6 * 10 ^ 100 := mul_le_mul_of_nonneg_left hσ1 (by norm_num)
      exact ht1.trans (this.trans (by norm_num))
    · rw [← hγ]
      exact hγ0.imp id (fun h => le_trans (by norm_num) h)
  obtain ⟨S0, p, p1, p2, a, a0, a1, p3⟩ := probability_close s low F O z hz P D γ σ t hP hγ hσ ht hD hγ0 (by rw [← hv]; linarith)
    (by rw [← hv]; linarith) (by rw [← hS]; linarith)
  rw [← hS] at S0 p3
  obtain ⟨Q, hQ⟩ : ∃ Q, Q = toR p / P := ⟨_, rfl⟩
  have hQS : |Q - S| ≤ S * a := by
    rw [hQ, show toR p / P - S = (toR p - P * S) / P by field_simp, abs_div, abs_of_pos P0', div_le_iff₀ P0']
    linarith
  obtain ⟨-, Q0, hγS, ⟨l, hl1, hlQ⟩, hd, hw⟩ := round_inv σ0 hγ1 hv vp hS hQS a1
  have hlv : |Real.log v| ≤ 45 / 10 := by
    have h64 : Real.log 64 ≤ 45 / 10 := by
      rw [show (64 : ℝ) = 2 ^ 6 by norm_num, Real.log_pow]
      have := Real.log_two_lt_d9
      norm_num at this ⊢
      linarith
    rw [abs_le]
    constructor
    · have := Real.log_le_log (by norm_num) v1
      rw [one_div, Real.log_inv] at this
      linarith
    · exact (Real.log_le_log vp v2).trans h64
  have hpow : |γ * Real.log Q| ≤ 5 := by
    rw [hlQ, mul_add, hγS]
    refine (abs_add_le _ _).trans ?_
    rw [abs_neg, abs_mul]
    have : |γ| * |l| ≤ 10 * (42 / 10 ^ 8) := mul_le_mul hγ1 hl1 (abs_nonneg _) (by norm_num)
    norm_num at this ⊢
    linarith
  have hLQ : |Real.log Q| ≤ 20 := by
    rw [hlQ]
    refine (abs_add_le _ _).trans ?_
    norm_num at hl1
    linarith
  obtain ⟨p4, p5⟩ := abs_le.mp p3
  have hPa : P * S * a ≤ P * S * (38 / 10 ^ 8) := mul_le_mul_of_nonneg_left a1 (by positivity)
  have hS19 : 1 / 10 ^ 40 ≤ S := by
    rw [← Real.exp_log S0]
    have h1 : Real.exp (-19) ≤ Real.exp (Real.log S) := Real.exp_le_exp.mpr (abs_le.mp hL).1
    refine le_trans ?_ h1
    rw [Real.exp_neg, one_div]
    refine inv_anti₀ (Real.exp_pos _) ?_
    rw [show (19 : ℝ) = (19 : ℕ) * 1 by norm_num, Real.exp_nat_mul]
    exact (pow_le_pow_left₀ (Real.exp_pos _).le Real.exp_one_lt_d9.le 19).trans (by norm_num)
  have hPS0 : 1 / 2 ^ 53 * (1 / 10 ^ 40) ≤ P * S := mul_le_mul P0 hS19 (by norm_num) P0'.le
  have q0 : 1 / 10 ^ 100 ≤ toR p := by
    have h1 : P * S * (1 / 2) ≤ toR p := by norm_num at hPa; nlinarith [mul_pos P0' S0]
    refine le_trans ?_ h1
    refine le_trans ?_ (mul_le_mul_of_nonneg_right hPS0 (by norm_num))
    norm_num
  have q1 : toR p ≤ 1 := by norm_num at hPa hPS; linarith
  obtain ⟨-, -, -, z', z1, z2, z3⟩ := quantile_close s low F p p2 q0 q1 P Q γ σ t hP hQ hγ hσ ht hσ0 hσ1 ht1 hγ0 hLQ hpow
  refine ⟨p, z', p1, p2, z1, z2, ?_⟩
  have e1 : |(if low then -1 else 1) * (toR z' - t) - D| = |toR z' - toR z| := by
    rw [hD]
    split_ifs
    · rw [show (-1 : ℝ) * (toR z' - t) - -1 * (toR z - t) = -(toR z' - toR z) by ring, abs_neg]
    · rw [show (1 : ℝ) * (toR z' - t) - 1 * (toR z - t) = toR z' - toR z by ring]
  rw [← e1]
  have e2 : σ * Q ^ (-γ) * (21 / 10 ^ 8) ≤ σ * (v * (101 / 100)) * (21 / 10 ^ 8) :=
    mul_le_mul_of_nonneg_right (mul_le_mul_of_nonneg_left hw σ0.le) (by norm_num)
  have e3 := abs_add_le ((if low then -1 else 1) * (toR z' - t) - gpdQuantile γ σ Q) (gpdQuantile γ σ Q - D)
  rw [sub_add_sub_cancel] at e3
  refine e3.trans ((add_le_add (z3.trans e2) hd).trans ?_)
  rw [show σ * (v * (101 / 100)) * (21 / 10 ^ 8) + σ * v * (43 / 10 ^ 8) = σ * v * (101 / 100 * (21 / 10 ^ 8) + 43 / 10 ^ 8) by ring,
    div_eq_mul_one_div (σ * v)]
  exact mul_le_mul_of_nonneg_left (by norm_num) (by positivity)

/-- non-vacuity: the detector fitted on twelve numbers and the value 10 -/
example : ∃ s h, runOps (codeMath muslFU) Sample.init.2.2 Sample.init.2.1 [.fit Sample.data12 12] = .ok ([.code 0], s, h) ∧
    ∃ p z', spot_probability (codeMath muslFU) s (lit 10) = .ok p ∧ isFin p ∧ spot_quantile (codeMath muslFU) s p = .ok z' ∧ isFin z' ∧
      |toR z' - 10| ≤ 1 / 10 ^ 5 := by
  have hd : (match runOps (codeMath muslFU) Sample.init.2.2 Sample.init.2.1 [.fit Sample.data12 12] with
    | .ok r => decide (r.1 = [.code 0]) && Sample.fittedB r.2.1 &&
      decide (toQ r.2.1.tail.gamma = -1633523083514915 / 4503599627370496) &&
      decide (toQ r.2.1.tail.sigma = 4517604217735095 / 562949953421312) && decide (r.2.1.Nt.toNat = 9 ∧ r.2.1.n.toNat = 12) &&
      decide (toQ r.2.1.excess_threshold = 3)
    | .error _ => false) = true := by decide +kernel
  cases hr : runOps (codeMath muslFU) Sample.init.2.2 Sample.init.2.1 [.fit Sample.data12 12] with
  | error e => rw [hr] at hd; cases hd
  | ok r =>
    rw [hr] at hd
    simp only [Bool.and_eq_true, decide_eq_true_iff] at hd
    obtain ⟨⟨⟨⟨⟨h1, h2⟩, g⟩, si⟩, hN⟩, ht⟩ := hd
    have q0 : toQ (lit 10 : F64) = 10 := by decide +kernel
    have hq0 : toR (lit 10 : F64) = 10 := by unfold toR; rw [q0]; norm_num
    have hg : toR r.2.1.tail.gamma = -1633523083514915 / 4503599627370496 := by unfold toR; rw [g]; norm_num
    have hs : toR r.2.1.tail.sigma = 4517604217735095 / 562949953421312 := by unfold toR; rw [si]; norm_num
    have ht' : toR r.2.1.excess_threshold = 3 := by unfold toR; rw [ht]; norm_num
    refine ⟨r.2.1, r.2.2, by rw [← h1], ?_⟩
    obtain ⟨D, hD⟩ : ∃ D : ℝ, D = 7 := ⟨_, rfl⟩
    obtain ⟨v, hv⟩ : ∃ v, v = 1 + toR r.2.1.tail.gamma * D / toR r.2.1.tail.sigma := ⟨_, rfl⟩
    have v1 : 1 / 2 ≤ v := by rw [hv, hg, hs, hD]; norm_num
    have v2 : v ≤ 1 := by rw [hv, hg, hs, hD]; norm_num
    have v0 : 0 < v := by linarith
    have l1 : Real.log v ≤ 0 := Real.log_nonpos v0.le v2
    have l2 : -1 ≤ Real.log v := by
      have := Real.one_sub_inv_le_log_of_pos v0
      have h3 : v⁻¹ ≤ 2 := by rw [inv_le_comm₀ v0 (by norm_num)]; linarith
      linarith
    have hS : Real.log (gpdSurvival (toR r.2.1.tail.gamma) (toR r.2.1.tail.sigma) D) = Real.log v * (4503599627370496 / 1633523083514915) := by
      unfold gpdSurvival
      rw [if_neg (by rw [hg]; norm_num), ← hv, Real.log_rpow v0, hg]
      norm_num
      ring
    have S0 : 0 < gpdSurvival (toR r.2.1.tail.gamma) (toR r.2.1.tail.sigma) D := by
      unfold gpdSurvival
      rw [if_neg (by rw [hg]; norm_num), ← hv]; exact Real.rpow_pos_of_pos v0 _
    have S1 : gpdSurvival (toR r.2.1.tail.gamma) (toR r.2.1.tail.sigma) D ≤ 1 := by
      rw [← Real.log_nonpos_iff S0.le, hS]; linarith
    obtain ⟨p, z', p1, p2, z1, z2, z3⟩ := C106_partial r.2.1 ((0 : ℤ) ≠ 0) (Sample.fitted_of h2) (lit 10) (by decide +kernel) _ D v _ _ _ _
      rfl rfl rfl rfl (by rw [if_neg (by simp), hq0, ht', hD]; norm_num) hv rfl (by rw [hs]; norm_num) (by rw [hs]; norm_num)
      (by rw [hs, ht']; norm_num) (.inr (by rw [hg]; norm_num [abs_of_neg])) (by rw [hg]; norm_num [abs_of_neg]) (by linarith) (by linarith)
      (by rw [hS, abs_le]; constructor <;> linarith) (by rw [hN.1, hN.2]; norm_num; linarith)
    refine ⟨p, z', p1, p2, z1, z2, ?_⟩
    rw [hq0] at z3
    refine z3.trans ?_
    rw [hs]
    norm_num
    linarith

/-- C106 does not hold for all fitted detectors: after a fit of six observations the quantile of the probability of 5/2 is 0. -/
theorem C106_false : ∃ s h, runOps (codeMath muslFU) Sample.quarter.2.2 Sample.quarter.2.1 [.fit Sample.flatData 6] = .ok ([.code 0], s, h) ∧
    FittedF64 s ((0 : ℤ) ≠ 0) ∧ toR s.excess_threshold = 0 ∧ toR s.tail.gamma = -1 / 2 ^ 53 ∧ 5 < toR s.tail.sigma ∧ toR s.tail.sigma < 6 ∧
    (s.Nt.toNat : ℝ) / s.n.toNat = 1 / 2 ∧ ∃ z p z' : F64, toR z = 5 / 2 ∧ toR z' = 0 ∧
    spot_probability (codeMath muslFU) s z = .ok p ∧ spot_quantile (codeMath muslFU) s p = .ok z' := by
  have hd : (match runOps (codeMath muslFU) Sample.quarter.2.2 Sample.quarter.2.1 [.fit Sample.flatData 6] with
    | .ok r => decide (r.1 = [.code 0]) && Sample.fittedB r.2.1 &&
      decide (toQ r.2.1.tail.gamma = -1 / 2 ^ 53) && decide (toQ r.2.1.tail.sigma = 715180909425531 / 140737488355328) &&
      decide (r.2.1.Nt.toNat = 3 ∧ r.2.1.n.toNat = 6) && decide (toQ r.2.1.excess_threshold = 0) &&
      decide (spot_probability (codeMath muslFU) r.2.1 (lit (5 / 2)) = .ok (lit (1 / 2))) &&
      decide (spot_quantile (codeMath muslFU) r.2.1 (lit (1 / 2)) = .ok (lit 0))
    | .error _ => false) = true := by decide +kernel
  cases hr : runOps (codeMath muslFU) Sample.quarter.2.2 Sample.quarter.2.1 [.fit Sample.flatData 6] with
  | error e => rw [hr] at hd; cases hd
  | ok r =>
    rw [hr] at hd
    simp only [Bool.and_eq_true, decide_eq_true_iff] at hd
    obtain ⟨⟨⟨⟨⟨⟨⟨h1, h2⟩, g⟩, si⟩, h5⟩, ht⟩, h7⟩, h8⟩ := hd
    have a1 : toQ (lit (5 / 2) : F64) = 5 / 2 := by decide +kernel
    have a2 : toQ (lit 0 : F64) = 0 := by decide +kernel
    refine ⟨r.2.1, r.2.2, by rw [← h1], Sample.fitted_of h2, ?_, ?_, ?_, ?_, ?_, lit (5 / 2), lit (1 / 2), lit 0, ?_, ?_, h7, h8⟩
    · unfold toR; rw [ht]; norm_num
    · unfold toR; rw [g]; norm_num
    · unfold toR; rw [si]; norm_num
    · unfold toR; rw [si]; norm_num
    · rw [h5.1, h5.2]; norm_num
    · unfold toR; rw [a1]; norm_num
    · unfold toR; rw [a2]; norm_num

end Verif

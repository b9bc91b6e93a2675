/-
Accuracy of `spot_quantile` and `spot_probability` in binary64, with respect to the formulas of the generalised Pareto distribution.
-/
import Verif.Proofs.Accuracy
import Verif.Spec.Gpd
import Mathlib.Analysis.Complex.ExponentialBounds

namespace Verif
open F64

namespace Spec

/-- the excess that is exceeded with probability `p` -/
noncomputable def gpdQuantile (γ σ p : ℝ) : ℝ := if γ = 0 then -σ * Real.log p else σ / γ * (p ^ (-γ) - 1)

/-- it is: its probability of being exceeded is `p` -/
theorem gpdSurvival_gpdQuantile {γ σ p : ℝ} (hσ : 0 < σ) (hp : 0 < p) : gpdSurvival γ σ (gpdQuantile γ σ p) = p := by
  unfold gpdSurvival gpdQuantile
  by_cases h : γ = 0
  · simp only [h, if_true]
    rw [show -(-σ * Real.log p) / σ = Real.log p by field_simp, Real.exp_log hp]
  · simp only [h, if_false]
    rw [show 1 + γ * (σ / γ * (p ^ (-γ) - 1)) / σ = p ^ (-γ) by field_simp; ring, ← Real.rpow_mul hp.le,
      show -γ * (-1 / γ) = 1 by field_simp, Real.rpow_one]

/-- the value beyond which a proportion `q` of the observations lies: `t` is the threshold, beyond which a proportion `P` lies -/
noncomputable def spotQuantile (low : Prop) [Decidable low] (t γ σ P q : ℝ) : ℝ :=
  t + (if low then -1 else 1) * gpdQuantile γ σ (q / P)

/-- the range of the parameters for which no intermediate result overflows or underflows -/
structure Ordinary (s : Spot F64) : Prop where
  et : |toR s.excess_threshold| ≤ 10 ^ 200
  sigma : 1 / 10 ^ 100 ≤ toR s.tail.sigma ∧ toR s.tail.sigma ≤ 10 ^ 100
  gamma : toR s.tail.gamma = 0 ∨ 1 / 10 ^ 30 ≤ |toR s.tail.gamma|

end Spec

theorem exp100 : Real.exp 100 ≤ 10 ^ 44 ∧ 1 / 10 ^ 44 ≤ Real.exp (-100) := by
  have h : Real.exp 100 ≤ 10 ^ 44 := by
    have h1 : Real.exp 100 = Real.exp 1 ^ 100 := by rw [← Real.exp_nat_mul]; norm_num
    rw [h1]
    have h2 := Real.exp_one_lt_d9.le
    exact (pow_le_pow_left₀ (Real.exp_pos _).le h2 100).trans (by norm_num)
  refine ⟨h, ?_⟩
  rw [Real.exp_neg, one_div]
  exact inv_anti₀ (Real.exp_pos _) h

theorem acc_final {t x : F64} (ht : isFin t) (hx : isFin x) {X D : ℝ} (hD : |toR x - X| ≤ D) (ht1 : |toR t| ≤ 10 ^ 200)
    (hX1 : |X| ≤ 10 ^ 200) (hD1 : D ≤ 10 ^ 200) :
    isFin (t +. x) ∧ |toR (t +. x) - (toR t + X)| ≤ (1 + 1 / 10 ^ 10) * D + 12 / 10 ^ 17 * |toR t + X| + tiny := by
  have h1 : |toR t + toR x| ≤ |toR t + X| + D := by
    have := abs_add_le (toR t + X) (toR x - X)
    rw [show toR t + X + (toR x - X) = toR t + toR x by ring] at this
    linarith
  have h2 := abs_add_le (toR t) X
  have h3 : |toR t + toR x| ≤ 10 ^ 250 := by
    refine h1.trans ?_
    have : (3 : ℝ) * 10 ^ 200 ≤ 10 ^ 250 := by norm_num
    linarith
  obtain ⟨f, g⟩ := acc_add ht hx h3
  refine ⟨f, ?_⟩
  have h4 := abs_add_le (toR (t +. x) - (toR t + toR x)) (toR x - X)
  rw [show toR (t +. x) - (toR t + toR x) + (toR x - X) = toR (t +. x) - (toR t + X) by ring] at h4
  have h5 : ru * |toR t + toR x| ≤ 112 / 10 ^ 18 * (|toR t + X| + D) :=
    mul_le_mul (by unfold ru; norm_num) h1 (abs_nonneg _) (by norm_num)
  have h0 := abs_nonneg (toR t + X)
  have hD0 := (abs_nonneg _).trans hD
  linarith

/-- In binary64, rounding errors included: on a fitted detector with ordinary parameters, `spot_quantile` returns a finite number, and
its distance to the exact quantile of the model is bounded.
Missing (false in general, `C89_false`): the relative error is small only if the shape is not. -/
theorem C89_partial (s : Spot F64) (low : Prop) [Decidable low] (F : FittedF64 s low) (O : Spec.Ordinary s) (q : F64)
    (hq : isFin q) (q0 : 1 / 10 ^ 100 ≤ toR q) (q1 : toR q ≤ 1)
    (P Q γ σ t : ℝ) (hP : P = (s.Nt.toNat : ℝ) / s.n.toNat) (hQ : Q = toR q / P)
    (hγ : γ = toR s.tail.gamma) (hσ : σ = toR s.tail.sigma) (ht : t = toR s.excess_threshold)
    (hpow : |γ * Real.log Q| ≤ 100) :
    ∃ z, spot_quantile (codeMath muslFU) s q = .ok z ∧ isFin z ∧
      (γ = 0 → |toR z - Spec.spotQuantile low t γ σ P (toR q)| ≤ σ * (2 * (Spec.logErr Q * |Real.log Q|) + 1 / 10 ^ 14) +
        (|Spec.gpdQuantile γ σ Q| + |Spec.spotQuantile low t γ σ P (toR q)|) / 10 ^ 15) ∧
      (γ ≠ 0 → |toR z - Spec.spotQuantile low t γ σ P (toR q)| ≤
        σ * Q ^ (-γ) * (2 * (Spec.logErr Q * |Real.log Q|) + (1 + 1 / |γ|) / 10 ^ 14) +
        (|Spec.gpdQuantile γ σ Q| + |Spec.spotQuantile low t γ σ P (toR q)|) / 10 ^ 15) := by
  obtain ⟨r1, r2⟩ := acc_ratio F.Nt F.le F.n hq q0 q1
  rw [← hP, ← hQ] at r2
  have hP0 : 0 < P := by
    rw [hP]; exact div_pos (by exact_mod_cast F.Nt) (by exact_mod_cast F.Nt.trans_le F.le)
  have hQ0 : 0 < Q := by rw [hQ]; exact div_pos (lt_of_lt_of_le (by norm_num) q0) hP0
  obtain ⟨k1, k2⟩ := logErr_bounds Q
  obtain ⟨o1, ⟨o2, o3⟩, o4⟩ := O
  rw [← hσ] at o2 o3
  rw [← hγ] at o4
  have σ0 : 0 < σ := lt_of_lt_of_le (by norm_num) o2
  obtain ⟨form0, form1⟩ := quantile_form s q _ rfl
  have L0 := abs_nonneg (Real.log Q)
  have κL : 0 ≤ Spec.logErr Q * |Real.log Q| := mul_nonneg (by linarith) L0
  -- the last addition
  have fin : ∀ (x : F64) (D C : ℝ), isFin x → |toR x - Spec.gpdQuantile γ σ Q| ≤ D → |Spec.gpdQuantile γ σ Q| ≤ 10 ^ 200 → D ≤ 10 ^ 200 →
      (1 + 1 / 10 ^ 10) * D + tiny ≤ C + |Spec.gpdQuantile γ σ Q| / 10 ^ 15 →
      isFin (s.excess_threshold +. s.up_down *. x) ∧ |toR (s.excess_threshold +. s.up_down *. x) - Spec.spotQuantile low t γ σ P (toR q)| ≤
        C + (|Spec.gpdQuantile γ σ Q| + |Spec.spotQuantile low t γ σ P (toR q)|) / 10 ^ 15 := by
    intro x D C hx hD hX hD1 hC
    unfold Spec.spotQuantile
    rw [← hQ, ht]
    have done : ∀ (y : F64) (Y : ℝ), isFin y → |toR y - Y| ≤ D → |Y| = |Spec.gpdQuantile γ σ Q| →
        isFin (s.excess_threshold +. y) ∧ |toR (s.excess_threshold +. y) - (toR s.excess_threshold + Y)| ≤
        C + (|Spec.gpdQuantile γ σ Q| + |toR s.excess_threshold + Y|) / 10 ^ 15 := by
      intro y Y hy hyD hY
      obtain ⟨f, g⟩ := acc_final F.et hy hyD o1 (by rw [hY]; exact hX) hD1
      refine ⟨f, g.trans ?_⟩
      have := abs_nonneg (toR s.excess_threshold + Y)
      linarith
    rcases F.mul_up_down x with ⟨hl, e⟩ | ⟨hl, e⟩
    · rw [e, if_neg hl, _root_.one_mul]
      exact done x _ hx hD rfl
    · rw [e, if_pos hl, _root_.neg_one_mul]
      refine done (F64.neg x) _ (isFin_neg.mpr hx) ?_ (abs_neg _)
      rw [show toR (F64.neg x) = - toR x from toR_neg' x, show -toR x - -Spec.gpdQuantile γ σ Q = -(toR x - Spec.gpdQuantile γ σ Q) by ring, abs_neg]
      exact hD
  by_cases hγ0 : γ = 0
  · -- exponential tail
    have hg : isFin s.tail.gamma ∧ toQ s.tail.gamma = 0 := ⟨F.gamma.1, by
      rw [hγ0] at hγ; unfold toR at hγ; exact_mod_cast hγ.symm⟩
    rw [form0 hg]
    refine ⟨_, rfl, ?_⟩
    obtain ⟨fl, gl⟩ := acc_xlog r1 hQ0 r2 (by norm_num)
    have Qlo : 1 / 10 ^ 100 ≤ Q := by
      rw [hQ, le_div_iff₀ hP0]
      have : P ≤ 1 := by
        rw [hP, div_le_one (by exact_mod_cast F.Nt.trans_le F.le)]; exact_mod_cast F.le
      have : 1 / 10 ^ 100 * P ≤ 1 / 10 ^ 100 * 1 := mul_le_mul_of_nonneg_left this (by norm_num)
      linarith
    have Qhi : Q ≤ 10 ^ 100 := by
      rw [hQ, div_le_iff₀ hP0]
      have : 1 / 10 ^ 16 ≤ P := by
        rw [hP, le_div_iff₀ (by exact_mod_cast F.Nt.trans_le F.le)]
        have a : (s.n.toNat : ℝ) ≤ 2 ^ 53 := by exact_mod_cast F.n
        have b : (1 : ℝ) ≤ s.Nt.toNat := by exact_mod_cast F.Nt
        linarith
      have : (10 : ℝ) ^ 100 * (1 / 10 ^ 16) ≤ 10 ^ 100 * P := mul_le_mul_of_nonneg_left this (by norm_num)
      have : (1 : ℝ) ≤ 10 ^ 100 * (1 / 10 ^ 16) := by norm_num
      linarith
    have hLb : |Real.log Q| ≤ 10 ^ 100 := by
      have a := Real.log_le_sub_one_of_pos hQ0
      have b := Real.one_sub_inv_le_log_of_pos hQ0
      have c : Q⁻¹ ≤ 10 ^ 100 := by
        rw [inv_le_comm₀ hQ0 (by norm_num), ← one_div]; exact Qlo
      rw [abs_le]; constructor <;> linarith
    have hT : Spec.gpdQuantile γ σ Q = -σ * Real.log Q := by unfold Spec.gpdQuantile; rw [if_pos hγ0]
    have hTa : |Spec.gpdQuantile γ σ Q| = σ * |Real.log Q| := by rw [hT, abs_mul, abs_neg, abs_of_pos σ0]
    have hκL2 : 3 / 10 ^ 15 * |Real.log Q| ≤ Spec.logErr Q * |Real.log Q| := mul_le_mul_of_nonneg_right k1 L0
    have hκL3 : Spec.logErr Q * |Real.log Q| ≤ 11 / 10 ^ 10 * 10 ^ 100 := mul_le_mul k2 hLb L0 (by norm_num)
    set lg := toR (xlog muslFU (q /. (lit (s.Nt.toNat : ℚ) /. lit (s.n.toNat : ℚ)))) with hlg
    have hlga : |lg| ≤ |Real.log Q| + (Spec.logErr Q * |Real.log Q| + (2 / 10 ^ 15 + 13 / 10 * (3 / 10 ^ 16))) := by
      have := abs_add_le (lg - Real.log Q) (Real.log Q)
      rw [sub_add_cancel] at this
      linarith
    have hm : toR (-. s.tail.sigma) * lg = -(σ * lg) := by rw [toR_neg', ← hσ]; ring
    have hma : |toR (-. s.tail.sigma) * lg| = σ * |lg| := by rw [hm, abs_neg, abs_mul, abs_of_pos σ0]
    have hfit : σ * |lg| ≤ 10 ^ 250 := by
      have : |lg| ≤ 10 ^ 101 := by linarith
      exact (mul_le_mul o3 this (abs_nonneg _) (by norm_num)).trans (by norm_num)
    have fs : isFin (-. s.tail.sigma) := isFin_neg.mpr F.sigma.1
    obtain ⟨fx, gx⟩ := acc_mul fs fl (by rw [← hlg, hma]; exact hfit)
    rw [← hlg, hma, hm] at gx
    set κ := Spec.logErr Q with hκ
    have hD : |toR ((-. s.tail.sigma) *. xlog muslFU (q /. (lit (s.Nt.toNat : ℚ) /. lit (s.n.toNat : ℚ)))) - Spec.gpdQuantile γ σ Q| ≤
        σ * (11 / 10 * (κ * |Real.log Q|) + 3 / 10 ^ 15) := by
      rw [hT]
      have t := abs_add_le (toR ((-. s.tail.sigma) *. xlog muslFU (q /. (lit (s.Nt.toNat : ℚ) /. lit (s.n.toNat : ℚ)))) - -(σ * lg))
        (-(σ * (lg - Real.log Q)))
      rw [show toR ((-. s.tail.sigma) *. xlog muslFU (q /. (lit (s.Nt.toNat : ℚ) /. lit (s.n.toNat : ℚ)))) - -(σ * lg) + -(σ * (lg - Real.log Q))
        = toR ((-. s.tail.sigma) *. xlog muslFU (q /. (lit (s.Nt.toNat : ℚ) /. lit (s.n.toNat : ℚ)))) - -σ * Real.log Q by ring,
        abs_neg, abs_mul, abs_of_pos σ0] at t
      have a1 := mul_le_mul_of_nonneg_left gl σ0.le
      have a2 : ru * (σ * |lg|) ≤ 112 / 10 ^ 18 * (σ * (|Real.log Q| + (κ * |Real.log Q| + (2 / 10 ^ 15 + 13 / 10 * (3 / 10 ^ 16))))) :=
        mul_le_mul (by unfold ru; norm_num) (mul_le_mul_of_nonneg_left hlga σ0.le) (by positivity) (by norm_num)
      have a3 : tiny ≤ 1 / 10 ^ 20 * σ := by
        have : (1 : ℝ) / 10 ^ 20 * (1 / 10 ^ 100) ≤ 1 / 10 ^ 20 * σ := mul_le_mul_of_nonneg_left o2 (by norm_num)
        have : tiny ≤ 1 / 10 ^ 20 * (1 / 10 ^ 100) := by unfold tiny; norm_num
        linarith
      have a4 : 3 / 10 ^ 15 * (σ * |Real.log Q|) ≤ σ * (κ * |Real.log Q|) := by
        rw [show 3 / 10 ^ 15 * (σ * |Real.log Q|) = σ * (3 / 10 ^ 15 * |Real.log Q|) by ring]
        exact mul_le_mul_of_nonneg_left hκL2 σ0.le
      have a5 : 0 ≤ σ * (κ * |Real.log Q|) := mul_nonneg σ0.le κL
      have e1 : σ * (κ * |Real.log Q| + (2 / 10 ^ 15 + 13 / 10 * (3 / 10 ^ 16))) = σ * (κ * |Real.log Q|) + (2 / 10 ^ 15 + 13 / 10 * (3 / 10 ^ 16)) * σ := by ring
      have e2 : σ * (|Real.log Q| + (κ * |Real.log Q| + (2 / 10 ^ 15 + 13 / 10 * (3 / 10 ^ 16)))) =
        σ * |Real.log Q| + σ * (κ * |Real.log Q|) + (2 / 10 ^ 15 + 13 / 10 * (3 / 10 ^ 16)) * σ := by ring
      have e3 : σ * (11 / 10 * (κ * |Real.log Q|) + 3 / 10 ^ 15) = 11 / 10 * (σ * (κ * |Real.log Q|)) + 3 / 10 ^ 15 * σ := by ring
      rw [e3]
      rw [e1] at a1
      rw [e2] at a2
      linarith
    have hfin := fin _ _ (σ * (2 * (κ * |Real.log Q|) + 1 / 10 ^ 14)) fx hD
      (by rw [hTa]; exact (mul_le_mul o3 hLb L0 (by norm_num)).trans (by norm_num))
      (by
        refine (mul_le_mul o3 (?_ : _ ≤ (10 : ℝ) ^ 100) (by positivity) (by norm_num)).trans (by norm_num)
        linarith)
      (by
        have a3 : tiny ≤ 1 / 10 ^ 20 * σ := by
          have : (1 : ℝ) / 10 ^ 20 * (1 / 10 ^ 100) ≤ 1 / 10 ^ 20 * σ := mul_le_mul_of_nonneg_left o2 (by norm_num)
          have : tiny ≤ 1 / 10 ^ 20 * (1 / 10 ^ 100) := by unfold tiny; norm_num
          linarith
        have a5 : 0 ≤ σ * (κ * |Real.log Q|) := mul_nonneg σ0.le κL
        have a6 : 0 ≤ |Spec.gpdQuantile γ σ Q| / 10 ^ 15 := by positivity
        have e3 : σ * (11 / 10 * (κ * |Real.log Q|) + 3 / 10 ^ 15) = 11 / 10 * (σ * (κ * |Real.log Q|)) + 3 / 10 ^ 15 * σ := by ring
        have e4 : σ * (2 * (κ * |Real.log Q|) + 1 / 10 ^ 14) = 2 * (σ * (κ * |Real.log Q|)) + 1 / 10 ^ 14 * σ := by ring
        rw [e3, e4]
        linarith)
    exact ⟨hfin.1, fun _ => hfin.2, fun h => absurd hγ0 h⟩
  · -- Pareto tail
    have o5 : 1 / 10 ^ 30 ≤ |γ| := o4.resolve_left hγ0
    have γ1 : |γ| ≤ 2 ^ 20 := by
      rw [hγ]; unfold toR; exact_mod_cast F.gamma.2
    have γ0 : 0 < |γ| := abs_pos.mpr hγ0
    have hg : toQ s.tail.gamma ≠ 0 := by
      intro h; apply hγ0; rw [hγ]; unfold toR; rw [h]; norm_num
    obtain ⟨y, y1, y2, y3⟩ := acc_pow (x := -. s.tail.gamma) (X := -γ) r1 (isFin_neg.mpr F.gamma.1) hQ0 r2 (by norm_num)
      (by rw [toR_neg', ← hγ, sub_self, abs_zero]; positivity) (by rw [abs_neg]; exact o5) (by rw [abs_neg]; exact γ1)
      (by rw [abs_neg]; linarith) (by rw [neg_mul, abs_neg]; exact hpow)
    rw [form1 hg y y1]
    refine ⟨_, rfl, ?_⟩
    rw [abs_neg] at y3
    have hw : Q ^ (-γ) = Real.exp (-γ * Real.log Q) := by rw [Real.rpow_def_of_pos hQ0, mul_comm]
    rw [← hw] at y3
    have hT : Spec.gpdQuantile γ σ Q = σ / γ * (Q ^ (-γ) - 1) := by unfold Spec.gpdQuantile; rw [if_neg hγ0]
    have hw1 : 1 / 10 ^ 44 ≤ Q ^ (-γ) ∧ Q ^ (-γ) ≤ 10 ^ 44 := by
      rw [hw]
      obtain ⟨p1, p2⟩ := abs_le.mp hpow
      exact ⟨exp100.2.trans (Real.exp_le_exp.mpr (by linarith)), (Real.exp_le_exp.mpr (by linarith)).trans exp100.1⟩
    set w := Q ^ (-γ) with hwd
    set κ := Spec.logErr Q with hκ
    set B := |γ| * (13 / 10 * (κ * |Real.log Q|) + 24 / 10 ^ 16 + 16 / 10 * (3 / 10 ^ 16)) + 5 / 10 ^ 15 with hB
    have B0 : 0 ≤ B := by positivity
    have γL : |γ| * |Real.log Q| ≤ 100 := by rw [← abs_mul]; exact hpow
    have B1 : B ≤ 1 := by
      have : κ * (|γ| * |Real.log Q|) ≤ 11 / 10 ^ 10 * 100 := mul_le_mul k2 γL (by positivity) (by norm_num)
      have e : B = 13 / 10 * (κ * (|γ| * |Real.log Q|)) + (24 / 10 ^ 16 + 16 / 10 * (3 / 10 ^ 16)) * |γ| + 5 / 10 ^ 15 := by rw [hB]; ring
      rw [e]; linarith
    have w0 : 0 < w := lt_of_lt_of_le (by norm_num) hw1.1
    have y3' : |toR y - w| ≤ w * 1 := y3.trans (mul_le_mul_of_nonneg_left B1 w0.le)
    have ya : |toR y| ≤ 2 * 10 ^ 44 := by
      have := abs_add_le (toR y - w) w
      rw [sub_add_cancel, abs_of_pos w0] at this
      linarith
    have hone : isFin (lit 1 : F64) ∧ toR (lit 1 : F64) = 1 := by
      refine ⟨by decide +kernel, ?_⟩
      unfold toR
      rw [show toQ (lit 1 : F64) = 1 by decide +kernel]; norm_num
    have hy1a : |toR y - 1| ≤ 10 ^ 45 := by
      have := abs_sub (toR y) 1
      rw [abs_one] at this
      have : (2 * 10 ^ 44 + 1 : ℝ) ≤ 10 ^ 45 := by norm_num
      linarith
    obtain ⟨fc, gc⟩ := acc_sub y2 hone.1 (by rw [hone.2]; exact hy1a.trans (by norm_num))
    rw [hone.2] at gc
    have hRa : |σ / γ| = σ / |γ| := by rw [abs_div, abs_of_pos σ0]
    have hR1 : σ / |γ| ≤ 10 ^ 130 := by
      rw [div_le_iff₀ γ0]
      have : (10 : ℝ) ^ 130 * (1 / 10 ^ 30) ≤ 10 ^ 130 * |γ| := mul_le_mul_of_nonneg_left o5 (by norm_num)
      have : (10 : ℝ) ^ 100 ≤ 10 ^ 130 * (1 / 10 ^ 30) := by norm_num
      linarith
    have hR0 : 1 / 10 ^ 107 ≤ σ / |γ| := by
      rw [le_div_iff₀ γ0]
      have : (1 : ℝ) / 10 ^ 107 * |γ| ≤ 1 / 10 ^ 107 * 2 ^ 20 := mul_le_mul_of_nonneg_left γ1 (by norm_num)
      have : (1 : ℝ) / 10 ^ 107 * 2 ^ 20 ≤ 1 / 10 ^ 100 := by norm_num
      linarith
    have hdiv : |toR s.tail.sigma / toR s.tail.gamma| ≤ 10 ^ 250 := by
      rw [← hσ, ← hγ, hRa]; exact hR1.trans (by norm_num)
    obtain ⟨fρ, gρ⟩ := acc_div F.sigma.1 F.gamma.1 (by rw [← hγ]; exact hγ0) hdiv
    rw [← hσ, ← hγ] at gρ
    set ρ := toR (s.tail.sigma /. s.tail.gamma) with hρ
    set c := toR (y -. lit 1) with hc
    have hru : ru ≤ 1 := by unfold ru; norm_num
    have ht1 : tiny ≤ 1 := by unfold tiny; norm_num
    have hρa : |ρ| ≤ 10 ^ 132 := by
      have := abs_add_le (ρ - σ / γ) (σ / γ)
      rw [sub_add_cancel, hRa] at this
      rw [hRa] at gρ
      have b : ru * (σ / |γ|) ≤ 1 * (σ / |γ|) := mul_le_mul_of_nonneg_right hru (by positivity)
      have : (3 * 10 ^ 130 : ℝ) ≤ 10 ^ 132 := by norm_num
      have : (1 : ℝ) ≤ 10 ^ 130 := by norm_num
      linarith
    have hca : |c| ≤ 10 ^ 46 := by
      have := abs_add_le (c - (toR y - 1)) (toR y - 1)
      rw [sub_add_cancel] at this
      have b : ru * |toR y - 1| ≤ 1 * |toR y - 1| := mul_le_mul_of_nonneg_right hru (by positivity)
      have : (3 * 10 ^ 45 : ℝ) ≤ 10 ^ 46 := by norm_num
      have : (1 : ℝ) ≤ 10 ^ 45 := by norm_num
      linarith
    obtain ⟨fx, gx⟩ := acc_mul fρ fc (by
      rw [abs_mul]; exact (mul_le_mul hρa hca (abs_nonneg _) (by norm_num)).trans (by norm_num))
    have hmain := acc_quant_aux hRa hw1.1 hR0 B0 y3 gc gρ gx
    have hTa : |σ / γ * (w - 1)| ≤ 10 ^ 190 := by
      rw [abs_mul, hRa]
      have : |w - 1| ≤ 10 ^ 45 := by
        have := abs_sub w 1
        rw [abs_one, abs_of_pos w0] at this
        have : (10 ^ 44 + 1 : ℝ) ≤ 10 ^ 45 := by norm_num
        linarith
      exact (mul_le_mul hR1 this (abs_nonneg _) (by norm_num)).trans (by norm_num)
    have hRw : σ / |γ| * w ≤ 10 ^ 180 := (mul_le_mul hR1 hw1.2 w0.le (by norm_num)).trans (by norm_num)
    have hRw0 : 0 ≤ σ / |γ| * w := by positivity
    have hRwB : σ / |γ| * w * B ≤ σ / |γ| * w := by
      have := mul_le_mul_of_nonneg_left B1 hRw0
      linarith
    have hRwB0 : 0 ≤ σ / |γ| * w * B := by positivity
    rw [← hT] at hmain hTa
    have hfin := fin _ _ (σ * w * (2 * (κ * |Real.log Q|) + (1 + 1 / |γ|) / 10 ^ 14)) fx hmain
      (hTa.trans (by norm_num))
      (by
        have : (4 * 10 ^ 190 : ℝ) ≤ 10 ^ 200 := by norm_num
        have : (10 : ℝ) ^ 180 ≤ 10 ^ 190 := by norm_num
        linarith)
      (by
        have e1 : σ / |γ| * w * B = 13 / 10 * (σ * w * (κ * |Real.log Q|)) + (24 / 10 ^ 16 + 16 / 10 * (3 / 10 ^ 16)) * (σ * w) +
            5 / 10 ^ 15 * (σ / |γ| * w) := by rw [hB]; field_simp; ring
        have e2 : σ * w * (2 * (κ * |Real.log Q|) + (1 + 1 / |γ|) / 10 ^ 14) =
            2 * (σ * w * (κ * |Real.log Q|)) + 1 / 10 ^ 14 * (σ * w) + 1 / 10 ^ 14 * (σ / |γ| * w) := by field_simp; ring
        have a1 : 0 ≤ σ * w * (κ * |Real.log Q|) := by positivity
        have a2 : 0 ≤ σ * w := by positivity
        have a6 := abs_nonneg (Spec.gpdQuantile γ σ Q)
        have a3 : tiny ≤ 1 / 10 ^ 20 * (σ * w) := by
          have : (1 : ℝ) / 10 ^ 100 * (1 / 10 ^ 44) ≤ σ * w := mul_le_mul o2 hw1.1 (by norm_num) σ0.le
          have : tiny ≤ 1 / 10 ^ 20 * (1 / 10 ^ 100 * (1 / 10 ^ 44)) := by unfold tiny; norm_num
          linarith
        rw [e1, e2]
        linarith)
    exact ⟨hfin.1, fun h => absurd h hγ0, fun _ => hfin.2⟩

/-! ### C90 -/

namespace Spec

/-- the probability that an observation lies beyond `z`; a proportion `P` lies beyond the threshold `t` -/
noncomputable def spotProbability (low : Prop) [Decidable low] (t γ σ P z : ℝ) : ℝ :=
  P * gpdSurvival γ σ ((if low then -1 else 1) * (z - t))

end Spec

/-- In binary64, rounding errors included: on a fitted detector with ordinary parameters, `spot_probability` returns a finite number, and
its relative distance to the exact probability given by the model is bounded.
Missing (false in general, `C90_false`): the points close to the end of the support, and the shapes close to 0. -/
theorem C90_partial (s : Spot F64) (low : Prop) [Decidable low] (F : FittedF64 s low) (O : Spec.Ordinary s) (z : F64) (hz : isFin z)
    (P D γ σ t : ℝ) (hP : P = (s.Nt.toNat : ℝ) / s.n.toNat) (hγ : γ = toR s.tail.gamma) (hσ : σ = toR s.tail.sigma)
    (ht : t = toR s.excess_threshold) (hD : D = (if low then -1 else 1) * (toR z - t)) :
    (γ = 0 → |D / σ| ≤ 400 → ∃ p, spot_probability (codeMath muslFU) s z = .ok p ∧ isFin p ∧
      |toR p - Spec.spotProbability low t γ σ P (toR z)| ≤
        Spec.spotProbability low t γ σ P (toR z) * (5 / 10 ^ 15 + 6 / 10 ^ 16 * |D / σ|)) ∧
    (∀ v, v = 1 + γ * D / σ → 1 / 2 ^ 20 ≤ |γ| → 1 / 10 ^ 5 ≤ v → v ≤ 10 ^ 100 → |Real.log v / γ| ≤ 100 →
      ∃ p, spot_probability (codeMath muslFU) s z = .ok p ∧ isFin p ∧
      |toR p - Spec.spotProbability low t γ σ P (toR z)| ≤ Spec.spotProbability low t γ σ P (toR z) *
        ((2 * (Spec.logErr v * |Real.log v|) + 3 / 10 ^ 15 + 1 / 10 ^ 15 * ((1 + |γ * D / σ|) / v)) / |γ| + 6 / 10 ^ 15)) := by
  obtain ⟨S1, P0, P1, hS⟩ := acc_prop F.Nt F.le F.n
  rw [← hP] at P0 P1 hS
  obtain ⟨o1, ⟨o2, o3⟩, o4⟩ := O
  rw [← hσ] at o2 o3
  rw [← hγ] at o4
  rw [← ht] at o1
  have σ0 : 0 < σ := lt_of_lt_of_le (by norm_num) o2
  have P0' : 0 < P := lt_of_lt_of_le (by norm_num) P0
  -- the distance to the threshold
  have hdist : |D| ≤ 10 ^ 220 → isFin (s.up_down *. (z -. s.excess_threshold)) ∧
      |toR (s.up_down *. (z -. s.excess_threshold)) - D| ≤ ru * |D| + tiny := by
    intro hDa
    have hDz : |D| = |toR z - t| := by
      rw [hD, abs_mul]; split_ifs <;> simp
    obtain ⟨f, g⟩ := acc_sub hz F.et (by rw [← ht, ← hDz]; exact hDa.trans (by norm_num))
    rw [← ht, ← hDz] at g
    rcases F.mul_up_down (z -. s.excess_threshold) with ⟨hl, e⟩ | ⟨hl, e⟩
    · rw [e]
      rw [if_neg hl, _root_.one_mul] at hD
      rw [hD] at g ⊢
      exact ⟨f, g⟩
    · rw [e]
      rw [if_pos hl] at hD
      refine ⟨isFin_neg.mpr f, ?_⟩
      rw [show toR (F64.neg (z -. s.excess_threshold)) = -toR (z -. s.excess_threshold) from toR_neg' _]
      rw [show -toR (z -. s.excess_threshold) - D = -(toR (z -. s.excess_threshold) - (toR z - t)) by rw [hD]; ring, abs_neg]
      exact g
  have hSa : |toR (lit (s.Nt.toNat : ℚ) /. lit (s.n.toNat : ℚ) : F64)| ≤ 2 := by
    have := abs_add_le (toR (lit (s.Nt.toNat : ℚ) /. lit (s.n.toNat : ℚ) : F64) - P) P
    rw [sub_add_cancel, abs_of_pos P0'] at this
    linarith
  constructor
  · intro hγ0 hA
    have hg : isFin s.tail.gamma ∧ toQ s.tail.gamma = 0 := ⟨F.gamma.1, by
      rw [hγ0] at hγ; unfold toR at hγ; exact_mod_cast hγ.symm⟩
    have hDb : |D| ≤ 400 * σ := by
      rw [abs_div, abs_of_pos σ0, div_le_iff₀ σ0] at hA; exact hA
    obtain ⟨fd, gd⟩ := hdist (hDb.trans (by
      have : (400 : ℝ) * 10 ^ 100 ≤ 10 ^ 220 := by norm_num
      linarith))
    set d := s.up_down *. (z -. s.excess_threshold) with hd
    have fnd : isFin (-. d) := isFin_neg.mpr fd
    have hda : |toR d| ≤ 10 ^ 120 := by
      have := abs_add_le (toR d - D) D
      rw [sub_add_cancel] at this
      have a : ru * |D| ≤ 1 * |D| := mul_le_mul_of_nonneg_right (by unfold ru; norm_num) (abs_nonneg _)
      have b : tiny ≤ 1 := by unfold tiny; norm_num
      have : (801 * 10 ^ 100 : ℝ) ≤ 10 ^ 120 := by norm_num
      have : (1 : ℝ) ≤ 10 ^ 100 := by norm_num
      linarith
    obtain ⟨fa, ga⟩ := acc_div fnd F.sigma.1 (by rw [← hσ]; exact σ0.ne') (by
      rw [toR_neg', ← hσ, abs_div, abs_neg, abs_of_pos σ0, div_le_iff₀ σ0]
      have : (10 : ℝ) ^ 250 * (1 / 10 ^ 100) ≤ 10 ^ 250 * σ := mul_le_mul_of_nonneg_left o2 (by norm_num)
      have : (10 : ℝ) ^ 120 ≤ 10 ^ 250 * (1 / 10 ^ 100) := by norm_num
      linarith)
    rw [toR_neg', ← hσ] at ga
    have hAe := acc_expo_aux (A := -D / σ) o2 rfl gd ga
    set a := toR ((-. d) /. s.tail.sigma) with ha
    have hAA : |-D / σ| = |D / σ| := by rw [neg_div, abs_neg]
    rw [hAA] at hAe
    have aa : |a - -D / σ| ≤ 1 / 100 := by linarith
    have haa : |a| ≤ |D / σ| + (23 / 10 ^ 17 * |D / σ| + 1 / 10 ^ 100) := by
      have := abs_add_le (a - -D / σ) (-D / σ)
      rw [sub_add_cancel, hAA] at this
      linarith
    have ha1 : |a| ≤ 401 := by linarith
    obtain ⟨c1, c2⟩ := abs_le.mp ha1
    obtain ⟨y, y1, y2, y3⟩ := C67_accuracy ((-. d) /. s.tail.sigma) fa (by rw [← ha]; linarith) (by rw [← ha]; linarith)
    have y1' : (codeMath muslFU).exp ((-. d) /. s.tail.sigma) = .ok y := y1
    rw [← ha] at y3
    have hpert := exp_pert hAe (by linarith)
    have w0 := Real.exp_pos (-D / σ)
    set w := Real.exp (-D / σ) with hw
    have hw1 : 1 / 10 ^ 180 ≤ w := by
      have h4 : Real.exp (-400) = Real.exp (-100) ^ 4 := by rw [← Real.exp_nat_mul]; norm_num
      have : (1 / 10 ^ 44 : ℝ) ^ 4 ≤ Real.exp (-100) ^ 4 := pow_le_pow_left₀ (by norm_num) exp100.2 4
      have h5 : Real.exp (-400) ≤ w := Real.exp_le_exp.mpr (by
        have := (abs_le.mp (hAA.trans_le hA)).1; linarith)
      have : (1 : ℝ) / 10 ^ 180 ≤ (1 / 10 ^ 44) ^ 4 := by norm_num
      linarith
    have hw2 : w ≤ 10 ^ 180 := by
      have h4 : Real.exp 400 = Real.exp 100 ^ 4 := by rw [← Real.exp_nat_mul]; norm_num
      have : Real.exp 100 ^ 4 ≤ (10 ^ 44 : ℝ) ^ 4 := pow_le_pow_left₀ (Real.exp_pos _).le exp100.1 4
      have h5 : w ≤ Real.exp 400 := Real.exp_le_exp.mpr (by
        have := (abs_le.mp (hAA.trans_le hA)).2; linarith)
      have : (10 ^ 44 : ℝ) ^ 4 ≤ 10 ^ 180 := by norm_num
      linarith
    have s100 : (1 : ℝ) / 10 ^ 100 ≤ 1 / 10 ^ 30 := by norm_num
    have hexp : Real.exp a ≤ 101 / 100 * w := by
      obtain ⟨-, b2⟩ := abs_le.mp hpert
      have : 11 / 10 * (23 / 10 ^ 17 * |D / σ| + 1 / 10 ^ 100) * w ≤ 1 / 100 * w := mul_le_mul_of_nonneg_right (by linarith) w0.le
      linarith
    have A0 := abs_nonneg (D / σ)
    have hyB : |toR y - w| ≤ w * (42 / 10 ^ 16 + 5 / 10 ^ 16 * |D / σ|) := by
      have t := abs_add_le (toR y - Real.exp a) (Real.exp a - w)
      rw [sub_add_sub_cancel] at t
      have h1 : (4 / 10 ^ 15 + 2 / 10 ^ 16 * |a|) * Real.exp a ≤ (4 / 10 ^ 15 + 2 / 10 ^ 16 * (|D / σ| + (23 / 10 ^ 17 * |D / σ| + 1 / 10 ^ 30))) * (101 / 100 * w) :=
        mul_le_mul (by linarith) hexp (Real.exp_pos _).le (by positivity)
      have h2 : 11 / 10 * (23 / 10 ^ 17 * |D / σ| + 1 / 10 ^ 100) * w ≤ 11 / 10 * (23 / 10 ^ 17 * |D / σ| + 1 / 10 ^ 30) * w :=
        mul_le_mul_of_nonneg_right (by linarith) w0.le
      have h3 : |toR y - w| ≤ ((4 / 10 ^ 15 + 2 / 10 ^ 16 * (|D / σ| + (23 / 10 ^ 17 * |D / σ| + 1 / 10 ^ 30))) * (101 / 100) +
          11 / 10 * (23 / 10 ^ 17 * |D / σ| + 1 / 10 ^ 30)) * w := by linarith
      refine h3.trans ?_
      rw [mul_comm]
      exact mul_le_mul_of_nonneg_left (by linarith) w0.le
    have B1 : (42 / 10 ^ 16 + 5 / 10 ^ 16 * |D / σ|) ≤ 1 := by linarith
    have hya : |toR y| ≤ 10 ^ 190 := by
      have := abs_add_le (toR y - w) w
      rw [sub_add_cancel, abs_of_pos w0] at this
      have h : w * (42 / 10 ^ 16 + 5 / 10 ^ 16 * |D / σ|) ≤ w * 1 := mul_le_mul_of_nonneg_left B1 w0.le
      have : (2 * 10 ^ 180 : ℝ) ≤ 10 ^ 190 := by norm_num
      linarith
    obtain ⟨fp, gp⟩ := acc_mul S1 y2 (by
      rw [abs_mul]; exact (mul_le_mul hSa hya (abs_nonneg _) (by norm_num)).trans (by norm_num))
    have hfin := acc_scale P0 hw1 hS hyB (by positivity) B1 gp
    refine ⟨_, ?_, fp, ?_⟩
    · unfold spot_probability tail_probability
      dsimp only
      rw [if_pos ((eq_zero_iff _).mpr hg), ← hd, y1']
      rfl
    · have hsp : Spec.spotProbability low t γ σ P (toR z) = P * w := by
        unfold Spec.spotProbability Spec.gpdSurvival
        rw [if_pos hγ0, ← hD]
      rw [hsp]
      refine hfin.trans (mul_le_mul_of_nonneg_left ?_ (by positivity))
      linarith
  · intro v hv γ0 v0 v1 hlog
    have γ1 : |γ| ≤ 2 ^ 20 := by
      rw [hγ]; unfold toR; exact_mod_cast F.gamma.2
    have γp : 0 < |γ| := lt_of_lt_of_le (by norm_num) γ0
    have hγ0 : γ ≠ 0 := abs_pos.mp γp
    have hg : toQ s.tail.gamma ≠ 0 := by
      intro h; apply hγ0; rw [hγ]; unfold toR; rw [h]; norm_num
    have vp : 0 < v := lt_of_lt_of_le (by norm_num) v0
    set U := γ * D / σ with hU
    have U0 := abs_nonneg U
    have hUa : |U| ≤ 1 + v := by
      rw [hv] at vp ⊢
      rw [abs_le]; constructor <;> linarith
    have hUb : |U| ≤ 2 * 10 ^ 100 := by
      have : (1 : ℝ) ≤ 10 ^ 100 := by norm_num
      linarith
    have hDb : |D| ≤ 10 ^ 220 := by
      have e : |D| * |γ| = |U| * σ := by
        rw [hU, abs_div, abs_mul, abs_of_pos σ0]; field_simp
      have h1 : |U| * σ ≤ 2 * 10 ^ 100 * 10 ^ 100 := mul_le_mul hUb o3 σ0.le (by norm_num)
      have h2 : |D| * (1 / 2 ^ 20) ≤ |D| * |γ| := mul_le_mul_of_nonneg_left γ0 (abs_nonneg _)
      have : (2 ^ 20 * (2 * 10 ^ 100 * 10 ^ 100) : ℝ) ≤ 10 ^ 220 := by norm_num
      linarith
    obtain ⟨fd, gd⟩ := hdist hDb
    set d := s.up_down *. (z -. s.excess_threshold) with hd
    have hKa : |γ / σ| ≤ 10 ^ 107 := by
      rw [abs_div, abs_of_pos σ0, div_le_iff₀ σ0]
      have : (10 : ℝ) ^ 107 * (1 / 10 ^ 100) ≤ 10 ^ 107 * σ := mul_le_mul_of_nonneg_left o2 (by norm_num)
      have : (2 : ℝ) ^ 20 ≤ 10 ^ 107 * (1 / 10 ^ 100) := by norm_num
      linarith
    obtain ⟨fk, gk⟩ := acc_div F.gamma.1 F.sigma.1 (by rw [← hσ]; exact σ0.ne') (by
      rw [← hσ, ← hγ]; exact hKa.trans (by norm_num))
    rw [← hσ, ← hγ] at gk
    set k := s.tail.gamma /. s.tail.sigma with hk
    -- the first half of the lemma does not use the last two roundings
    have hdk := (acc_base_aux (r := toR d * toR k) (v := 1 + toR d * toR k) o2 o3 γ0 γ1 hU gd gk
      (by rw [sub_self, abs_zero]; have := tiny_pos; unfold ru; positivity)
      (by rw [sub_self, abs_zero]; have := tiny_pos; unfold ru; positivity)).1
    have s120 : (1 : ℝ) / 10 ^ 120 ≤ 1 := by norm_num
    have hdka : |toR d * toR k| ≤ 10 ^ 102 := by
      have := abs_add_le (toR d * toR k - U) U
      rw [sub_add_cancel] at this
      have : (2 * (2 * 10 ^ 100) + 1 : ℝ) ≤ 10 ^ 102 := by norm_num
      linarith
    obtain ⟨fr, gr⟩ := acc_mul fd fk (hdka.trans (by norm_num))
    have hra : |toR (d *. k)| ≤ 10 ^ 104 := by
      have := abs_add_le (toR (d *. k) - toR d * toR k) (toR d * toR k)
      rw [sub_add_cancel] at this
      have a : ru * |toR d * toR k| ≤ 1 * |toR d * toR k| := mul_le_mul_of_nonneg_right (by unfold ru; norm_num) (abs_nonneg _)
      have b : tiny ≤ 1 := by unfold tiny; norm_num
      have : (2 * 10 ^ 102 + 1 : ℝ) ≤ 10 ^ 104 := by norm_num
      linarith
    have hone : isFin (lit 1 : F64) ∧ toR (lit 1 : F64) = 1 := by
      refine ⟨by decide +kernel, ?_⟩
      unfold toR
      rw [show toQ (lit 1 : F64) = 1 by decide +kernel]; norm_num
    obtain ⟨fv, gv⟩ := acc_add hone.1 fr (by
      rw [hone.2]
      have := abs_add_le 1 (toR (d *. k))
      rw [abs_one] at this
      have : (1 + 10 ^ 104 : ℝ) ≤ 10 ^ 250 := by norm_num
      linarith)
    rw [hone.2] at gv
    have hvv := (acc_base_aux o2 o3 γ0 γ1 hU gd gk gr gv).2
    rw [← hv] at hvv
    set e := 5 / 10 ^ 16 * ((1 + |U|) / v) with he
    have e0 : 0 ≤ e := by positivity
    have hev : 5 / 10 ^ 16 * (1 + |U|) = e * v := by rw [he]; field_simp
    rw [hev] at hvv
    have hratio : (1 + |U|) / v ≤ 3 * 10 ^ 5 := by
      rw [div_le_iff₀ vp]
      rcases le_total 0 U with h | h
      · rw [abs_of_nonneg h, ← hv]; linarith
      · rw [abs_of_nonpos h]
        rw [hv] at v0 vp ⊢
        linarith
    have e1 : e ≤ 15 / 10 ^ 11 := by rw [he]; linarith
    have hX : |(-1 : ℝ) / γ| = 1 / |γ| := by rw [abs_div, abs_neg, abs_one]
    have X1 : 1 / |γ| ≤ 2 ^ 20 := by
      rw [div_le_iff₀ γp]
      have : (2 : ℝ) ^ 20 * (1 / 2 ^ 20) ≤ 2 ^ 20 * |γ| := mul_le_mul_of_nonneg_left γ0 (by norm_num)
      have : (1 : ℝ) ≤ 2 ^ 20 * (1 / 2 ^ 20) := by norm_num
      linarith
    have X0 : 1 / 2 ^ 20 ≤ 1 / |γ| := one_div_le_one_div_of_le γp γ1
    have hmone : isFin (lit (-1) : F64) ∧ toR (lit (-1) : F64) = -1 := by
      refine ⟨by decide +kernel, ?_⟩
      unfold toR
      rw [show toQ (lit (-1) : F64) = -1 by decide +kernel]; norm_num
    obtain ⟨fx, gx⟩ := acc_div hmone.1 F.gamma.1 (by rw [← hγ]; exact hγ0) (by
      rw [hmone.2, ← hγ, hX]; exact X1.trans (by norm_num))
    rw [hmone.2, ← hγ] at gx
    have hXL : -1 / γ * Real.log v = -(Real.log v / γ) := by ring
    obtain ⟨y, y1, y2, y3⟩ := acc_pow (X := -1 / γ) fv fx vp hvv (e1.trans (by norm_num))
      (by
        refine gx.trans ?_
        rw [hX]
        have a : ru * (1 / |γ|) ≤ 112 / 10 ^ 18 * (1 / |γ|) := mul_le_mul_of_nonneg_right (by unfold ru; norm_num) (by positivity)
        have b : tiny ≤ 1 / 10 ^ 30 * (1 / 2 ^ 20) := by unfold tiny; norm_num
        linarith)
      (by rw [hX]; linarith) (by rw [hX]; exact X1)
      (by
        rw [hX]
        have : 1 / |γ| * e ≤ 2 ^ 20 * (15 / 10 ^ 11) := mul_le_mul X1 e1 e0 (by norm_num)
        linarith)
      (by rw [hXL, abs_neg]; exact hlog)
    rw [hX] at y3
    have hw : v ^ (-1 / γ) = Real.exp (-1 / γ * Real.log v) := by rw [Real.rpow_def_of_pos vp, mul_comm]
    have hw1 : 1 / 10 ^ 44 ≤ v ^ (-1 / γ) ∧ v ^ (-1 / γ) ≤ 10 ^ 44 := by
      rw [hw, hXL]
      obtain ⟨p1, p2⟩ := abs_le.mp hlog
      exact ⟨exp100.2.trans (Real.exp_le_exp.mpr (by linarith)), (Real.exp_le_exp.mpr (by linarith)).trans exp100.1⟩
    rw [← hw] at y3
    obtain ⟨k1, k2⟩ := logErr_bounds v
    have L0 := abs_nonneg (Real.log v)
    have hγL : 1 / |γ| * |Real.log v| ≤ 100 := by
      rw [abs_div] at hlog
      rw [one_div_mul_eq_div]; exact hlog
    set w := v ^ (-1 / γ) with hwd
    set κ := Spec.logErr v with hκ
    have w0 : 0 < w := lt_of_lt_of_le (by norm_num) hw1.1
    set B := 1 / |γ| * (13 / 10 * (κ * |Real.log v|) + 24 / 10 ^ 16 + 16 / 10 * e) + 5 / 10 ^ 15 with hB
    have B0 : 0 ≤ B := by positivity
    have B1 : B ≤ 1 := by
      have a : κ * (1 / |γ| * |Real.log v|) ≤ 11 / 10 ^ 10 * 100 := mul_le_mul k2 hγL (by positivity) (by norm_num)
      have b : 1 / |γ| * e ≤ 2 ^ 20 * (15 / 10 ^ 11) := mul_le_mul X1 e1 e0 (by norm_num)
      have eB : B = 13 / 10 * (κ * (1 / |γ| * |Real.log v|)) + 24 / 10 ^ 16 * (1 / |γ|) + 16 / 10 * (1 / |γ| * e) + 5 / 10 ^ 15 := by rw [hB]; ring
      rw [eB]; linarith
    have hya : |toR y| ≤ 10 ^ 45 := by
      have := abs_add_le (toR y - w) w
      rw [sub_add_cancel, abs_of_pos w0] at this
      have h : w * B ≤ w * 1 := mul_le_mul_of_nonneg_left B1 w0.le
      have : (2 * 10 ^ 44 : ℝ) ≤ 10 ^ 45 := by norm_num
      linarith
    obtain ⟨fp, gp⟩ := acc_mul S1 y2 (by
      rw [abs_mul]; exact (mul_le_mul hSa hya (abs_nonneg _) (by norm_num)).trans (by norm_num))
    have hfin := acc_scale P0 (hw1.1.trans' (by norm_num)) hS y3 B0 B1 gp
    refine ⟨_, ?_, fp, ?_⟩
    · unfold spot_probability tail_probability
      dsimp only
      rw [if_neg fun e => hg ((eq_zero_iff _).mp e).2, ← hd, y1]
      rfl
    · have hsp : Spec.spotProbability low t γ σ P (toR z) = P * w := by
        unfold Spec.spotProbability Spec.gpdSurvival
        rw [if_neg hγ0, ← hD, ← hU, ← hv]
      rw [hsp]
      refine hfin.trans (mul_le_mul_of_nonneg_left ?_ (by positivity))
      have eB : B = 13 / 10 * (κ * |Real.log v| * (1 / |γ|)) + 24 / 10 ^ 16 * (1 / |γ|) + 16 / 10 * (1 / |γ| * e) + 5 / 10 ^ 15 := by rw [hB]; ring
      have eG : (2 * (κ * |Real.log v|) + 3 / 10 ^ 15 + 1 / 10 ^ 15 * ((1 + |U|) / v)) / |γ| + 6 / 10 ^ 15 =
          2 * (κ * |Real.log v| * (1 / |γ|)) + 3 / 10 ^ 15 * (1 / |γ|) + 2 * (1 / |γ| * e) + 6 / 10 ^ 15 := by rw [he]; ring
      rw [eB, eG]
      have a1 : 0 ≤ κ * |Real.log v| * (1 / |γ|) := by positivity
      have a2 : 0 ≤ 1 / |γ| := by positivity
      have a3 : 0 ≤ 1 / |γ| * e := by positivity
      linarith

/-! ### Witnesses -/

/-- a detector that does not discard anomalies -/
def Sample.keep : ℤ × Spot F64 × Heap F64 :=
  spot_init Sample.lib Sample.emptyHeap Sample.zeroed (lit (1 / 100)) 0 0 (lit (9 / 10)) 20

/-- five observations around 0, then an observation of about 12.245: the excesses 1, 2 and 12.245 have a variance equal to the square
of their mean up to rounding, so that the method of moments finds a shape of -2^-53 -/
def Sample.flatOps : List (Op F64) :=
  [.fit [lit (-2), lit (-1), lit 0, lit 1, lit 2] 5, .step (lit (1723330263210609 / 140737488355328)), .quantile (lit (1 / 4)),
    .probability (lit (5 / 2))]

/-- the final state of that history, with the results of its calls -/
theorem Sample.flat_run : ∃ s h, runOps (codeMath muslFU) Sample.keep.2.2 Sample.keep.2.1 Sample.flatOps =
      .ok ([.code 0, .code 1, .value (lit 0), .value (lit (1 / 2))], s, h) ∧ FittedF64 s ((0 : ℤ) ≠ 0) ∧
    toQ s.tail.gamma = -1 / 2 ^ 53 ∧ toQ s.tail.sigma = 715180909425531 / 140737488355328 ∧ s.Nt.toNat = 3 ∧ s.n.toNat = 6 ∧
    toQ s.excess_threshold = 0 := by
  have hd : (match runOps (codeMath muslFU) Sample.keep.2.2 Sample.keep.2.1 Sample.flatOps with
    | .ok r => decide (r.1 = [.code 0, .code 1, .value (lit 0), .value (lit (1 / 2))]) && Sample.fittedB r.2.1 &&
      decide (toQ r.2.1.tail.gamma = -1 / 2 ^ 53) && decide (toQ r.2.1.tail.sigma = 715180909425531 / 140737488355328) &&
      decide (r.2.1.Nt.toNat = 3 ∧ r.2.1.n.toNat = 6) && decide (toQ r.2.1.excess_threshold = 0)
    | .error _ => false) = true := by decide +kernel
  cases hr : runOps (codeMath muslFU) Sample.keep.2.2 Sample.keep.2.1 Sample.flatOps with
  | error e => rw [hr] at hd; cases hd
  | ok r =>
    rw [hr] at hd
    simp only [Bool.and_eq_true, decide_eq_true_iff] at hd
    obtain ⟨⟨⟨⟨⟨h1, h2⟩, h3⟩, h4⟩, h5⟩, h6⟩ := hd
    exact ⟨r.2.1, r.2.2, by rw [← h1], Sample.fitted_of h2, h3, h4, h5.1, h5.2, h6⟩

/-- the quantile of 1/4 in that state -/
theorem Sample.flat_quantile {s : Spot F64} (g : toQ s.tail.gamma = -1 / 2 ^ 53) (si : toQ s.tail.sigma = 715180909425531 / 140737488355328)
    (hN : s.Nt.toNat = 3) (hn : s.n.toNat = 6) (ht : toQ s.excess_threshold = 0) :
    3 < Spec.spotQuantile ((0 : ℤ) ≠ 0) (toR s.excess_threshold) (toR s.tail.gamma) (toR s.tail.sigma)
      ((s.Nt.toNat : ℝ) / s.n.toNat) (1 / 4) := by
  unfold Spec.spotQuantile Spec.gpdQuantile toR
  rw [g, si, hN, hn, ht, if_neg (by simp), if_neg (by norm_num)]
  push_cast
  have hp : ((1 : ℝ) / 4 / (3 / 6)) = 2⁻¹ := by norm_num
  rw [hp, Real.rpow_def_of_pos (by norm_num), Real.log_inv]
  have l1 := Real.log_two_gt_d9
  have l2 := Real.log_two_lt_d9
  have hx : |-Real.log 2 * -(-1 / 2 ^ 53)| ≤ 1 := by
    rw [abs_le]; constructor <;> linarith
  have he := abs_le.mp (Real.abs_exp_sub_one_sub_id_le hx)
  have hsq : (-Real.log 2 * -(-1 / 2 ^ 53)) ^ 2 ≤ 1 / 2 ^ 106 := by
    have : Real.log 2 ^ 2 ≤ 1 := by nlinarith
    have e : (-Real.log 2 * -(-1 / 2 ^ 53)) ^ 2 = Real.log 2 ^ 2 * (1 / 2 ^ 106) := by ring
    rw [e]; linarith
  set E := Real.exp (-Real.log 2 * -(-1 / 2 ^ 53)) with hE
  have hE1 : E - 1 ≤ -(Real.log 2) * (1 / 2 ^ 53) + 1 / 2 ^ 106 := by linarith [he.2]
  have h2 : (715180909425531 / 140737488355328 : ℝ) / (-1 / 2 ^ 53) * (E - 1) = 715180909425531 / 140737488355328 * 2 ^ 53 * (1 - E) := by ring
  rw [h2]
  linarith

/-- C89 does not hold for all fitted detectors: after five observations around 0 and an observation of about 12.245, the quantile of
1/4 is 0, i.e. the excess threshold, whereas the quantile of the model is greater than 3. -/
theorem C89_false : ∃ s h, runOps (codeMath muslFU) Sample.keep.2.2 Sample.keep.2.1 Sample.flatOps =
      .ok ([.code 0, .code 1, .value (lit 0), .value (lit (1 / 2))], s, h) ∧ FittedF64 s ((0 : ℤ) ≠ 0) ∧ toR (lit 0 : F64) = 0 ∧
    3 < Spec.spotQuantile ((0 : ℤ) ≠ 0) (toR s.excess_threshold) (toR s.tail.gamma) (toR s.tail.sigma)
      ((s.Nt.toNat : ℝ) / s.n.toNat) (1 / 4) := by
  obtain ⟨s, h, hr, F, g, si, hN, hn, ht⟩ := Sample.flat_run
  refine ⟨s, h, hr, F, ?_, ?_⟩
  · unfold toR; rw [show toQ (lit 0 : F64) = 0 by decide +kernel]; norm_num
  exact Sample.flat_quantile g si hN hn ht

/-- C90 does not hold for all fitted detectors: in the same state, the probability of exceeding 5/2 is 1/2, i.e. the proportion of
excesses, whereas the probability given by the model is smaller than 9/25. -/
theorem C90_false : ∃ s h, runOps (codeMath muslFU) Sample.keep.2.2 Sample.keep.2.1 Sample.flatOps =
      .ok ([.code 0, .code 1, .value (lit 0), .value (lit (1 / 2))], s, h) ∧ FittedF64 s ((0 : ℤ) ≠ 0) ∧ toR (lit (1 / 2) : F64) = 1 / 2 ∧
    Spec.spotProbability ((0 : ℤ) ≠ 0) (toR s.excess_threshold) (toR s.tail.gamma) (toR s.tail.sigma)
      ((s.Nt.toNat : ℝ) / s.n.toNat) (5 / 2) < 9 / 25 := by
  obtain ⟨s, h, hr, F, g, si, hN, hn, ht⟩ := Sample.flat_run
  refine ⟨s, h, hr, F, ?_, ?_⟩
  · unfold toR; rw [show toQ (lit (1 / 2) : F64) = 1 / 2 by decide +kernel]; norm_num
  unfold Spec.spotProbability Spec.gpdSurvival toR
  rw [g, si, hN, hn, ht, if_neg (by simp), if_neg (by norm_num)]
  push_cast
  set u : ℝ := 1 + -1 / 2 ^ 53 * (1 * (5 / 2 - 0)) / (715180909425531 / 140737488355328) with hu
  have u0 : 0 < u := by rw [hu]; norm_num
  rw [Real.rpow_def_of_pos u0]
  have h1 := Real.log_le_sub_one_of_pos u0
  have hl : Real.log u * (-1 / (-1 / 2 ^ 53)) ≤ -(49 / 100) := by
    have e : Real.log u * (-1 / (-1 / 2 ^ 53)) = 2 ^ 53 * Real.log u := by ring
    rw [e]
    have : (2 : ℝ) ^ 53 * Real.log u ≤ 2 ^ 53 * (u - 1) := mul_le_mul_of_nonneg_left h1 (by norm_num)
    have h2 : (2 : ℝ) ^ 53 * (u - 1) ≤ -(49 / 100) := by rw [hu]; norm_num
    exact le_trans this h2
  have h3 := Real.exp_le_exp.mpr hl
  have h4 : Real.exp (-(49 / 100)) ≤ 100 / 149 := by
    rw [Real.exp_neg, inv_le_comm₀ (Real.exp_pos _) (by norm_num)]
    have := Real.add_one_le_exp (49 / 100 : ℝ)
    norm_num at this ⊢
    linarith
  have h5 : Real.exp (Real.log u * (-1 / (-1 / 2 ^ 53))) ≤ 100 / 149 := le_trans h3 h4
  generalize Real.exp (Real.log u * (-1 / (-1 / 2 ^ 53))) = w at h5 ⊢
  have h6 : (3 / 6 : ℝ) * w ≤ 3 / 6 * (100 / 149) := mul_le_mul_of_nonneg_left h5 (by norm_num)
  exact lt_of_le_of_lt h6 (by norm_num)

/-- The hypotheses of `C89_partial` and of `C90_partial` are met by a detector with threshold 0, shape 1 and scale 1 whose only
observation is an excess, for the quantile of 1/1024 and the probability of 3. -/
example : FittedF64 Sample.pareto ((0 : ℤ) ≠ 0) ∧ Spec.Ordinary Sample.pareto ∧ isFin (lit (1 / 1024) : F64) ∧ isFin (lit 3 : F64) ∧
    1 / 10 ^ 100 ≤ toR (lit (1 / 1024) : F64) ∧ toR (lit (1 / 1024) : F64) ≤ 1 ∧
    |toR Sample.pareto.tail.gamma *
      Real.log (toR (lit (1 / 1024) : F64) / ((Sample.pareto.Nt.toNat : ℝ) / Sample.pareto.n.toNat))| ≤ 100 ∧
    1 / 2 ^ 20 ≤ |toR Sample.pareto.tail.gamma| ∧
    (∀ D, D = (if (0 : ℤ) ≠ 0 then -1 else 1) * (toR (lit 3 : F64) - toR Sample.pareto.excess_threshold) →
      1 + toR Sample.pareto.tail.gamma * D / toR Sample.pareto.tail.sigma = 4) ∧ |Real.log 4 / toR Sample.pareto.tail.gamma| ≤ 100 := by
  have hq : toR (lit (1 / 1024) : F64) = 1 / 1024 := by
    unfold toR; rw [show toQ (lit (1 / 1024) : F64) = 1 / 1024 by decide +kernel]; norm_num
  have hz : toR (lit 3 : F64) = 3 := by unfold toR; rw [show toQ (lit 3 : F64) = 3 by decide +kernel]; norm_num
  have hg : toR Sample.pareto.tail.gamma = 1 := by
    unfold toR; rw [show toQ Sample.pareto.tail.gamma = 1 by decide +kernel]; norm_num
  have hs : toR Sample.pareto.tail.sigma = 1 := by
    unfold toR; rw [show toQ Sample.pareto.tail.sigma = 1 by decide +kernel]; norm_num
  have ht : toR Sample.pareto.excess_threshold = 0 := by
    unfold toR; rw [show toQ Sample.pareto.excess_threshold = 0 by decide +kernel]; norm_num
  have hP : ((Sample.pareto.Nt.toNat : ℝ) / Sample.pareto.n.toNat) = 1 := by
    rw [show Sample.pareto.Nt.toNat = 1 by decide +kernel, show Sample.pareto.n.toNat = 1 by decide +kernel]; norm_num
  have l1 := Real.log_two_gt_d9
  have l2 := Real.log_two_lt_d9
  refine ⟨Sample.fitted_of (by decide +kernel), ⟨?_, ?_, ?_⟩, by decide +kernel, by decide +kernel, ?_, ?_, ?_, ?_, ?_, ?_⟩
  · rw [ht]; norm_num
  · rw [hs]; norm_num
  · rw [hg]; norm_num
  · rw [hq]; norm_num
  · rw [hq]; norm_num
  · rw [hg, hq, hP, show (1 / 1024 / 1 : ℝ) = (2 ^ 10)⁻¹ by norm_num, Real.log_inv, Real.log_pow, abs_le]
    push_cast; constructor <;> linarith
  · rw [hg]; norm_num
  · intro D hD
    rw [hg, hs, hD, hz, ht]; norm_num
  · rw [hg, show (4 : ℝ) = 2 ^ 2 by norm_num, Real.log_pow, abs_le]
    push_cast; constructor <;> linarith

/-- The hypotheses on the points of `C90_partial` for a zero shape: threshold, shape 0 and a distance of at most 400 scales. -/
example : FittedF64 Sample.one64 ((0 : ℤ) ≠ 0) ∧ toR Sample.one64.tail.gamma = 0 ∧ Spec.Ordinary Sample.one64 ∧
    |(toR (Sample.one64.excess_threshold) - toR Sample.one64.excess_threshold) / toR Sample.one64.tail.sigma| ≤ 400 := by
  have hg : toR Sample.one64.tail.gamma = 0 := by
    unfold toR; rw [show toQ Sample.one64.tail.gamma = 0 by decide +kernel]; norm_num
  refine ⟨Sample.fitted_of (by decide +kernel), hg, ⟨?_, ?_, Or.inl hg⟩, by simp⟩
  · have h : |toQ Sample.one64.excess_threshold| ≤ 10 ^ 200 := by decide +kernel
    unfold toR; exact_mod_cast h
  · have h : 1 / 10 ^ 100 ≤ toQ Sample.one64.tail.sigma ∧ toQ Sample.one64.tail.sigma ≤ 10 ^ 100 := by decide +kernel
    have h1 := (Rat.cast_le (K := ℝ)).mpr h.1
    push_cast at h1
    unfold toR; exact ⟨h1, by exact_mod_cast h.2⟩

end Verif

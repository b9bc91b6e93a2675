/-
C130: a value beyond the end point of the fitted model is flagged.
-/
import Verif.Props.Threshold
import Verif.Props.Support

namespace Verif
open F64

namespace Spec

/-- the end point `t - σ/γ` of a model with a negative shape (mirrored for the lower tail), computed on doubles -/
def endPoint (low : ℤ) (t γ σ : F64) : F64 := if low ≠ 0 then t +. σ /. γ else t -. σ /. γ

end Spec

namespace EndPoint

theorem add_notNaN {a u : F64} (ha : isFin a) (hu : notNaN u) : notNaN (a +. u) := by
  show notNaN (add a u)
  rcases a with _ | a | ⟨a, b⟩
  · exact absurd ha (by simp [isFin])
  · exact absurd ha (by simp [isFin])
  rcases u with _ | c | ⟨c, d⟩
  · exact absurd rfl hu
  · simp [add, notNaN]
  · exact ofRat_notNaN _ _

/-- the threshold of a detector with a negative shape is NaN or not beyond the end point -/
theorem threshold_le {s : Spot F64} {low : ℤ} (F : FittedF64 s (low ≠ 0)) (g0 : toQ s.tail.gamma < 0) {q z : F64} (hq : isFin q) (q0 : 0 < toQ q)
    (q1 : toQ q ≤ 1) (hz : spot_quantile (codeMath muslFU) s q = .ok z) :
    notNaN (Spec.endPoint low s.excess_threshold s.tail.gamma s.tail.sigma) ∧
    if low ≠ 0 then LeN (Spec.endPoint low s.excess_threshold s.tail.gamma s.tail.sigma) z
    else LeN z (Spec.endPoint low s.excess_threshold s.tail.gamma s.tail.sigma) := by
  obtain ⟨S1, S2, S3, S4⟩ := proportion_pos F.Nt F.le F.n
  obtain ⟨r1, r2, r3⟩ := ratio_pos hq q0 q1 S1 S3 S4
  obtain ⟨y, hy, y0, -, -⟩ := xpow_sign (b := F64.neg s.tail.gamma) r1 r3 (isFin_neg.mpr F.gamma.1)
    (by rw [toQ_neg, abs_neg]; exact F.gamma.2)
  have hform := (quantile_form s q _ rfl).2 g0.ne y hy
  rw [hz] at hform
  have hz := Except.ok.inj hform
  set c := s.tail.sigma /. s.tail.gamma with hc
  have cn : notNaN c := by
    obtain ⟨w, e⟩ := div_fin F.sigma.1 F.gamma.1 g0.ne
    rw [hc, show s.tail.sigma /. s.tail.gamma = F64.div s.tail.sigma s.tail.gamma from rfl, e]
    exact ofRat_notNaN _ _
  have hv : val c ≤ 0 := val_div_nonpos F.sigma.1 F.gamma.1 g0 F.sigma.2.le
  have h1 : LeN (lit (-1)) (y -. lit 1) := by
    have := (LeN.of_le y0).sub_right (lit 1)
    rwa [show F64.sub (lit 0) (lit 1) = lit (-1) by decide +kernel] at this
  have h2 : LeN (c *. (y -. lit 1)) (F64.neg c) := by
    have := h1.mul_left_neg hv
    rwa [show F64.mul c (lit (-1)) = F64.neg c by rw [mul_comm']; exact F64.neg_one_mul c] at this
  unfold Spec.endPoint
  rcases F.mul_up_down (c *. (y -. lit 1)) with ⟨hl, e⟩ | ⟨hl, e⟩
  · rw [if_neg hl, if_neg hl, hz, e]
    exact ⟨add_notNaN F.et (notNaN_neg.mpr cn), h2.add_left _⟩
  · rw [if_pos hl, if_pos hl, hz, e]
    refine ⟨add_notNaN F.et cn, ?_⟩
    have := h2.neg.add_left s.excess_threshold
    rwa [F64.neg_neg] at this

end EndPoint

/-- **C130** (partial). On doubles: a detector reached by calls of the API, just after a fit that returned 0 or a step that returned EXCESS, fitted with moderate
parameters and a negative shape. After any further calls other than `spot_fit` none of which returns EXCESS, a step with a number beyond the computed
end point of the model returns ANOMALY, if anomalies are discarded. Missing: the end point itself, without rounding (`C130_false`). -/
theorem C130_partial (lib : Lib F64) (q level : F64) (low disc : ℤ) (me : UInt64) (s0 : Spot F64) (h0 : Heap F64)
    (R : Reaches (codeMath muslFU) lib q low disc level me s0 h0) (hq : isFin q) (q0 : 0 < toQ q) (q1 : toQ q ≤ 1) (op : Op F64) (hv0 : op.valid) (c : ℤ)
    (s : Spot F64) (h : Heap F64) (hop : exec (codeMath muslFU) h0 s0 op = .ok (.code c, s, h))
    (hc : match op with | .fit _ _ => c = 0 | .step _ => c = 1 | _ => False)
    (F : FittedF64 s (low ≠ 0)) (g0 : toQ s.tail.gamma < 0) (hat : notNaN s.anomaly_threshold) (hd : disc ≠ 0)
    (ops : List (Op F64)) (hv : ∀ op ∈ ops, op.valid) (hops : ∀ op ∈ ops, op.notFit) (outs : List (Out F64)) (s' : Spot F64) (h' : Heap F64)
    (hrun : runOps (codeMath muslFU) h s ops = .ok (outs, s', h')) (hno : Out.code 1 ∉ outs) (x : F64)
    (hx : Spec.Beyond low (Spec.endPoint low s.excess_threshold s.tail.gamma s.tail.sigma) x) :
    spot_step (codeMath muslFU) h' s' x = .ok (2, s', h') := by
  have hsq : s.q = q ∧ spot_quantile (codeMath muslFU) s s.q = .ok s.anomaly_threshold := by
    cases op with
    | fit data size =>
      obtain ⟨r, hr, e⟩ := C.bind_ok hop
      cases e
      exact C33_fit ⟨lib.malloc, lib.freeSet, muslFU⟩ q level low disc me s0 h0 R data size hv0 _ _ _ hr (.inl hc)
    | step x =>
      obtain ⟨r, hr, e⟩ := C.bind_ok hop
      cases e
      obtain ⟨c0, t, g⟩ := r
      change c0 = 1 at hc
      subst hc
      obtain ⟨c1, c2⟩ := C33_excess ⟨lib.malloc, lib.freeSet, muslFU⟩ h0 s0 x t g hr
      obtain ⟨a, xs, I, P⟩ := R.inv
      exact ⟨c1.trans P.pq, c2⟩
    | quantile p => exact hc.elim
    | probability z => exact hc.elim
  obtain ⟨e1, e2⟩ := hsq
  rw [e1] at e2
  obtain ⟨n1, n2⟩ := EndPoint.threshold_le F g0 hq q0 q1 e2
  have R1 : Reaches (codeMath muslFU) lib q low disc level me s h := R.run (ops := [op]) (by simpa using hv0) (outs := [.code c]) (by
    unfold runOps
    rw [hop]
    rfl)
  obtain ⟨b1, -⟩ := C33_between ⟨lib.malloc, lib.freeSet, muslFU⟩ h s ops hops outs s' h' hrun hno
  obtain ⟨a, xs, I, P⟩ := (R1.run hv hrun).inv
  have ht : anomTest s' x = true := by
    rw [anomTest_iff P x, b1]
    refine ⟨hd, hx.1, hat, ?_⟩
    have hx2 := hx.2
    by_cases hl : low ≠ 0
    · rw [if_pos hl] at hx2 n2 ⊢
      exact hx2.trans_le ((n2.resolve_left n1).resolve_left hat)
    · rw [if_neg hl] at hx2 n2 ⊢
      exact ((n2.resolve_left hat).resolve_left n1).trans_lt hx2
  have hn := (F64.is_nan_false x).mpr hx.1
  unfold spot_step
  rw [hn, if_neg (by simp), if_pos (show (decide (s'.discard_anomalies ≠ 0) && _) = true from ht)]
  rfl

/-- In exact arithmetic the end point itself and everything beyond it is flagged: a fitted detector with a negative shape, whose anomaly threshold is the
quantile of a real `q > 0`. -/
theorem C130_exact (h : Heap XR) (s : Spot XR) (low : ℤ) (et γ σ q : ℝ) (F : FittedXR s (low ≠ 0) et γ σ) (g0 : γ < 0) (hq : 0 < q)
    (hz : spot_quantile XR.exactMath s (.fin q) = .ok s.anomaly_threshold) (hd : s.discard_anomalies ≠ 0) (x : ℝ)
    (hx : if low ≠ 0 then x ≤ et - σ / -γ else et + σ / -γ ≤ x) : spot_step XR.exactMath h s (.fin x) = .ok (2, s, h) := by
  obtain ⟨u, hu, hl⟩ := F.sign
  have hN : (0 : ℝ) < s.Nt.toNat := by exact_mod_cast F.Nt
  have hn : (0 : ℝ) < s.n.toNat := by exact_mod_cast F.n
  rw [spot_quantile_exact F hu hq] at hz
  have hz := (Except.ok.inj hz).symm
  set t := quantR γ σ (s.Nt.toNat / s.n.toNat) q with ht
  have hlt : t < σ / -γ := by
    have hy := Real.rpow_pos_of_pos (div_pos hq (div_pos hN hn)) (-γ)
    rw [ht]
    unfold quantR
    rw [if_neg g0.ne]
    have hs : 0 < σ / -γ := div_pos F.pos (by linarith)
    have : σ / γ = -(σ / -γ) := by rw [div_neg, _root_.neg_neg]
    rw [this]
    nlinarith
  have l0 : (lit 0 : XR) = .fin 0 := by rw [XR.lit_fin]; push_cast; rfl
  have hp : 0 < u * (x - (et + u * t)) := by
    rcases hl with ⟨rfl, hl⟩ | ⟨rfl, hl⟩
    · rw [if_neg hl] at hx; linarith
    · rw [if_pos hl] at hx; linarith
  unfold spot_step
  rw [XR.nan_f, if_neg (by simp), if_pos ?_]
  · rfl
  · rw [hz, hu, XR.sub_ff, XR.mul_ff, l0, Bool.and_eq_true]
    exact ⟨by simpa using hd, by rw [XR.lt_ff]; exact decide_eq_true hp⟩

/-- the hypotheses of `C130_exact` can be met: a lower tail with the excess threshold -4, shape -1/10 and scale 2; the end point is -24 -/
example : ∃ s : Spot XR, FittedXR s ((1 : ℤ) ≠ 0) (-4) (-1 / 10) 2 ∧ spot_quantile XR.exactMath s (.fin (1 / 1000)) = .ok s.anomaly_threshold ∧
    s.discard_anomalies ≠ 0 ∧ ∀ h, spot_step XR.exactMath h s (.fin (-24)) = .ok (2, s, h) := by
  have F : ∀ z, FittedXR { Sample.xfitted with anomaly_threshold := z } ((1 : ℤ) ≠ 0) (-4) (-1 / 10) 2 := fun z =>
    ⟨Or.inr ⟨rfl, by decide⟩, rfl, rfl, rfl, by norm_num, (by decide : 0 < Sample.xfitted.Nt.toNat), (by decide : 0 < Sample.xfitted.n.toNat)⟩
  have hd : Sample.xfitted.discard_anomalies ≠ 0 := by decide
  obtain ⟨z, hz, -⟩ := C26_quantile_beyond Sample.xfitted _ _ _ _ (F Sample.xfitted.anomaly_threshold) (1 / 1000) (by norm_num)
  have hz' : spot_quantile XR.exactMath { Sample.xfitted with anomaly_threshold := XR.fin z } (.fin (1 / 1000)) = .ok (.fin z) := hz
  exact ⟨_, F (.fin z), hz', hd, fun h => C130_exact h _ 1 _ _ _ _ (F (.fin z)) (by norm_num) (by norm_num) hz' hd (-24) (by norm_num)⟩

namespace Sample

/-- an initialised detector with `q = 2^-120` -/
def rare : ℤ × Spot F64 × Heap F64 := spot_init lib emptyHeap zeroed (lit (1 / 2 ^ 120)) 0 1 (lit (9 / 10)) 20

end Sample

/-- **C130** (negation). On doubles: a detector with `q = 2^-120` fitted with the values 1/4, 1 and 1 has the shape -7/4 and the scale 33/16, so the end point is
33/28. The anomaly threshold is a double not below the end point, and the value equal to it is not flagged: the step returns EXCESS. -/
theorem C130_false : ∃ s h x s' h', Sample.rare.1 = 0 ∧
    spot_fit (codeMath muslFU) Sample.rare.2.2 Sample.rare.2.1 [lit (1 / 4), lit 1, lit 1] 3 = .ok (0, s, h) ∧ toQ s.excess_threshold = 0 ∧
    toQ s.tail.gamma = -7 / 4 ∧ toQ s.tail.sigma = 33 / 16 ∧ s.discard_anomalies = 1 ∧ 33 / 28 ≤ toQ x ∧
    spot_step (codeMath muslFU) h s x = .ok (1, s', h') := by
  have a : (match spot_fit (codeMath muslFU) Sample.rare.2.2 Sample.rare.2.1 [lit (1 / 4), lit 1, lit 1] 3 with
      | .ok r => decide (Sample.rare.1 = 0 ∧ r.1 = 0) && decide (toQ r.2.1.excess_threshold = 0 ∧ toQ r.2.1.tail.gamma = -7 / 4 ∧ toQ r.2.1.tail.sigma = 33 / 16) &&
        decide (r.2.1.discard_anomalies = 1 ∧ 33 / 28 ≤ toQ r.2.1.anomaly_threshold) &&
        (match spot_step (codeMath muslFU) r.2.2 r.2.1 r.2.1.anomaly_threshold with | .ok w => decide (w.1 = 1) | .error _ => false)
      | .error _ => false) = true := by
    decide +kernel
  generalize spot_fit (codeMath muslFU) Sample.rare.2.2 Sample.rare.2.1 [lit (1 / 4), lit 1, lit 1] 3 = y at a ⊢
  match y, a with
  | .ok (c, s, h), a =>
    simp only [Bool.and_eq_true, decide_eq_true_eq] at a
    obtain ⟨⟨⟨⟨a1, rfl⟩, a3, a4, a5⟩, a6, a7⟩, a8⟩ := a
    cases hs : spot_step (codeMath muslFU) h s s.anomaly_threshold with
    | error e => rw [hs] at a8; cases a8
    | ok w =>
      obtain ⟨w1, w2, w3⟩ := w
      rw [hs] at a8
      have a8 : w1 = 1 := of_decide_eq_true a8
      subst a8
      exact ⟨s, h, _, w2, w3, a1, rfl, a3, a4, a5, a6, a7, hs⟩
  | .error _, a => cases a

/-- the hypotheses of `C130_partial` can be met: a detector with `q = 1/100` fitted with the values 1/4, 1 and 1, then a normal value; the step with the value
2 returns ANOMALY -/
example : ∃ s h s' h', spot_fit (codeMath muslFU) Sample.init.2.2 Sample.init.2.1 [lit (1 / 4), lit 1, lit 1] 3 = .ok (0, s, h) ∧
    runOps (codeMath muslFU) h s [.step (lit (-1))] = .ok ([.code 0], s', h') ∧ spot_step (codeMath muslFU) h' s' (lit 2) = .ok (2, s', h') := by
  have a : (match spot_fit (codeMath muslFU) Sample.init.2.2 Sample.init.2.1 [lit (1 / 4), lit 1, lit 1] 3 with
      | .ok r => decide (r.1 = 0) && Sample.fittedB r.2.1 && decide (toQ r.2.1.tail.gamma < 0) && decide (r.2.1.anomaly_threshold ≠ nan) &&
        decide (isFin (Spec.endPoint 0 r.2.1.excess_threshold r.2.1.tail.gamma r.2.1.tail.sigma)) &&
        decide (toQ (Spec.endPoint 0 r.2.1.excess_threshold r.2.1.tail.gamma r.2.1.tail.sigma) < 2) &&
        (match runOps (codeMath muslFU) r.2.2 r.2.1 [.step (lit (-1))] with | .ok w => decide (w.1 = [.code 0]) | .error _ => false)
      | .error _ => false) = true := by
    decide +kernel
  cases hf : spot_fit (codeMath muslFU) Sample.init.2.2 Sample.init.2.1 [lit (1 / 4), lit 1, lit 1] 3 with
  | error e => rw [hf] at a; cases a
  | ok r =>
    obtain ⟨c, s, h⟩ := r
    rw [hf] at a
    simp only [Bool.and_eq_true, decide_eq_true_eq] at a
    obtain ⟨⟨⟨⟨⟨⟨rfl, a2⟩, a3⟩, a4⟩, a5⟩, a6⟩, a7⟩ := a
    cases hr : runOps (codeMath muslFU) h s [.step (lit (-1))] with
    | error e => rw [hr] at a7; cases a7
    | ok w =>
      obtain ⟨o, s', h'⟩ := w
      rw [hr] at a7
      have a7 : o = [.code 0] := of_decide_eq_true a7
      subst a7
      refine ⟨s, h, s', h', rfl, hr, C130_partial Sample.lib (lit (1 / 100)) (lit (9 / 10)) 0 1 20 _ _ Sample.init_reaches (by decide +kernel) (by decide +kernel)
        (by decide +kernel) (.fit [lit (1 / 4), lit 1, lit 1] 3) (by simp [Op.valid]) 0 s h (by unfold exec; simp only [hf]; rfl) rfl (Sample.fitted_of a2) a3 a4
        (by decide) [.step (lit (-1))] (by simp [Op.valid]) (by simp [Op.notFit]) [.code 0] s' h' hr (by simp) (lit 2) ⟨by decide +kernel, ?_⟩⟩
      have h2 : isFin (lit 2 : F64) ∧ toQ (lit 2 : F64) = 2 := by decide +kernel
      rw [if_neg (by simp), ← not_le, val_fin_le h2.1 a5, h2.2, not_le]
      exact a6

end Verif

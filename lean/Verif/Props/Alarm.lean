/-
C115: the detector with the greater `q` raises the first alarm.
-/
import Verif.Proofs.Twin
import Verif.Proofs.StepF64
import Verif.Props.Side
import Verif.Props.Gpd

namespace Verif
open F64

/-! ### C115 -/

/-- Where the quantile is monotone in `q` (`C79_partial`): the detector is not fitted, or it has moderate parameters, an anomaly
threshold, and a proportion of excesses that is neither less than `q'` by a factor of 16 nor greater than `q` by a factor of 2^47. -/
def Comparable (s : Spot F64) (low : Prop) (q q' : F64) : Prop :=
  s.excess_threshold = nan ∨
    (FittedF64 s low ∧ notNaN s.anomaly_threshold ∧ (s.Nt.toNat : ℚ) / s.n.toNat / 2 ^ 47 ≤ toQ q ∧
      toQ q' ≤ 16 * ((s.Nt.toNat : ℚ) / s.n.toNat))

theorem anomTest_ud {low : ℤ} {s : Spot F64} (hu : s.up_down = if low ≠ 0 then lit (-1) else lit 1) (x : F64) :
    anomTest s x = true ↔ s.discard_anomalies ≠ 0 ∧ notNaN x ∧ notNaN s.anomaly_threshold ∧
      (if low ≠ 0 then x.val < s.anomaly_threshold.val else s.anomaly_threshold.val < x.val) := by
  unfold anomTest
  rw [hu, Bool.and_eq_true, pos_test]
  simp

theorem order_F64 {low : ℤ} {q q' : F64} (hq : isFin q) (hq' : isFin q') (hqq : toQ q ≤ toQ q') (h1 : toQ q' ≤ 1) (t : Spot F64) (z1 : F64)
    (hu : t.up_down = if low ≠ 0 then lit (-1) else lit 1) (hC : Comparable (withQ t q' z1) (low ≠ 0) q q')
    (m1 : spot_quantile (codeMath muslFU) t q = .ok t.anomaly_threshold)
    (m2 : spot_quantile (codeMath muslFU) (withQ t q' z1) q' = .ok z1) (x : F64) (hx : anomTest t x = true) :
    anomTest (withQ t q' z1) x = true := by
  rw [anomTest_ud hu] at hx
  rw [anomTest_ud (low := low) (s := withQ t q' z1) hu]
  obtain ⟨x1, x2, x3, x4⟩ := hx
  rcases hC with hC | ⟨F, hn, hlo, hhi⟩
  · exfalso
    change t.excess_threshold = nan at hC
    unfold spot_quantile at m1
    obtain ⟨y, -, m1⟩ := C.bind_ok m1
    rw [hC] at m1
    have e : (nan +. t.up_down *. y : F64) = nan := rfl
    rw [e] at m1
    rw [← Except.ok.inj m1] at x3
    exact absurd x3 (by decide)
  · obtain ⟨z, z2, g1, g2, g3⟩ := C79_partial _ _ F q q' hq hq' hqq h1 hlo hhi
    rw [m2] at g2
    cases g2
    have e : (Except.ok z : C F64) = .ok t.anomaly_threshold := g1.symm.trans m1
    cases e
    change t.discard_anomalies ≠ 0 ∧ notNaN x ∧ notNaN z1 ∧ (if low ≠ 0 then x.val < z1.val else z1.val < x.val)
    change notNaN z1 at hn
    refine ⟨x1, x2, hn, ?_⟩
    rcases g3 with g3 | g3 | ⟨g3, g4⟩
    · rw [g3] at x3; exact absurd x3 (by decide)
    · rw [g3] at hn; exact absurd hn (by decide)
    · split at x4
      · next hl =>
        rw [if_pos hl]
        exact x4.trans_le ((le_iff _ _).mp (g4 hl)).2.2
      · next hl =>
        rw [if_neg hl]
        exact ((le_iff _ _).mp (g3 hl)).2.2.trans_lt x4

theorem order_XR {low : ℤ} {q q' : ℝ} (h0 : 0 < q) (hqq : q ≤ q') (t : Spot XR) (z1 : XR)
    (hC : t.excess_threshold = XR.nan ∨ ∃ et γ σ, FittedXR t (low ≠ 0) et γ σ)
    (m1 : spot_quantile XR.exactMath t (.fin q) = .ok t.anomaly_threshold)
    (m2 : spot_quantile XR.exactMath (withQ t (.fin q') z1) (.fin q') = .ok z1) (x : XR) (hx : anomTest t x = true) :
    anomTest (withQ t (.fin q') z1) x = true := by
  unfold anomTest at hx ⊢
  change (decide (t.discard_anomalies ≠ 0) && t.up_down *. (x -. z1) >. lit 0) = true
  rw [Bool.and_eq_true] at hx ⊢
  refine ⟨hx.1, ?_⟩
  have hx := hx.2
  change spot_quantile XR.exactMath t (.fin q') = .ok z1 at m2
  rcases hC with hC | ⟨et, γ, σ, F⟩
  · unfold spot_quantile at m1 m2
    obtain ⟨y, -, m1⟩ := C.bind_ok m1
    obtain ⟨y', -, m2⟩ := C.bind_ok m2
    have e : ∀ y : XR, (XR.nan +. y : XR) = .nan := fun y => rfl
    rw [hC, e] at m1 m2
    rw [← Except.ok.inj m1] at hx
    rw [← Except.ok.inj m2]
    exact hx
  · obtain ⟨u, hu, hl⟩ := F.sign
    have hN : (0 : ℝ) < t.Nt.toNat := by exact_mod_cast F.Nt
    have hn : (0 : ℝ) < t.n.toNat := by exact_mod_cast F.n
    rw [spot_quantile_exact F hu h0] at m1
    rw [spot_quantile_exact F hu (h0.trans_le hqq)] at m2
    have hle : quantR γ σ (t.Nt.toNat / t.n.toNat) q' ≤ quantR γ σ (t.Nt.toNat / t.n.toNat) q := by
      rcases hqq.lt_or_eq with h | h
      · exact (quantR_strictAnti F.pos (div_pos hN hn) h0 h).le
      · rw [h]
    rw [← Except.ok.inj m1, hu] at hx
    rw [← Except.ok.inj m2, hu]
    generalize quantR γ σ (t.Nt.toNat / t.n.toNat) q' = d' at *
    generalize quantR γ σ (t.Nt.toNat / t.n.toNat) q = d at *
    rcases x with _ | _ | _ | r
    · exact hx
    · exact hx
    · exact hx
    · rw [XR.sub_ff, XR.mul_ff, XR.lit_fin, XR.lt_ff, decide_eq_true_iff] at hx ⊢
      rcases hl with ⟨rfl, -⟩ | ⟨rfl, -⟩
      · push_cast at hx ⊢; linarith
      · push_cast at hx ⊢; linarith

/-- Two detectors that differ in `q` only (`q ≤ q'`) are given the same calls. If a step of the first one returns ANOMALY, then a
step of the second one has returned ANOMALY, at the same moment or before. Until the second one flags something, its
parameters must be in the range where the quantile is monotone. Missing: the other parameters; see `C115_false`. -/
theorem C115_partial (lib : Lib F64) (hfu : lib.fu = muslFU) (h0 : Heap F64) (s0 : Spot F64) (q q' level : F64) (low disc : ℤ) (me : UInt64)
    (hi : (spot_init lib h0 s0 q low disc level me).1 = 0) (hi' : (spot_init lib h0 s0 q' low disc level me).1 = 0)
    (hq : isFin q) (hq' : isFin q') (hqq : toQ q ≤ toQ q') (h1 : toQ q' ≤ 1) (ops : List (Op F64))
    (outs outs' : List (Out F64)) (s s' : Spot F64) (h h' : Heap F64)
    (hA : runOps (codeMath lib.fu) (spot_init lib h0 s0 q low disc level me).2.2 (spot_init lib h0 s0 q low disc level me).2.1 ops =
      .ok (outs, s, h))
    (hB : runOps (codeMath lib.fu) (spot_init lib h0 s0 q' low disc level me).2.2 (spot_init lib h0 s0 q' low disc level me).2.1 ops =
      .ok (outs', s', h'))
    (hr : ∀ k o t g, runOps (codeMath lib.fu) (spot_init lib h0 s0 q' low disc level me).2.2
        (spot_init lib h0 s0 q' low disc level me).2.1 (ops.take k) = .ok (o, t, g) → Out.code 2 ∉ o → Comparable t (low ≠ 0) q q')
    (k : ℕ) (hk : outs[k]? = some (.code 2)) : ∃ j ≤ k, outs'[j]? = some (.code 2) := by
  rw [hfu] at hA hB hr
  exact init_alarm (G := fun t => Comparable t (low ≠ 0) q q') (order_F64 hq hq' hqq h1) hi hi' ops outs outs' s s' h h' hA hB hr k hk

/-- In exact arithmetic there is no restriction on the parameters except that the scale is positive: from any fitted detector on, with the
thresholds that belong to `q` and `q'`. -/
theorem C115_exact (h : Heap XR) (s s' : Spot XR) (q q' z z' et γ σ : ℝ) (low : ℤ) (F : FittedXR s (low ≠ 0) et γ σ) (hq : 0 < q) (hqq : q ≤ q')
    (hz : spot_quantile XR.exactMath s (.fin q) = .ok (.fin z)) (hz' : spot_quantile XR.exactMath s (.fin q') = .ok (.fin z'))
    (hs : s.q = .fin q ∧ s.anomaly_threshold = .fin z) (hs' : s' = { s with q := .fin q', anomaly_threshold := .fin z' })
    (ops : List (Op XR)) (outs outs' : List (Out XR)) (t t' : Spot XR) (g g' : Heap XR)
    (hA : runOps XR.exactMath h s ops = .ok (outs, t, g)) (hB : runOps XR.exactMath h s' ops = .ok (outs', t', g'))
    (hr : ∀ k o t g, runOps XR.exactMath h s' (ops.take k) = .ok (o, t, g) → Out.code 2 ∉ o → ∃ et γ σ, FittedXR t (low ≠ 0) et γ σ)
    (k : ℕ) (hk : outs[k]? = some (.code 2)) : ∃ j ≤ k, outs'[j]? = some (.code 2) := by
  subst hs'
  refine first_alarm (ud := s.up_down) (G := fun t => ∃ et γ σ, FittedXR t (low ≠ 0) et γ σ)
    (fun t z1 _ ⟨et, γ, σ, F⟩ m1 m2 => order_XR (low := low) hq hqq t z1
      (.inr ⟨et, γ, σ, ⟨F.up_down, F.et, F.gamma, F.sigma, F.pos, F.Nt, F.n⟩⟩) m1 m2)
    ops h s (.fin z') rfl hs.1 ?_ hr _ _ _ _ _ _ hA hB k hk
  refine order_XR (low := low) hq hqq s (.fin z') (.inr ⟨et, γ, σ, F⟩) ?_ hz'
  rw [hs.2]
  exact hz

/-- a fitted detector of exact arithmetic (shape 1, scale 1, 10 excesses of 0 among 100 observations) -/
noncomputable def Sample.xalarm : Spot XR :=
  ⟨.fin (1 / 1000), .fin (9 / 10), 1, 0, lit 1, .fin 99, .fin 0, 10, 100,
    ⟨.fin 1, .fin 1, ⟨.fin 1, .fin 1, .fin 1, .fin 1, ⟨1, 20, .nan, 0, some 1⟩⟩⟩⟩

/-- the hypotheses are met: with `q` = 1/1000 and `q'` = 1/100 the thresholds are 99 and 9, and 100 is flagged -/
example : FittedXR Sample.xalarm ((0 : ℤ) ≠ 0) 0 1 1 ∧ spot_quantile XR.exactMath Sample.xalarm (.fin (1 / 1000)) = .ok (.fin 99) ∧
    spot_quantile XR.exactMath Sample.xalarm (.fin (1 / 100)) = .ok (.fin 9) ∧
    runOps XR.exactMath Sample.emptyHeap Sample.xalarm [.step (.fin 100)] = .ok ([.code 2], Sample.xalarm, Sample.emptyHeap) ∧
    ∀ k o t g, runOps XR.exactMath Sample.emptyHeap { Sample.xalarm with q := .fin (1 / 100), anomaly_threshold := .fin 9 }
      ([.step (.fin 100)].take k) = .ok (o, t, g) → Out.code 2 ∉ o → ∃ et γ σ, FittedXR t ((0 : ℤ) ≠ 0) et γ σ := by
  have F : FittedXR Sample.xalarm ((0 : ℤ) ≠ 0) 0 1 1 :=
    ⟨.inl ⟨rfl, by simp⟩, rfl, rfl, rfl, by norm_num, by decide, by decide⟩
  have hu : Sample.xalarm.up_down = .fin 1 := by show lit 1 = _; rw [XR.lit_fin]; norm_num
  have h1 : Sample.xalarm.Nt.toNat = 10 := by decide
  have h2 : Sample.xalarm.n.toNat = 100 := by decide
  have hstep : ∀ s : Spot XR, s.discard_anomalies = 1 → s.up_down = .fin 1 → ∀ z : ℝ, s.anomaly_threshold = .fin z → z < 100 →
      runOps XR.exactMath Sample.emptyHeap s [.step (.fin 100)] = .ok ([.code 2], s, Sample.emptyHeap) := by
    intro s hd hu z hz hlt
    have e : spot_step XR.exactMath Sample.emptyHeap s (.fin 100) = .ok (2, s, Sample.emptyHeap) := by
      unfold spot_step
      rw [XR.nan_f, if_neg (by simp), if_pos]
      · rfl
      · rw [hd, hu, hz, XR.sub_ff, XR.mul_ff, XR.lit_fin, XR.lt_ff, Bool.and_eq_true, decide_eq_true_iff, decide_eq_true_iff]
        refine ⟨by decide, ?_⟩
        push_cast
        linarith
    unfold runOps exec
    dsimp only
    rw [e]
    rfl
  refine ⟨F, ?_, ?_, hstep _ rfl hu 99 rfl (by norm_num), ?_⟩
  · rw [spot_quantile_exact F hu (by norm_num), h1, h2]
    unfold quantR
    norm_num
  · rw [spot_quantile_exact F hu (by norm_num), h1, h2]
    unfold quantR
    norm_num
  · intro k o t g h hn
    rcases k with _ | k
    · cases h
      exact ⟨0, 1, 1, ⟨F.up_down, F.et, F.gamma, F.sigma, F.pos, F.Nt, F.n⟩⟩
    · rw [List.take_of_length_le (by simp)] at h
      have e := h.symm.trans (hstep { Sample.xalarm with q := .fin (1 / 100), anomaly_threshold := .fin 9 } rfl hu 9 rfl (by norm_num))
      cases e
      simp at hn

/-- calls on a detector with `level` 9/10 and capacity 20 that follow the fit of seven zeros and a one -/
def Sample.alarm (q : F64) (ops : List (Op F64)) : C (List (Out F64) × Spot F64 × Heap F64) :=
  runOps (codeMath muslFU) (spot_init Sample.lib Sample.emptyHeap Sample.zeroed q 0 1 (lit (9 / 10)) 20).2.2
    (spot_init Sample.lib Sample.emptyHeap Sample.zeroed q 0 1 (lit (9 / 10)) 20).2.1
    (.fit [lit 0, lit 0, lit 0, lit 0, lit 0, lit 0, lit 0, lit 1] 8 :: ops)

/-- C115 does not hold: after the fit of seven zeros and a one, the detector whose `q` is the double before 2^-51 flags a value that
the detector with `q` = 2^-51 does not flag. -/
theorem C115_false : ∃ q q' x : F64, isFin q ∧ isFin q' ∧ 0 < toQ q ∧ toQ q < toQ q' ∧
    (spot_init Sample.lib Sample.emptyHeap Sample.zeroed q 0 1 (lit (9 / 10)) 20).1 = 0 ∧
    (spot_init Sample.lib Sample.emptyHeap Sample.zeroed q' 0 1 (lit (9 / 10)) 20).1 = 0 ∧
    (Sample.alarm q [.step x]).map Prod.fst = .ok [.code 0, .code 2] ∧
    (Sample.alarm q' [.step x]).map Prod.fst = .ok [.code 0, .code 1] :=
  ⟨lit ((1 - 1 / 2 ^ 53) / 2 ^ 51), lit (1 / 2 ^ 51), lit (1170621519031005 / 35184372088832), by decide +kernel, by decide +kernel,
    by decide +kernel, by decide +kernel, by decide +kernel, by decide +kernel, by decide +kernel, by decide +kernel⟩

/-- a test for `Comparable` -/
def Sample.comparableB (s : Spot F64) (q q' : F64) : Bool :=
  Sample.fittedB s && decide (notNaN s.anomaly_threshold) && decide ((s.Nt.toNat : ℚ) / s.n.toNat / 2 ^ 47 ≤ toQ q) &&
    decide (toQ q' ≤ 16 * ((s.Nt.toNat : ℚ) / s.n.toNat))

theorem Sample.comparable_of {s : Spot F64} {q q' : F64} (h : Sample.comparableB s q q' = true) : Comparable s ((0 : ℤ) ≠ 0) q q' := by
  unfold Sample.comparableB at h
  simp only [Bool.and_eq_true, decide_eq_true_iff] at h
  exact .inr ⟨Sample.fitted_of h.1.1.1, h.1.1.2, h.1.2, h.2⟩

/-- the hypotheses are met by the fit above, a step that returns NORMAL and a step that returns ANOMALY (`q` = 1/1000 and 1/100) -/
theorem Sample.alarm_comparable (k : ℕ) (o : List (Out F64)) (t : Spot F64) (g : Heap F64)
    (h : runOps (codeMath muslFU) (spot_init Sample.lib Sample.emptyHeap Sample.zeroed (lit (1 / 100)) 0 1 (lit (9 / 10)) 20).2.2
      (spot_init Sample.lib Sample.emptyHeap Sample.zeroed (lit (1 / 100)) 0 1 (lit (9 / 10)) 20).2.1
      ((.fit [lit 0, lit 0, lit 0, lit 0, lit 0, lit 0, lit 0, lit 1] 8 :: [.step (lit (-1)), .step (lit 6)]).take k) = .ok (o, t, g))
    (hn : Out.code 2 ∉ o) : Comparable t ((0 : ℤ) ≠ 0) (lit (1 / 1000)) (lit (1 / 100)) := by
  rcases k with _ | _ | _ | k
  · cases h
    left
    decide +kernel
  · have hd : (Sample.alarm (lit (1 / 100)) []).map (fun r => Sample.comparableB r.2.1 (lit (1 / 1000)) (lit (1 / 100))) = .ok true := by
      decide +kernel
    change Sample.alarm (lit (1 / 100)) [] = _ at h
    rw [h] at hd
    exact Sample.comparable_of (Except.ok.inj hd)
  · have hd : (Sample.alarm (lit (1 / 100)) [.step (lit (-1))]).map
        (fun r => Sample.comparableB r.2.1 (lit (1 / 1000)) (lit (1 / 100))) = .ok true := by decide +kernel
    change Sample.alarm (lit (1 / 100)) [.step (lit (-1))] = _ at h
    rw [h] at hd
    exact Sample.comparable_of (Except.ok.inj hd)
  · have hd : (Sample.alarm (lit (1 / 100)) [.step (lit (-1)), .step (lit 6)]).map (fun r => decide (Out.code 2 ∈ r.1)) = .ok true := by
      decide +kernel
    change Sample.alarm (lit (1 / 100)) ([.step (lit (-1)), .step (lit 6)].take (k + 2)) = _ at h
    rw [List.take_of_length_le (by simp)] at h
    rw [h] at hd
    exact absurd (of_decide_eq_true (Except.ok.inj hd)) hn

example : (Sample.alarm (lit (1 / 1000)) [.step (lit (-1)), .step (lit 6)]).map Prod.fst = .ok [.code 0, .code 0, .code 2] ∧
    (Sample.alarm (lit (1 / 100)) [.step (lit (-1)), .step (lit 6)]).map Prod.fst = .ok [.code 0, .code 0, .code 2] := by
  constructor <;> decide +kernel

end Verif

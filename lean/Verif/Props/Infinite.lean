/-
C102: what an infinite value does to a detector.
-/
import Verif.Proofs.Infinite
import Verif.Props.SampleRun

namespace Verif
open F64

/-! ### C102 -/

/-- the infinity on the side of the tail that is watched, and the other one -/
def Spec.farInf (low : ℤ) : F64 := if low ≠ 0 then inf true else inf false
def Spec.nearInf (low : ℤ) : F64 := if low ≠ 0 then inf false else inf true

theorem far_excess {q level : F64} {low disc : ℤ} {k : Core F64} (P : Params q level low disc k) {t : F64} (ht : isFin t) :
    k.up_down *. (Spec.farInf low -. t) = inf false ∧ k.up_down *. (Spec.nearInf low -. t) = inf true := by
  rw [P.pud]
  unfold Spec.farInf Spec.nearInf
  rcases t with _ | s | ⟨s, j⟩
  · exact ht.elim
  · exact ht.elim
  · split
    · exact ⟨show (lit (-1) : F64) *. inf true = inf false by decide +kernel, show (lit (-1) : F64) *. inf false = inf true by decide +kernel⟩
    · exact ⟨show (lit 1 : F64) *. inf false = inf false by decide +kernel, show (lit 1 : F64) *. inf true = inf true by decide +kernel⟩

/-- With `discard_anomalies` and finite thresholds, an infinite observation beyond the tail is flagged and changes nothing, and the
opposite infinity is normal and only counted. Missing from the property (false, see `C102_false`): infinite training data, and
detectors without `discard_anomalies`. -/
theorem C102_partial (lib : Lib F64) (q level : F64) (low disc : ℤ) (hd : disc ≠ 0) (me : UInt64) (s : Spot F64) (h : Heap F64)
    (R : Reaches (codeMath lib.fu) lib q low disc level me s h) (ha : isFin s.anomaly_threshold) (he : isFin s.excess_threshold) :
    spot_step (codeMath lib.fu) h s (Spec.farInf low) = .ok (2, s, h) ∧
    spot_step (codeMath lib.fu) h s (Spec.nearInf low) = .ok (0, { s with n := s.n + 1 }, h) := by
  obtain ⟨a, xs, I, P⟩ := R.inv
  have hdisc : s.discard_anomalies = 1 := by
    have := P.pdisc
    rw [if_pos hd] at this
    exact this
  have h1 := far_excess P ha
  have h2 := far_excess P he
  have n1 : is_nan (Spec.farInf low) = false := by unfold Spec.farInf; split <;> rfl
  have n2 : is_nan (Spec.nearInf low) = false := by unfold Spec.nearInf; split <;> rfl
  constructor
  · unfold spot_step
    rw [if_neg (by rw [n1]; simp), if_pos]
    · rfl
    · have : s.up_down *. (Spec.farInf low -. s.anomaly_threshold) = inf false := h1.1
      rw [this, hdisc]
      decide +kernel
  · unfold spot_step
    have e1 : s.up_down *. (Spec.nearInf low -. s.anomaly_threshold) = inf true := h1.2
    have e2 : s.up_down *. (Spec.nearInf low -. s.excess_threshold) = inf true := h2.2
    rw [if_neg (by rw [n2]; simp), if_neg (by rw [e1, hdisc]; decide +kernel)]
    dsimp only
    rw [e2, if_neg (by decide +kernel)]
    rfl

/-- If an infinite value is recorded as an excess by a step, when the tracked sum of the excesses was finite, then until `max_excess`
more excesses have been recorded the anomaly threshold is not finite, the shape is 0, the scale is infinite, and no
quantile is finite. -/
theorem C102_step_silences (lib : Lib F64) (q level : F64) (low disc : ℤ) (me : UInt64) (s : Spot F64) (h : Heap F64)
    (R : Reaches (codeMath lib.fu) lib q low disc level me s h) (hsum : isFin s.tail.peaks.e) (he : isFin s.excess_threshold)
    (s1 : Spot F64) (h1 : Heap F64) (hs : spot_step (codeMath lib.fu) h s (Spec.farInf low) = .ok (1, s1, h1))
    (ops : List (Op F64)) (hops : ∀ op ∈ ops, op.notFit) (outs : List (Out F64)) (s2 : Spot F64) (h2 : Heap F64)
    (hrun : runOps (codeMath lib.fu) h1 s1 ops = .ok (outs, s2, h2)) (hcount : outs.countP (fun o => o = .code 1) < me.toNat) :
    ¬ isFin s2.anomaly_threshold ∧ s2.tail.gamma = lit 0 ∧ s2.tail.sigma = inf false ∧
    ∀ p z, spot_quantile (codeMath lib.fu) s2 p = .ok z → ¬ isFin z := by
  obtain ⟨a, xs, I, P, hx⟩ := reaches_nonneg R
  have m1 : 0 < me.toNat := R.1
  have m2 : me.toNat < 2 ^ 61 := R.2.1
  have href := step_refines (M := codeMath lib.fu) I (Spec.farInf low)
  rw [hs] at href
  have hstats : SumOK (statsOf me.toNat xs).e := by
    have e1 : s.tail.peaks.e = (statsOf me.toNat xs).e := congrArg Stats.e I.stats
    rw [← e1]
    rcases he' : s.tail.peaks.e with _ | t | ⟨t, j⟩
    · rw [he'] at hsum; exact hsum.elim
    · rw [he'] at hsum; exact hsum.elim
    · exact ⟨by simp, by simp⟩
  cases hq : stepC (codeMath lib.fu) me.toNat s.core xs (Spec.farInf low) with
  | error e => rw [hq] at href; cases href
  | ok p =>
    obtain ⟨code, k, ys⟩ := p
    rw [hq] at href
    obtain ⟨s', h', e, hk, I', _⟩ := href
    cases e
    -- the step is the excess branch
    have hex : s.core.up_down *. (Spec.farInf low -. s.core.et) = inf false := (far_excess P he).1
    have S : Silenced me.toNat k ys 0 := by
      unfold stepC at hq
      split at hq
      · cases hq
      split at hq
      · cases hq
      dsimp only at hq
      rw [hex] at hq
      rw [if_pos (by decide +kernel)] at hq
      obtain ⟨z, hz, hq⟩ := C.bind_ok hq
      cases hq
      have hx' : ∀ v ∈ xs ++ inf false :: [], F64.le (zero false) v = true := by
        intro v hv
        rcases List.mem_append.mp hv with h | h
        · exact hx v h
        · rw [List.mem_singleton] at h; rw [h]; rfl
      obtain ⟨g1, g2⟩ := refit_inf lib.fu m1 m2 { s.core with n := s.core.n + 1, Nt := s.core.Nt + 1 } xs [] hx' m1 hstats
      exact ⟨⟨xs, [], rfl, rfl, hstats⟩, hx', g1, g2, quantileC_inf lib.fu g1 g2 hz⟩
    have hv : ∀ op ∈ ops, op.valid := by
      intro op hop
      have := hops op hop
      cases op <;> trivial
    obtain ⟨zs, hr, _, _⟩ := run_iff I' ops hv hrun
    rw [hk] at hr
    have S2 := S.run lib.fu m1 m2 hops hr (by omega)
    exact ⟨S2.at_, S2.gamma, S2.sigma, fun p z hz => quantileC_inf lib.fu S2.gamma S2.sigma hz⟩

/-- If the first fit of a detector, on at most `max_excess` values, finds a finite excess threshold and a training value is infinite beyond it, then the anomaly
threshold is not finite, and stays so until `max_excess` excesses have been recorded. The fit nevertheless reports success unless the
anomaly threshold is NaN. -/
theorem C102_fit_silences (lib : Lib F64) (q level : F64) (low disc : ℤ) (me : UInt64) (h0 : Heap F64) (s0 : Spot F64)
    (m1 : 1 ≤ me.toNat) (m2 : me.toNat < 2 ^ 61) (hi : (spot_init lib h0 s0 q low disc level me).1 = 0)
    (data : List F64) (size : UInt64) (hsz : size.toNat ≤ data.length) (hmem : Spec.farInf low ∈ data.take size.toNat)
    (r : ℤ) (s1 : Spot F64) (h1 : Heap F64)
    (hfit : spot_fit (codeMath lib.fu) (spot_init lib h0 s0 q low disc level me).2.2 (spot_init lib h0 s0 q low disc level me).2.1 data size =
      .ok (r, s1, h1)) (hr : r ≠ -1003) (he : isFin s1.excess_threshold) (hsize : size.toNat ≤ me.toNat)
    (ops : List (Op F64)) (hops : ∀ op ∈ ops, op.notFit) (outs : List (Out F64)) (s2 : Spot F64) (h2 : Heap F64)
    (hrun : runOps (codeMath lib.fu) h1 s1 ops = .ok (outs, s2, h2))
    (hcount : s1.Nt.toNat + outs.countP (fun o => o = .code 1) ≤ me.toNat) :
    r = (if is_nan s1.anomaly_threshold then -1004 else 0) ∧ ¬ isFin s2.anomaly_threshold ∧
    s2.tail.gamma = lit 0 ∧ s2.tail.sigma = inf false ∧ ∀ p z, spot_quantile (codeMath lib.fu) s2 p = .ok z → ¬ isFin z := by
  obtain ⟨a, _, _, hc, I⟩ := init_ok hi m1 m2
  have P : Params q level low disc (spot_init lib h0 s0 q low disc level me).2.1.core := by
    rw [hc]; exact ⟨rfl, rfl, rfl, rfl, rfl⟩
  generalize (spot_init lib h0 s0 q low disc level me).2.1 = s at *
  generalize (spot_init lib h0 s0 q low disc level me).2.2 = h at *
  have hcode : r = (if is_nan s1.anomaly_threshold then -1004 else 0) := by
    obtain ⟨et, _, hcase⟩ := fit_cases I hsz hfit
    rcases hcase with ⟨_, h3, _⟩ | ⟨_, _, _, _, h3⟩
    · exact absurd h3 hr
    · exact h3
  refine ⟨hcode, ?_⟩
  have href := fit_refines (M := codeMath lib.fu) I data size hsz
  rw [hfit] at href
  cases hq : fitC (codeMath lib.fu) me.toNat s.core [] data size with
  | error e => rw [hq] at href; cases href
  | ok p =>
    obtain ⟨code, k, ys⟩ := p
    rw [hq] at href
    obtain ⟨s', h', e, hk, I', _⟩ := href
    cases e
    have hke : k.et = s1.excess_threshold := by rw [← hk]; rfl
    have hlen : ys.length ≤ me.toNat := by
      have : ys.length ≤ size.toNat := by
        unfold fitC at hq
        dsimp only at hq
        obtain ⟨et, _, hq⟩ := C.bind_ok hq
        have hle : (fitExcesses s.core.up_down et (data.take size.toNat)).length ≤ size.toNat := by
          unfold fitExcesses
          refine (List.length_filter_le _ _).trans ?_
          rw [List.length_map, List.length_take]
          omega
        split at hq
        · cases hq; simp
        · obtain ⟨z, _, hq⟩ := C.bind_ok hq
          split at hq <;> cases hq <;> simpa using hle
      omega
    obtain ⟨m, hm, hN, S⟩ := Silenced.of_fit lib.fu m1 m2 hq hr
      ⟨Spec.farInf low, hmem, by rw [hke]; exact (far_excess P he).1⟩ hlen
    have hN' : s1.Nt.toNat = ys.length := by
      have : s1.Nt = k.Nt := by rw [← hk]; rfl
      rw [this, hN, UInt64.toNat_ofNat', Nat.mod_eq_of_lt (by omega)]
    have hv : ∀ op ∈ ops, op.valid := by
      intro op hop
      have := hops op hop
      cases op <;> trivial
    obtain ⟨zs, hr2, _, _⟩ := run_iff I' ops hv hrun
    rw [hk] at hr2
    have S2 := S.run lib.fu m1 m2 hops hr2 (by omega)
    exact ⟨S2.at_, S2.gamma, S2.sigma, fun p z hz => quantileC_inf lib.fu S2.gamma S2.sigma hz⟩

/-- training data with one infinite value -/
def Sample.dataInf : List F64 := [lit 1, lit 2, lit 3, lit 4, lit 5, lit 7, inf false]

/-- The property is false: with `discard_anomalies`, the fit of seven values of which one is infinite returns 0 with the anomaly
threshold +infinity; then 1000 and 10^300 are mere excesses. A second fit, of finite data, returns 0 and the threshold is
still +infinity. -/
theorem C102_false : (runOps (codeMath muslFU) Sample.heap Sample.spot
      [.fit Sample.dataInf 7, .step (lit 1000), .step (lit (10 ^ 300)), .fit Sample.data 7, .step (lit (10 ^ 300))]).map
      (fun r => (r.1, r.2.1.excess_threshold, r.2.1.anomaly_threshold)) =
    .ok ([.code 0, .code 1, .code 1, .code 0, .code 1], lit 3, inf false) := by decide +kernel

/-- The same happens with finite values whose sum overflows: the fit of 1, 2, 3, 4, 5 and twice 1.5e308 returns 0 with the threshold
+infinity. -/
theorem C102_overflow_false : (runOps (codeMath muslFU) Sample.heap Sample.spot
      [.fit [lit 1, lit 2, lit 3, lit 4, lit 5, lit (15 * 10 ^ 307), lit (15 * 10 ^ 307)] 7, .step (lit 1000), .step (lit (10 ^ 300))]).map
      (fun r => (r.1, r.2.1.excess_threshold, r.2.1.anomaly_threshold)) =
    .ok ([.code 0, .code 1, .code 1], lit 3, inf false) := by decide +kernel

/-- the hypotheses of `C102_partial`: after a fit of finite data the thresholds are finite -/
example : (runOps (codeMath muslFU) Sample.heap Sample.spot [.fit Sample.data 7, .step (inf false), .step (inf true)]).map
      (fun r => (r.1, decide (isFin r.2.1.excess_threshold), decide (isFin r.2.1.anomaly_threshold))) =
    .ok ([.code 0, .code 2, .code 0], true, true) := by decide +kernel

/-- the hypotheses of `C102_fit_silences` -/
example : (spot_init Sample.lib Sample.emptyHeap Sample.zeroed (lit (1 / 100)) 0 1 (lit (9 / 10)) 20).1 = 0 ∧
    Spec.farInf 0 ∈ Sample.dataInf.take 7 ∧
    (spot_fit (codeMath muslFU) Sample.heap Sample.spot Sample.dataInf 7).map (fun r => (r.1, r.2.1.excess_threshold, r.2.1.Nt)) =
      .ok (0, lit 3, 4) := by
  refine ⟨by decide +kernel, by decide +kernel, by decide +kernel⟩

/-- the hypotheses of `C102_step_silences`: without `discard_anomalies`, after a fit the sum of the excesses is finite and an infinite
observation is recorded -/
example : (spot_init Sample.lib Sample.emptyHeap Sample.zeroed (lit (1 / 100)) 0 0 (lit (9 / 10)) 20).1 = 0 ∧
    (runOps (codeMath muslFU) (spot_init Sample.lib Sample.emptyHeap Sample.zeroed (lit (1 / 100)) 0 0 (lit (9 / 10)) 20).2.2
      (spot_init Sample.lib Sample.emptyHeap Sample.zeroed (lit (1 / 100)) 0 0 (lit (9 / 10)) 20).2.1
      [.fit Sample.data 7, .step (inf false)]).map
      (fun r => (r.1, r.2.1.anomaly_threshold)) = .ok ([.code 0, .code 1], inf false) ∧
    (spot_fit (codeMath muslFU) (spot_init Sample.lib Sample.emptyHeap Sample.zeroed (lit (1 / 100)) 0 0 (lit (9 / 10)) 20).2.2
      (spot_init Sample.lib Sample.emptyHeap Sample.zeroed (lit (1 / 100)) 0 0 (lit (9 / 10)) 20).2.1 Sample.data 7).map
      (fun r => (r.1, r.2.1.tail.peaks.e, r.2.1.excess_threshold)) = .ok (0, lit 15, lit 3) := by
  refine ⟨by decide +kernel, by decide +kernel, by decide +kernel⟩

end Verif

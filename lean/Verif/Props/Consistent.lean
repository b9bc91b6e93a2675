/-
C118: what is flagged and what `spot_probability` says.
-/
import Verif.Props.Gpd
import Verif.Props.Rate
import Verif.Props.SampleRun

namespace Verif

/-! ### C118 -/

/-- calls that record no excess change nothing but the counter of the observations -/
theorem run_between {α : Type} [CDouble α] {M : MathFns α} : ∀ (ops : List (Op α)), (∀ op ∈ ops, op.notFit) →
    ∀ (h h' : Heap α) (s s' : Spot α) (outs : List (Out α)), runOps M h s ops = .ok (outs, s', h') → Out.code 1 ∉ outs →
    ∃ k ≤ ops.length, s' = { s with n := s.n + UInt64.ofNat k } ∧ h' = h ∧ (Out.code 0 ∉ outs → k = 0) := by
  intro ops
  induction ops with
  | nil =>
    intro _ h h' s s' outs hr _
    cases hr
    exact ⟨0, le_rfl, by simp, rfl, fun _ => rfl⟩
  | cons op ops ih =>
    intro hf h h' s s' outs hr hno
    unfold runOps at hr
    obtain ⟨⟨o, s1, h1⟩, hr1, hr⟩ := C.bind_ok hr
    obtain ⟨⟨os, s2, h2⟩, hr2, hr⟩ := C.bind_ok hr
    cases hr
    have key : ∃ j ≤ 1, s1 = { s with n := s.n + UInt64.ofNat j } ∧ h1 = h ∧ (o ≠ .code 0 → j = 0) := by
      have hop := hf op (List.mem_cons_self ..)
      have ho : o ≠ .code 1 := fun e => hno (e ▸ List.mem_cons_self ..)
      unfold exec at hr1
      cases op with
      | fit d n => exact absurd hop (by simp [Op.notFit])
      | step x =>
        dsimp only at hr1
        obtain ⟨⟨pr, ps, ph⟩, hp, hr1⟩ := C.bind_ok hr1
        cases hr1
        rcases step_cases hp with ⟨_, e1, e2, e3⟩ | ⟨_, _, e1, e2, e3⟩ | ⟨_, _, _, e1, _⟩ | ⟨_, _, _, e1, e2, e3⟩
        · exact ⟨0, by simp, by rw [e2]; simp, e3, fun _ => rfl⟩
        · exact ⟨0, by simp, by rw [e2]; simp, e3, fun _ => rfl⟩
        · exact absurd (congrArg Out.code e1) ho
        · exact ⟨1, le_rfl, e2, e3, fun g => absurd (congrArg Out.code e1) g⟩
      | quantile q =>
        dsimp only at hr1
        obtain ⟨p, hp, hr1⟩ := C.bind_ok hr1
        cases hr1
        exact ⟨0, by simp, by simp, rfl, fun _ => rfl⟩
      | probability q =>
        dsimp only at hr1
        obtain ⟨p, hp, hr1⟩ := C.bind_ok hr1
        cases hr1
        exact ⟨0, by simp, by simp, rfl, fun _ => rfl⟩
    obtain ⟨j, j1, rfl, rfl, j2⟩ := key
    obtain ⟨k, k1, rfl, rfl, k2⟩ := ih (fun o ho => hf o (List.mem_cons_of_mem _ ho)) _ _ _ _ _ hr2
      (fun g => hno (List.mem_cons_of_mem _ g))
    refine ⟨j + k, by simp only [List.length_cons]; omega, ?_, rfl, fun g => ?_⟩
    · simp only [UInt64.ofNat_add, UInt64.add_assoc]
    · rw [j2 fun e => g (e ▸ List.mem_cons_self ..), k2 fun e => g (List.mem_cons_of_mem _ e)]

/-- how far `x` is beyond the excess threshold -/
noncomputable def Spec.distance (low : Prop) (et x : ℝ) : ℝ :=
  open Classical in if low then et - x else x - et

/-- What holds, in exact arithmetic. Let the anomaly threshold of a fitted detector be the quantile of `q` (as it is after a fit and after
each excess), and let calls follow that record no excess. Then an observation `x` in the
support of the fitted tail is flagged if and only if its probability is less than q times the quotient of the numbers of observations at the
last update and now. In particular what is flagged has a probability less than `q`, and if there was no normal observation the converse holds too. An observation beyond the
finite end of the support of a tail with negative shape is flagged, but its probability is NaN. -/
theorem C118_partial (h : Heap XR) (s : Spot XR) (low : Prop) (et γ σ q : ℝ) (F : FittedXR s low et γ σ) (hd : s.discard_anomalies ≠ 0)
    (hq : 0 < q) (hz : spot_quantile XR.exactMath s (.fin q) = .ok s.anomaly_threshold)
    (ops : List (Op XR)) (hops : ∀ op ∈ ops, op.notFit) (hlen : s.n.toNat + ops.length < 2 ^ 64)
    (outs : List (Out XR)) (s' : Spot XR) (h' : Heap XR) (hrun : runOps XR.exactMath h s ops = .ok (outs, s', h'))
    (hno : Out.code 1 ∉ outs) :
    s.n.toNat ≤ s'.n.toNat ∧ (Out.code 0 ∉ outs → s'.n = s.n) ∧
    (∀ x : ℝ, Spec.InSupport γ σ (Spec.distance low et x) → ∃ p, spot_probability XR.exactMath s' (.fin x) = .ok (.fin p) ∧
      ((∃ s'' h'', spot_step XR.exactMath h' s' (.fin x) = .ok (2, s'', h'')) ↔ p < q * (s.n.toNat / s'.n.toNat)) ∧
      ((∃ s'' h'', spot_step XR.exactMath h' s' (.fin x) = .ok (2, s'', h'')) → p < q)) ∧
    (∀ x : ℝ, γ < 0 → σ / -γ < Spec.distance low et x →
      (∃ s'' h'', spot_step XR.exactMath h' s' (.fin x) = .ok (2, s'', h'')) ∧
      spot_probability XR.exactMath s' (.fin x) = .ok .nan) := by
  obtain ⟨k, k1, rfl, rfl, k2⟩ := run_between ops hops _ _ _ _ _ hrun hno
  have en : (s.n + UInt64.ofNat k).toNat = s.n.toNat + k := by
    rw [UInt64.toNat_add, UInt64.toNat_ofNat']
    omega
  dsimp only
  rw [en]
  have n0 : (0 : ℝ) < s.n.toNat := by exact_mod_cast F.n
  have N0 : (0 : ℝ) < s.Nt.toNat := by exact_mod_cast F.Nt
  have m0 : (0 : ℝ) < ((s.n.toNat + k : ℕ) : ℝ) := by push_cast; positivity
  have hP : (0 : ℝ) < s.Nt.toNat / s.n.toNat := div_pos N0 n0
  obtain ⟨u, hu, hl⟩ := F.sign
  rw [spot_quantile_exact F hu hq] at hz
  have hz := (Except.ok.inj hz).symm
  set Q := quantR γ σ (s.Nt.toNat / s.n.toNat) q with hQ
  have uu : u * u = 1 := by rcases hl with ⟨rfl, -⟩ | ⟨rfl, -⟩ <;> norm_num
  have dist : ∀ x, Spec.distance low et x = u * (x - et) := by
    intro x
    unfold Spec.distance
    rcases hl with ⟨rfl, hl⟩ | ⟨rfl, hl⟩
    · rw [if_neg hl]; ring
    · rw [if_pos hl]; ring
  have flag : ∀ x : ℝ, (∃ s'' h'', spot_step XR.exactMath h' { s with n := s.n + UInt64.ofNat k } (.fin x) = .ok (2, s'', h'')) ↔
      Q < Spec.distance low et x := by
    intro x
    rw [flag_iff _ _ _ _ (XR.nan_f x), dist]
    unfold anomTest
    dsimp only
    rw [hz, hu, XR.sub_ff, XR.mul_ff, XR.lit_fin]
    show (_ && (XR.fin _ <. XR.fin _)) = true ↔ _
    rw [XR.lt_ff]
    simp only [hd, ne_eq, not_false_eq_true, decide_true, Bool.true_and, decide_eq_true_eq, Rat.cast_zero]
    have : u * (x - (et + u * Q)) = u * (x - et) - Q := by
      have : u * (x - (et + u * Q)) = u * (x - et) - u * u * Q := by ring
      rw [this, uu, one_mul]
    rw [this]
    exact sub_pos
  have prob : ∀ x : ℝ, spot_probability XR.exactMath { s with n := s.n + UInt64.ofNat k } (.fin x) =
      tail_probability XR.exactMath s.tail (.fin (s.Nt.toNat / ((s.n.toNat + k : ℕ) : ℝ))) (.fin (Spec.distance low et x)) := by
    intro x
    unfold spot_probability
    dsimp only
    rw [en]
    simp only [XR.lit_fin, Rat.cast_natCast]
    rw [XR.div_ff m0.ne', F.et, XR.sub_ff, hu, XR.mul_ff, dist]
  have hQs : Spec.InSupport γ σ Q := quantR_inSupport F.pos hP hq
  have hQq : s.Nt.toNat / s.n.toNat * Spec.gpdSurvival γ σ Q = q := survival_quantR F.pos hP hq
  refine ⟨Nat.le_add_right .., fun g => by rw [k2 g]; simp, fun x hx => ?_, fun x hg hx => ?_⟩
  · refine ⟨_, (prob x).trans (tail_probability_exact F.gamma F.sigma F.pos hx), ?_⟩
    have iff : (∃ s'' h'', spot_step XR.exactMath h' { s with n := s.n + UInt64.ofNat k } (.fin x) = .ok (2, s'', h'')) ↔
        s.Nt.toNat / ((s.n.toNat + k : ℕ) : ℝ) * Spec.gpdSurvival γ σ (Spec.distance low et x) <
          q * (s.n.toNat / ((s.n.toNat + k : ℕ) : ℝ)) := by
      rw [flag]
      have e : q * (s.n.toNat / ((s.n.toNat + k : ℕ) : ℝ)) = s.Nt.toNat / ((s.n.toNat + k : ℕ) : ℝ) * Spec.gpdSurvival γ σ Q := by
        rw [← hQq]
        field_simp
      rw [e]
      have hN : (0 : ℝ) < s.Nt.toNat / ((s.n.toNat + k : ℕ) : ℝ) := div_pos N0 m0
      constructor
      · exact fun g => mul_lt_mul_of_pos_left (survival_strictAnti F.pos hQs hx g) hN
      · intro g
        have g := lt_of_mul_lt_mul_left g hN.le
        by_contra hc
        push Not at hc
        rcases hc.lt_or_eq with hc | hc
        · exact absurd (survival_strictAnti F.pos hx hQs hc) (not_lt.mpr g.le)
        · rw [hc] at g; exact lt_irrefl _ g
    refine ⟨iff, fun g => (iff.mp g).trans_le ?_⟩
    have : (s.n.toNat : ℝ) / ((s.n.toNat + k : ℕ) : ℝ) ≤ 1 := by
      rw [div_le_one m0]
      push_cast
      linarith [Nat.cast_nonneg (α := ℝ) k]
    calc q * _ ≤ q * 1 := mul_le_mul_of_nonneg_left this hq.le
      _ = q := mul_one q
  · have hneg : 1 + γ * Spec.distance low et x / σ < 0 := by
      have h1 : σ < -γ * Spec.distance low et x := by
        rw [div_lt_iff₀ (by linarith)] at hx
        linarith
      have : 1 + γ * Spec.distance low et x / σ = (σ + γ * Spec.distance low et x) / σ := by
        have := F.pos.ne'
        field_simp
      rw [this]
      exact div_neg_of_neg_of_pos (by linarith) F.pos
    constructor
    · rw [flag]
      unfold Spec.InSupport at hQs
      by_contra hc
      push Not at hc
      have : γ * Q / σ ≤ γ * Spec.distance low et x / σ :=
        div_le_div_of_nonneg_right (mul_le_mul_of_nonpos_left hc hg.le) F.pos.le
      linarith
    · rw [prob]
      unfold tail_probability
      rw [F.gamma, F.sigma, XR.lit_fin, XR.eq_ff]
      simp only [hg.ne, Rat.cast_zero, decide_false, if_false, Bool.false_eq_true]
      rw [XR.div_ff F.pos.ne', XR.mul_ff, XR.lit_fin, XR.lit_fin, XR.div_ff hg.ne, XR.add_ff]
      have e : ((1 : ℚ) : ℝ) + Spec.distance low et x * (γ / σ) = 1 + γ * Spec.distance low et x / σ := by push_cast; ring
      rw [e]
      unfold xpow
      have : XR.exactMath.log (.fin (1 + γ * Spec.distance low et x / σ)) = .nan := by
        show XR.logE (.fin (1 + γ * Spec.distance low et x / σ)) = .nan
        simp [XR.logE, hneg]
      rw [this]
      rfl

/-- the hypotheses are met: a lower-tail detector with negative shape, and a normal observation -/
example : FittedXR Sample.xrated True (-4) (-1 / 10) 2 ∧ Sample.xrated.discard_anomalies ≠ 0 ∧
    spot_quantile XR.exactMath Sample.xrated (XR.fin (1 / 1000)) = .ok Sample.xrated.anomaly_threshold ∧
    (∃ s', runOps XR.exactMath Sample.emptyHeap Sample.xrated [.step (.fin 0)] = .ok ([.code 0], s', Sample.emptyHeap)) ∧
    Spec.InSupport (-1 / 10) 2 (Spec.distance True (-4) (-6)) ∧ 2 / -(-1 / 10 : ℝ) < Spec.distance True (-4) (-30) := by
  have hN : Sample.xrated.Nt.toNat = 10 := by decide
  have hn : Sample.xrated.n.toNat = 100 := by decide
  have F : FittedXR Sample.xrated True (-4) (-1 / 10) 2 :=
    ⟨Or.inr ⟨rfl, trivial⟩, rfl, rfl, rfl, by norm_num, by decide, by decide⟩
  have hu : Sample.xrated.up_down = .fin (-1) := by rw [show Sample.xrated.up_down = lit (-1) from rfl, XR.lit_fin]; norm_num
  have hQ : 0 ≤ quantR (-1 / 10) 2 (10 / 100) (1 / 1000) := by
    have := quantR_strictAnti (γ := -1 / 10) (σ := 2) (s := 10 / 100) (q := 1 / 1000) (q' := 10 / 100) (by norm_num) (by norm_num)
      (by norm_num) (by norm_num)
    rw [quantR_self (by norm_num)] at this
    exact this.le
  refine ⟨F, by decide, ?_, ?_, ?_, ?_⟩
  · rw [spot_quantile_exact F hu (by norm_num), hN, hn]
    norm_num [Sample.xrated]
  · have e : spot_step XR.exactMath Sample.emptyHeap Sample.xrated (.fin 0) =
        .ok (0, { Sample.xrated with n := Sample.xrated.n + 1 }, Sample.emptyHeap) := by
      unfold spot_step
      rw [XR.nan_f, if_neg (by simp), if_neg, if_neg]
      · rfl
      · show ¬ ((lit 0 : XR) <=. Sample.xrated.up_down *. (.fin 0 -. .fin (-4))) = true
        rw [hu, XR.sub_ff, XR.mul_ff, XR.lit_fin, XR.le_ff, decide_eq_true_iff]
        norm_num
      · rw [hu, show Sample.xrated.anomaly_threshold = XR.fin (-4 + -1 * quantR (-1 / 10) 2 (10 / 100) (1 / 1000)) from rfl,
          XR.sub_ff, XR.mul_ff, XR.lit_fin, XR.lt_ff, Bool.and_eq_true, decide_eq_true_iff, decide_eq_true_iff]
        rintro ⟨-, g⟩
        push_cast at g
        linarith
    refine ⟨{ Sample.xrated with n := Sample.xrated.n + 1 }, ?_⟩
    unfold runOps exec
    dsimp only
    rw [e]
    rfl
  · unfold Spec.InSupport Spec.distance
    rw [if_pos trivial]; norm_num
  · unfold Spec.distance
    rw [if_pos trivial]; norm_num

/-- the state after the fit of seven zeros and a one (`q` 1/100, `level` 9/10, capacity 20) and eight normal observations -/
def Sample.stale : C (List (Out F64) × Spot F64 × Heap F64) :=
  runOps (codeMath muslFU) (spot_init Sample.lib Sample.emptyHeap Sample.zeroed (lit (1 / 100)) 0 1 (lit (9 / 10)) 20).2.2
    (spot_init Sample.lib Sample.emptyHeap Sample.zeroed (lit (1 / 100)) 0 1 (lit (9 / 10)) 20).2.1
    (.fit [lit 0, lit 0, lit 0, lit 0, lit 0, lit 0, lit 0, lit 1] 8 :: List.replicate 8 (.step (lit (-1))))

/-- False of the code: after a fit and eight normal observations there is a value that is not flagged although its probability is less than
6/1000, with q = 1/100. -/
theorem C118_false : ∃ (s : Spot F64) (h : Heap F64) (x p : F64),
    Reaches (codeMath Sample.lib.fu) Sample.lib (lit (1 / 100)) 0 1 (lit (9 / 10)) 20 s h ∧
    spot_probability (codeMath muslFU) s x = .ok p ∧ F64.isFin p ∧ F64.toQ p < 6 / 1000 ∧
    ∀ s' h', spot_step (codeMath muslFU) h s x ≠ .ok (2, s', h') := by
  have hd : (match Sample.stale with
    | .error _ => false
    | .ok (_, s, _) => !(anomTest s s.anomaly_threshold) && (match spot_probability (codeMath muslFU) s s.anomaly_threshold with
      | .error _ => false
      | .ok p => decide (F64.isFin p) && decide (F64.toQ p < 6 / 1000))) = true := by decide +kernel
  cases hr : Sample.stale with
  | error e => rw [hr] at hd; cases hd
  | ok r =>
    obtain ⟨o, s, h⟩ := r
    rw [hr] at hd
    dsimp only at hd
    rw [Bool.and_eq_true] at hd
    obtain ⟨h1, h2⟩ := hd
    cases hp : spot_probability (codeMath muslFU) s s.anomaly_threshold with
    | error e => rw [hp] at h2; cases h2
    | ok p =>
      rw [hp] at h2
      dsimp only at h2
      rw [Bool.and_eq_true, decide_eq_true_iff, decide_eq_true_iff] at h2
      refine ⟨s, h, s.anomaly_threshold, p, ⟨by decide, by decide, Sample.emptyHeap, Sample.zeroed, by decide +kernel, _, o, ?_, hr⟩, hp, h2.1, h2.2, ?_⟩
      · intro op ho
        rcases List.mem_cons.mp ho with rfl | ho
        · exact (by decide : (8 : UInt64).toNat ≤ 8)
        · rw [(List.mem_replicate.mp ho).2]; trivial
      · intro s' h' e
        rcases step_cases e with ⟨_, g, _⟩ | ⟨_, g, _⟩ | ⟨_, _, _, g, _⟩ | ⟨_, _, _, g, _⟩
        · exact absurd g (by decide)
        · rw [g] at h1; cases h1
        · exact absurd g (by decide)
        · exact absurd g (by decide)

end Verif

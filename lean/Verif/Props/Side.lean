/-
The side of the excess threshold on which the quantiles lie in binary64, and monotonicity of the quantile and of the tail
probability (C78, C79, C80).
-/
import Verif.Proofs.Side
import Verif.Props.Samples
import Verif.Props.Step
import Verif.Props.Init

namespace Verif
open F64

/-- A fitted detector whose tail parameters are moderate: finite thresholds, scale positive, shape of magnitude at most 2^20, at
least one excess, at most 2^53 observations. -/
structure FittedF64 (s : Spot F64) (low : Prop) : Prop where
  up_down : s.up_down = lit 1 ∧ ¬ low ∨ s.up_down = lit (-1) ∧ low
  et : isFin s.excess_threshold
  gamma : isFin s.tail.gamma ∧ |toQ s.tail.gamma| ≤ 2 ^ 20
  sigma : isFin s.tail.sigma ∧ 0 < toQ s.tail.sigma
  Nt : 0 < s.Nt.toNat
  le : s.Nt.toNat ≤ s.n.toNat
  n : s.n.toNat ≤ 2 ^ 53

theorem FittedF64.mul_up_down {s : Spot F64} {low : Prop} (F : FittedF64 s low) (t : F64) :
    (¬ low ∧ s.up_down *. t = t) ∨ (low ∧ s.up_down *. t = F64.neg t) := by
  rcases F.up_down with ⟨e, h⟩ | ⟨e, h⟩
  · left; exact ⟨h, by rw [e]; exact F64.one_mul t⟩
  · right; exact ⟨h, by rw [e]; exact F64.neg_one_mul t⟩

/-- `spot_quantile` in two forms -/
theorem quantile_form (s : Spot F64) (q r : F64) (hr : r = q /. (lit s.Nt.toNat /. lit s.n.toNat)) :
    ((isFin s.tail.gamma ∧ toQ s.tail.gamma = 0) →
      spot_quantile (codeMath muslFU) s q = .ok (s.excess_threshold +. s.up_down *. ((-. s.tail.sigma) *. xlog muslFU r))) ∧
    (toQ s.tail.gamma ≠ 0 → ∀ y, xpow (codeMath muslFU) r (-. s.tail.gamma) = .ok y →
      spot_quantile (codeMath muslFU) s q =
        .ok (s.excess_threshold +. s.up_down *. ((s.tail.sigma /. s.tail.gamma) *. (y -. lit 1)))) := by
  subst hr
  unfold spot_quantile tail_quantile
  dsimp only
  constructor
  · intro h
    rw [if_pos ((eq_zero_iff _).mpr h)]; rfl
  · intro h y hy
    rw [if_neg fun e => h ((eq_zero_iff _).mp e).2, hy]; rfl

theorem rq_le_one {p : ℚ} (h : p ≤ 1) : rq p ≤ 1 := by have := rq_mono h; rwa [rq_1] at this
theorem one_le_rq {p : ℚ} (h : 1 ≤ p) : 1 ≤ rq p := by have := rq_mono h; rwa [rq_1] at this

theorem fin_neg_nonpos {x : F64} (h : isFin x) : val x ≤ 0 ↔ toQ x ≤ 0 := by
  rw [val_fin h]
  have := ratCast_le_EReal (toQ x) 0
  rw [← this]; simp

/-! ### C78 -/

/-- In binary64, rounding errors included: on a fitted detector with moderate parameters, the quantile of a probability `q` at most
the proportion of excesses is NaN or on the far side of the excess threshold, that of a `q` at least the proportion is NaN or on
the near side; and it is not NaN if the shape is zero or the quotient of scale and shape is finite and not zero. -/
theorem C78_quantile_partial (s : Spot F64) (low : Prop) (F : FittedF64 s low) (q : F64) (hq : isFin q) (q0 : 0 < toQ q)
    (q1 : toQ q ≤ 1) :
    ∃ z, spot_quantile (codeMath muslFU) s q = .ok z ∧
      (toQ q ≤ (s.Nt.toNat : ℚ) / s.n.toNat → z = nan ∨
        (¬ low → F64.le s.excess_threshold z = true) ∧ (low → F64.le z s.excess_threshold = true)) ∧
      ((s.Nt.toNat : ℚ) / s.n.toNat ≤ toQ q → z = nan ∨
        (¬ low → F64.le z s.excess_threshold = true) ∧ (low → F64.le s.excess_threshold z = true)) ∧
      (toQ s.tail.gamma = 0 ∨ (isFin (s.tail.sigma /. s.tail.gamma) ∧ toQ (s.tail.sigma /. s.tail.gamma) ≠ 0) → notNaN z) := by
  obtain ⟨S1, S2, S3, S4⟩ := proportion_pos F.Nt F.le F.n
  obtain ⟨r1, r2, r3⟩ := ratio_pos hq q0 q1 S1 S3 S4
  have hS : 0 < toQ (lit (s.Nt.toNat : ℚ) /. lit (s.n.toNat : ℚ) : F64) := (pow2_pos _).trans_le S3
  have lo : toQ q ≤ (s.Nt.toNat : ℚ) / s.n.toNat → toQ (q /. (lit (s.Nt.toNat : ℚ) /. lit (s.n.toNat : ℚ))) ≤ 1 := fun h => by
    rw [r2]
    refine rq_le_one ((div_le_one hS).mpr ?_)
    have := rq_mono h
    rwa [rq_toQ, ← S2] at this
  have hi : (s.Nt.toNat : ℚ) / s.n.toNat ≤ toQ q → 1 ≤ toQ (q /. (lit (s.Nt.toNat : ℚ) /. lit (s.n.toNat : ℚ))) := fun h => by
    rw [r2]
    refine one_le_rq ((one_le_div hS).mpr ?_)
    have := rq_mono h
    rwa [rq_toQ, ← S2] at this
  have hform := quantile_form s q _ rfl
  generalize q /. (lit (s.Nt.toNat : ℚ) /. lit (s.n.toNat : ℚ)) = r at *
  obtain ⟨l1, l2⟩ := xlog_fin r1 r3
  have close : ∀ t, (toQ r ≤ 1 → t = nan ∨ 0 ≤ val t) → (1 ≤ toQ r → t = nan ∨ val t ≤ 0) →
      (toQ s.tail.gamma = 0 ∨ (isFin (s.tail.sigma /. s.tail.gamma) ∧ toQ (s.tail.sigma /. s.tail.gamma) ≠ 0) → notNaN t) →
      spot_quantile (codeMath muslFU) s q = .ok (s.excess_threshold +. s.up_down *. t) →
      ∃ z, spot_quantile (codeMath muslFU) s q = .ok z ∧
      (toQ q ≤ (s.Nt.toNat : ℚ) / s.n.toNat → z = nan ∨
        (¬ low → F64.le s.excess_threshold z = true) ∧ (low → F64.le z s.excess_threshold = true)) ∧
      ((s.Nt.toNat : ℚ) / s.n.toNat ≤ toQ q → z = nan ∨
        (¬ low → F64.le z s.excess_threshold = true) ∧ (low → F64.le s.excess_threshold z = true)) ∧
      (toQ s.tail.gamma = 0 ∨ (isFin (s.tail.sigma /. s.tail.gamma) ∧ toQ (s.tail.sigma /. s.tail.gamma) ≠ 0) → notNaN z) := by
    intro t h1 h2 h3 hz
    have nn : ∀ u, notNaN u → notNaN (s.excess_threshold +. u) := fun u hu => by
      show notNaN (add s.excess_threshold u)
      have := F.et
      revert this hu
      generalize s.excess_threshold = et
      intro hu this
      rcases et with _ | a | ⟨a, b⟩
      · exact absurd this (by simp [isFin])
      · exact absurd this (by simp [isFin])
      rcases u with _ | c | ⟨c, d⟩
      · exact absurd rfl hu
      · simp [add, notNaN]
      · exact ofRat_notNaN _ _
    refine ⟨_, hz, ?_⟩
    rcases F.mul_up_down t with ⟨hl, e⟩ | ⟨hl, e⟩
    · rw [e]
      refine ⟨fun h => (side_up F.et (h1 (lo h))).imp id fun g => ⟨fun _ => g, fun a => absurd a hl⟩,
        fun h => (side_down F.et (h2 (hi h))).imp id fun g => ⟨fun _ => g, fun a => absurd a hl⟩, fun h => nn _ (h3 h)⟩
    · rw [e]
      have neg1 : t = nan ∨ 0 ≤ val t → F64.neg t = nan ∨ val (F64.neg t) ≤ 0 := fun h => by
        rcases h with rfl | h
        · exact .inl rfl
        · right; rw [val_neg]; simpa using h
      have neg2 : t = nan ∨ val t ≤ 0 → F64.neg t = nan ∨ 0 ≤ val (F64.neg t) := fun h => by
        rcases h with rfl | h
        · exact .inl rfl
        · right; rw [val_neg]; simpa using h
      refine ⟨fun h => (side_down F.et (neg1 (h1 (lo h)))).imp id fun g => ⟨fun a => absurd hl a, fun _ => g⟩,
        fun h => (side_up F.et (neg2 (h2 (hi h)))).imp id fun g => ⟨fun a => absurd hl a, fun _ => g⟩,
        fun h => nn _ (notNaN_neg.mpr (h3 h))⟩
  by_cases g0 : toQ s.tail.gamma = 0
  · have hσ : val (F64.neg s.tail.sigma) ≤ 0 := by
      rw [fin_neg_nonpos (isFin_neg.mpr F.sigma.1), toQ_neg]; linarith [F.sigma.2]
    refine close _ (fun h => ?_) (fun h => ?_) (fun _ => ?_) (hform.1 ⟨F.gamma.1, g0⟩)
    · exact mul_nonneg_neg hσ ((fin_neg_nonpos l1).mpr (xlog_nonpos r1 r3 h))
    · exact mul_nonpos_val' hσ ((val_fin_nonneg l1).mpr (xlog_nonneg r1 h))
    · obtain ⟨z, e⟩ := mul_fin (isFin_neg.mpr F.sigma.1) l1
      rw [show ((-. s.tail.sigma) *. xlog muslFU r) = F64.mul (F64.neg s.tail.sigma) (xlog muslFU r) from rfl, e]
      exact ofRat_notNaN _ _
  · obtain ⟨y, hy, y0, y1, y2⟩ := xpow_sign (b := F64.neg s.tail.gamma) r1 r3 (isFin_neg.mpr F.gamma.1)
      (by rw [toQ_neg, abs_neg]; exact F.gamma.2)
    rw [toQ_neg] at y1 y2
    have yn : notNaN y := ((F64.le_iff _ _).mp y0).2.1
    obtain ⟨k1, k2⟩ := sub_one_sign yn
    refine close _ (fun h => ?_) (fun h => ?_) (fun h => ?_) (hform.2 g0 y hy)
    · have hl := xlog_nonpos r1 r3 h
      rcases lt_or_gt_of_ne g0 with g | g
      · exact mul_nonneg_neg (val_div_nonpos F.sigma.1 F.gamma.1 g F.sigma.2.le)
          (k2 (y2 (mul_nonpos_of_nonneg_of_nonpos (by linarith) hl)))
      · exact mul_nonneg_val (val_div_nonneg F.sigma.1 F.gamma.1 g F.sigma.2.le)
          (k1 (y1 (mul_nonneg_of_nonpos_of_nonpos (by linarith) hl)))
    · have hl := xlog_nonneg r1 h
      rcases lt_or_gt_of_ne g0 with g | g
      · exact mul_nonpos_val' (val_div_nonpos F.sigma.1 F.gamma.1 g F.sigma.2.le)
          (k1 (y1 (mul_nonneg (by linarith) hl)))
      · exact mul_nonpos_val (val_div_nonneg F.sigma.1 F.gamma.1 g F.sigma.2.le)
          (k2 (y2 (mul_nonpos_of_nonpos_of_nonneg (by linarith) hl)))
    · rcases h with h | ⟨h, h'⟩
      · exact absurd h g0
      have hn : notNaN (sub y (lit 1)) := by
        rcases y with _ | s | ⟨s, j⟩
        · exact absurd rfl yn
        · show notNaN (sub _ (ofRat false 1)); rw [lit_one]; simp [sub, F64.neg, add, notNaN]
        · show notNaN (sub _ (ofRat false 1)); rw [lit_one]; exact ofRat_notNaN _ _
      show notNaN (F64.mul (s.tail.sigma /. s.tail.gamma) (F64.sub y (lit 1)))
      revert h h' hn
      generalize (s.tail.sigma /. s.tail.gamma : F64) = c
      generalize F64.sub y (lit 1) = w
      intro h h' hn
      rcases c with _ | a | ⟨a, b⟩
      · exact absurd h (by simp [isFin])
      · exact absurd h (by simp [isFin])
      rcases w with _ | d | ⟨d, e⟩
      · exact absurd rfl hn
      · have : b.val ≠ 0 := fun e => h' (toQ_eq_zero.mpr e)
        simp [F64.mul, this, notNaN]
      · exact ofRat_notNaN _ _

/-- the anomaly threshold is NaN or not on the near side of the excess threshold -/
def Spec.Ordered (s : Spot F64) (low : Prop) : Prop :=
  s.anomaly_threshold = nan ∨
    (¬ low → F64.le s.excess_threshold s.anomaly_threshold = true) ∧ (low → F64.le s.anomaly_threshold s.excess_threshold = true)

/-- a detector on which the anomaly threshold has been computed from moderate tail parameters and more than `q * n` excesses -/
def Spec.Usable (s : Spot F64) (low : Prop) (q : F64) : Prop :=
  FittedF64 s low ∧ toQ q ≤ (s.Nt.toNat : ℚ) / s.n.toNat

/-- One call keeps the thresholds in order, if the detector is usable after a call that computed the anomaly threshold. -/
theorem exec_beyond {lib : Lib F64} {q level : F64} {low disc : ℤ} {me : UInt64} {s s' : Spot F64} {h h' : Heap F64} {op : Op F64}
    {o : Out F64} (R : Reaches (codeMath muslFU) lib q low disc level me s h) (hq : isFin q) (q0 : 0 < toQ q) (q1 : toQ q ≤ 1)
    (hv : op.valid) (B : Spec.Ordered s (low ≠ 0)) (he : exec (codeMath muslFU) h s op = .ok (o, s', h'))
    (hU : (o = .code 1 ∨ ∃ d n, op = .fit d n ∧ o = .code 0) → Spec.Usable s' (low ≠ 0) q) : Spec.Ordered s' (low ≠ 0) := by
  obtain ⟨a, xs, I, P⟩ := R.inv
  have fromQ : ∀ t : Spot F64, t.q = q → spot_quantile (codeMath muslFU) t t.q = .ok t.anomaly_threshold →
      Spec.Usable t (low ≠ 0) q → Spec.Ordered t (low ≠ 0) := by
    rintro t ht hz ⟨F, hr⟩
    rw [ht] at hz
    obtain ⟨z, hz', h1, -, -⟩ := C78_quantile_partial t (low ≠ 0) F q hq q0 q1
    rw [hz] at hz'
    injection hz' with hz'
    rw [← hz'] at h1
    exact h1 hr
  have hqs : s.q = q := P.pq
  cases op with
  | fit d n =>
    unfold exec at he
    obtain ⟨r, hr, he⟩ := C.bind_ok he
    injection he with he
    injection he with e1 e2
    injection e2 with e2 e3
    subst e1; subst e2; subst e3
    obtain ⟨et, -, hc⟩ := fit_cases I hv hr
    rcases hc with ⟨-, -, e, -⟩ | ⟨-, ⟨t', e⟩, -, hz, hr'⟩
    · rw [e]; exact B
    · by_cases hn : is_nan r.2.1.anomaly_threshold = true
      · left
        by_contra hc
        rw [(F64.is_nan_false _).mpr hc] at hn
        cases hn
      · rw [if_neg hn] at hr'
        refine fromQ _ (by rw [e]; exact hqs) hz (hU (.inr ⟨d, n, rfl, by rw [hr']⟩))
  | step x =>
    unfold exec at he
    obtain ⟨r, hr, he⟩ := C.bind_ok he
    injection he with he
    injection he with e1 e2
    injection e2 with e2 e3
    subst e1; subst e2; subst e3
    rcases step_cases hr with ⟨-, -, e, -⟩ | ⟨-, -, -, e, -⟩ | ⟨-, -, -, hr', t', e, hz⟩ | ⟨-, -, -, -, e, -⟩
    · rw [e]; exact B
    · rw [e]; exact B
    · exact fromQ _ (by rw [e]; exact hqs) hz (hU (.inl (by rw [hr']; rfl)))
    · rw [e]; exact B
  | quantile p =>
    unfold exec at he
    obtain ⟨r, hr, he⟩ := C.bind_ok he
    injection he with he
    injection he with e1 e2
    injection e2 with e2 e3
    subst e2; exact B
  | probability p =>
    unfold exec at he
    obtain ⟨r, hr, he⟩ := C.bind_ok he
    injection he with he
    injection he with e1 e2
    injection e2 with e2 e3
    subst e2; exact B

/-- the anomaly threshold along a history -/
theorem run_beyond {lib : Lib F64} {q level : F64} {low disc : ℤ} {me : UInt64} {h0 : Heap F64} {s0 : Spot F64}
    (m1 : 1 ≤ me.toNat) (m2 : me.toNat < 2 ^ 61) (hi : (spot_init lib h0 s0 q low disc level me).1 = 0)
    (hq : isFin q) (q0 : 0 < toQ q) (q1 : toQ q ≤ 1) (ops : List (Op F64)) (hv : ∀ op ∈ ops, op.valid)
    (hU : ∀ pre op outs o s h, pre ++ [op] <+: ops →
      runOps (codeMath muslFU) (spot_init lib h0 s0 q low disc level me).2.2 (spot_init lib h0 s0 q low disc level me).2.1
        (pre ++ [op]) = .ok (outs ++ [o], s, h) →
      (o = .code 1 ∨ ∃ d n, op = .fit d n ∧ o = .code 0) → Spec.Usable s (low ≠ 0) q)
    (outs : List (Out F64)) (s : Spot F64) (h : Heap F64)
    (hr : runOps (codeMath muslFU) (spot_init lib h0 s0 q low disc level me).2.2 (spot_init lib h0 s0 q low disc level me).2.1
        ops = .ok (outs, s, h)) : Spec.Ordered s (low ≠ 0) := by
  induction ops using List.reverseRecOn generalizing outs s h with
  | nil =>
    cases hr
    left
    exact (C03_fresh lib h0 s0 q level low disc me hi).2.2.2.2.2.2.2.1
  | append_singleton pre op ih =>
    have hr' := hr
    rw [runOps_append] at hr
    obtain ⟨r, h1, hr⟩ := C.bind_ok hr
    obtain ⟨r', h2, hr⟩ := C.bind_ok hr
    simp only [Except.ok.injEq, Prod.mk.injEq] at hr
    obtain ⟨rfl, rfl, rfl⟩ := hr
    have hvp : ∀ o ∈ pre, o.valid := fun o ho => hv o (List.mem_append_left _ ho)
    have B := ih hvp (fun p o a b c d hp => hU p o a b c d (hp.trans (List.prefix_append _ _))) r.1 r.2.1 r.2.2 h1
    have R : Reaches (codeMath muslFU) lib q low disc level me r.2.1 r.2.2 := ⟨m1, m2, h0, s0, hi, pre, r.1, hvp, h1⟩
    unfold runOps at h2
    obtain ⟨e, he, h2⟩ := C.bind_ok h2
    simp only [runOps, C.ok_bind, Except.ok.injEq] at h2
    subst h2
    exact exec_beyond (o := e.1) R hq q0 q1 (hv op (by simp)) B he
      (fun hc => hU pre op r.1 e.1 e.2.1 e.2.2 (List.prefix_refl _) hr' hc)

/-- A value flagged as an anomaly is strictly beyond the excess threshold, on the histories of a detector such that each time the
anomaly threshold is computed the tail parameters are moderate and there are at least `q * n` excesses.
Missing (false, see below): the histories where the proportion of excesses falls below `q`. -/
theorem C78_partial (lib : Lib F64) (q level : F64) (low disc : ℤ) (me : UInt64) (h0 : Heap F64) (s0 : Spot F64)
    (m1 : 1 ≤ me.toNat) (m2 : me.toNat < 2 ^ 61) (hi : (spot_init lib h0 s0 q low disc level me).1 = 0)
    (hq : isFin q) (q0 : 0 < toQ q) (q1 : toQ q ≤ 1) (ops : List (Op F64)) (hv : ∀ op ∈ ops, op.valid)
    (hU : ∀ pre op outs o s h, pre ++ [op] <+: ops →
      runOps (codeMath muslFU) (spot_init lib h0 s0 q low disc level me).2.2 (spot_init lib h0 s0 q low disc level me).2.1
        (pre ++ [op]) = .ok (outs ++ [o], s, h) →
      (o = .code 1 ∨ ∃ d n, op = .fit d n ∧ o = .code 0) → Spec.Usable s (low ≠ 0) q)
    (outs : List (Out F64)) (s : Spot F64) (h : Heap F64)
    (hr : runOps (codeMath muslFU) (spot_init lib h0 s0 q low disc level me).2.2 (spot_init lib h0 s0 q low disc level me).2.1
        ops = .ok (outs, s, h))
    (x : F64) (s' : Spot F64) (h' : Heap F64) (hs : spot_step (codeMath muslFU) h s x = .ok (2, s', h')) :
    if low ≠ 0 then F64.lt x s.excess_threshold = true else F64.lt s.excess_threshold x = true := by
  have B := run_beyond m1 m2 hi hq q0 q1 ops hv hU outs s h hr
  have R : Reaches (codeMath muslFU) lib q low disc level me s h := ⟨m1, m2, h0, s0, hi, ops, outs, hv, hr⟩
  obtain ⟨a, xs, I, P⟩ := R.inv
  have hA : anomTest s x = true := by
    rcases step_cases hs with ⟨-, e, -⟩ | ⟨-, e, -⟩ | ⟨-, -, -, e, -⟩ | ⟨-, -, -, e, -⟩
    · cases e
    · exact e
    · cases e
    · cases e
  obtain ⟨-, xn, an, hc⟩ := (anomTest_iff P x).mp hA
  rcases B with B | ⟨B1, B2⟩
  · exact absurd B an
  by_cases hl : low = 0
  · simp only [hl, ne_eq, not_true_eq_false, if_false] at hc ⊢
    obtain ⟨en, -, hle⟩ := (F64.le_iff _ _).mp (B1 (by simp [hl]))
    exact (F64.lt_iff _ _).mpr ⟨en, xn, hle.trans_lt hc⟩
  · simp only [ne_eq, hl, not_false_eq_true, if_true] at hc ⊢
    obtain ⟨-, en, hle⟩ := (F64.le_iff _ _).mp (B2 hl)
    exact (F64.lt_iff _ _).mpr ⟨xn, en, hc.trans_le hle⟩

/-- the decidable content of `FittedF64` for a detector of the upper tail -/
def Sample.fittedB (s : Spot F64) : Bool :=
  decide (s.up_down = lit 1) && decide (isFin s.excess_threshold) && decide (isFin s.tail.gamma) && decide (|toQ s.tail.gamma| ≤ 2 ^ 20) &&
    decide (isFin s.tail.sigma) && decide (0 < toQ s.tail.sigma) && decide (0 < s.Nt.toNat ∧ s.Nt.toNat ≤ s.n.toNat ∧ s.n.toNat ≤ 2 ^ 53)

theorem Sample.fitted_of {s : Spot F64} (h : Sample.fittedB s = true) : FittedF64 s ((0 : ℤ) ≠ 0) := by
  simp only [Sample.fittedB, Bool.and_eq_true, decide_eq_true_iff] at h
  obtain ⟨⟨⟨⟨⟨⟨a, b⟩, c⟩, d⟩, e⟩, f⟩, g⟩ := h
  exact ⟨.inl ⟨a, by simp⟩, b, ⟨c, d⟩, ⟨e, f⟩, g.1, g.2.1, g.2.2⟩

/-- The hypotheses are met: after the fit of the sample data, the value 1000 is an anomaly. -/
example : ∃ (outs : List (Out F64)) (s : Spot F64) (h : Heap F64),
    runOps (codeMath muslFU) Sample.init.2.2 Sample.init.2.1 [.fit Sample.data 7] = .ok (outs, s, h) ∧
    Spec.Usable s ((0 : ℤ) ≠ 0) (lit (1 / 100)) ∧ (∃ s' h', spot_step (codeMath muslFU) h s (lit 1000) = .ok (2, s', h')) ∧
    (∀ pre op outs o s h, pre ++ [op] <+: [Op.fit Sample.data 7] →
      runOps (codeMath muslFU) Sample.init.2.2 Sample.init.2.1 (pre ++ [op]) = .ok (outs ++ [o], s, h) →
      (o = .code 1 ∨ ∃ d n, op = .fit d n ∧ o = .code 0) → Spec.Usable s ((0 : ℤ) ≠ 0) (lit (1 / 100))) := by
  have hd : (match runOps (codeMath muslFU) Sample.init.2.2 Sample.init.2.1 [.fit Sample.data 7] with
    | .ok r => Sample.fittedB r.2.1 && decide (toQ (lit (1 / 100) : F64) ≤ (r.2.1.Nt.toNat : ℚ) / r.2.1.n.toNat) &&
        !is_nan (lit 1000 : F64) && anomTest r.2.1 (lit 1000)
    | .error _ => false) = true := by decide +kernel
  cases hr : runOps (codeMath muslFU) Sample.init.2.2 Sample.init.2.1 [.fit Sample.data 7] with
  | error e => rw [hr] at hd; cases hd
  | ok r =>
    rw [hr] at hd
    simp only [Bool.and_eq_true, decide_eq_true_iff, Bool.not_eq_true'] at hd
    obtain ⟨⟨⟨h1, h2⟩, h3⟩, h4⟩ := hd
    have U : Spec.Usable r.2.1 ((0 : ℤ) ≠ 0) (lit (1 / 100)) := ⟨Sample.fitted_of h1, h2⟩
    refine ⟨r.1, r.2.1, r.2.2, rfl, U, ⟨r.2.1, r.2.2, ?_⟩, ?_⟩
    · unfold spot_step
      have h4' : (r.2.1.discard_anomalies ≠ 0 && r.2.1.up_down *. (lit 1000 -. r.2.1.anomaly_threshold) >. lit 0) = true := h4
      rw [h3, if_neg (by simp), if_pos h4']
      rfl
    · intro pre op outs o s h hp hrun _
      have hlen := hp.length_le
      have hpre : pre = [] := by
        cases pre with
        | nil => rfl
        | cons a l => simp at hlen
      subst hpre
      have : op = Op.fit Sample.data 7 := by
        have := hp.eq_of_length (by simp)
        simpa using this
      subst this
      rw [List.nil_append, hr] at hrun
      injection hrun with hrun
      subst hrun
      exact U

/-- the detector of the witness: `q` 2/5, level 1/2 -/
def Sample.halfInit : ℤ × Spot F64 × Heap F64 := spot_init Sample.lib Sample.emptyHeap Sample.zeroed (lit (4 / 10)) 0 1 (lit (5 / 10)) 20

/-- a fit, four small values, an excess -/
def Sample.halfOps : List (Op F64) :=
  [.fit [lit 1, lit 2, lit 3, lit 4, lit 5, lit 7] 6, .step (lit 0), .step (lit 0), .step (lit 0), .step (lit 0), .step (lit 4)]

/-- False of the code: after the calls above the excess threshold is 3, the anomaly threshold about 2.636, and the value 2.9 is flagged
although it is not an excess. -/
theorem C78_false : ∃ (ops : List (Op F64)) (outs : List (Out F64)) (s : Spot F64) (h : Heap F64) (x : F64),
    Sample.halfInit.1 = 0 ∧ (∀ op ∈ ops, op.valid) ∧
    runOps (codeMath muslFU) Sample.halfInit.2.2 Sample.halfInit.2.1 ops = .ok (outs, s, h) ∧
    F64.lt x s.excess_threshold = true ∧ spot_step (codeMath muslFU) h s x = .ok (2, s, h) := by
  have hd : (match runOps (codeMath muslFU) Sample.halfInit.2.2 Sample.halfInit.2.1 Sample.halfOps with
    | .ok r => decide (F64.lt (lit (29 / 10)) r.2.1.excess_threshold = true) && !is_nan (lit (29 / 10) : F64) &&
        anomTest r.2.1 (lit (29 / 10))
    | .error _ => false) = true := by decide +kernel
  cases hr : runOps (codeMath muslFU) Sample.halfInit.2.2 Sample.halfInit.2.1 Sample.halfOps with
  | error e => rw [hr] at hd; cases hd
  | ok r =>
    rw [hr] at hd
    simp only [Bool.and_eq_true, decide_eq_true_iff, Bool.not_eq_true'] at hd
    obtain ⟨⟨h1, h2⟩, h3⟩ := hd
    refine ⟨Sample.halfOps, r.1, r.2.1, r.2.2, lit (29 / 10), by decide +kernel, ?_, hr, h1, ?_⟩
    · intro op hop
      simp only [Sample.halfOps, List.mem_cons, List.not_mem_nil, or_false] at hop
      rcases hop with rfl | rfl | rfl | rfl | rfl | rfl <;> first | trivial | (show (6 : UInt64).toNat ≤ 6; decide)
    · unfold spot_step
      rw [h2]
      have h3' : (r.2.1.discard_anomalies ≠ 0 && r.2.1.up_down *. (lit (29 / 10) -. r.2.1.anomaly_threshold) >. lit 0) = true := h3
      rw [if_neg (by simp), if_pos h3']
      rfl

/-! ### C79 -/

/-- threshold 0, shape 0 and scale 1, one excess among 64 observations -/
def Sample.one64 : Spot F64 :=
  { Sample.spot with excess_threshold := lit 0, Nt := 1, n := 64, tail := { Sample.spot.tail with gamma := lit 0, sigma := lit 1 } }

/-- a test of the state that calls reach -/
theorem Sample.after (ops : List (Op F64)) (test : Spot F64 → Bool)
    (ht : (match runOps (codeMath muslFU) Sample.heap Sample.spot ops with
      | .ok r => Sample.fittedB r.2.1 && test r.2.1
      | .error _ => false) = true) :
    ∃ outs s h, runOps (codeMath muslFU) Sample.heap Sample.spot ops = .ok (outs, s, h) ∧ FittedF64 s ((0 : ℤ) ≠ 0) ∧ test s = true := by
  cases hr : runOps (codeMath muslFU) Sample.heap Sample.spot ops with
  | error e => rw [hr] at ht; cases ht
  | ok r =>
    rw [hr] at ht
    obtain ⟨h1, h2⟩ := Bool.and_eq_true_iff.mp ht
    exact ⟨r.1, r.2.1, r.2.2, rfl, Sample.fitted_of h1, h2⟩

/-- False of the code: after the fit of the value 1 and 63 normal values, the quantile of 1/2 is above that of the double just before 1/2. -/
theorem C79_false : ∃ (ops : List (Op F64)) (outs : List (Out F64)) (s : Spot F64) (h : Heap F64) (q q' z z' : F64),
    Sample.init.1 = 0 ∧ (∀ op ∈ ops, op.valid) ∧ runOps (codeMath muslFU) Sample.init.2.2 Sample.init.2.1 ops = .ok (outs, s, h) ∧
    FittedF64 s ((0 : ℤ) ≠ 0) ∧ isFin q ∧ isFin q' ∧ 0 < toQ q ∧ toQ q < toQ q' ∧ toQ q' ≤ 1 ∧
    spot_quantile (codeMath muslFU) s q = .ok z ∧ spot_quantile (codeMath muslFU) s q' = .ok z' ∧ F64.lt z z' = true := by
  obtain ⟨outs, s, h, hr, F, ht⟩ := Sample.after (.fit [lit 1] 1 :: List.replicate 63 (.step (lit (-1))))
    (fun s => match spot_quantile (codeMath muslFU) s (lit (1 / 2 - 1 / 2 ^ 54)), spot_quantile (codeMath muslFU) s (lit (1 / 2)) with
      | .ok z, .ok z' => F64.lt z z'
      | _, _ => false) (by decide +kernel)
  split at ht
  · rename_i z z' h1 h2
    refine ⟨_, outs, s, h, lit (1 / 2 - 1 / 2 ^ 54), lit (1 / 2), z, z', by decide +kernel, ?_, hr, F, by decide +kernel, by decide +kernel,
      by decide +kernel, by decide +kernel, by decide +kernel, h1, h2, ht⟩
    intro op hop
    rcases List.mem_cons.mp hop with rfl | hop
    · simp [Op.valid]
    · rw [List.eq_of_mem_replicate hop]; trivial
  · cases ht

/-- In binary64, rounding errors included: on a fitted detector with moderate parameters, the quantile does not approach the
threshold as `q` decreases, if the quotient of `q` by the proportion of excesses is in [2^-47, 16]. It is NaN only if the quotient of
scale and shape overflows or underflows (`C78_quantile_partial`).
Missing (false in general): the other quotients, for which the logarithm is not monotone. -/
theorem C79_partial (s : Spot F64) (low : Prop) (F : FittedF64 s low) (q q' : F64) (hq : isFin q) (hq' : isFin q')
    (h : toQ q ≤ toQ q') (h1 : toQ q' ≤ 1)
    (hlo : (s.Nt.toNat : ℚ) / s.n.toNat / 2 ^ 47 ≤ toQ q) (hhi : toQ q' ≤ 16 * ((s.Nt.toNat : ℚ) / s.n.toNat)) :
    ∃ z z', spot_quantile (codeMath muslFU) s q = .ok z ∧ spot_quantile (codeMath muslFU) s q' = .ok z' ∧
      (z = nan ∨ z' = nan ∨ (¬ low → F64.le z' z = true) ∧ (low → F64.le z z' = true)) := by
  obtain ⟨S1, S2, S3, S4⟩ := proportion_pos F.Nt F.le F.n
  have hS : 0 < toQ (lit (s.Nt.toNat : ℚ) /. lit (s.n.toNat : ℚ) : F64) := (pow2_pos _).trans_le S3
  have P0 : pow2 (-53) ≤ (s.Nt.toNat : ℚ) / s.n.toNat := by
    have hN : (1 : ℚ) ≤ s.Nt.toNat := by exact_mod_cast F.Nt
    have hn0 : (0 : ℚ) < s.n.toNat := by exact_mod_cast F.Nt.trans_le F.le
    have hn : (s.n.toNat : ℚ) ≤ 2 ^ 53 := by exact_mod_cast F.n
    rw [le_div_iff₀ hn0, pow2_eq]
    norm_num
    linarith
  have P0' : 0 < (s.Nt.toNat : ℚ) / s.n.toNat := (pow2_pos _).trans_le P0
  have q0 : 0 < toQ q := lt_of_lt_of_le (by positivity) hlo
  obtain ⟨r1, r2, r3⟩ := ratio_pos hq q0 (h.trans h1) S1 S3 S4
  obtain ⟨r1', r2', r3'⟩ := ratio_pos hq' (q0.trans_le h) h1 S1 S3 S4
  have hform := quantile_form s q _ rfl
  have hform' := quantile_form s q' _ rfl
  have hrel : |toQ (lit (s.Nt.toNat : ℚ) /. lit (s.n.toNat : ℚ) : F64) - (s.Nt.toNat : ℚ) / s.n.toNat| ≤
      (s.Nt.toNat : ℚ) / s.n.toNat / 4 := by
    rw [S2]
    refine (rq_rel (.inr ?_)).trans ?_
    · rw [abs_of_pos P0']; exact (pow2_le (by norm_num)).trans P0
    · rw [abs_of_pos P0', pow2_m53]
      have : (1 / 9007199254740992 : ℚ) * ((s.Nt.toNat : ℚ) / s.n.toNat) ≤ 1 / 4 * ((s.Nt.toNat : ℚ) / s.n.toNat) :=
        mul_le_mul_of_nonneg_right (by norm_num) P0'.le
      linarith
  obtain ⟨b1, b2⟩ := abs_le.mp hrel
  have rlo : 1 / 2 ^ 48 ≤ toQ (q /. (lit (s.Nt.toNat : ℚ) /. lit (s.n.toNat : ℚ))) := by
    have e : rq (1 / 2 ^ 48) = 1 / 2 ^ 48 := by
      refine rq_rep ⟨1, -48, by norm_num, by norm_num, ?_⟩
      rw [pow2_eq, abs_of_pos (by norm_num)]; norm_num
    rw [r2, ← e]
    apply rq_mono
    rw [le_div_iff₀ hS]
    generalize toQ (lit (s.Nt.toNat : ℚ) /. lit (s.n.toNat : ℚ) : F64) = S at *
    generalize (s.Nt.toNat : ℚ) / s.n.toNat = p at *
    linarith
  have rhi : toQ (q' /. (lit (s.Nt.toNat : ℚ) /. lit (s.n.toNat : ℚ))) < 32 := by
    have e : rq 31 = 31 := by
      have := rq_rep (rep_int (i := 31) (by norm_num))
      exact_mod_cast this
    have : rq (toQ q' / toQ (lit (s.Nt.toNat : ℚ) /. lit (s.n.toNat : ℚ) : F64)) ≤ 31 := by
      rw [← e]
      apply rq_mono
      rw [div_le_iff₀ hS]
      generalize toQ (lit (s.Nt.toNat : ℚ) /. lit (s.n.toNat : ℚ) : F64) = S at *
      generalize (s.Nt.toNat : ℚ) / s.n.toNat = p at *
      linarith
    rw [r2']; linarith
  have rle : toQ (q /. (lit (s.Nt.toNat : ℚ) /. lit (s.n.toNat : ℚ))) ≤ toQ (q' /. (lit (s.Nt.toNat : ℚ) /. lit (s.n.toNat : ℚ))) := by
    rw [r2, r2']; exact rq_mono (div_le_div_of_nonneg_right h hS.le)
  generalize q /. (lit (s.Nt.toNat : ℚ) /. lit (s.n.toNat : ℚ)) = r at *
  generalize q' /. (lit (s.Nt.toNat : ℚ) /. lit (s.n.toNat : ℚ)) = r' at *
  have close : ∀ t t', LeN t' t → spot_quantile (codeMath muslFU) s q = .ok (s.excess_threshold +. s.up_down *. t) →
      spot_quantile (codeMath muslFU) s q' = .ok (s.excess_threshold +. s.up_down *. t') →
      ∃ z z', spot_quantile (codeMath muslFU) s q = .ok z ∧ spot_quantile (codeMath muslFU) s q' = .ok z' ∧
      (z = nan ∨ z' = nan ∨ (¬ low → F64.le z' z = true) ∧ (low → F64.le z z' = true)) := by
    intro t t' ht e1 e2
    refine ⟨_, _, e1, e2, ?_⟩
    rcases F.mul_up_down t with ⟨hl, e⟩ | ⟨hl, e⟩
    · rcases F.mul_up_down t' with ⟨-, e'⟩ | ⟨hl', -⟩
      swap
      · exact absurd hl' hl
      rw [e, e']
      rcases (ht.add_left s.excess_threshold).cases with a | a | a
      · exact .inr (.inl a)
      · exact .inl a
      · exact .inr (.inr ⟨fun _ => a, fun b => absurd b hl⟩)
    · rcases F.mul_up_down t' with ⟨hl', -⟩ | ⟨-, e'⟩
      · exact absurd hl hl'
      rw [e, e']
      rcases (ht.neg.add_left s.excess_threshold).cases with a | a | a
      · exact .inl a
      · exact .inr (.inl a)
      · exact .inr (.inr ⟨fun b => absurd hl b, fun _ => a⟩)
  by_cases g0 : toQ s.tail.gamma = 0
  · refine close _ _ ?_ (hform.1 ⟨F.gamma.1, g0⟩) (hform'.1 ⟨F.gamma.1, g0⟩)
    have hσ : val (F64.neg s.tail.sigma) ≤ 0 := by
      rw [fin_neg_nonpos (isFin_neg.mpr F.sigma.1), toQ_neg]; linarith [F.sigma.2]
    refine LeN.mul_left_neg hσ (.inr (.inr ?_))
    rw [val_fin_le (xlog_fin r1 r3).1 (xlog_fin r1' r3').1]
    exact (C76_partial r r' r1 r1' r3 rle).2.2.1 rlo rhi
  · obtain ⟨y, y', hy, hy', y1, y2⟩ := xpow_mono (b := F64.neg s.tail.gamma) r1 r1' rlo rle rhi (isFin_neg.mpr F.gamma.1)
      (by rw [toQ_neg, abs_neg]; exact F.gamma.2)
    rw [toQ_neg] at y1 y2
    refine close _ _ ?_ (hform.2 g0 y hy) (hform'.2 g0 y' hy')
    rcases lt_or_gt_of_ne g0 with g | g
    · exact ((LeN.of_le (y1 (by linarith))).sub_right _).mul_left_neg (val_div_nonpos F.sigma.1 F.gamma.1 g F.sigma.2.le)
    · exact ((LeN.of_le (y2 (by linarith))).sub_right _).mul_left (val_div_nonneg F.sigma.1 F.gamma.1 g F.sigma.2.le)

/-- The hypotheses are met by a detector with three excesses among ten observations, and the quantiles are numbers. -/
example : FittedF64 Sample.endpoint ((0 : ℤ) ≠ 0) ∧
    ((Sample.endpoint.Nt.toNat : ℚ) / Sample.endpoint.n.toNat / 2 ^ 47 ≤ toQ (lit (1 / 1000) : F64)) ∧
    toQ (lit (1 / 100) : F64) ≤ 16 * ((Sample.endpoint.Nt.toNat : ℚ) / Sample.endpoint.n.toNat) ∧
    isFin (Sample.endpoint.tail.sigma /. Sample.endpoint.tail.gamma) ∧ toQ (Sample.endpoint.tail.sigma /. Sample.endpoint.tail.gamma) ≠ 0 :=
  ⟨Sample.fitted_of (by decide +kernel), by decide +kernel⟩

/-! ### C80 -/

/-- threshold 0, shape 1, scale 1 -/
def Sample.pareto : Spot F64 :=
  { Sample.spot with excess_threshold := lit 0, Nt := 1, n := 1, tail := { Sample.spot.tail with gamma := lit 1, sigma := lit 1 } }

/-- False of the code: after the fit of the values 1, 1 and 20, of two consecutive doubles (about 73.7) the greater one has the greater
probability to be exceeded. -/
theorem C80_false : ∃ (ops : List (Op F64)) (outs : List (Out F64)) (s : Spot F64) (h : Heap F64) (z z' p p' : F64),
    Sample.init.1 = 0 ∧ (∀ op ∈ ops, op.valid) ∧ runOps (codeMath muslFU) Sample.init.2.2 Sample.init.2.1 ops = .ok (outs, s, h) ∧
    FittedF64 s ((0 : ℤ) ≠ 0) ∧ isFin z ∧ isFin z' ∧ toQ s.excess_threshold < toQ z ∧ toQ z < toQ z' ∧
    spot_probability (codeMath muslFU) s z = .ok p ∧ spot_probability (codeMath muslFU) s z' = .ok p' ∧ F64.lt p p' = true := by
  obtain ⟨outs, s, h, hr, F, ht⟩ := Sample.after [.fit [lit 1, lit 1, lit 20] 3]
    (fun s => decide (toQ s.excess_threshold < toQ (lit (5186163413298925 / 70368744177664) : F64)) &&
      match spot_probability (codeMath muslFU) s (lit (5186163413298925 / 70368744177664)), spot_probability (codeMath muslFU) s (lit (2593081706649463 / 35184372088832)) with
      | .ok p, .ok p' => F64.lt p p'
      | _, _ => false) (by decide +kernel)
  obtain ⟨h0, ht⟩ := Bool.and_eq_true_iff.mp ht
  split at ht
  · rename_i z z' h1 h2
    exact ⟨_, outs, s, h, lit (5186163413298925 / 70368744177664), lit (2593081706649463 / 35184372088832), z, z', by decide +kernel, by simp [Op.valid], hr, F, by decide +kernel, by decide +kernel,
      of_decide_eq_true h0, by decide +kernel, h1, h2, ht⟩
  · cases ht

/-- the signed distance to the excess threshold as computed -/
def Spec.dist (s : Spot F64) (z : F64) : F64 := s.up_down *. (z -. s.excess_threshold)

/-- In binary64, rounding errors included: on a fitted detector, the probability to be beyond `z` does not increase as `z` goes away from
the threshold, if the computed arguments are in the range where the exponential (shape 0) or the logarithm (shape of magnitude at
least 2^-20) is monotone.
Missing (false in general): the other arguments. -/
theorem C80_partial (s : Spot F64) (low : Prop) (F : FittedF64 s low) (z z' : F64) (hz : isFin z) (hz' : isFin z')
    (h : (¬ low → toQ z ≤ toQ z') ∧ (low → toQ z' ≤ toQ z))
    (hd : (toQ s.tail.gamma = 0 ∧ (∀ w ∈ [z, z'], isFin ((-. Spec.dist s w) /. s.tail.sigma) ∧
        |toQ ((-. Spec.dist s w) /. s.tail.sigma)| < toQ (LOG2 : F64) * 2 ^ 31)) ∨
      (1 / 2 ^ 20 ≤ |toQ s.tail.gamma| ∧ (∀ w ∈ [z, z'], isFin (lit 1 +. Spec.dist s w *. (s.tail.gamma /. s.tail.sigma)) ∧
        1 / 2 ^ 48 ≤ toQ (lit 1 +. Spec.dist s w *. (s.tail.gamma /. s.tail.sigma)) ∧
        toQ (lit 1 +. Spec.dist s w *. (s.tail.gamma /. s.tail.sigma)) < 32))) :
    ∃ p p', spot_probability (codeMath muslFU) s z = .ok p ∧ spot_probability (codeMath muslFU) s z' = .ok p' ∧
      F64.le p' p = true := by
  obtain ⟨S1, -, S3, S4⟩ := proportion_pos F.Nt F.le F.n
  have hS : 0 < toQ (lit (s.Nt.toNat : ℚ) /. lit (s.n.toNat : ℚ) : F64) := (pow2_pos _).trans_le S3
  have hdist : LeN (Spec.dist s z) (Spec.dist s z') := by
    unfold Spec.dist
    rcases F.mul_up_down (z -. s.excess_threshold) with ⟨hl, e⟩ | ⟨hl, e⟩ <;>
      rcases F.mul_up_down (z' -. s.excess_threshold) with ⟨hl', e'⟩ | ⟨hl', e'⟩
    · rw [e, e']
      exact LeN.sub_right _ (.inr (.inr ((val_fin_le hz hz').mpr (h.1 hl))))
    · exact absurd hl' hl
    · exact absurd hl hl'
    · rw [e, e']
      exact (LeN.sub_right _ (.inr (.inr ((val_fin_le hz' hz).mpr (h.2 hl))))).neg
  have hp : ∀ w, spot_probability (codeMath muslFU) s w =
      tail_probability (codeMath muslFU) s.tail (lit (s.Nt.toNat : ℚ) /. lit (s.n.toNat : ℚ)) (Spec.dist s w) := fun _ => rfl
  simp only [List.mem_cons, List.not_mem_nil, or_false, forall_eq_or_imp, forall_eq] at hd
  simp only [hp]
  generalize Spec.dist s z = d at *
  generalize Spec.dist s z' = d' at *
  generalize (lit (s.Nt.toNat : ℚ) /. lit (s.n.toNat : ℚ) : F64) = S at *
  have last : ∀ u v, F64.le u v = true → F64.le (S *. u) (S *. v) = true := by
    intro u v huv
    have nn : ∀ a, notNaN a → notNaN (S *. a) := by
      intro a ha
      show notNaN (F64.mul S a)
      rcases S with _ | c | ⟨c, k⟩
      · exact absurd S1 (by simp [isFin])
      · exact absurd S1 (by simp [isFin])
      rcases a with _ | t | ⟨t, j⟩
      · exact absurd rfl ha
      · have : k.val ≠ 0 := fun e => hS.ne' (toQ_eq_zero.mpr e)
        simp [F64.mul, this, notNaN]
      · exact ofRat_notNaN _ _
    obtain ⟨nu, nv, -⟩ := (F64.le_iff _ _).mp huv
    exact ((LeN.of_le huv).mul_left ((val_fin_nonneg S1).mpr hS.le)).le (nn u nu) (nn v nv)
  unfold tail_probability
  rcases hd with ⟨g0, ⟨f, b⟩, ⟨f', b'⟩⟩ | ⟨g1, ⟨f, b, c⟩, ⟨f', b', c'⟩⟩
  · rw [if_pos ((eq_zero_iff _).mpr ⟨F.gamma.1, g0⟩), if_pos ((eq_zero_iff _).mpr ⟨F.gamma.1, g0⟩)]
    have hle := (hdist.neg.div_right F.sigma.1 F.sigma.2).le f'.notNaN f.notNaN
    have hle' := (val_fin_le f' f).mp ((F64.le_iff _ _).mp hle).2.2
    obtain ⟨u', u, hu', hu, huu, -⟩ := C77_partial _ _ f' f hle' (abs_lt.mp b').1 (abs_lt.mp b).2
    refine ⟨S *. u, S *. u', ?_, ?_, last _ _ huu⟩
    · show (xexp muslFU ((-. d) /. s.tail.sigma) >>= _) = _
      rw [hu]; rfl
    · show (xexp muslFU ((-. d') /. s.tail.sigma) >>= _) = _
      rw [hu']; rfl
  · have gpos : (0 : ℚ) < |toQ s.tail.gamma| := lt_of_lt_of_le (by norm_num) g1
    have g0 : toQ s.tail.gamma ≠ 0 := abs_pos.mp gpos
    rw [if_neg fun e => g0 ((eq_zero_iff _).mp e).2, if_neg fun e => g0 ((eq_zero_iff _).mp e).2]
    obtain ⟨l1, l2⟩ := lit_int (i := -1) (by norm_num)
    push_cast at l1 l2
    have hq : |toQ (lit (-1) : F64) / toQ s.tail.gamma| ≤ ((2 ^ 20 : ℤ) : ℚ) := by
      rw [l2, abs_div, abs_neg, abs_one, div_le_iff₀ gpos]
      push_cast
      linarith
    have hR : rq ((2 ^ 20 : ℤ) : ℚ) = ((2 ^ 20 : ℤ) : ℚ) := rq_rep (rep_int (by norm_num))
    obtain ⟨fb, eb⟩ := div_fin' l1 F.gamma.1 g0 (hq.trans ((le_abs_self _).trans (abs_int_le (by norm_num))))
    have hbb : |toQ (lit (-1) /. s.tail.gamma : F64)| ≤ 2 ^ 20 := by
      rw [show (lit (-1) /. s.tail.gamma : F64) = F64.div (lit (-1)) s.tail.gamma from rfl, eb]
      have hq' := abs_le.mp hq
      have u1 := rq_mono hq'.1
      have u2 := rq_mono hq'.2
      rw [rq_neg, hR] at u1
      rw [hR] at u2
      refine (abs_le.mpr ⟨u1, u2⟩).trans (le_of_eq (by norm_num))
    have arg : ∀ w : F64, lit 1 +. w *. (s.tail.gamma /. s.tail.sigma) = F64.add (lit 1) (F64.mul w (F64.div s.tail.gamma s.tail.sigma)) :=
      fun _ => rfl
    rcases lt_or_gt_of_ne g0 with g | g
    · have cs : val (F64.div s.tail.gamma s.tail.sigma) ≤ 0 := by
        obtain ⟨z, e⟩ := div_fin F.gamma.1 F.sigma.1 F.sigma.2.ne'
        rw [e]
        have := ofRat_mono (z := z) (z' := false) (div_nonpos_of_nonpos_of_nonneg g.le F.sigma.2.le)
        rwa [ofRat_zero, val_zero] at this
      have hw := ((hdist.mul_right_neg cs).add_left (lit 1)).le f'.notNaN f.notNaN
      have hw' := (val_fin_le f' f).mp ((F64.le_iff _ _).mp hw).2.2
      obtain ⟨y', y, hy', hy, k, -⟩ := xpow_mono f' f b' hw' c fb hbb
      refine ⟨S *. y, S *. y', ?_, ?_, last _ _ (k ?_)⟩
      · change xpow (codeMath muslFU) _ (lit (-1) /. s.tail.gamma) = _ at hy
        dsimp only
        rw [hy]; rfl
      · change xpow (codeMath muslFU) _ (lit (-1) /. s.tail.gamma) = _ at hy'
        dsimp only
        rw [hy']; rfl
      · rw [eb, l2]
        exact rq_nonneg (div_nonneg_of_nonpos (by norm_num) g.le)
    · have cs : 0 ≤ val (F64.div s.tail.gamma s.tail.sigma) := val_div_nonneg F.gamma.1 F.sigma.1 F.sigma.2 g.le
      have hw := ((hdist.mul_right cs).add_left (lit 1)).le f.notNaN f'.notNaN
      have hw' := (val_fin_le f f').mp ((F64.le_iff _ _).mp hw).2.2
      obtain ⟨y, y', hy, hy', -, k⟩ := xpow_mono f f' b hw' c' fb hbb
      refine ⟨S *. y, S *. y', ?_, ?_, last _ _ (k ?_)⟩
      · change xpow (codeMath muslFU) _ (lit (-1) /. s.tail.gamma) = _ at hy
        dsimp only
        rw [hy]; rfl
      · change xpow (codeMath muslFU) _ (lit (-1) /. s.tail.gamma) = _ at hy'
        dsimp only
        rw [hy']; rfl
      · rw [eb, l2]
        have := rq_mono (div_nonpos_of_nonpos_of_nonneg (show (-1 : ℚ) ≤ 0 by norm_num) g.le)
        rwa [rq_zero] at this

/-- the hypotheses are met with a shape of -1, on the upper tail -/
example : FittedF64 Sample.endpoint ((0 : ℤ) ≠ 0) ∧ 1 / 2 ^ 20 ≤ |toQ Sample.endpoint.tail.gamma| ∧
    (∀ w ∈ [(lit 5 : F64), lit (11 / 2)],
      isFin (lit 1 +. Spec.dist Sample.endpoint w *. (Sample.endpoint.tail.gamma /. Sample.endpoint.tail.sigma)) ∧
      1 / 2 ^ 48 ≤ toQ (lit 1 +. Spec.dist Sample.endpoint w *. (Sample.endpoint.tail.gamma /. Sample.endpoint.tail.sigma)) ∧
      toQ (lit 1 +. Spec.dist Sample.endpoint w *. (Sample.endpoint.tail.gamma /. Sample.endpoint.tail.sigma)) < 32) :=
  ⟨Sample.fitted_of (by decide +kernel), by decide +kernel, by decide +kernel⟩

/-- and with a shape of 0 -/
example : FittedF64 Sample.one64 ((0 : ℤ) ≠ 0) ∧ toQ Sample.one64.tail.gamma = 0 ∧
    (∀ w ∈ [(lit 5 : F64), lit (11 / 2)], isFin ((-. Spec.dist Sample.one64 w) /. Sample.one64.tail.sigma) ∧
        |toQ ((-. Spec.dist Sample.one64 w) /. Sample.one64.tail.sigma)| < toQ (LOG2 : F64) * 2 ^ 31) :=
  ⟨Sample.fitted_of (by decide +kernel), by decide +kernel, by decide +kernel⟩

/-! ### C81 -/

/-- False of the code: after the fit of the value 1 (shape 0, scale 1, threshold 0) the computed probability to exceed 2e9 is infinite. -/
theorem C81_false : ∃ (ops : List (Op F64)) (outs : List (Out F64)) (s : Spot F64) (h : Heap F64),
    Sample.init.1 = 0 ∧ (∀ op ∈ ops, op.valid) ∧ runOps (codeMath muslFU) Sample.init.2.2 Sample.init.2.1 ops = .ok (outs, s, h) ∧
    FittedF64 s ((0 : ℤ) ≠ 0) ∧ toQ s.excess_threshold = 0 ∧ spot_probability (codeMath muslFU) s (lit 2000000000) = .ok (inf false) := by
  obtain ⟨outs, s, h, hr, F, ht⟩ := Sample.after [.fit [lit 1] 1]
    (fun s => decide (toQ s.excess_threshold = 0 ∧ spot_probability (codeMath muslFU) s (lit 2000000000) = .ok (inf false))) (by decide +kernel)
  exact ⟨_, outs, s, h, by decide +kernel, by simp [Op.valid], hr, F, of_decide_eq_true ht⟩

theorem xlog_nan_of {w : F64} (h : ¬ (isFin w ∧ 0 ≤ toQ w)) : xlog muslFU w = nan := by
  by_cases hw : notNaN w
  swap
  · have : w = nan := by rcases nan_or w with e | e; exact e; exact absurd e hw
    rw [this]; decide +kernel
  rcases w with _ | t | ⟨t, k⟩
  · exact absurd rfl hw
  · cases t <;> decide +kernel
  · have h0 : toQ (fin t k) < 0 := by
      by_contra hc
      exact h ⟨trivial, not_lt.mp hc⟩
    unfold xlog
    rw [if_pos]; · rfl
    have z := toQ_of_lit0
    have : (fin t k <. lit 0) = true := by
      refine (F64.lt_iff _ _).mpr ⟨hw, z.1.notNaN, ?_⟩
      rw [val_fin (by trivial), val_fin z.1, ratCast_lt_EReal, z.2]
      exact h0
    simp [this]

/-- a proportion times a number of [0, 1] -/
theorem scale_unit {S y : F64} (hS : isFin S) (h0 : 0 < toQ S) (hy : F64.le (lit 0) y = true) (hy' : F64.le y (lit 1) = true) :
    F64.le (lit 0) (S *. y) = true ∧ F64.le (S *. y) S = true := by
  have z := toQ_of_lit0
  obtain ⟨-, yn, a⟩ := (F64.le_iff _ _).mp hy
  obtain ⟨-, -, b⟩ := (F64.le_iff _ _).mp hy'
  have yf : isFin y := by
    rcases y with _ | t | ⟨t, k⟩
    · exact absurd rfl yn
    · cases t
      · exact absurd hy' (by decide +kernel)
      · exact absurd hy (by decide +kernel)
    · trivial
  rw [val_fin_le z.1 yf, z.2] at a
  rw [val_fin_le yf lit1.1, lit1.2] at b
  obtain ⟨c, e⟩ := mul_fin hS yf
  have sn : notNaN (S *. y) := by
    rw [show (S *. y) = F64.mul S y from rfl, e]; exact ofRat_notNaN _ _
  constructor
  · refine (F64.le_iff _ _).mpr ⟨z.1.notNaN, sn, ?_⟩
    rw [show (S *. y) = F64.mul S y from rfl, e]
    exact le_ofRat z.1 (by rw [z.2]; exact mul_nonneg h0.le a)
  · refine (F64.le_iff _ _).mpr ⟨sn, hS.notNaN, ?_⟩
    rw [show (S *. y) = F64.mul S y from rfl, e]
    exact ofRat_le hS (by nlinarith)

/-- In binary64, rounding errors included: on a fitted detector, the value that `spot_probability` returns for a `z` on the far side of
the excess threshold is NaN or between 0 and the proportion of excesses; for a shape of 0 if the computed distance in units of the
scale is less than `2^31 * LOG2`, for the other shapes if they are at least 2^-20 in magnitude. It is not NaN for a shape of 0.
Missing (false): larger distances. -/
theorem C81_partial (s : Spot F64) (low : Prop) (F : FittedF64 s low) (z : F64) (hz : isFin z)
    (h : (¬ low → toQ s.excess_threshold ≤ toQ z) ∧ (low → toQ z ≤ toQ s.excess_threshold))
    (hd : (toQ s.tail.gamma = 0 ∧ isFin ((-. Spec.dist s z) /. s.tail.sigma) ∧
        |toQ ((-. Spec.dist s z) /. s.tail.sigma)| < toQ (LOG2 : F64) * 2 ^ 31) ∨ 1 / 2 ^ 20 ≤ |toQ s.tail.gamma|)
    (p : F64) (hp : spot_probability (codeMath muslFU) s z = .ok p) :
    (p = nan ∧ toQ s.tail.gamma ≠ 0) ∨ (F64.le (lit 0) p = true ∧ F64.le p (lit s.Nt.toNat /. lit s.n.toNat) = true) := by
  obtain ⟨S1, -, S3, S4⟩ := proportion_pos F.Nt F.le F.n
  have hS : 0 < toQ (lit (s.Nt.toNat : ℚ) /. lit (s.n.toNat : ℚ) : F64) := (pow2_pos _).trans_le S3
  have zz := toQ_of_lit0
  have hdist : 0 ≤ val (Spec.dist s z) := by
    unfold Spec.dist
    rcases F.mul_up_down (z -. s.excess_threshold) with ⟨hl, e⟩ | ⟨hl, e⟩
    · rw [e]
      obtain ⟨c, e'⟩ := sub_fin hz F.et
      rw [show (z -. s.excess_threshold) = F64.sub z s.excess_threshold from rfl, e']
      have := le_ofRat (z := c) zz.1 (q := toQ z - toQ s.excess_threshold) (by rw [zz.2]; linarith [h.1 hl])
      rw [val_fin zz.1, zz.2] at this
      simpa using this
    · rw [e, val_neg]
      obtain ⟨c, e'⟩ := sub_fin hz F.et
      rw [show (z -. s.excess_threshold) = F64.sub z s.excess_threshold from rfl, e']
      have := ofRat_le (z := c) zz.1 (q := toQ z - toQ s.excess_threshold) (by rw [zz.2]; linarith [h.2 hl])
      rw [val_fin zz.1, zz.2] at this
      simpa using this
  have hpe : spot_probability (codeMath muslFU) s z =
      tail_probability (codeMath muslFU) s.tail (lit (s.Nt.toNat : ℚ) /. lit (s.n.toNat : ℚ)) (Spec.dist s z) := rfl
  rw [hpe] at hp
  generalize Spec.dist s z = d at *
  generalize (lit (s.Nt.toNat : ℚ) /. lit (s.n.toNat : ℚ) : F64) = S at *
  unfold tail_probability at hp
  rcases hd with ⟨g0, f, b⟩ | g1
  · rw [if_pos ((eq_zero_iff _).mpr ⟨F.gamma.1, g0⟩)] at hp
    right
    have hneg : toQ ((-. d) /. s.tail.sigma) ≤ 0 := by
      have : LeN (F64.neg d) (zero false) := .inr (.inr (by rw [val_neg, val_zero]; simpa using hdist))
      have := (this.div_right F.sigma.1 F.sigma.2)
      have e0 : ∃ c, F64.div (zero false) s.tail.sigma = zero c := by
        obtain ⟨c, e⟩ := div_fin (x := zero false) trivial F.sigma.1 F.sigma.2.ne'
        have : toQ (zero false) = 0 := by decide +kernel
        rw [this, zero_div, ofRat_zero] at e
        exact ⟨c, e⟩
      obtain ⟨c, e0⟩ := e0
      rw [e0] at this
      have h2 := this.le f.notNaN (by simp [notNaN, zero])
      have h3 := ((F64.le_iff _ _).mp h2).2.2
      rw [val_zero] at h3
      exact (fin_neg_nonpos f).mp h3
    obtain ⟨u, v, hu, hv, -, -, h2, h3⟩ := C77_partial _ _ f f le_rfl (abs_lt.mp b).1 (abs_lt.mp b).2
    rw [hu] at hv
    injection hv with hv
    subst hv
    change (xexp muslFU ((-. d) /. s.tail.sigma) >>= _) = _ at hp
    rw [hu] at hp
    injection hp with hp
    rw [← hp]
    exact scale_unit S1 hS h3 (h2 hneg)
  · have gpos : (0 : ℚ) < |toQ s.tail.gamma| := lt_of_lt_of_le (by norm_num) g1
    have g0 : toQ s.tail.gamma ≠ 0 := abs_pos.mp gpos
    rw [if_neg fun e => g0 ((eq_zero_iff _).mp e).2] at hp
    obtain ⟨l1, l2⟩ := lit_int (i := -1) (by norm_num)
    push_cast at l1 l2
    have hq : |toQ (lit (-1) : F64) / toQ s.tail.gamma| ≤ ((2 ^ 20 : ℤ) : ℚ) := by
      rw [l2, abs_div, abs_neg, abs_one, div_le_iff₀ gpos]
      push_cast
      linarith
    have hR : rq ((2 ^ 20 : ℤ) : ℚ) = ((2 ^ 20 : ℤ) : ℚ) := rq_rep (rep_int (by norm_num))
    obtain ⟨fb, eb⟩ := div_fin' l1 F.gamma.1 g0 (hq.trans ((le_abs_self _).trans (abs_int_le (by norm_num))))
    have hbb : |toQ (F64.div (lit (-1)) s.tail.gamma : F64)| ≤ 2 ^ 20 := by
      rw [eb]
      have hq' := abs_le.mp hq
      have u1 := rq_mono hq'.1
      have u2 := rq_mono hq'.2
      rw [rq_neg, hR] at u1
      rw [hR] at u2
      refine (abs_le.mpr ⟨u1, u2⟩).trans (le_of_eq (by norm_num))
    dsimp only at hp
    -- the sign of the increment of 1
    have hinc : (0 < toQ s.tail.gamma → LeN (zero false) (F64.mul d (F64.div s.tail.gamma s.tail.sigma))) ∧
        (toQ s.tail.gamma < 0 → LeN (F64.mul d (F64.div s.tail.gamma s.tail.sigma)) (zero false)) := by
      constructor
      · intro g
        rcases mul_nonneg_val hdist (val_div_nonneg F.gamma.1 F.sigma.1 F.sigma.2 g.le) with e | e
        · exact .inr (.inl e)
        · exact .inr (.inr (by rw [val_zero]; exact e))
      · intro g
        have cs : val (F64.div s.tail.gamma s.tail.sigma) ≤ 0 := by
          obtain ⟨z, e⟩ := div_fin F.gamma.1 F.sigma.1 F.sigma.2.ne'
          rw [e]
          have := ofRat_mono (z := z) (z' := false) (div_nonpos_of_nonpos_of_nonneg g.le F.sigma.2.le)
          rwa [ofRat_zero, val_zero] at this
        rcases mul_nonpos_val hdist cs with e | e
        · exact .inl e
        · exact .inr (.inr (by rw [val_zero]; exact e))
    have one0 : F64.add (lit 1) (zero false) = (lit 1 : F64) := by decide +kernel
    have hw : lit 1 +. d *. (s.tail.gamma /. s.tail.sigma) = F64.add (lit 1) (F64.mul d (F64.div s.tail.gamma s.tail.sigma)) := rfl
    rw [hw] at hp
    have hw1 : 0 < toQ s.tail.gamma → LeN (lit 1) (F64.add (lit 1) (F64.mul d (F64.div s.tail.gamma s.tail.sigma))) := fun g => by
      have := (hinc.1 g).add_left (lit 1)
      rwa [one0] at this
    have hw2 : toQ s.tail.gamma < 0 → LeN (F64.add (lit 1) (F64.mul d (F64.div s.tail.gamma s.tail.sigma))) (lit 1) := fun g => by
      have := (hinc.2 g).add_left (lit 1)
      rwa [one0] at this
    generalize F64.add (lit 1) (F64.mul d (F64.div s.tail.gamma s.tail.sigma)) = w at *
    have hxp : xpow (codeMath muslFU) w (lit (-1) /. s.tail.gamma) = xexp muslFU (F64.mul (F64.div (lit (-1)) s.tail.gamma) (xlog muslFU w)) := rfl
    by_cases hwf : isFin w ∧ 0 ≤ toQ w
    swap
    · left
      rw [hxp, xlog_nan_of hwf] at hp
      have e1 : F64.mul (F64.div (lit (-1)) s.tail.gamma) nan = nan := by cases F64.div (lit (-1)) s.tail.gamma <;> rfl
      have e2 : xexp muslFU nan = .ok nan := by decide +kernel
      rw [e1, e2] at hp
      injection hp with hp
      refine ⟨?_, g0⟩
      rw [← hp]
      show F64.mul S nan = nan
      cases S <;> rfl
    obtain ⟨wf, w0⟩ := hwf
    rcases w0.eq_or_lt with w0 | w0
    · exfalso
      rw [hxp, xlog_zero ((eq_zero_iff w).mpr ⟨wf, w0.symm⟩)] at hp
      have hb0 : toQ (F64.div (lit (-1)) s.tail.gamma : F64) ≠ 0 := by
        rw [eb, l2]
        have h2 := F.gamma.2
        have hge : pow2 (-20) ≤ |(-1 : ℚ) / toQ s.tail.gamma| := by
          rw [abs_div, abs_neg, abs_one, le_div_iff₀ gpos, pow2_eq]
          have := mul_le_mul_of_nonneg_left h2 (show (0 : ℚ) ≤ 2 ^ (-20 : ℤ) by norm_num)
          refine this.trans (le_of_eq (by norm_num))
        have h3 : 0 < rnd |(-1 : ℚ) / toQ s.tail.gamma| := rnd_pos_of ((pow2_le (by norm_num)).trans hge)
        have h4 := rq_abs ((-1 : ℚ) / toQ s.tail.gamma)
        intro h5
        rw [h5, abs_zero] at h4
        exact absurd h4.symm (mag_pos h3.ne').ne'
      obtain ⟨t, e⟩ := mul_inf fb hb0 true
      change F64.mul _ _ = _ at e
      rw [e, xexp_inf] at hp
      cases hp
    · right
      obtain ⟨y, hy, y0, -, y2⟩ := xpow_sign wf w0 fb hbb
      change xpow (codeMath muslFU) _ (lit (-1) /. s.tail.gamma) = _ at hy
      rw [hy] at hp
      injection hp with hp
      rw [← hp]
      refine scale_unit S1 hS y0 (y2 ?_)
      rw [eb, l2]
      rcases lt_or_gt_of_ne g0 with g | g
      · have hb : 0 ≤ rq (-1 / toQ s.tail.gamma) := rq_nonneg (div_nonneg_of_nonpos (by norm_num) g.le)
        have := ((hw2 g).le wf.notNaN lit1.1.notNaN)
        have := ((F64.le_iff _ _).mp this).2.2
        rw [val_fin_le wf lit1.1, lit1.2] at this
        exact mul_nonpos_of_nonneg_of_nonpos hb (xlog_nonpos wf w0 this)
      · have hb : rq (-1 / toQ s.tail.gamma) ≤ 0 := by
          have := rq_mono (div_nonpos_of_nonpos_of_nonneg (show (-1 : ℚ) ≤ 0 by norm_num) g.le)
          rwa [rq_zero] at this
        have := ((hw1 g).le lit1.1.notNaN wf.notNaN)
        have := ((F64.le_iff _ _).mp this).2.2
        rw [val_fin_le lit1.1 wf, lit1.2] at this
        exact mul_nonpos_of_nonpos_of_nonneg hb (xlog_nonneg wf this)

/-- the hypotheses are met, with the value 0.15 at half of the support -/
example : FittedF64 Sample.endpoint ((0 : ℤ) ≠ 0) ∧ 1 / 2 ^ 20 ≤ |toQ Sample.endpoint.tail.gamma| ∧
    toQ Sample.endpoint.excess_threshold ≤ toQ (lit 5 : F64) ∧
    (match spot_probability (codeMath muslFU) Sample.endpoint (lit 5) with
      | .ok p => decide (|toQ p - 15 / 100| ≤ 1 / 10 ^ 15)
      | .error _ => false) = true :=
  ⟨Sample.fitted_of (by decide +kernel), by decide +kernel⟩

/-! ### C82 -/

theorem zero_of_toQ {x : F64} (hx : isFin x) (h : toQ x = 0) : ∃ s, x = zero s := by
  rcases x with _ | t | ⟨t, k⟩
  · exact absurd hx (by simp [isFin])
  · exact absurd hx (by simp [isFin])
  · have : k.val = 0 := toQ_eq_zero.mp h
    exact ⟨t, by unfold zero; congr 1; exact Fin.ext this⟩

theorem mul_zero_zero {x : F64} (hx : isFin x) (s : Bool) : (∃ t, F64.mul x (zero s) = zero t) ∧ (∃ t, F64.mul (zero s) x = zero t) := by
  have z : ∀ s, toQ (zero s) = 0 := by decide +kernel
  constructor
  · obtain ⟨c, e⟩ := mul_fin (x := x) (y := zero s) hx trivial
    rw [z, mul_zero, ofRat_zero] at e
    exact ⟨c, e⟩
  · obtain ⟨c, e⟩ := mul_fin (x := zero s) (y := x) trivial hx
    rw [z, zero_mul, ofRat_zero] at e
    exact ⟨c, e⟩

theorem xexp_zero (s : Bool) : xexp muslFU (zero s) = .ok (lit 1) := by cases s <;> decide +kernel
theorem xlog_one' : ∃ s, xlog muslFU (lit 1) = zero s := zero_of_toQ xlog_one.2.2.1 xlog_one.2.2.2

/-- In binary64, without any error: the probability to be beyond the excess threshold itself is the proportion of excesses, and the
quantile of the proportion of excesses is the excess threshold. The conditions exclude only overflows in the quotients of the
parameters. -/
theorem C82_at_threshold (s : Spot F64) (hud : s.up_down = lit 1 ∨ s.up_down = lit (-1)) (het : isFin s.excess_threshold)
    (hσ : isFin s.tail.sigma ∧ 0 < toQ s.tail.sigma) (hγ : isFin s.tail.gamma)
    (hN : 0 < s.Nt.toNat) (hle : s.Nt.toNat ≤ s.n.toNat) (hn : s.n.toNat ≤ 2 ^ 53)
    (hov : toQ s.tail.gamma = 0 ∨ (isFin (s.tail.gamma /. s.tail.sigma) ∧ isFin (lit (-1) /. s.tail.gamma) ∧
      isFin (s.tail.sigma /. s.tail.gamma))) :
    (∃ p, spot_probability (codeMath muslFU) s s.excess_threshold = .ok p ∧
      F64.eq p (lit s.Nt.toNat /. lit s.n.toNat) = true ∧ toQ p = rq ((s.Nt.toNat : ℚ) / s.n.toNat)) ∧
    (∃ z, spot_quantile (codeMath muslFU) s (lit s.Nt.toNat /. lit s.n.toNat) = .ok z ∧
      F64.eq z s.excess_threshold = true) := by
  obtain ⟨S1, S2, S3, S4⟩ := proportion_pos hN hle hn
  have hS : 0 < toQ (lit (s.Nt.toNat : ℚ) /. lit (s.n.toNat : ℚ) : F64) := (pow2_pos _).trans_le S3
  have mul1 : ∀ S : F64, S *. lit 1 = S := fun S => by
    show F64.mul S (ofRat false 1) = S
    rw [mul_comm', F64.one_mul]
  have udz : ∀ t, ∃ t', s.up_down *. zero t = zero t' := fun t => by
    rcases hud with e | e <;> rw [e]
    · exact ⟨t, F64.one_mul _⟩
    · exact ⟨!t, F64.neg_one_mul _⟩
  have eqS : ∀ S : F64, isFin S → F64.eq S S = true := fun S h => (F64.eq_iff _ _).mpr ⟨h.notNaN, h.notNaN, rfl⟩
  have add0 : ∀ t, F64.eq (s.excess_threshold +. zero t) s.excess_threshold = true := fun t => by
    have e : val (add s.excess_threshold (zero t)) = val s.excess_threshold := by
      cases t
      · exact (add_zero_val het).1
      · exact (add_zero_val het).2
    obtain ⟨c, e'⟩ := add_fin (x := s.excess_threshold) (y := zero t) het trivial
    refine (F64.eq_iff _ _).mpr ⟨?_, het.notNaN, e⟩
    rw [show (s.excess_threshold +. zero t) = F64.add s.excess_threshold (zero t) from rfl, e']
    exact ofRat_notNaN _ _
  constructor
  · have hpe : spot_probability (codeMath muslFU) s s.excess_threshold =
        tail_probability (codeMath muslFU) s.tail (lit (s.Nt.toNat : ℚ) /. lit (s.n.toNat : ℚ))
          (s.up_down *. (s.excess_threshold -. s.excess_threshold)) := rfl
    have d0 : ∃ t, s.up_down *. (s.excess_threshold -. s.excess_threshold) = zero t := by
      obtain ⟨c, e⟩ := sub_fin het het
      rw [sub_self, ofRat_zero] at e
      rw [show (s.excess_threshold -. s.excess_threshold) = F64.sub s.excess_threshold s.excess_threshold from rfl, e]
      exact udz c
    obtain ⟨t, ht⟩ := d0
    refine ⟨lit (s.Nt.toNat : ℚ) /. lit (s.n.toNat : ℚ), ?_, eqS _ S1, S2⟩
    rw [hpe, ht]
    unfold tail_probability
    by_cases g0 : toQ s.tail.gamma = 0
    · rw [if_pos ((eq_zero_iff _).mpr ⟨hγ, g0⟩)]
      have : ∃ t', F64.div (F64.neg (zero t)) s.tail.sigma = zero t' := by
        obtain ⟨c, e⟩ := div_fin (x := F64.neg (zero t)) (y := s.tail.sigma) (isFin_neg.mpr trivial) hσ.1 hσ.2.ne'
        have z : toQ (F64.neg (zero t)) = 0 := by rw [toQ_neg]; cases t <;> decide +kernel
        rw [z, zero_div, ofRat_zero] at e
        exact ⟨c, e⟩
      obtain ⟨t', e⟩ := this
      show (xexp muslFU (F64.div (F64.neg (zero t)) s.tail.sigma) >>= _) = _
      rw [e, xexp_zero]
      show Except.ok _ = _
      rw [mul1]
    · rw [if_neg fun e => g0 ((eq_zero_iff _).mp e).2]
      rcases hov with h | ⟨o1, o2, -⟩
      · exact absurd h g0
      obtain ⟨t1, e1⟩ := (mul_zero_zero o1 t).2
      have e2 : ∀ t, F64.add (lit 1) (zero t) = (lit 1 : F64) := by decide +kernel
      obtain ⟨t2, e3⟩ := xlog_one'
      obtain ⟨t3, e4⟩ := (mul_zero_zero o2 t2).1
      show (xexp muslFU (F64.mul (lit (-1) /. s.tail.gamma)
        (xlog muslFU (F64.add (lit 1) (F64.mul (zero t) (s.tail.gamma /. s.tail.sigma))))) >>= _) = _
      rw [e1, e2, e3, e4, xexp_zero]
      show Except.ok _ = _
      rw [mul1]
  · have r1 : (lit (s.Nt.toNat : ℚ) /. lit (s.n.toNat : ℚ) : F64) /. (lit (s.Nt.toNat : ℚ) /. lit (s.n.toNat : ℚ)) = lit 1 := by
      generalize (lit (s.Nt.toNat : ℚ) /. lit (s.n.toNat : ℚ) : F64) = S at *
      obtain ⟨c, e⟩ := div_fin S1 S1 hS.ne'
      rw [show (S /. S) = F64.div S S from rfl, e, div_self hS.ne']
      cases c <;> decide +kernel
    obtain ⟨f1, f2⟩ := quantile_form s (lit (s.Nt.toNat : ℚ) /. lit (s.n.toNat : ℚ)) _ rfl
    rw [r1] at f1 f2
    obtain ⟨t2, e3⟩ := xlog_one'
    by_cases g0 : toQ s.tail.gamma = 0
    · obtain ⟨t3, e4⟩ := (mul_zero_zero (isFin_neg.mpr hσ.1) t2).1
      obtain ⟨t4, e5⟩ := udz t3
      refine ⟨_, f1 ⟨hγ, g0⟩, ?_⟩
      rw [e3, show ((-. s.tail.sigma) *. zero t2) = F64.mul (F64.neg s.tail.sigma) (zero t2) from rfl, e4, e5]
      exact add0 t4
    · rcases hov with h | ⟨-, -, o3⟩
      · exact absurd h g0
      obtain ⟨t3, e4⟩ := (mul_zero_zero (isFin_neg.mpr hγ) t2).1
      have hy : xpow (codeMath muslFU) (lit 1) (-. s.tail.gamma) = .ok (lit 1) := by
        show xexp muslFU (F64.mul (F64.neg s.tail.gamma) (xlog muslFU (lit 1))) = _
        rw [e3, e4, xexp_zero]
      have e5 : (lit 1 : F64) -. lit 1 = zero false := by decide +kernel
      obtain ⟨t6, e6⟩ := (mul_zero_zero o3 false).1
      obtain ⟨t7, e7⟩ := udz t6
      refine ⟨_, f2 g0 _ hy, ?_⟩
      rw [e5, show ((s.tail.sigma /. s.tail.gamma) *. zero false) = F64.mul (s.tail.sigma /. s.tail.gamma) (zero false) from rfl, e6, e7]
      exact add0 t7

/-- the conditions are met by a detector with shape -1 -/
example : isFin (Sample.endpoint.tail.gamma /. Sample.endpoint.tail.sigma) ∧ isFin (lit (-1) /. Sample.endpoint.tail.gamma) ∧
    isFin (Sample.endpoint.tail.sigma /. Sample.endpoint.tail.gamma) ∧ FittedF64 Sample.endpoint ((0 : ℤ) ≠ 0) :=
  ⟨by decide +kernel, by decide +kernel, by decide +kernel, Sample.fitted_of (by decide +kernel)⟩

end Verif

/-
C28–C36: `spot_step`, and the return code of `spot_fit`.
`codeMath lib.fu` is the arithmetic of the library with the float utilities `lib.fu`.
-/
import Verif.Proofs.StepF64
import Verif.Props.SampleRun

namespace Verif
open F64 (notNaN isFin)

/-! ### C28 -/

/-- `spot_step(NaN)` returns -1005 and changes nothing. -/
theorem C28_nan_rejected (lib : Lib F64) (h : Heap F64) (s : Spot F64) :
    spot_step (codeMath lib.fu) h s F64.nan = .ok (-1005, s, h) := by
  have : is_nan F64.nan = true := (F64.is_nan_iff _).mpr rfl
  unfold spot_step
  rw [this]; rfl

/-- No other input returns that code. -/
theorem C28_only_nan (lib : Lib F64) (h : Heap F64) (s : Spot F64) (x : F64) (hx : notNaN x) (r : ℤ) (s' : Spot F64)
    (h' : Heap F64) (hs : spot_step (codeMath lib.fu) h s x = .ok (r, s', h')) : r ≠ -1005 := by
  have hn := (F64.is_nan_false x).mpr hx
  rcases step_cases hs with ⟨h1, _⟩ | ⟨_, _, h1, _⟩ | ⟨_, _, _, h1, _⟩ | ⟨_, _, _, h1, _⟩
  · rw [hn] at h1; cases h1
  · rw [h1]; decide
  · rw [h1]; decide
  · rw [h1]; decide

example : notNaN (lit 3 : F64) ∧
    (spot_step (codeMath muslFU) Sample.heap Sample.fitted (lit 3)).map Prod.fst = .ok 0 := by decide +kernel

/-! ### C29 -/

/-- On a reachable detector whose thresholds are usable, a step that returns gives the documented code; and where it has
undefined behaviour (the float conversion in `xexp`) the documented code would be 1. -/
theorem C29_classification (lib : Lib F64) (q level : F64) (low disc : ℤ) (me : UInt64) (s : Spot F64) (h : Heap F64)
    (R : Reaches (codeMath lib.fu) lib q low disc level me s h) (het : isFin s.excess_threshold)
    (hat : notNaN s.anomaly_threshold) (x : F64) (hx : notNaN x) :
    (∀ r s' h', spot_step (codeMath lib.fu) h s x = .ok (r, s', h') →
      r = Spec.stepCode disc low s.anomaly_threshold.val s.excess_threshold.val x.val) ∧
    (∀ e, spot_step (codeMath lib.fu) h s x = .error e → e = .floatConv ∧
      Spec.stepCode disc low s.anomaly_threshold.val s.excess_threshold.val x.val = 1) := by
  obtain ⟨a, xs, I, P⟩ := R.inv
  have hn := (F64.is_nan_false x).mpr hx
  have hA := anomTest_iff P x
  have hE := exTest_iff P x het
  simp only [hx, hat, true_and] at hA hE
  constructor
  · intro r s' h' hs
    unfold Spec.stepCode
    rcases step_cases hs with ⟨h1, _⟩ | ⟨_, h2, h1, _⟩ | ⟨_, h2, h3, h1, _⟩ | ⟨_, h2, h3, h1, _⟩
    · rw [hn] at h1; cases h1
    · rw [if_pos (by simpa using hA.mp h2), h1]; rfl
    · rw [if_neg (by have := (Bool.eq_false_iff.mp h2).imp hA.mpr; simpa using this),
        if_pos (by simpa using hE.mp h3), h1]; rfl
    · rw [if_neg (by have := (Bool.eq_false_iff.mp h2).imp hA.mpr; simpa using this),
        if_neg (by have := (Bool.eq_false_iff.mp h3).imp hE.mpr; simpa using this), h1]; rfl
  · intro e he
    obtain ⟨_, h2, h3⟩ := step_error he
    constructor
    · have := step_refines (M := codeMath lib.fu) I x
      cases hp : stepC (codeMath lib.fu) me.toNat s.core xs x with
      | error e' =>
        rw [hp] at this
        simp only [Refines] at this
        rw [this] at he
        cases he
        exact stepC_conv (codeMath_expConv lib.fu) _ _ _ hp
      | ok p =>
        rw [hp] at this
        obtain ⟨s', h', e1, _⟩ := this
        rw [e1] at he; cases he
    · unfold Spec.stepCode
      rw [if_neg (by have := (Bool.eq_false_iff.mp h2).imp hA.mpr; simpa using this),
        if_pos (by simpa using hE.mp h3)]

example : ∃ s h, Reaches (codeMath Sample.lib.fu) Sample.lib (lit (1 / 100)) 0 1 (lit (9 / 10)) 20 s h ∧
    isFin s.excess_threshold ∧ notNaN s.anomaly_threshold ∧ s.Nt = 5 := Sample.reached

/-! ### C30 -/

theorem C30_anomaly_no_effect (lib : Lib F64) (h : Heap F64) (s : Spot F64) (x : F64) (s' : Spot F64) (h' : Heap F64)
    (hs : spot_step (codeMath lib.fu) h s x = .ok (2, s', h')) : s' = s ∧ h' = h := by
  rcases step_cases hs with ⟨_, h1, _⟩ | ⟨_, _, _, h1⟩ | ⟨_, _, _, h1, _⟩ | ⟨_, _, _, h1, _⟩
  · exact absurd h1 (by decide)
  · exact h1
  · exact absurd h1 (by decide)
  · exact absurd h1 (by decide)

example : (spot_step (codeMath muslFU) Sample.heap Sample.fitted (lit 6)).map Prod.fst = .ok 2 := by decide +kernel

/-! ### C31 -/

theorem runOps_counters {M : MathFns F64} {h h' : Heap F64} {s s' : Spot F64} {ops : List (Op F64)} {outs : List (Out F64)}
    (hf : ∀ op ∈ ops, op.notFit) (hr : runOps M h s ops = .ok (outs, s', h')) :
    s'.n = s.n + UInt64.ofNat (outs.countP (fun o => o = .code 0 ∨ o = .code 1)) ∧
    s'.Nt = s.Nt + UInt64.ofNat (outs.countP (fun o => o = .code 1)) ∧ s'.excess_threshold = s.excess_threshold := by
  induction ops generalizing h s outs with
  | nil => cases hr; simp
  | cons op ops ih =>
    unfold runOps at hr
    obtain ⟨r, hr1, hr⟩ := C.bind_ok hr
    obtain ⟨rs, hr2, hr⟩ := C.bind_ok hr
    simp only [Except.ok.injEq, Prod.mk.injEq] at hr
    obtain ⟨rfl, rfl, rfl⟩ := hr
    obtain ⟨i1, i2, i3⟩ := ih (fun o ho => hf o (List.mem_cons_of_mem _ ho)) hr2
    have hkey : r.2.1.n = s.n + (if r.1 = .code 0 ∨ r.1 = .code 1 then 1 else 0) ∧
        r.2.1.Nt = s.Nt + (if r.1 = .code 1 then 1 else 0) ∧ r.2.1.excess_threshold = s.excess_threshold := by
      have hop := hf op (List.mem_cons_self ..)
      unfold exec at hr1
      cases op with
      | fit d n => exact absurd hop (by simp [Op.notFit])
      | step x =>
        dsimp only at hr1
        obtain ⟨p, hp, hr1⟩ := C.bind_ok hr1
        cases hr1
        obtain ⟨pr, ps, ph⟩ := p
        rcases step_cases hp with ⟨_, h1, h2, _⟩ | ⟨_, _, h1, h2, _⟩ | ⟨_, _, _, h1, t', h2, _⟩ | ⟨_, _, _, h1, h2, _⟩
        · subst h1 h2; simp [ERR_DATA_IS_NAN]
        · subst h1 h2; simp [ANOMALY]
        · subst h1; dsimp only; rw [h2]; simp [EXCESS]
        · subst h1 h2; simp [NORMAL]
      | quantile q =>
        dsimp only at hr1
        obtain ⟨p, hp, hr1⟩ := C.bind_ok hr1
        cases hr1; simp
      | probability q =>
        dsimp only at hr1
        obtain ⟨p, hp, hr1⟩ := C.bind_ok hr1
        cases hr1; simp
    obtain ⟨k1, k2, k3⟩ := hkey
    refine ⟨?_, ?_, by rw [i3, k3]⟩
    · rw [i1, k1, List.countP_cons, UInt64.ofNat_add, UInt64.add_assoc]
      congr 1
      rw [UInt64.add_comm]
      congr 1
      by_cases hc : r.1 = .code 0 ∨ r.1 = .code 1 <;> simp [hc]
    · rw [i2, k2, List.countP_cons, UInt64.ofNat_add, UInt64.add_assoc]
      congr 1
      rw [UInt64.add_comm]
      congr 1
      by_cases hc : r.1 = .code 1 <;> simp [hc]

/-- After a fit that found an excess threshold, and any further steps and queries. (Counters are 64-bit.) -/
theorem C31_counters (lib : Lib F64) (q level : F64) (low disc : ℤ) (me : UInt64) (s : Spot F64) (h : Heap F64)
    (R : Reaches (codeMath lib.fu) lib q low disc level me s h) (data : List F64) (size : UInt64)
    (hsz : size.toNat ≤ data.length) (r : ℤ) (s1 : Spot F64) (h1 : Heap F64)
    (hfit : spot_fit (codeMath lib.fu) h s data size = .ok (r, s1, h1)) (hr : r ≠ -1003)
    (ops : List (Op F64)) (hops : ∀ op ∈ ops, op.notFit) (outs : List (Out F64)) (s2 : Spot F64) (h2 : Heap F64)
    (hrun : runOps (codeMath lib.fu) h1 s1 ops = .ok (outs, s2, h2)) :
    s2.excess_threshold = s1.excess_threshold ∧ notNaN s1.excess_threshold ∧
    s2.n = size + UInt64.ofNat (outs.countP (fun o => o = .code 0 ∨ o = .code 1)) ∧
    s2.Nt = UInt64.ofNat (Spec.beyond low s1.excess_threshold (data.take size.toNat)).length +
      UInt64.ofNat (outs.countP (fun o => o = .code 1)) := by
  obtain ⟨a, xs, I, P⟩ := R.inv
  obtain ⟨et, _, hcase⟩ := fit_cases I hsz hfit
  rcases hcase with ⟨_, h3, _⟩ | ⟨hn, ⟨t', hs1⟩, _, _, _⟩
  · exact absurd h3 hr
  · obtain ⟨i1, i2, i3⟩ := runOps_counters hops hrun
    have e1 : s1.excess_threshold = et := by rw [hs1]
    have e2 : s1.n = size := by rw [hs1]
    have hnn := (F64.is_nan_false et).mp hn
    have hud : s.up_down = if low ≠ 0 then lit (-1) else lit 1 := P.pud
    have e3 : s1.Nt = UInt64.ofNat (Spec.beyond low et (data.take size.toNat)).length := by
      rw [hs1]
      dsimp only
      rw [hud, fitExcesses_eq _ _ _ hnn, Spec.excesses, List.length_map]
    rw [e1]
    exact ⟨by rw [i3, e1], hnn, by rw [i1, e2], by rw [i2, e3]⟩

/-- the sample history contains a fit (code 0) followed by steps of each kind -/
example : (runOps (codeMath muslFU) Sample.heap Sample.spot Sample.ops).map (fun r => (r.1.take 5, r.2.1.Nt, r.2.1.n,
      r.2.1.excess_threshold, decide (F64.notNaN r.2.1.anomaly_threshold))) =
    .ok ([.code 0, .code 0, .code 1, .code 0, .code 2], 5, 9, lit 3, true) := Sample.ops_run

/-! ### C32 -/

/-- What a step leaves unchanged, according to its result. -/
theorem C32_step_frame (lib : Lib F64) (h : Heap F64) (s : Spot F64) (x : F64) (r : ℤ) (s' : Spot F64) (h' : Heap F64)
    (hs : spot_step (codeMath lib.fu) h s x = .ok (r, s', h')) :
    (s'.q = s.q ∧ s'.level = s.level ∧ s'.low = s.low ∧ s'.up_down = s.up_down ∧
      s'.discard_anomalies = s.discard_anomalies ∧ s'.excess_threshold = s.excess_threshold) ∧
    (r ≠ 1 → s'.anomaly_threshold = s.anomaly_threshold ∧ s'.tail = s.tail ∧ s'.Nt = s.Nt ∧ h' = h) ∧
    (r = 0 → s' = { s with n := s.n + 1 }) ∧ (r ≠ 0 → r ≠ 1 → s' = s) := by
  rcases step_cases hs with ⟨_, h1, h2, h3⟩ | ⟨_, _, h1, h2, h3⟩ | ⟨_, _, _, h1, t', h2, _⟩ | ⟨_, _, _, h1, h2, h3⟩
  · subst h1 h2 h3; simp [ERR_DATA_IS_NAN]
  · subst h1 h2 h3; simp [ANOMALY]
  · subst h1; rw [h2]; simp [EXCESS]
  · subst h1 h2 h3; simp [NORMAL]

example : (spot_step (codeMath muslFU) Sample.heap Sample.fitted (lit 3)).map Prod.fst = .ok 0 := by decide +kernel

/-! ### C33 -/

/-- After a fit that got as far as the anomaly threshold. -/
theorem C33_fit (lib : Lib F64) (q level : F64) (low disc : ℤ) (me : UInt64) (s : Spot F64) (h : Heap F64)
    (R : Reaches (codeMath lib.fu) lib q low disc level me s h) (data : List F64) (size : UInt64)
    (hsz : size.toNat ≤ data.length) (r : ℤ) (s1 : Spot F64) (h1 : Heap F64)
    (hfit : spot_fit (codeMath lib.fu) h s data size = .ok (r, s1, h1)) (hr : r = 0 ∨ r = -1004) :
    s1.q = q ∧ spot_quantile (codeMath lib.fu) s1 s1.q = .ok s1.anomaly_threshold := by
  obtain ⟨a, xs, I, P⟩ := R.inv
  obtain ⟨et, _, hcase⟩ := fit_cases I hsz hfit
  rcases hcase with ⟨_, h3, _⟩ | ⟨hn, ⟨t', hs1⟩, _, hq, _⟩
  · rw [h3] at hr; exact absurd hr (by decide)
  · exact ⟨by rw [hs1]; exact P.pq, hq⟩

/-- After an EXCESS step. -/
theorem C33_excess (lib : Lib F64) (h : Heap F64) (s : Spot F64) (x : F64) (s' : Spot F64) (h' : Heap F64)
    (hs : spot_step (codeMath lib.fu) h s x = .ok (1, s', h')) :
    s'.q = s.q ∧ spot_quantile (codeMath lib.fu) s' s'.q = .ok s'.anomaly_threshold := by
  rcases step_cases hs with ⟨_, h1, _⟩ | ⟨_, _, h1, _⟩ | ⟨_, _, _, _, t', h2, h3⟩ | ⟨_, _, _, h1, _⟩
  · exact absurd h1 (by decide)
  · exact absurd h1 (by decide)
  · exact ⟨by rw [h2], h3⟩
  · exact absurd h1 (by decide)

/-- Between model updates the thresholds and the tail stay. -/
theorem C33_between (lib : Lib F64) (h : Heap F64) (s : Spot F64) (ops : List (Op F64)) (hops : ∀ op ∈ ops, op.notFit)
    (outs : List (Out F64)) (s' : Spot F64) (h' : Heap F64)
    (hrun : runOps (codeMath lib.fu) h s ops = .ok (outs, s', h')) (hno : Out.code 1 ∉ outs) :
    s'.anomaly_threshold = s.anomaly_threshold ∧ s'.excess_threshold = s.excess_threshold ∧ s'.tail = s.tail ∧ h' = h := by
  induction ops generalizing h s outs with
  | nil => cases hrun; simp
  | cons op ops ih =>
    unfold runOps at hrun
    obtain ⟨r, hr1, hrun⟩ := C.bind_ok hrun
    obtain ⟨rs, hr2, hrun⟩ := C.bind_ok hrun
    simp only [Except.ok.injEq, Prod.mk.injEq] at hrun
    obtain ⟨rfl, rfl, rfl⟩ := hrun
    simp only [List.mem_cons, not_or] at hno
    obtain ⟨i1, i2, i3, i4⟩ := ih _ _ (fun o ho => hops o (List.mem_cons_of_mem _ ho)) _ hr2 hno.2
    have hkey : r.2.1.anomaly_threshold = s.anomaly_threshold ∧ r.2.1.excess_threshold = s.excess_threshold ∧
        r.2.1.tail = s.tail ∧ r.2.2 = h := by
      have hop := hops op (List.mem_cons_self ..)
      unfold exec at hr1
      cases op with
      | fit d n => exact absurd hop (by simp [Op.notFit])
      | step x =>
        dsimp only at hr1
        obtain ⟨p, hp, hr1⟩ := C.bind_ok hr1
        cases hr1
        obtain ⟨pr, ps, ph⟩ := p
        obtain ⟨⟨_, _, _, _, _, h1⟩, h2, _⟩ := C32_step_frame lib h s x pr ps ph hp
        have : pr ≠ 1 := fun hc => hno.1 (by rw [hc])
        obtain ⟨g1, g2, _, g4⟩ := h2 this
        exact ⟨g1, h1, g2, g4⟩
      | quantile q =>
        dsimp only at hr1
        obtain ⟨p, hp, hr1⟩ := C.bind_ok hr1
        cases hr1; simp
      | probability q =>
        dsimp only at hr1
        obtain ⟨p, hp, hr1⟩ := C.bind_ok hr1
        cases hr1; simp
    obtain ⟨k1, k2, k3, k4⟩ := hkey
    exact ⟨by rw [i1, k1], by rw [i2, k2], by rw [i3, k3], by rw [i4, k4]⟩

/-- fit code 0 and an EXCESS step occur in the sample history -/
example : (runOps (codeMath muslFU) Sample.heap Sample.spot Sample.ops).map (fun r => (r.1.take 5, r.2.1.Nt, r.2.1.n,
      r.2.1.excess_threshold, decide (F64.notNaN r.2.1.anomaly_threshold))) =
    .ok ([.code 0, .code 0, .code 1, .code 0, .code 2], 5, 9, lit 3, true) := Sample.ops_run

/-! ### C34 -/

theorem C34_no_discard (lib : Lib F64) (q level : F64) (low : ℤ) (me : UInt64) (s : Spot F64) (h : Heap F64)
    (R : Reaches (codeMath lib.fu) lib q low 0 level me s h) (x : F64) (r : ℤ) (s' : Spot F64) (h' : Heap F64)
    (hs : spot_step (codeMath lib.fu) h s x = .ok (r, s', h')) : r ≠ 2 := by
  obtain ⟨a, xs, I, P⟩ := R.inv
  rcases step_cases hs with ⟨_, h1, _⟩ | ⟨_, h2, _⟩ | ⟨_, _, _, h1, _⟩ | ⟨_, _, _, h1, _⟩
  · rw [h1]; decide
  · rw [anomTest_iff P] at h2; exact absurd rfl h2.1
  · rw [h1]; decide
  · rw [h1]; decide

/-- the sample parameters with `discard_anomalies = 0` -/
example : ∃ s h, Reaches (codeMath Sample.lib.fu) Sample.lib (lit (1 / 100)) 0 0 (lit (9 / 10)) 20 s h :=
  ⟨_, _, by decide, by decide, Sample.emptyHeap, Sample.zeroed, by decide +kernel, [], [], by simp, rfl⟩

/-! ### C35 -/

theorem unfitted_step {M : MathFns F64} {h : Heap F64} {s : Spot F64} (h1 : s.anomaly_threshold = F64.nan)
    (h2 : s.excess_threshold = F64.nan) (x : F64) : spot_step M h s x =
      .ok (if is_nan x then (-1005, s, h) else (0, { s with n := s.n + 1 }, h)) := by
  have key : ∀ y z : F64, F64.lt y (F64.mul z F64.nan) = false ∧ F64.le y (F64.mul z F64.nan) = false := by
    intro y z
    have : F64.mul z F64.nan = F64.nan := by cases z <;> rfl
    rw [this]
    cases y <;> simp [F64.lt, F64.le]
  unfold spot_step
  rw [h1, h2]
  have e1 : (x -. F64.nan) = F64.nan := F64.sub_nan x
  by_cases hx : is_nan x
  · simp [hx, ERR_DATA_IS_NAN]
  · have k1 : ((s.up_down *. F64.nan) >. lit 0) = false := (key _ _).1
    have k2 : ((s.up_down *. F64.nan) >=. lit 0) = false := (key _ _).2
    dsimp only
    rw [e1, k1, k2]
    simp [hx, NORMAL]

/-- After a successful `spot_init` and only steps and queries: every step on a number is NORMAL (and on NaN is rejected), the
tail is still empty, and the memory is as `spot_init` left it. Steps have no undefined behaviour. -/
theorem C35_unfitted_silent (lib : Lib F64) (h0 : Heap F64) (s0 : Spot F64) (q level : F64) (low disc : ℤ) (me : UInt64)
    (hi : (spot_init lib h0 s0 q low disc level me).1 = 0) (ops : List (Op F64)) (hops : ∀ op ∈ ops, op.notFit)
    (outs : List (Out F64)) (s' : Spot F64) (h' : Heap F64)
    (hrun : runOps (codeMath lib.fu) (spot_init lib h0 s0 q low disc level me).2.2
      (spot_init lib h0 s0 q low disc level me).2.1 ops = .ok (outs, s', h')) :
    List.Forall₂ (fun op o => ∀ x, op = .step x → o = .code (if x = F64.nan then -1005 else 0)) ops outs ∧
    ubend_size s'.tail.peaks.container = 0 ∧ s'.Nt = 0 ∧ h' = (spot_init lib h0 s0 q low disc level me).2.2 ∧
    ∀ x, ∃ r, spot_step (codeMath lib.fu) h' s' x = .ok r ∧ r.1 = if x = F64.nan then -1005 else 0 := by
  have hc := init_checks hi
  obtain ⟨g1, g2⟩ := init_of_checks (lib := lib) (h := h0) (s0 := s0) (low := low) (disc := disc) (me := me) hc
  cases hx : (xmalloc lib h0 (me * 8)).1 with
  | none => rw [(g1 hx).1] at hi; exact absurd hi (by decide)
  | some a =>
    obtain ⟨_, k1, k2, k3⟩ := g2 a hx
    generalize (spot_init lib h0 s0 q low disc level me).2.1 = s at *
    generalize (spot_init lib h0 s0 q low disc level me).2.2 = h at *
    have hnan : (cNAN : F64) = F64.nan := by decide +kernel
    have a1 : s.anomaly_threshold = F64.nan := by
      have := congrArg Core.at_ k1
      simpa [initCore, Spot.core, hnan] using this
    have a2 : s.excess_threshold = F64.nan := by
      have := congrArg Core.et k1
      simpa [initCore, Spot.core, hnan] using this
    have a3 : s.Nt = 0 := congrArg Core.Nt k1
    have a4 : ubend_size s.tail.peaks.container = 0 := by rw [k2]; rfl
    clear k1 k2 k3 g1 g2 hc
    have hcode : ∀ x : F64, (is_nan x = true) = (x = F64.nan) := fun x => propext (F64.is_nan_iff x)
    induction ops generalizing s outs with
    | nil =>
      cases hrun
      refine ⟨.nil, a4, a3, rfl, fun x => ⟨_, unfitted_step a1 a2 x, ?_⟩⟩
      by_cases hx : x = F64.nan
      · simp [hx, (F64.is_nan_iff _).mpr]
      · simp [hx, (F64.is_nan_false _).mpr hx]
    | cons op ops ih =>
      unfold runOps at hrun
      obtain ⟨r, hr1, hrun⟩ := C.bind_ok hrun
      obtain ⟨rs, hr2, hrun⟩ := C.bind_ok hrun
      simp only [Except.ok.injEq, Prod.mk.injEq] at hrun
      obtain ⟨rfl, rfl, rfl⟩ := hrun
      have hop := hops op (List.mem_cons_self ..)
      have hkey : (∀ x, op = .step x → r.1 = .code (if x = F64.nan then -1005 else 0)) ∧
          r.2.1.anomaly_threshold = F64.nan ∧ r.2.1.excess_threshold = F64.nan ∧ r.2.1.Nt = 0 ∧
          ubend_size r.2.1.tail.peaks.container = 0 ∧ r.2.2 = h := by
        unfold exec at hr1
        cases op with
        | fit d n => exact absurd hop (by simp [Op.notFit])
        | step x =>
          dsimp only at hr1
          rw [unfitted_step a1 a2] at hr1
          simp only [C.ok_bind, Except.ok.injEq] at hr1
          subst hr1
          by_cases hx : x = F64.nan
          · have := (F64.is_nan_iff x).mpr hx
            refine ⟨fun y hy => ?_, ?_⟩
            · cases hy; rw [if_pos hx, if_pos this]
            · simp [this, a1, a2, a3, a4]
          · have := (F64.is_nan_false x).mpr hx
            refine ⟨fun y hy => ?_, ?_⟩
            · cases hy; simp [this, hx]
            · simp [this, a1, a2, a3, a4]
        | quantile q =>
          dsimp only at hr1
          obtain ⟨p, hp, hr1⟩ := C.bind_ok hr1
          cases hr1; exact ⟨fun y hy => (by cases hy), a1, a2, a3, a4, rfl⟩
        | probability q =>
          dsimp only at hr1
          obtain ⟨p, hp, hr1⟩ := C.bind_ok hr1
          cases hr1; exact ⟨fun y hy => (by cases hy), a1, a2, a3, a4, rfl⟩
      obtain ⟨b1, b2, b3, b4, b5, b6⟩ := hkey
      rw [b6] at hr2
      obtain ⟨j1, j2⟩ := ih (fun o ho => hops o (List.mem_cons_of_mem _ ho)) _ _ hr2 b2 b3 b4 b5
      exact ⟨.cons b1 j1, j2⟩

example : Sample.init.1 = 0 ∧ Op.notFit (Op.step (lit 3 : F64)) ∧
    (runOps (codeMath muslFU) Sample.heap Sample.spot [.step (lit 3)]).map Prod.fst = .ok [.code 0] := by
  refine ⟨by decide +kernel, trivial, by decide +kernel⟩

/-! ### C36 -/

/-- The return code of a fit on a reachable detector: -1003 exactly when the estimate of the quantile of order `level`
(`1 - level` in lower tail mode) is NaN, in which case thresholds, tail and memory are unchanged; otherwise 0 or -1004
according to whether the anomaly threshold is a number, and the excess threshold is that estimate. -/
theorem C36_fit_code (lib : Lib F64) (q level : F64) (low disc : ℤ) (me : UInt64) (s : Spot F64) (h : Heap F64)
    (R : Reaches (codeMath lib.fu) lib q low disc level me s h) (data : List F64) (size : UInt64)
    (hsz : size.toNat ≤ data.length) (r : ℤ) (s1 : Spot F64) (h1 : Heap F64)
    (hfit : spot_fit (codeMath lib.fu) h s data size = .ok (r, s1, h1)) :
    ∃ et, p2_quantile (if low ≠ 0 then lit 1 -. level else level) data size = .ok et ∧
      (r = -1003 ∨ r = -1004 ∨ r = 0) ∧
      (r = -1003 ↔ et = F64.nan) ∧
      (r = -1003 → s1.excess_threshold = s.excess_threshold ∧ s1.anomaly_threshold = s.anomaly_threshold ∧
        s1.tail = s.tail ∧ h1 = h) ∧
      (r ≠ -1003 → s1.excess_threshold = et) ∧
      (r = 0 ↔ r ≠ -1003 ∧ notNaN s1.excess_threshold ∧ notNaN s1.anomaly_threshold) := by
  obtain ⟨a, xs, I, P⟩ := R.inv
  obtain ⟨et, he, hcase⟩ := fit_cases I hsz hfit
  refine ⟨et, ?_, ?_⟩
  · have hl : s.low = if low ≠ 0 then 1 else 0 := P.plow
    have hv : s.level = level := P.plevel
    unfold fitEt at he
    rw [hl, hv] at he
    by_cases h0 : low = 0
    · simpa [h0] using he
    · simpa [h0] using he
  · rcases hcase with ⟨hn, h3, hs1, hh⟩ | ⟨hn, ⟨t', hs1⟩, _, hq, h3⟩
    · have e := (F64.is_nan_iff et).mp hn
      subst h3 hs1 hh
      refine ⟨Or.inl rfl, ⟨fun _ => e, fun _ => rfl⟩, fun _ => ⟨rfl, rfl, rfl, rfl⟩, fun h => absurd rfl h, ?_⟩
      constructor
      · intro hc; exact absurd hc (by decide)
      · rintro ⟨hc, _⟩; exact absurd rfl hc
    · have e := (F64.is_nan_false et).mp hn
      have e1 : s1.excess_threshold = et := by rw [hs1]
      have hr3 : r ≠ -1003 := by
        rw [h3]; split <;> decide
      refine ⟨?_, ⟨fun hc => absurd hc hr3, fun hc => absurd hc e⟩, fun hc => absurd hc hr3, fun _ => e1, ?_⟩
      · rw [h3]; split
        · right; left; rfl
        · right; right; rfl
      · rw [e1, h3]
        by_cases hz : is_nan s1.anomaly_threshold
        · rw [if_pos hz]
          constructor
          · intro hc; exact absurd hc (by decide)
          · rintro ⟨_, _, hc⟩; exact absurd ((F64.is_nan_iff _).mp hz) hc
        · rw [if_neg hz]
          refine ⟨fun _ => ⟨by decide, e, ?_⟩, fun _ => rfl⟩
          exact (F64.is_nan_false _).mp (by simpa using hz)

/-- code 0 on the sample; -1003 on data with NaN -/
example : (spot_fit (codeMath muslFU) Sample.heap Sample.spot
    [F64.nan, F64.nan, F64.nan, F64.nan, F64.nan] 5).map Prod.fst = .ok (-1003) := by decide +kernel

end Verif

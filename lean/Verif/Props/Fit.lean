/-
C37–C39, C64: `spot_fit`.
-/
import Verif.Proofs.StepF64
import Verif.Props.SampleRun

namespace Verif
open F64 (notNaN isFin)

/-! ### C37 -/

/-- After `spot_init` and a fit that found an excess threshold `et`: Nt is the number of training values strictly beyond
`et`; the tail holds min(Nt, max_excess) excesses; slot `i` holds the latest difference to `et` whose rank is `i` modulo
max_excess, and the slots as a whole are the last max_excess differences. -/
theorem C37_fit_stores (lib : Lib F64) (h0 : Heap F64) (s0 : Spot F64) (q level : F64) (low disc : ℤ) (me : UInt64)
    (h1 : 1 ≤ me.toNat) (h2 : me.toNat < 2 ^ 61) (hi : (spot_init lib h0 s0 q low disc level me).1 = 0)
    (data : List F64) (size : UInt64) (hsz : size.toNat ≤ data.length) (r : ℤ) (s1 : Spot F64) (h1' : Heap F64)
    (hfit : spot_fit (codeMath lib.fu) (spot_init lib h0 s0 q low disc level me).2.2
      (spot_init lib h0 s0 q low disc level me).2.1 data size = .ok (r, s1, h1')) (hr : r ≠ -1003) :
    let ex := Spec.excesses low s1.excess_threshold (data.take size.toNat)
    s1.Nt.toNat = ex.length ∧
    (ubend_size s1.tail.peaks.container).toNat = min ex.length me.toNat ∧
    (∀ i, i < min ex.length me.toNat →
      ∃ v, load h1' s1.tail.peaks.container.data i = .ok v ∧ Spec.IsLatest me.toNat ex i v) ∧
    ∃ l : List F64, l.length = min ex.length me.toNat ∧ l.Perm (Spec.lastN me.toNat ex) ∧
      ∀ i (hi : i < l.length), load h1' s1.tail.peaks.container.data i = .ok l[i] := by
  intro ex
  obtain ⟨a, _, _, hc, I⟩ := init_ok hi h1 h2
  obtain ⟨et, _, hcase⟩ := fit_cases I hsz hfit
  rcases hcase with ⟨_, h3, _⟩ | ⟨hn, ⟨t', hs1⟩, I', _, _⟩
  · exact absurd h3 hr
  · have hnn := (F64.is_nan_false et).mp hn
    have hud : (spot_init lib h0 s0 q low disc level me).2.1.up_down = if low ≠ 0 then lit (-1) else lit 1 :=
      congrArg Core.up_down hc
    have e1 : s1.excess_threshold = et := by rw [hs1]
    have hex : ex = fitExcesses (spot_init lib h0 s0 q low disc level me).2.1.up_down et (data.take size.toNat) := by
      rw [hud, fitExcesses_eq _ _ _ hnn, ← e1]
    rw [← hex, List.nil_append] at I'
    have hlen : ex.length ≤ size.toNat := by
      rw [hex]
      unfold fitExcesses
      refine (List.length_filter_le _ _).trans ?_
      simp
    refine ⟨?_, I'.ring.size, ?_, slots me.toNat ex, slots_length ex, slots_perm h1 ex, I'.ring.stored.read⟩
    · rw [hs1]
      dsimp only
      rw [← hex, UInt64.toNat_ofNat', Nat.mod_eq_of_lt]
      exact hlen.trans_lt size.toNat_lt
    · intro i hi
      have hi' : i < (slots me.toNat ex).length := by rw [slots_length]; exact hi
      exact ⟨_, I'.ring.stored.read i hi', slots_latest ex i hi'⟩

/-- five data, upper tail: threshold 3, two strict exceedances -/
def Sample.fit5 : C (ℤ × Spot F64 × Heap F64) :=
  spot_fit (codeMath muslFU) Sample.heap Sample.spot [lit 1, lit 2, lit 3, lit 4, lit 5] 5

theorem Sample.fit5_run : Sample.fit5.map (fun r => (r.1, r.2.1.Nt, r.2.1.excess_threshold,
    ubend_size r.2.1.tail.peaks.container)) = .ok (0, 2, lit 3, 2) := by decide +kernel

example : Sample.init.1 = 0 ∧ Sample.fit5.map (fun r => (r.1, r.2.1.Nt, r.2.1.excess_threshold,
    ubend_size r.2.1.tail.peaks.container)) = .ok (0, 2, lit 3, 2) := ⟨by decide +kernel, Sample.fit5_run⟩

/-! ### C38 -/

/-- `spot_step` on `x` records an excess: it does not return another code than EXCESS. -/
def StepRecords (lib : Lib F64) (h : Heap F64) (s : Spot F64) (x : F64) : Prop :=
  ¬ ∃ r s' h', spot_step (codeMath lib.fu) h s x = .ok (r, s', h') ∧ r ≠ 1

theorem stepRecords_iff {lib : Lib F64} {q level : F64} {low : ℤ} {h : Heap F64} {s : Spot F64}
    (P : Params q level low 0 s.core) (ht : isFin s.excess_threshold) (x : F64) :
    StepRecords lib h s x ↔
      notNaN x ∧ (if low ≠ 0 then x.val ≤ s.excess_threshold.val else s.excess_threshold.val ≤ x.val) := by
  rw [← exTest_iff P x ht]
  have hA : anomTest s x = false := by
    rw [Bool.eq_false_iff]; intro hc; exact absurd rfl ((anomTest_iff P x).mp hc).1
  unfold StepRecords
  constructor
  · intro H
    by_contra hE
    have hE : exTest s x = false := by simpa using hE
    cases hs : spot_step (codeMath lib.fu) h s x with
    | error e => rw [(step_error hs).2.2] at hE; cases hE
    | ok p =>
      obtain ⟨r, s', h'⟩ := p
      refine H ⟨r, s', h', hs, ?_⟩
      rcases step_cases hs with ⟨_, h1, _⟩ | ⟨_, h2, _⟩ | ⟨_, _, h3, _⟩ | ⟨_, _, _, h1, _⟩
      · rw [h1]; decide
      · rw [hA] at h2; cases h2
      · rw [hE] at h3; cases h3
      · rw [h1]; decide
  · rintro hE ⟨r, s', h', hs, hr⟩
    have hx : notNaN x := ((exTest_iff P x ht).mp hE).1
    rcases step_cases hs with ⟨h1, _⟩ | ⟨_, h2, _⟩ | ⟨_, _, _, h1, _⟩ | ⟨_, _, h3, _⟩
    · rw [(F64.is_nan_false x).mpr hx] at h1; cases h1
    · rw [hA] at h2; cases h2
    · exact hr h1
    · rw [hE] at h3; cases h3

/-- the sample without `discard_anomalies` -/
def Sample.initKeep : ℤ × Spot F64 × Heap F64 :=
  spot_init Sample.lib Sample.emptyHeap Sample.zeroed (lit (1 / 100)) 0 0 (lit (9 / 10)) 20

theorem Sample.fitKeep_run : Sample.initKeep.1 = 0 ∧ (spot_fit (codeMath muslFU) Sample.initKeep.2.2 Sample.initKeep.2.1
    [lit 1, lit 2, lit 3, lit 4, lit 5] 5).map (fun r => (r.1, r.2.1.Nt, r.2.1.excess_threshold)) = .ok (0, 2, lit 3) := by
  decide +kernel

open Classical in
/-- C38 does not hold: fitted on 1, 2, 3, 4, 5 the threshold is 3 and `spot_fit` records two excesses, but `spot_step` would
record three of these values. -/
theorem C38_false : ¬ ∀ (lib : Lib F64) (q level : F64) (low : ℤ) (me : UInt64) (s : Spot F64) (h : Heap F64)
    (data : List F64) (size : UInt64) (s1 : Spot F64) (h1 : Heap F64),
    Reaches (codeMath lib.fu) lib q low 0 level me s h → size.toNat ≤ data.length →
    spot_fit (codeMath lib.fu) h s data size = .ok (0, s1, h1) →
    s1.Nt.toNat = (data.take size.toNat).countP (fun x => StepRecords lib h1 s1 x) := by
  intro H
  obtain ⟨h0, hrun⟩ := Sample.fitKeep_run
  have R : Reaches (codeMath Sample.lib.fu) Sample.lib (lit (1 / 100)) 0 0 (lit (9 / 10)) 20 Sample.initKeep.2.1
      Sample.initKeep.2.2 :=
    ⟨by decide, by decide, Sample.emptyHeap, Sample.zeroed, h0, [], [], by simp, rfl⟩
  cases hf : spot_fit (codeMath muslFU) Sample.initKeep.2.2 Sample.initKeep.2.1
    [lit 1, lit 2, lit 3, lit 4, lit 5] 5 with
  | error e => rw [hf] at hrun; cases hrun
  | ok p =>
    obtain ⟨r, s1, h1⟩ := p
    rw [hf] at hrun
    simp only [Except.map, Except.ok.injEq, Prod.mk.injEq] at hrun
    obtain ⟨rfl, hNt, het⟩ := hrun
    have h3 := H Sample.lib _ _ 0 20 _ _ _ 5 s1 h1 R (by decide) hf
    obtain ⟨a, xs, I, P⟩ := R.inv
    obtain ⟨a', xs', I', P'⟩ := (R.run (ops := [.fit [lit 1, lit 2, lit 3, lit 4, lit 5] 5]) (s' := s1) (h' := h1)
      (outs := [.code 0]) (by intro op hop; simp only [List.mem_singleton] at hop; subst hop; show (5 : UInt64).toNat ≤ 5
                              decide)
      (by unfold runOps exec runOps
          show ((spot_fit (codeMath muslFU) _ _ _ _ >>= _) >>= _) = _
          rw [hf]; rfl)).inv
    have hfin : isFin s1.excess_threshold := by rw [het]; decide +kernel
    have hrec := fun x => stepRecords_iff (lib := Sample.lib) (h := h1) P' hfin x
    rw [hNt, het] at *
    have hle : ∀ x : F64, StepRecords Sample.lib h1 s1 x ↔ F64.le (lit 3) x = true := by
      intro x
      rw [hrec, F64.le_iff]
      have : notNaN (lit 3 : F64) := by decide +kernel
      simp [this]
    simp only [hle] at h3
    have : ((2 : UInt64).toNat = ([lit 1, lit 2, lit 3, lit 4, lit 5].take (5 : UInt64).toNat).countP
      (fun x => F64.le (lit 3) x)) := by
      rw [h3]; congr 1; funext x; simp
    revert this
    decide +kernel

open Classical in
/-- What holds instead of C38: the claim for data none of which equals the resulting threshold. Missing: values equal to
the threshold, where it is false (`spot_fit` uses a strict, `spot_step` a non-strict comparison). -/
theorem C38_partial (lib : Lib F64) (q level : F64) (low : ℤ) (me : UInt64) (s : Spot F64) (h : Heap F64)
    (data : List F64) (size : UInt64) (r : ℤ) (s1 : Spot F64) (h1 : Heap F64)
    (R : Reaches (codeMath lib.fu) lib q low 0 level me s h) (hsz : size.toNat ≤ data.length)
    (hfit : spot_fit (codeMath lib.fu) h s data size = .ok (r, s1, h1)) (hr : r ≠ -1003)
    (het : isFin s1.excess_threshold)
    (hne : ∀ x ∈ data.take size.toNat, x.val ≠ s1.excess_threshold.val) :
    s1.Nt.toNat = (data.take size.toNat).countP (fun x => StepRecords lib h1 s1 x) := by
  obtain ⟨a, xs, I, P⟩ := R.inv
  obtain ⟨et, _, hcase⟩ := fit_cases I hsz hfit
  rcases hcase with ⟨_, h3, _⟩ | ⟨hn, ⟨t', hs1⟩, _, _, _⟩
  · exact absurd h3 hr
  · have hnn := (F64.is_nan_false et).mp hn
    have hud : s.up_down = if low ≠ 0 then lit (-1) else lit 1 := P.pud
    have P1 : Params q level low 0 s1.core := by
      rw [hs1]; exact ⟨P.pq, P.plevel, P.plow, P.pdisc, P.pud⟩
    have e1 : s1.excess_threshold = et := by rw [hs1]
    have e3 : s1.Nt = UInt64.ofNat (Spec.beyond low et (data.take size.toNat)).length := by
      rw [hs1]
      dsimp only
      rw [hud, fitExcesses_eq _ _ _ hnn, Spec.excesses, List.length_map]
    have hlen : (Spec.beyond low et (data.take size.toNat)).length < 2 ^ 64 := by
      refine lt_of_le_of_lt (List.length_filter_le _ _) ?_
      have := size.toNat_lt
      simp only [List.length_take]; omega
    rw [e3, UInt64.toNat_ofNat', Nat.mod_eq_of_lt hlen, Spec.beyond, ← List.countP_eq_length_filter]
    apply List.countP_congr
    intro x hx
    have hx' := hne x hx
    rw [decide_eq_true_iff, decide_eq_true_iff, stepRecords_iff P1 het, e1, Spec.Beyond]
    rw [e1] at hx'
    by_cases hl : low = 0
    · simp only [hl, ne_eq, not_true_eq_false, if_false]
      exact and_congr_right fun _ => ⟨fun g => g.le, fun g => lt_of_le_of_ne g (Ne.symm hx')⟩
    · simp only [hl, ne_eq, not_false_eq_true, if_true]
      exact and_congr_right fun _ => ⟨fun g => g.le, fun g => lt_of_le_of_ne g hx'⟩

/-- three data none of which equals the threshold (0: fewer than five data) -/
example : Sample.initKeep.1 = 0 ∧ (spot_fit (codeMath muslFU) Sample.initKeep.2.2 Sample.initKeep.2.1
    [lit 1, lit 2, lit 4] 3).map (fun r => (r.1, r.2.1.Nt, r.2.1.excess_threshold)) = .ok (0, 3, lit 0) := by
  decide +kernel

/-! ### C39 -/

/-- C39 does not hold: fitting twice on the one value 1 leaves two excesses in the tail instead of one. -/
theorem C39_false : ¬ ∀ (lib : Lib F64) (q level : F64) (low disc : ℤ) (me : UInt64) (s : Spot F64) (h h0 : Heap F64)
    (s0 : Spot F64) (data : List F64) (size : UInt64) (r r' : ℤ) (s1 s1' : Spot F64) (h1 h1' : Heap F64),
    Reaches (codeMath lib.fu) lib q low disc level me s h →
    (spot_init lib h0 s0 q low disc level me).1 = 0 → size.toNat ≤ data.length →
    spot_fit (codeMath lib.fu) h s data size = .ok (r, s1, h1) →
    spot_fit (codeMath lib.fu) (spot_init lib h0 s0 q low disc level me).2.2
      (spot_init lib h0 s0 q low disc level me).2.1 data size = .ok (r', s1', h1') →
    ubend_size s1.tail.peaks.container = ubend_size s1'.tail.peaks.container := by
  intro H
  have hrun : (spot_fit (codeMath muslFU) Sample.heap Sample.spot [lit 1] 1 >>= fun p =>
      (spot_fit (codeMath muslFU) p.2.2 p.2.1 [lit 1] 1).map (fun p' =>
        (ubend_size p.2.1.tail.peaks.container, ubend_size p'.2.1.tail.peaks.container))) = .ok (1, 2) := by
    decide +kernel
  obtain ⟨p, hp, hrun⟩ := C.bind_ok hrun
  obtain ⟨r, s, h⟩ := p
  have R : Reaches (codeMath Sample.lib.fu) Sample.lib (lit (1 / 100)) 0 1 (lit (9 / 10)) 20 s h := by
    refine ⟨by decide, by decide, Sample.emptyHeap, Sample.zeroed, by decide +kernel, [.fit [lit 1] 1], [.code r], ?_, ?_⟩
    · intro op hop; simp only [List.mem_singleton] at hop; subst hop; show (1 : UInt64).toNat ≤ 1; decide
    · unfold runOps exec runOps
      show ((spot_fit (codeMath muslFU) Sample.heap Sample.spot _ _ >>= _) >>= _) = _
      rw [hp]; rfl
  cases hp' : spot_fit (codeMath muslFU) h s [lit 1] 1 with
  | error e => rw [hp'] at hrun; cases hrun
  | ok p' =>
    obtain ⟨r', s', h'⟩ := p'
    rw [hp'] at hrun
    simp only [Except.map, Except.ok.injEq, Prod.mk.injEq] at hrun
    have := H Sample.lib _ _ 0 1 20 s h Sample.emptyHeap Sample.zeroed [lit 1] 1 r' r s' s h' h R (by decide +kernel)
      (by decide) hp' hp
    rw [hrun.1, hrun.2] at this
    exact absurd this (by decide)

theorem fitL_old {M : MathFns F64} (g g' s s' : F64) (st : Stats F64) (l : List F64) :
    fitL M g s st l = fitL M g' s' st l := by
  unfold fitL
  congr 1

/-- two detectors with the same content return the same values for every sequence of calls -/
theorem run_same {M : MathFns F64} {h h' : Heap F64} {s s' : Spot F64} {a a' c : ℕ} {xs : List F64} (I : SpotInv h s a c xs)
    (I' : SpotInv h' s' a' c xs) (hc : s.core = s'.core) (ops : List (Op F64)) (hv : ∀ op ∈ ops, op.valid) :
    (runOps M h s ops).map Prod.fst = (runOps M h' s' ops).map Prod.fst := by
  have f1 := run_refines (M := M) I ops hv
  have f2 := run_refines (M := M) I' ops hv
  rw [hc] at f1
  cases hq : runC M c s'.core xs ops with
  | error e =>
    simp only [hq, RefinesO] at f1 f2
    rw [f1, f2]
  | ok q =>
    obtain ⟨out, k, ys⟩ := q
    simp only [hq, RefinesO] at f1 f2
    obtain ⟨s1, h1, e1, -⟩ := f1
    obtain ⟨s2, h2, e2, -⟩ := f2
    rw [e1, e2]; rfl

/-- What holds instead of C39. A re-fit gives the return code -1003 when a first fit does, and otherwise the same excess
threshold and counters. If moreover no excess had been recorded before, the whole model is the same: return code,
thresholds, tail parameters, the stored excesses, slot by slot, and their statistics; and every later sequence of calls returns the same
values. Missing: detectors that had recorded excesses, where it is
false (the old excesses stay in the tail). -/
theorem C39_partial (lib : Lib F64) (q level : F64) (low disc : ℤ) (me : UInt64) (s : Spot F64) (h h0 : Heap F64)
    (s0 : Spot F64) (data : List F64) (size : UInt64) (r r' : ℤ) (s1 s1' : Spot F64) (h1 h1' : Heap F64)
    (R : Reaches (codeMath lib.fu) lib q low disc level me s h)
    (hi : (spot_init lib h0 s0 q low disc level me).1 = 0) (hsz : size.toNat ≤ data.length)
    (hfit : spot_fit (codeMath lib.fu) h s data size = .ok (r, s1, h1))
    (hfit' : spot_fit (codeMath lib.fu) (spot_init lib h0 s0 q low disc level me).2.2
      (spot_init lib h0 s0 q low disc level me).2.1 data size = .ok (r', s1', h1')) :
    (r = -1003 ↔ r' = -1003) ∧ s1.n = s1'.n ∧ s1.Nt = s1'.Nt ∧ s1.q = s1'.q ∧ s1.level = s1'.level ∧
    s1.low = s1'.low ∧ s1.up_down = s1'.up_down ∧ s1.discard_anomalies = s1'.discard_anomalies ∧
    (r ≠ -1003 → s1.excess_threshold = s1'.excess_threshold) ∧
    (r ≠ -1003 → ubend_size s.tail.peaks.container = 0 →
      r = r' ∧ s1.anomaly_threshold = s1'.anomaly_threshold ∧ s1.tail.gamma = s1'.tail.gamma ∧
      s1.tail.sigma = s1'.tail.sigma ∧
      ubend_size s1.tail.peaks.container = ubend_size s1'.tail.peaks.container ∧
      s1.tail.peaks.e = s1'.tail.peaks.e ∧ s1.tail.peaks.e2 = s1'.tail.peaks.e2 ∧
      s1.tail.peaks.min = s1'.tail.peaks.min ∧ s1.tail.peaks.max = s1'.tail.peaks.max ∧
      (∀ i, i < (ubend_size s1.tail.peaks.container).toNat → ∃ v, load h1 s1.tail.peaks.container.data i = .ok v ∧
        load h1' s1'.tail.peaks.container.data i = .ok v) ∧
      ∀ ops, (∀ op ∈ ops, op.valid) →
        (runOps (codeMath lib.fu) h1 s1 ops).map Prod.fst = (runOps (codeMath lib.fu) h1' s1' ops).map Prod.fst) := by
  have hme := R.1
  have hme2 := R.2.1
  obtain ⟨a, xs, I, P⟩ := R.inv
  obtain ⟨a', _, _, hc', I'⟩ := init_ok hi hme hme2
  have P' : Params q level low disc (spot_init lib h0 s0 q low disc level me).2.1.core := by
    rw [hc']; exact ⟨rfl, rfl, rfl, rfl, rfl⟩
  generalize hs' : (spot_init lib h0 s0 q low disc level me).2.1 = s' at *
  generalize hh' : (spot_init lib h0 s0 q low disc level me).2.2 = h' at *
  have hlow : s.low = s'.low := P.plow.trans P'.plow.symm
  have hlev : s.level = s'.level := P.plevel.trans P'.plevel.symm
  have hq : s.q = s'.q := P.pq.trans P'.pq.symm
  have hud : s.up_down = s'.up_down := P.pud.trans P'.pud.symm
  have hdis : s.discard_anomalies = s'.discard_anomalies := P.pdisc.trans P'.pdisc.symm
  have hE : fitEt s data size = fitEt s' data size := by unfold fitEt; rw [hlow, hlev]
  obtain ⟨et, he, hcase⟩ := fit_cases I hsz hfit
  obtain ⟨et', he', hcase'⟩ := fit_cases I' hsz hfit'
  rw [hE, he'] at he
  cases he
  rcases hcase with ⟨hn, h3, hs1, hh⟩ | ⟨hn, ⟨t', hs1⟩, J, hqn, h3⟩
  · rcases hcase' with ⟨_, h3', hs1', hh'⟩ | ⟨hn', _⟩
    · subst h3 h3' hs1 hs1'
      refine ⟨Iff.rfl, rfl, rfl, hq, hlev, hlow, hud, hdis, fun hc => absurd rfl hc, fun hc => absurd rfl hc⟩
    · rw [hn] at hn'; cases hn'
  · rcases hcase' with ⟨hn', _⟩ | ⟨_, ⟨t'', hs1'⟩, J', hqn', h3'⟩
    · rw [hn] at hn'; cases hn'
    · have hr1 : r ≠ -1003 := by rw [h3]; split <;> decide
      have hr1' : r' ≠ -1003 := by rw [h3']; split <;> decide
      refine ⟨iff_of_false hr1 hr1', by rw [hs1, hs1'], ?_, ?_, ?_, ?_, ?_, ?_, fun _ => by rw [hs1, hs1'], ?_⟩
      · rw [hs1, hs1', hud]
      · rw [hs1, hs1']; exact hq
      · rw [hs1, hs1']; exact hlev
      · rw [hs1, hs1']; exact hlow
      · rw [hs1, hs1']; exact hud
      · rw [hs1, hs1']; exact hdis
      · intro _ hz
        have hxs : xs = [] := by
          have := I.ring.size
          rw [hz] at this
          have : min xs.length me.toNat = 0 := this.symm
          have : xs.length = 0 := by omega
          exact List.length_eq_zero_iff.mp this
        subst hxs
        -- both fits are the same computation on the pure machine
        have key : ∀ (k k' : Core F64), k.q = k'.q → k.level = k'.level → k.discard = k'.discard → k.low = k'.low →
            k.up_down = k'.up_down → ∀ rr kk ys rr' kk' ys',
            fitC (codeMath lib.fu) me.toNat k [] data size = .ok (rr, kk, ys) →
            fitC (codeMath lib.fu) me.toNat k' [] data size = .ok (rr', kk', ys') → rr ≠ -1003 →
            rr = rr' ∧ kk = kk' ∧ ys = ys' := by
          rintro ⟨a1, a2, a3, a4, a5, a6, a7, a8, a9, a10, a11⟩ ⟨b1, b2, b3, b4, b5, b6, b7, b8, b9, b10, b11⟩
            e1 e2 e3 e4 e5 rr kk ys rr' kk' ys' f1 f2 hne
          simp only at e1 e2 e3 e4 e5
          subst e1 e2 e3 e4 e5
          unfold fitC at f1 f2
          dsimp only at f1 f2
          obtain ⟨et, g1, f1⟩ := C.bind_ok f1
          obtain ⟨et2, g2, f2⟩ := C.bind_ok f2
          rw [g1] at g2
          cases g2
          by_cases hnan : is_nan et
          · rw [if_pos hnan] at f1; cases f1; exact absurd rfl hne
          · rw [if_neg hnan] at f1 f2
            unfold refit at f1 f2
            dsimp only at f1 f2
            rw [fitL_old b10 a10 b11 a11] at f2
            unfold quantileC at f1 f2
            dsimp only at f1 f2
            obtain ⟨z, z1, f1⟩ := C.bind_ok f1
            obtain ⟨z', z2, f2⟩ := C.bind_ok f2
            rw [z1] at z2
            cases z2
            by_cases hz : is_nan z
            · rw [if_pos hz] at f1 f2; cases f1; cases f2; exact ⟨rfl, rfl, rfl⟩
            · rw [if_neg hz] at f1 f2; cases f1; cases f2; exact ⟨rfl, rfl, rfl⟩
        have F := fit_refines (M := codeMath lib.fu) I data size hsz
        have F' := fit_refines (M := codeMath lib.fu) I' data size hsz
        rw [hfit] at F
        rw [hfit'] at F'
        cases hp : fitC (codeMath lib.fu) me.toNat s.core [] data size with
        | error e => rw [hp] at F; exact absurd F (by simp [Refines])
        | ok p =>
          cases hp' : fitC (codeMath lib.fu) me.toNat s'.core [] data size with
          | error e => rw [hp'] at F'; exact absurd F' (by simp [Refines])
          | ok p' =>
            obtain ⟨c1, k1, y1⟩ := p
            obtain ⟨c2, k2, y2⟩ := p'
            rw [hp] at F
            rw [hp'] at F'
            obtain ⟨_, _, ee, ck, K, _⟩ := F
            obtain ⟨_, _, ee', ck', K', _⟩ := F'
            cases ee
            cases ee'
            obtain ⟨q1, q2, q3⟩ := key s.core s'.core hq hlev hdis hlow hud _ _ _ _ _ _ hp hp' hr1
            rw [q2, ← ck'] at ck
            subst q3
            have hst := K.stats.trans K'.stats.symm
            refine ⟨q1, congrArg Core.at_ ck, congrArg Core.gamma ck, congrArg Core.sigma ck, by rw [K.ring.size_eq, K'.ring.size_eq],
              congrArg Stats.e hst, congrArg Stats.e2 hst, congrArg Stats.min hst, congrArg Stats.max hst, ?_, fun ops hv => run_same K K' ck ops hv⟩
            intro i hi
            rw [K.ring.stored.size] at hi
            exact ⟨_, K.ring.stored.read i hi, K'.ring.stored.read i hi⟩

/-- a detector without recorded excess (just initialised) and a fit -/
example : Sample.init.1 = 0 ∧ Sample.fit5.map (fun r => (r.1, r.2.1.Nt, r.2.1.excess_threshold,
    ubend_size r.2.1.tail.peaks.container)) = .ok (0, 2, lit 3, 2) := ⟨by decide +kernel, Sample.fit5_run⟩

/-! ### C64 -/

/-- C64 does not hold: the failed fit resets the counters (here n: 0 becomes 5). -/
theorem C64_false : ¬ ∀ (lib : Lib F64) (q level : F64) (low disc : ℤ) (me : UInt64) (s : Spot F64) (h : Heap F64)
    (data : List F64) (size : UInt64) (s1 : Spot F64) (h1 : Heap F64),
    Reaches (codeMath lib.fu) lib q low disc level me s h → size.toNat ≤ data.length →
    spot_fit (codeMath lib.fu) h s data size = .ok (-1003, s1, h1) → s1 = s ∧ h1 = h := by
  intro H
  have R : Reaches (codeMath Sample.lib.fu) Sample.lib (lit (1 / 100)) 0 1 (lit (9 / 10)) 20 Sample.init.2.1
      Sample.init.2.2 :=
    ⟨by decide, by decide, Sample.emptyHeap, Sample.zeroed, by decide +kernel, [], [], by simp, rfl⟩
  have hrun : (spot_fit (codeMath muslFU) Sample.heap Sample.spot
    [F64.nan, F64.nan, F64.nan, F64.nan, F64.nan] 5).map (fun r => (r.1, r.2.1.n)) = .ok (-1003, 5) := by decide +kernel
  cases hp : spot_fit (codeMath muslFU) Sample.heap Sample.spot [F64.nan, F64.nan, F64.nan, F64.nan, F64.nan] 5 with
  | error e => rw [hp] at hrun; cases hrun
  | ok p =>
    obtain ⟨r, s1, h1⟩ := p
    rw [hp] at hrun
    simp only [Except.map, Except.ok.injEq, Prod.mk.injEq] at hrun
    obtain ⟨rfl, hn⟩ := hrun
    have := (H Sample.lib _ _ 0 1 20 _ _ _ 5 s1 h1 R (by decide) hp).1
    rw [this] at hn
    revert hn
    decide +kernel

/-- What holds instead of C64: a fit that fails with -1003 changes nothing but the counters. Missing: the counters, which
become 0 and `size`. -/
theorem C64_partial (lib : Lib F64) (q level : F64) (low disc : ℤ) (me : UInt64) (s : Spot F64) (h : Heap F64)
    (data : List F64) (size : UInt64) (s1 : Spot F64) (h1 : Heap F64)
    (R : Reaches (codeMath lib.fu) lib q low disc level me s h) (hsz : size.toNat ≤ data.length)
    (hfit : spot_fit (codeMath lib.fu) h s data size = .ok (-1003, s1, h1)) :
    s1 = { s with Nt := 0, n := size } ∧ h1 = h := by
  obtain ⟨a, xs, I, P⟩ := R.inv
  obtain ⟨et, _, hcase⟩ := fit_cases I hsz hfit
  rcases hcase with ⟨_, _, h3⟩ | ⟨_, _, _, _, h3⟩
  · exact h3
  · revert h3; split <;> (intro h3; exact absurd h3 (by decide))

example : (spot_fit (codeMath muslFU) Sample.heap Sample.spot
    [F64.nan, F64.nan, F64.nan, F64.nan, F64.nan] 5).map Prod.fst = .ok (-1003) := by decide +kernel

end Verif

/-
A complete history on the sample detector, evaluated by the kernel: it runs without undefined behaviour and records excesses.
-/
import Verif.Props.Samples
import Verif.F64.Order

namespace Verif.Sample

/-- a history with a step before the fit, a fit, steps of each kind, and queries -/
def ops : List (Op F64) :=
  [.step (lit 3), .fit data 7, .step (lit 6), .step (lit 2), .step (lit 1000), .quantile (lit (1 / 1000)),
    .probability (lit 6)]

theorem ops_valid : ∀ op ∈ ops, op.valid := by
  intro op hop
  simp only [ops, List.mem_cons, List.not_mem_nil, or_false] at hop
  rcases hop with rfl | rfl | rfl | rfl | rfl | rfl | rfl <;> first | trivial | (show (7 : UInt64).toNat ≤ 7; decide)

/-- result codes: NORMAL before the fit, fit ok, EXCESS, NORMAL, ANOMALY; final counters Nt = 5, n = 9; excess threshold 3,
non-NaN anomaly threshold -/
theorem ops_run : (runOps (codeMath muslFU) heap spot ops).map (fun r => (r.1.take 5, r.2.1.Nt, r.2.1.n,
      r.2.1.excess_threshold, decide (F64.notNaN r.2.1.anomaly_threshold))) =
    .ok ([.code 0, .code 0, .code 1, .code 0, .code 2], 5, 9, lit 3, true) := by
  decide +kernel

theorem ops_ok : ∃ outs s' h', runOps (codeMath lib.fu) init.2.2 init.2.1 ops = .ok (outs, s', h') := by
  have h := ops_run
  cases hr : runOps (codeMath muslFU) heap spot ops with
  | error e => rw [hr] at h; cases h
  | ok r => exact ⟨r.1, r.2.1, r.2.2, hr⟩

/-- a reachable detector with a finite excess threshold and an anomaly threshold -/
theorem reached : ∃ s h, Reaches (codeMath lib.fu) lib (lit (1 / 100)) 0 1 (lit (9 / 10)) 20 s h ∧
    F64.isFin s.excess_threshold ∧ F64.notNaN s.anomaly_threshold ∧ s.Nt = 5 := by
  have h := ops_run
  cases hr : runOps (codeMath muslFU) heap spot ops with
  | error e => rw [hr] at h; cases h
  | ok r =>
    rw [hr] at h
    simp only [Except.map, Except.ok.injEq, Prod.mk.injEq, decide_eq_true_iff] at h
    obtain ⟨_, h2, _, h4, h5⟩ := h
    refine ⟨r.2.1, r.2.2, ⟨by decide, by decide, emptyHeap, zeroed, by decide +kernel, ops, r.1, ops_valid, hr⟩, ?_, h5, h2⟩
    rw [h4]; decide +kernel

end Verif.Sample

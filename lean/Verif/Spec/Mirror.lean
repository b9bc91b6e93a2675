/-
Specification of mirrored detectors: what it means that one detector is the mirror image of another.
-/
import Verif.Model.History
import Verif.F64.Basic

namespace Verif
namespace Spec

/-- the same number: identical doubles (NaN included), or doubles that compare equal (zeros of different signs) -/
def SameNum (x y : F64) : Prop := x = y ∨ F64.eq x y = true

/-- the mirror image of a call: opposite data -/
def mirrorOp : Op F64 → Op F64
  | .fit data size => .fit (data.map F64.neg) size
  | .step x => .step (F64.neg x)
  | .quantile q => .quantile q
  | .probability z => .probability (F64.neg z)

/-- mirrored results: same codes, opposite values -/
inductive MirrorOut : Out F64 → Out F64 → Prop where
  | code (r : ℤ) : MirrorOut (.code r) (.code r)
  | value {v w : F64} (h : SameNum w (F64.neg v)) : MirrorOut (.value v) (.value w)

/-- The detector `t` (in heap `h'`) is the mirror image of `s` (in heap `h`): opposite thresholds, same parameters, counters
and tail, same stored excesses. -/
structure Mirrored (h : Heap F64) (s : Spot F64) (h' : Heap F64) (t : Spot F64) : Prop where
  q : t.q = s.q
  disc : t.discard_anomalies = s.discard_anomalies
  low : s.low = 0 ∧ t.low = 1
  et : SameNum t.excess_threshold (F64.neg s.excess_threshold)
  at_ : SameNum t.anomaly_threshold (F64.neg s.anomaly_threshold)
  Nt : t.Nt = s.Nt
  n : t.n = s.n
  gamma : t.tail.gamma = s.tail.gamma
  sigma : t.tail.sigma = s.tail.sigma
  size : peaks_size t.tail.peaks = peaks_size s.tail.peaks
  stored : ∀ i < (peaks_size s.tail.peaks).toNat, ∃ v w, load h s.tail.peaks.container.data i = .ok v ∧
    load h' t.tail.peaks.container.data i = .ok w ∧ SameNum w v

/-- the mirror image of a structure: lower tail, opposite thresholds, everything else as it is -/
def mirrorSpot (s : Spot F64) : Spot F64 :=
  { s with low := 1, up_down := lit (-1), excess_threshold := F64.neg s.excess_threshold,
           anomaly_threshold := F64.neg s.anomaly_threshold }

/-- Two runs mirror each other: both have the same undefined behaviour, or both finish with mirrored results and mirrored
detectors. -/
def MirroredRuns (r r' : C (List (Out F64) × Spot F64 × Heap F64)) : Prop :=
  (∃ e, r = .error e ∧ r' = .error e) ∨
  ∃ o s h o' t h', r = .ok (o, s, h) ∧ r' = .ok (o', t, h') ∧ List.Forall₂ MirrorOut o o' ∧ Mirrored h s h' t

end Spec
end Verif

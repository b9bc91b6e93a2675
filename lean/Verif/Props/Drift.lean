/-
C86: the rounding error of the tracked sum of the excesses.
-/
import Verif.Proofs.Drift
import Verif.Props.Tail

namespace Verif
open F64 Spec

/-! ### C86 -/

/-- After any sequence of at most 2^49 / c insertions of non-negative numbers up to 2^900 in a container of capacity c, the
tracked sum (from which the mean is computed, src/peaks.c:87-89) is a finite number, whose distance to the exact sum of the
stored values is at most 2^-50 times the number of insertions, the capacity and the greatest stored value. The bound
depends on the number of insertions: the sum is updated by one addition and one subtraction at each insertion, so its
rounding errors are never forgotten except when the container is recomputed. -/
theorem C86_sum_drift (lib : Lib F64) (h : Heap F64) (cap : UInt64) (h1 : 1 ≤ cap.toNat) (h2 : cap.toNat < 2 ^ 61)
    (h0 : (peaks_init lib h cap).1 = 0) (xs : List F64) (hne : xs ≠ [])
    (hx : ∀ x ∈ xs, isFin x ∧ 0 ≤ toQ x ∧ toQ x ≤ 2 ^ 900) (hN : xs.length * cap.toNat ≤ 2 ^ 49) (hc : cap.toNat * cap.toNat ≤ 2 ^ 49) :
    ∃ p' h', peaksPushAll (peaks_init lib h cap).2.2 (peaks_init lib h cap).2.1 xs = .ok (p', h') ∧
      isFin p'.e ∧
      ∃ m ∈ Spec.lastN cap.toNat xs, (∀ v ∈ Spec.lastN cap.toNat xs, toQ v ≤ toQ m) ∧
        |toQ p'.e - ((Spec.lastN cap.toNat xs).map toQ).sum| ≤ xs.length * cap.toNat / 2 ^ 50 * toQ m := by
  obtain ⟨a, I⟩ := peaks_init_inv h1 h2 h0
  obtain ⟨p', h', e, I'⟩ := peaksPushAll_inv I xs
  rw [List.nil_append] at I'
  have p9 : pow2 900 = 2 ^ 900 := by decide +kernel
  have hx' : ∀ v ∈ xs, Excess v := fun v hv => by unfold Excess; rw [p9]; exact hx v hv
  obtain ⟨d1, d2⟩ := statsOf_drift h1 xs hx' hN hc
  have hn : ∀ v ∈ xs, is_nan v = false := fun v hv => excess_nan (hx' v hv)
  have hE := statsOf_extremes h1 h2 xs hn hne
  have hmem : ∀ v ∈ slots cap.toNat xs, Excess v := fun v hv => hx' v (slots_mem h1 hv)
  have P := slots_perm h1 xs
  rw [← I'.stats] at d1 d2 hE
  refine ⟨p', h', e, d1, p'.max, P.mem_iff.mp hE.2.1, ?_, ?_⟩
  · intro v hv
    exact ((Extremes.max_bound hE hmem).2 v (P.mem_iff.mpr hv)).2
  · rw [← (P.map toQ).sum_eq]
    refine d2.trans (le_of_eq ?_)
    change 8 * (cap.toNat : ℚ) / 9007199254740992 * xs.length * toQ p'.max = _
    ring

/-- capacity 3, three insertions: the tracked sum differs from the exact sum -/
example : (peaks_init Sample.lib Sample.emptyHeap 3).1 = 0 ∧
    (∀ x ∈ ([lit 1, lit (1 / 10), lit 1000] : List F64), isFin x ∧ 0 ≤ toQ x ∧ toQ x ≤ 2 ^ 900) ∧
    (peaksPushAll (peaks_init Sample.lib Sample.emptyHeap 3).2.2 (peaks_init Sample.lib Sample.emptyHeap 3).2.1
      [lit 1, lit (1 / 10), lit 1000]).map (fun r => decide (toQ r.1.e = toQ (lit 1 : F64) + toQ (lit (1 / 10) : F64) + toQ (lit 1000 : F64))) =
      .ok false := by decide +kernel

end Verif

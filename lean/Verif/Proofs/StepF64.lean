/-
The tests of `spot_step` and `spot_fit` on doubles are comparisons with the thresholds.
-/
import Verif.Proofs.Step
import Verif.F64.Mirror
import Verif.Spec.Step

namespace Verif
open F64

variable {M : MathFns F64} {h h' : Heap F64} {s s' : Spot F64} {q level : F64} {low disc : ℤ} {me : UInt64}

theorem ud_mul (low : ℤ) (y : F64) :
    (if low ≠ 0 then lit (-1) else lit 1 : F64) *. y = if low ≠ 0 then F64.neg y else y := by
  split
  · exact CDoubleLaws.neg_one_mul y
  · exact CDoubleLaws.one_mul y

/-- strict test -/
theorem pos_test (low : ℤ) (x t : F64) :
    ((if low ≠ 0 then lit (-1) else lit 1 : F64) *. (x -. t) >. lit 0) = true ↔
      notNaN x ∧ notNaN t ∧ (if low ≠ 0 then x.val < t.val else t.val < x.val) := by
  rw [ud_mul]
  have hz : (lit 0 : F64) = F64.zero false := by rw [lit_def, lit_zero]
  show F64.lt (lit 0) _ = true ↔ _
  rw [hz]
  split
  · rw [show (x -. t) = F64.sub x t from rfl, neg_sub_pos, F64.lt_iff]
  · rw [show (x -. t) = F64.sub x t from rfl, F64.sub_pos, F64.lt_iff]; tauto

/-- non-strict test -/
theorem nonneg_test (low : ℤ) (x t : F64) (ht : isFin t) :
    ((if low ≠ 0 then lit (-1) else lit 1 : F64) *. (x -. t) >=. lit 0) = true ↔
      notNaN x ∧ (if low ≠ 0 then x.val ≤ t.val else t.val ≤ x.val) := by
  rw [ud_mul]
  have hz : (lit 0 : F64) = F64.zero false := by rw [lit_def, lit_zero]
  show F64.le (lit 0) _ = true ↔ _
  rw [hz]
  have := ht.notNaN
  split
  · rw [show (x -. t) = F64.sub x t from rfl, sub_nonneg' ht, F64.le_iff]; tauto
  · rw [show (x -. t) = F64.sub x t from rfl, F64.sub_nonneg (Or.inl ht), F64.le_iff]; tauto

theorem anomTest_iff (P : Params q level low disc s.core) (x : F64) :
    anomTest s x = true ↔ disc ≠ 0 ∧ notNaN x ∧ notNaN s.anomaly_threshold ∧
      (if low ≠ 0 then x.val < s.anomaly_threshold.val else s.anomaly_threshold.val < x.val) := by
  unfold anomTest
  have hu : s.up_down = if low ≠ 0 then lit (-1) else lit 1 := P.pud
  have hd : s.discard_anomalies = if disc ≠ 0 then 1 else 0 := P.pdisc
  rw [hu, Bool.and_eq_true, pos_test, hd]
  by_cases hd0 : disc = 0 <;> simp [hd0]

theorem exTest_iff (P : Params q level low disc s.core) (x : F64) (ht : isFin s.excess_threshold) :
    exTest s x = true ↔ notNaN x ∧
      (if low ≠ 0 then x.val ≤ s.excess_threshold.val else s.excess_threshold.val ≤ x.val) := by
  unfold exTest
  have hu : s.up_down = if low ≠ 0 then lit (-1) else lit 1 := P.pud
  rw [hu, nonneg_test _ _ _ ht]

theorem fitExcesses_eq (low : ℤ) (et : F64) (l : List F64) (het : notNaN et) :
    fitExcesses (if low ≠ 0 then lit (-1) else lit 1) et l = Spec.excesses low et l := by
  unfold fitExcesses Spec.excesses Spec.beyond
  rw [List.filter_map]
  congr 1
  · funext x
    show _ *. F64.sub x et = _
    rw [ud_mul]
  · apply List.filter_congr
    intro x _
    rw [Function.comp_apply, Bool.eq_iff_iff, pos_test, @decide_eq_true_iff _ (Classical.propDecidable _)]
    unfold Spec.Beyond
    by_cases hl : low = 0 <;> simp [hl, het]

end Verif

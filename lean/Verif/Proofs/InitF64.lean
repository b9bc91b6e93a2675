/-
The parameter checks of `spot_init` on doubles.
-/
import Verif.Proofs.Init
import Verif.F64.Exact
import Verif.Spec.Init

namespace Verif
open F64 (notNaN isFin toQ)

theorem one_val : (lit 1 : F64).val = 1 := by
  rw [F64.val_fin (x := lit 1) (by decide +kernel)]
  have : toQ (lit 1 : F64) = 1 := by simpa using (F64.lit_int (i := 1) (by norm_num)).2
  rw [this]; norm_num

theorem sub_one_notNaN {level : F64} (h : notNaN level) : notNaN (CDouble.sub (lit 1 : F64) level) := by
  have h1 : isFin (lit 1 : F64) := by decide +kernel
  rcases level with _ | s | ⟨s, k⟩
  · simp [notNaN] at h
  · cases s <;> decide +kernel
  · obtain ⟨z, hz⟩ := F64.sub_fin (x := (lit 1 : F64)) (y := F64.fin s k) h1 trivial
    show notNaN (F64.sub _ _)
    rw [hz]; exact F64.ofRat_notNaN _ _

theorem level_check {level : F64} (h : notNaN level) :
    (level <. lit 0 || level >=. lit 1) = true ↔ ¬ Spec.LevelOK level := by
  rw [Bool.or_eq_true, CDoubleLaws.lt_iff, CDoubleLaws.le_iff]
  have h1 : CDoubleLaws.val (lit 1 : F64) = 1 := one_val
  rw [h1, CDoubleLaws.val_zero, CDoubleLaws.nan_lit, CDoubleLaws.nan_lit, (F64.is_nan_false level).mpr h]
  unfold Spec.LevelOK
  show _ ↔ ¬ (notNaN level ∧ 0 ≤ F64.val level ∧ F64.val level < 1)
  simp only [true_and, h]
  rw [not_and_or, not_le, not_lt]
  rfl

theorem q_check {q level : F64} (hq : notNaN q) (h : notNaN level) :
    (q >=. (lit 1 -. level) || q <=. lit 0) = true ↔ ¬ Spec.QOK q level := by
  rw [Bool.or_eq_true, CDoubleLaws.le_iff, CDoubleLaws.le_iff, CDoubleLaws.val_zero, CDoubleLaws.nan_lit,
    (F64.is_nan_false q).mpr hq, (F64.is_nan_false _).mpr (sub_one_notNaN h)]
  unfold Spec.QOK
  simp only [true_and, hq]
  rw [not_and_or, not_lt, not_lt, or_comm]
  rfl

end Verif

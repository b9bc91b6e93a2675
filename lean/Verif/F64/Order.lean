/-
Order structure of the doubles and of rounding. `F64.val` is the value of a non-NaN double as an extended real.
-/
import Verif.F64.Basic
import Mathlib.Data.EReal.Basic
import Mathlib.Tactic.Linarith
import Mathlib.Tactic.Push

namespace Verif
namespace F64

/-- value of a double as an extended real number (0 for NaN, never used for it) -/
noncomputable def val : F64 → EReal
  | nan => 0
  | inf true => ⊥
  | inf false => ⊤
  | fin s k => (((toQ (fin s k) : ℚ) : ℝ) : EReal)

/-- the double is not NaN -/
def notNaN (x : F64) : Prop := x ≠ nan

/-- the double is finite -/
def isFin : F64 → Prop
  | fin _ _ => True
  | _ => False

instance : DecidablePred isFin := fun x => by cases x <;> unfold isFin <;> infer_instance
instance : DecidablePred notNaN := fun x => by unfold notNaN; infer_instance

theorem val_fin {x : F64} (h : isFin x) : val x = ((toQ x : ℚ) : ℝ) := by
  cases x <;> simp_all [isFin, val]

theorem isFin.notNaN {x : F64} (h : isFin x) : notNaN x := by
  cases x <;> simp_all [isFin, F64.notNaN]

theorem ratCast_lt_EReal (a b : ℚ) : (((a : ℝ) : EReal) < ((b : ℝ) : EReal)) ↔ a < b := by
  rw [EReal.coe_lt_coe_iff, Rat.cast_lt]

theorem ratCast_le_EReal (a b : ℚ) : (((a : ℝ) : EReal) ≤ ((b : ℝ) : EReal)) ↔ a ≤ b := by
  rw [EReal.coe_le_coe_iff, Rat.cast_le]

theorem lt_iff (x y : F64) : lt x y = true ↔ notNaN x ∧ notNaN y ∧ val x < val y := by
  rcases x with _ | (_ | _) | ⟨s, a⟩ <;> rcases y with _ | (_ | _) | ⟨t, b⟩ <;>
    simp [lt, notNaN, val, EReal.coe_lt_top, EReal.bot_lt_coe]

theorem le_iff (x y : F64) : le x y = true ↔ notNaN x ∧ notNaN y ∧ val x ≤ val y := by
  rcases x with _ | (_ | _) | ⟨s, a⟩ <;> rcases y with _ | (_ | _) | ⟨t, b⟩ <;>
    simp [le, notNaN, val]

theorem eq_iff (x y : F64) : eq x y = true ↔ notNaN x ∧ notNaN y ∧ val x = val y := by
  rcases x with _ | (_ | _) | ⟨s, a⟩ <;> rcases y with _ | (_ | _) | ⟨t, b⟩ <;>
    simp [eq, notNaN, val, EReal.coe_eq_coe_iff]

end F64
end Verif

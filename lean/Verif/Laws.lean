/-
Laws shared by IEEE doubles and exact arithmetic, for proofs that do not depend on rounding.
-/
import Verif.F64.Arith
import Verif.XR.Basic

namespace Verif

/-- What generic proofs may use about a `CDouble`. `val` is the value of a non-NaN element. -/
class CDoubleLaws (α : Type) [CDouble α] where
  val : α → EReal
  lt_iff : ∀ x y : α, (x <. y) = true ↔ is_nan x = false ∧ is_nan y = false ∧ val x < val y
  le_iff : ∀ x y : α, (x <=. y) = true ↔ is_nan x = false ∧ is_nan y = false ∧ val x ≤ val y
  eq_iff : ∀ x y : α, (x ==. y) = true ↔ is_nan x = false ∧ is_nan y = false ∧ val x = val y
  nan_cNAN : is_nan (cNAN : α) = true
  nan_lit : ∀ q : ℚ, is_nan (lit q : α) = false
  val_zero : val (lit 0 : α) = 0
  sub_pos : ∀ x y : α, (lit 0 <. (x -. y)) = (y <. x)
  one_mul : ∀ x : α, lit 1 *. x = x
  neg_one_mul : ∀ x : α, lit (-1) *. x = -. x
  nan_neg : ∀ x : α, is_nan (-. x) = is_nan x
  val_neg : ∀ x : α, val (-. x) = - val x
  nan_sub_left : ∀ x y : α, is_nan x = true → is_nan (x -. y) = true
  nan_sub_right : ∀ x y : α, is_nan y = true → is_nan (x -. y) = true
  nan_mul_left : ∀ x y : α, is_nan x = true → is_nan (x *. y) = true
  nan_mul_right : ∀ x y : α, is_nan y = true → is_nan (x *. y) = true
  nan_add_left : ∀ x y : α, is_nan x = true → is_nan (x +. y) = true
  nan_add_right : ∀ x y : α, is_nan y = true → is_nan (x +. y) = true
  nan_div_left : ∀ x y : α, is_nan x = true → is_nan (x /. y) = true
  nan_div_right : ∀ x y : α, is_nan y = true → is_nan (x /. y) = true
  trunc_zero : CDouble.trunc (lit 0 : α) = some 0
  trunc_one : CDouble.trunc (lit 1 : α) = some 1
  trunc_neg_one : CDouble.trunc (lit (-1) : α) = some (-1)

namespace F64

theorem is_nan_iff (x : F64) : is_nan x = true ↔ x = nan := by
  cases x <;> simp [is_nan, CDouble.eq, eq]

theorem is_nan_false (x : F64) : is_nan x = false ↔ notNaN x := by
  rw [← Bool.not_eq_true, is_nan_iff]; rfl

theorem lit_def (q : ℚ) : (lit q : F64) = ofRat false q := rfl

noncomputable instance : CDoubleLaws F64 where
  val := val
  lt_iff x y := by rw [is_nan_false, is_nan_false]; exact lt_iff x y
  le_iff x y := by rw [is_nan_false, is_nan_false]; exact le_iff x y
  eq_iff x y := by rw [is_nan_false, is_nan_false]; exact eq_iff x y
  nan_cNAN := by decide +kernel
  nan_lit q := (is_nan_false _).mpr (ofRat_notNaN _ _)
  val_zero := by rw [lit_def, lit_zero, val_zero]
  sub_pos x y := by rw [lit_def, lit_zero]; exact sub_pos x y
  one_mul := one_mul
  neg_one_mul := neg_one_mul
  nan_neg x := by
    rw [Bool.eq_iff_iff, is_nan_iff, is_nan_iff]
    cases x <;> simp [CDouble.neg, neg]
  val_neg := val_neg
  nan_sub_left x y h := by rw [is_nan_iff] at *; subst h; exact nan_sub y
  nan_sub_right x y h := by rw [is_nan_iff] at *; subst h; exact sub_nan x
  nan_mul_left x y h := by rw [is_nan_iff] at *; subst h; cases y <;> rfl
  nan_mul_right x y h := by rw [is_nan_iff] at *; subst h; cases x <;> rfl
  nan_add_left x y h := by rw [is_nan_iff] at *; subst h; cases y <;> rfl
  nan_add_right x y h := by rw [is_nan_iff] at *; subst h; cases x <;> rfl
  nan_div_left x y h := by rw [is_nan_iff] at *; subst h; cases y <;> rfl
  nan_div_right x y h := by rw [is_nan_iff] at *; subst h; cases x <;> rfl
  trunc_zero := by decide +kernel
  trunc_one := by decide +kernel
  trunc_neg_one := by decide +kernel

end F64

namespace XR

theorem is_nan_iff (x : XR) : is_nan x = true ↔ x = nan := by
  cases x <;> simp [is_nan, CDouble.eq, eq]

theorem is_nan_false (x : XR) : is_nan x = false ↔ x ≠ nan := by
  rw [← Bool.not_eq_true, is_nan_iff]

theorem lit_def (q : ℚ) : (lit q : XR) = fin (q : ℝ) := rfl

theorem val_neg (x : XR) : val (neg x) = -val x := by
  cases x <;> simp [neg, val]

theorem sub_pos (x y : XR) : lt (fin 0) (sub x y) = lt y x := by
  cases x <;> cases y <;> try (simp [sub, add, neg, lt, val]; done)
  next a b =>
    simp only [sub, add, neg, lt, val, EReal.coe_lt_coe_iff]
    simp only [ne_eq, reduceCtorEq, not_false_eq_true, true_and, decide_eq_decide]
    rw [EReal.coe_lt_coe_iff, EReal.coe_lt_coe_iff]
    constructor <;> intro h <;> linarith

noncomputable instance : CDoubleLaws XR where
  val := val
  lt_iff x y := by rw [is_nan_false, is_nan_false]; simp [CDouble.lt, lt]
  le_iff x y := by rw [is_nan_false, is_nan_false]; simp [CDouble.le, le]
  eq_iff x y := by rw [is_nan_false, is_nan_false]; simp [CDouble.eq, eq]
  nan_cNAN := by rw [is_nan_iff]; simp [cNAN, lit, CDouble.div, div, infSign]
  nan_lit q := (is_nan_false _).mpr (by simp [lit])
  val_zero := by simp [lit, val]
  sub_pos x y := by
    have := sub_pos x y
    simpa [lit, CDouble.lt, CDouble.sub] using this
  one_mul x := by
    cases x <;> simp [lit, CDouble.mul, mul, infSign]
  neg_one_mul x := by
    cases x <;> simp [lit, CDouble.mul, CDouble.neg, mul, neg, infSign]
  nan_neg x := by
    rw [Bool.eq_iff_iff, is_nan_iff, is_nan_iff]
    cases x <;> simp [CDouble.neg, neg]
  val_neg := val_neg
  nan_sub_left x y h := by rw [is_nan_iff] at *; subst h; cases y <;> rfl
  nan_sub_right x y h := by rw [is_nan_iff] at *; subst h; cases x <;> rfl
  nan_mul_left x y h := by rw [is_nan_iff] at *; subst h; cases y <;> rfl
  nan_mul_right x y h := by rw [is_nan_iff] at *; subst h; cases x <;> rfl
  nan_add_left x y h := by rw [is_nan_iff] at *; subst h; cases y <;> rfl
  nan_add_right x y h := by rw [is_nan_iff] at *; subst h; cases x <;> rfl
  nan_div_left x y h := by rw [is_nan_iff] at *; subst h; cases y <;> rfl
  nan_div_right x y h := by rw [is_nan_iff] at *; subst h; cases x <;> rfl
  trunc_zero := by simp [lit, CDouble.trunc, trunc]
  trunc_one := by simp [lit, CDouble.trunc, trunc]
  trunc_neg_one := by
    have : ¬ (0:ℝ) ≤ -1 := by norm_num
    simp [lit, CDouble.trunc, trunc, this]

end XR

/-! ### consequences -/

section
variable {α : Type} [CDouble α] [L : CDoubleLaws α]

theorem nan_lt_left {x y : α} (h : is_nan x = true) : (x <. y) = false := by
  rw [← Bool.not_eq_true, L.lt_iff]; simp [h]
theorem nan_lt_right {x y : α} (h : is_nan y = true) : (x <. y) = false := by
  rw [← Bool.not_eq_true, L.lt_iff]; simp [h]
theorem nan_le_left {x y : α} (h : is_nan x = true) : (x <=. y) = false := by
  rw [← Bool.not_eq_true, L.le_iff]; simp [h]
theorem nan_le_right {x y : α} (h : is_nan y = true) : (x <=. y) = false := by
  rw [← Bool.not_eq_true, L.le_iff]; simp [h]

theorem not_lt_iff_le {x y : α} (hx : is_nan x = false) (hy : is_nan y = false) :
    (x <. y) = false ↔ (y <=. x) = true := by
  rw [← Bool.not_eq_true, L.lt_iff, L.le_iff]; simp [hx, hy]

theorem le_of_not_lt {x y : α} (hx : is_nan x = false) (hy : is_nan y = false) (h : (x <. y) = false) :
    (y <=. x) = true := (not_lt_iff_le hx hy).mp h

theorem le_trans' {x y z : α} (h1 : (x <=. y) = true) (h2 : (y <=. z) = true) : (x <=. z) = true := by
  rw [L.le_iff] at *; exact ⟨h1.1, h2.2.1, h1.2.2.trans h2.2.2⟩

theorem le_of_lt' {x y : α} (h : (x <. y) = true) : (x <=. y) = true := by
  rw [L.lt_iff] at h; rw [L.le_iff]; exact ⟨h.1, h.2.1, h.2.2.le⟩

theorem le_refl' {x : α} (h : is_nan x = false) : (x <=. x) = true := by
  rw [L.le_iff]; exact ⟨h, h, le_rfl⟩

end
end Verif

/-
Exact arithmetic: multiplication of all data by a positive real number, and moving all data by a real number.
-/
import Verif.XR.Math
import Mathlib.Tactic.Positivity

namespace Verif

/-- multiplication by a positive real number -/
noncomputable def XR.scale (a : ℝ) (x : XR) : XR := .fin a *. x

variable {a : ℝ}

theorem XR.scale_cases (ha : 0 < a) : XR.scale a .nan = .nan ∧ XR.scale a .pinf = .pinf ∧ XR.scale a .ninf = .ninf ∧
    ∀ r, XR.scale a (.fin r) = .fin (a * r) := by
  refine ⟨rfl, ?_, ?_, fun r => rfl⟩
  · show XR.infSign a = _
    unfold XR.infSign; rw [if_neg ha.ne', if_pos ha]
  · show XR.infSign (-a) = _
    unfold XR.infSign; rw [if_neg (by linarith), if_neg (by linarith)]

theorem XR.scale_add (ha : 0 < a) (x y : XR) : XR.scale a x +. XR.scale a y = XR.scale a (x +. y) := by
  obtain ⟨h1, h2, h3, h4⟩ := XR.scale_cases ha
  show XR.add _ _ = XR.scale a (XR.add x y)
  cases x <;> cases y <;> simp only [h1, h2, h3, h4, XR.add]
  ring_nf

theorem XR.scale_neg (ha : 0 < a) (x : XR) : (-. XR.scale a x) = XR.scale a (-. x) := by
  obtain ⟨h1, h2, h3, h4⟩ := XR.scale_cases ha
  show XR.neg _ = XR.scale a (XR.neg x)
  cases x <;> simp only [h1, h2, h3, h4, XR.neg]
  ring_nf

theorem XR.scale_sub (ha : 0 < a) (x y : XR) : XR.scale a x -. XR.scale a y = XR.scale a (x -. y) := by
  show XR.add _ (XR.neg _) = XR.scale a (XR.add x (XR.neg y))
  rw [show XR.neg (XR.scale a y) = XR.scale a (XR.neg y) from XR.scale_neg ha y]
  exact XR.scale_add ha x _

theorem XR.infSign_scale (ha : 0 < a) (r : ℝ) : XR.infSign (a * r) = XR.infSign r := by
  unfold XR.infSign
  by_cases h0 : r = 0
  · rw [if_pos h0, if_pos (by rw [h0, mul_zero])]
  · rw [if_neg h0, if_neg (by positivity)]
    by_cases h1 : 0 < r
    · rw [if_pos h1, if_pos (by positivity)]
    · rw [if_neg h1, if_neg (by have := mul_nonpos_of_nonneg_of_nonpos ha.le (not_lt.mp h1); linarith)]

theorem XR.scale_infSign (ha : 0 < a) (r : ℝ) : XR.scale a (XR.infSign r) = XR.infSign r := by
  obtain ⟨h1, h2, h3, h4⟩ := XR.scale_cases ha
  unfold XR.infSign
  split
  · exact h1
  split
  · exact h2
  · exact h3

theorem XR.mul_scale (ha : 0 < a) (u x : XR) : u *. XR.scale a x = XR.scale a (u *. x) := by
  obtain ⟨h1, h2, h3, h4⟩ := XR.scale_cases ha
  show XR.mul _ _ = XR.scale a (XR.mul u x)
  cases u <;> cases x <;> simp only [h1, h2, h3, h4, XR.mul, XR.scale_infSign ha, ← mul_neg, XR.infSign_scale ha]
  ring_nf

theorem XR.scale_mul (ha : 0 < a) (u x : XR) : XR.scale a u *. x = XR.scale a (u *. x) := by
  obtain ⟨h1, h2, h3, h4⟩ := XR.scale_cases ha
  show XR.mul _ _ = XR.scale a (XR.mul u x)
  cases u <;> cases x <;> simp only [h1, h2, h3, h4, XR.mul, XR.scale_infSign ha, ← mul_neg, XR.infSign_scale ha]
  ring_nf

theorem XR.scale_div (ha : 0 < a) (u x : XR) : XR.scale a u /. x = XR.scale a (u /. x) := by
  obtain ⟨h1, h2, h3, h4⟩ := XR.scale_cases ha
  show XR.div _ _ = XR.scale a (XR.div u x)
  cases u <;> cases x <;> simp only [h1, h2, h3, h4, XR.div, mul_zero]
  · split <;> simp only [h2, h3]
  · split <;> simp only [h2, h3]
  · split
    · rw [XR.infSign_scale ha, XR.scale_infSign ha]
    · rw [h4]; ring_nf

theorem XR.scale_div_scale (ha : 0 < a) (u x : XR) : XR.scale a u /. XR.scale a x = u /. x := by
  obtain ⟨h1, h2, h3, h4⟩ := XR.scale_cases ha
  show XR.div _ _ = XR.div u x
  cases u <;> cases x <;> simp only [h1, h2, h3, h4, XR.div]
  · simp only [mul_nonneg_iff_of_pos_left ha]
  · simp only [mul_nonneg_iff_of_pos_left ha]
  · rename_i r t
    by_cases ht : t = 0
    · rw [if_pos ht, if_pos (by rw [ht, mul_zero]), XR.infSign_scale ha]
    · rw [if_neg ht, if_neg (by positivity), mul_div_mul_left _ _ ha.ne']

/-- `d * (g / s)` with `d` and `s` scaled -/
theorem XR.scale_ratio (ha : 0 < a) (d g s : XR) : XR.scale a d *. (g /. XR.scale a s) = d *. (g /. s) := by
  obtain ⟨h1, h2, h3, h4⟩ := XR.scale_cases ha
  have : g /. XR.scale a s = XR.scale a⁻¹ (g /. s) := by
    have e : g = XR.scale a (XR.scale a⁻¹ g) := by
      obtain ⟨k1, k2, k3, k4⟩ := XR.scale_cases (inv_pos.mpr ha)
      cases g <;> simp only [h1, h2, h3, h4, k1, k2, k3, k4]
      rw [← mul_assoc, mul_inv_cancel₀ ha.ne', one_mul]
    conv_lhs => rw [e]
    rw [XR.scale_div_scale ha, XR.scale_div (inv_pos.mpr ha)]
  rw [this, XR.mul_scale (inv_pos.mpr ha), XR.scale_mul ha]
  generalize d *. (g /. s) = t
  obtain ⟨k1, k2, k3, k4⟩ := XR.scale_cases (inv_pos.mpr ha)
  cases t <;> simp only [h1, h2, h3, h4, k1, k2, k3, k4]
  rw [← mul_assoc, inv_mul_cancel₀ ha.ne', one_mul]

theorem XR.scale_nan (ha : 0 < a) (x : XR) : is_nan (XR.scale a x) = is_nan x := by
  obtain ⟨h1, h2, h3, h4⟩ := XR.scale_cases ha
  cases x <;> simp only [h1, h2, h3, h4]
  rw [XR.nan_f, XR.nan_f]

theorem XR.scale_val_pos (ha : 0 < a) (x : XR) : (lit 0 <. XR.scale a x) = (lit 0 <. x) := by
  obtain ⟨h1, h2, h3, h4⟩ := XR.scale_cases ha
  cases x <;> simp only [h1, h2, h3, h4]
  rw [XR.lit_fin, XR.lt_ff, XR.lt_ff]
  simp [mul_pos_iff_of_pos_left ha]

theorem XR.scale_val_nonneg (ha : 0 < a) (x : XR) : (lit 0 <=. XR.scale a x) = (lit 0 <=. x) := by
  obtain ⟨h1, h2, h3, h4⟩ := XR.scale_cases ha
  cases x <;> simp only [h1, h2, h3, h4]
  rw [XR.lit_fin, XR.le_ff, XR.le_ff]
  simp [mul_nonneg_iff_of_pos_left ha]

theorem XR.scale_mul_scale (ha : 0 < a) (x y : XR) : XR.scale a x *. XR.scale a y = XR.scale (a * a) (x *. y) := by
  rw [XR.scale_mul ha, XR.mul_scale ha]
  generalize x *. y = t
  obtain ⟨h1, h2, h3, h4⟩ := XR.scale_cases ha
  obtain ⟨k1, k2, k3, k4⟩ := XR.scale_cases (mul_pos ha ha)
  cases t <;> simp only [h1, h2, h3, h4, k1, k2, k3, k4, mul_assoc]

theorem XR.shift_lt (x y : XR) (c : ℝ) : (x +. .fin c <. y +. .fin c) = (x <. y) := by
  show XR.lt (XR.add x (.fin c)) (XR.add y (.fin c)) = XR.lt x y
  cases x <;> cases y <;> simp [XR.lt, XR.add, XR.val]
  · exact_mod_cast EReal.coe_lt_top _
  · norm_cast
    simp

/-- the logarithm of a scaled number -/
theorem XR.log_scale (ha : 0 < a) (x : XR) : XR.exactMath.log (XR.scale a x) = XR.exactMath.log x +. .fin (Real.log a) := by
  obtain ⟨h1, h2, h3, h4⟩ := XR.scale_cases ha
  show XR.logE _ = XR.add (XR.logE x) _
  cases x with
  | nan => rw [h1]; rfl
  | pinf => rw [h2]; rfl
  | ninf => rw [h3]; rfl
  | fin r =>
    rw [h4]
    unfold XR.logE
    dsimp only
    rcases lt_trichotomy r 0 with h | h | h
    · rw [if_pos (mul_neg_of_pos_of_neg ha h), if_pos h]; rfl
    · rw [h, mul_zero, if_neg (lt_irrefl _), if_pos rfl]; rfl
    · have := mul_pos ha h
      rw [if_neg this.not_gt, if_neg this.ne', if_neg h.not_gt, if_neg h.ne', Real.log_mul ha.ne' h.ne']
      show _ = XR.fin _
      rw [add_comm]

theorem XR.shift_sub (x y : XR) (c : ℝ) : (x +. .fin c) -. (y +. .fin c) = x -. y := by
  show XR.add (XR.add x (.fin c)) (XR.neg (XR.add y (.fin c))) = XR.add x (XR.neg y)
  cases x <;> cases y <;> simp [XR.add, XR.neg]

theorem XR.shift_add (x y : XR) (c : ℝ) : (x +. .fin c) +. y = (x +. y) +. .fin c := by
  show XR.add (XR.add x (.fin c)) y = XR.add (XR.add x y) (.fin c)
  cases x <;> cases y <;> simp [XR.add]
  ring

theorem XR.shift_nan (x : XR) (c : ℝ) : is_nan (x +. .fin c) = is_nan x := by
  show is_nan (XR.add x (.fin c)) = _
  cases x
  · rfl
  · rfl
  · rfl
  · show is_nan (XR.fin _) = _
    rw [XR.nan_f, XR.nan_f]

end Verif

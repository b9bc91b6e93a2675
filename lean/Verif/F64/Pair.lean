/-
Ordered pairs of doubles in an interval whose bounds are multiples of 1/16: rounding being monotone, the relation goes through
the arithmetic operations.
-/
import Verif.F64.Error

namespace Verif.F64

/-- `x ≤ y`, both finite and between `i/16` and `j/16` -/
structure Bet (i j : ℤ) (x y : F64) : Prop where
  fx : isFin x
  fy : isFin y
  lo : (i : ℚ) / 16 ≤ toQ x
  le : toQ x ≤ toQ y
  hi : toQ y ≤ (j : ℚ) / 16

theorem rep_16 {i : ℤ} (h : |i| ≤ 2 ^ 53) : Rep ((i : ℚ) / 16) := by
  refine ⟨i.natAbs, -4, by rw [Int.abs_eq_natAbs] at h; omega, by norm_num, ?_⟩
  rw [abs_div, Nat.cast_natAbs, Int.cast_abs]
  have : pow2 (-4) = 1 / 16 := by decide +kernel
  rw [this, abs_of_pos (by norm_num : (0 : ℚ) < 16)]; ring

theorem le_big {q : ℚ} {i : ℤ} (hi : |i| ≤ 2 ^ 53) (h : |q| ≤ |(i : ℚ)|) : |q| ≤ pow2 1023 := h.trans (abs_int_le hi)

theorem abs_of_16 {i j : ℤ} {q : ℚ} (hi : |i| ≤ 2 ^ 50) (hj : |j| ≤ 2 ^ 50) (h1 : (i : ℚ) / 16 ≤ q) (h2 : q ≤ (j : ℚ) / 16) :
    |q| ≤ pow2 1023 := by
  have hi' := abs_le.mp hi
  have hj' := abs_le.mp hj
  have a1 : (-(2 ^ 50) : ℚ) ≤ i := by exact_mod_cast hi'.1
  have a2 : (j : ℚ) ≤ 2 ^ 50 := by exact_mod_cast hj'.2
  refine le_big (i := 2 ^ 53) (by norm_num) ?_
  rw [abs_le]
  push_cast
  rw [abs_of_pos (by norm_num : (0 : ℚ) < 9007199254740992)]
  norm_num at a1 a2
  constructor <;> linarith

/-- rounding an ordered pair of rationals -/
theorem Bet.round {i j : ℤ} {r r' : F64} {q q' : ℚ} (hi : |i| ≤ 2 ^ 50) (hj : |j| ≤ 2 ^ 50)
    (h1 : (i : ℚ) / 16 ≤ q) (h2 : q ≤ q') (h3 : q' ≤ (j : ℚ) / 16)
    (hr : |q| ≤ pow2 1023 → isFin r ∧ toQ r = rq q) (hr' : |q'| ≤ pow2 1023 → isFin r' ∧ toQ r' = rq q') : Bet i j r r' := by
  obtain ⟨f, e⟩ := hr (abs_of_16 hi hj h1 (h2.trans h3))
  obtain ⟨f', e'⟩ := hr' (abs_of_16 hi hj (h1.trans h2) h3)
  have ri := rq_rep (rep_16 (i := i) (hi.trans (by norm_num)))
  have rj := rq_rep (rep_16 (i := j) (hj.trans (by norm_num)))
  refine ⟨f, f', ?_, ?_, ?_⟩
  · rw [e, ← ri]; exact rq_mono h1
  · rw [e, e']; exact rq_mono h2
  · rw [e', ← rj]; exact rq_mono h3

theorem Bet.add {i j k l : ℤ} {x y u v : F64} (h : Bet i j x y) (g : Bet k l u v) (hi : |i + k| ≤ 2 ^ 50) (hj : |j + l| ≤ 2 ^ 50) :
    Bet (i + k) (j + l) (x +. u) (y +. v) := by
  refine Bet.round (q := toQ x + toQ u) (q' := toQ y + toQ v) hi hj ?_ (add_le_add h.le g.le) ?_ (add_fin' h.fx g.fx) (add_fin' h.fy g.fy)
  · push_cast; have := h.lo; have := g.lo; linarith
  · push_cast; have := h.hi; have := g.hi; linarith

theorem Bet.sub {i j k l : ℤ} {x y u v : F64} (h : Bet i j x y) (g : Bet k l u v) (hi : |i - l| ≤ 2 ^ 50) (hj : |j - k| ≤ 2 ^ 50) :
    Bet (i - l) (j - k) (x -. v) (y -. u) := by
  refine Bet.round (q := toQ x - toQ v) (q' := toQ y - toQ u) hi hj ?_ (sub_le_sub h.le g.le) ?_ (sub_fin' h.fx g.fy) (sub_fin' h.fy g.fx)
  · push_cast; have := h.lo; have := g.hi; linarith
  · push_cast; have := h.hi; have := g.lo; linarith

/-- an integer constant -/
theorem Bet.const {i : ℤ} (h : |i| ≤ 2 ^ 53) : Bet (16 * i) (16 * i) (lit (i : ℚ)) (lit (i : ℚ)) := by
  obtain ⟨h1, h2⟩ := lit_int h
  refine ⟨h1, h1, ?_, le_rfl, ?_⟩ <;> · rw [h2]; push_cast; linarith

/-- negative multiple of a pair in decreasing order -/
theorem Bet.mulNeg {c j : ℤ} {x y : F64} (hc : 0 ≤ c) (hc' : c ≤ 2 ^ 53) (hj : c * j ≤ 2 ^ 50) (h : Bet 0 j x y) :
    Bet (-(c * j)) 0 (lit ((-c : ℤ) : ℚ) *. y) (lit ((-c : ℤ) : ℚ) *. x) := by
  have hlo := h.lo
  have hhi := h.hi
  simp only [Int.cast_zero, zero_div] at hlo
  have h0j : (0 : ℚ) ≤ j := by have := h.le; linarith
  have h0j' : 0 ≤ j := by exact_mod_cast h0j
  have hcq : (0 : ℚ) ≤ c := by exact_mod_cast hc
  obtain ⟨l1, l2⟩ := lit_int (i := -c) (by rw [abs_neg, abs_of_nonneg hc]; exact hc')
  refine Bet.round (q := toQ (lit ((-c : ℤ) : ℚ) : F64) * toQ y) (q' := toQ (lit ((-c : ℤ) : ℚ) : F64) * toQ x) ?_ (by norm_num) ?_ ?_ ?_
    (mul_fin' l1 h.fy) (mul_fin' l1 h.fx)
  · rw [abs_neg, abs_of_nonneg (mul_nonneg hc h0j')]; exact hj
  · rw [l2]; push_cast
    have := mul_le_mul_of_nonneg_left hhi hcq
    linarith [this, (by ring : (c : ℚ) * (j / 16) = c * j / 16)]
  · rw [l2]; push_cast
    have := mul_le_mul_of_nonneg_left h.le hcq
    linarith
  · rw [l2]; push_cast
    have := mul_nonneg hcq hlo
    simp only [zero_div]
    linarith

/-- quotient of a non-positive pair by a positive pair -/
theorem Bet.divNeg {n l h m : ℤ} {x y u v : F64} (N : Bet (-n) 0 x y) (D : Bet l h u v) (hl : 0 < l) (hm : |m| ≤ 2 ^ 50)
    (hnm : 16 * n ≤ m * l) : Bet (-m) 0 (x /. u) (y /. v) := by
  have n1 := N.lo
  have n2 := N.hi
  have d1 := D.lo
  simp only [Int.cast_zero, zero_div] at n2
  have hlq : (0 : ℚ) < l := by exact_mod_cast hl
  have hu : 0 < toQ u := by linarith [div_pos hlq (by norm_num : (0 : ℚ) < 16)]
  have hv : 0 < toQ v := lt_of_lt_of_le hu D.le
  refine Bet.round (q := toQ x / toQ u) (q' := toQ y / toQ v) (by rw [abs_neg]; exact hm) (by norm_num) ?_ ?_ ?_
    (div_fin' N.fx D.fx hu.ne') (div_fin' N.fy D.fy hv.ne')
  · rw [le_div_iff₀ hu]
    push_cast at n1 ⊢
    have hmq : (16 : ℚ) * n ≤ m * l := by exact_mod_cast hnm
    have h0 : (0 : ℚ) ≤ n := by have := N.le; linarith
    have hm0 : (0 : ℚ) ≤ m := by
      by_contra hc
      push Not at hc
      have := mul_neg_of_neg_of_pos hc hlq
      linarith
    have := mul_le_mul_of_nonneg_left d1 hm0
    have e1 : (m : ℚ) * (l / 16) = m * l / 16 := by ring
    have e2 : -(m : ℚ) / 16 * toQ u = -(m * toQ u) / 16 := by ring
    rw [e2]
    rw [e1] at this
    linarith
  · rw [div_le_div_iff₀ hu hv]
    have h1 := mul_le_mul_of_nonneg_right N.le hv.le
    have hy : toQ y ≤ 0 := n2
    have h2 : toQ y * toQ v ≤ toQ y * toQ u := mul_le_mul_of_nonpos_left D.le hy
    linarith
  · simp only [Int.cast_zero, zero_div]
    exact div_nonpos_of_nonpos_of_nonneg n2 hv.le

/-- square of a non-positive pair -/
theorem Bet.sqNeg {a j : ℤ} {x y : F64} (h : Bet (-a) 0 x y) (ha : 0 ≤ a) (hj : |j| ≤ 2 ^ 50) (haj : a * a ≤ 16 * j) :
    Bet 0 j (y *. y) (x *. x) := by
  have h1 := h.lo
  have h2 := h.hi
  have h3 := h.le
  simp only [Int.cast_zero, zero_div] at h2
  push_cast at h1
  have haq : (0 : ℚ) ≤ a := by exact_mod_cast ha
  have hq : (a : ℚ) * a ≤ 16 * j := by exact_mod_cast haj
  refine Bet.round (q := toQ y * toQ y) (q' := toQ x * toQ x) (by norm_num) hj ?_ ?_ ?_ (mul_fin' h.fy h.fy) (mul_fin' h.fx h.fx)
  · simp only [Int.cast_zero, zero_div]; exact mul_self_nonneg _
  · nlinarith
  · have : -toQ x ≤ a / 16 := by linarith
    have h0 : 0 ≤ -toQ x := by linarith
    have := mul_self_le_mul_self h0 this
    have e : (a : ℚ) / 16 * (a / 16) = a * a / 256 := by ring
    rw [e] at this
    linarith [neg_mul_neg (toQ x) (toQ x)]

end Verif.F64

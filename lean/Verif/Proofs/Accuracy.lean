/-
Rounding errors of the tail quantile and of the tail probability.
-/
import Verif.Props.Side

namespace Verif
open F64

/-! ### One rounding, in the real numbers -/

/-- absolute error of a rounding to a subnormal number -/
noncomputable def tiny : ℝ := 1 / 10 ^ 250

theorem tiny_pos : 0 < tiny := by unfold tiny; positivity

theorem acc_small : pow2 (-1075) ≤ 1 / 10 ^ 250 := by decide +kernel
theorem acc_big : (10 : ℚ) ^ 250 ≤ pow2 1023 := by decide +kernel

theorem acc_round (q : ℚ) : |((rq q : ℚ) : ℝ) - q| ≤ ru * |(q : ℝ)| + tiny := by
  have h1 := rq_err q
  rw [pow2_m53] at h1
  have h2 : ((|rq q - q| : ℚ) : ℝ) ≤ ((1 / 9007199254740992 * |q| + 1 / 10 ^ 250 : ℚ) : ℝ) :=
    Rat.cast_le.mpr (h1.trans (add_le_add_right acc_small _))
  push_cast at h2
  refine h2.trans ?_
  unfold tiny
  refine add_le_add_left (mul_le_mul_of_nonneg_right ?_ (abs_nonneg _)) _
  unfold ru; norm_num

theorem acc_fits {q : ℚ} (h : |(q : ℝ)| ≤ 10 ^ 250) : |q| ≤ pow2 1023 := by
  have h1 : ((|q| : ℚ) : ℝ) ≤ ((10 ^ 250 : ℚ) : ℝ) := by rw [Rat.cast_abs, Rat.cast_pow]; exact_mod_cast h
  have h2 : |q| ≤ (10 : ℚ) ^ 250 := Rat.cast_le.mp h1
  have h3 := acc_big
  generalize pow2 1023 = B at h3 ⊢
  exact le_trans h2 h3

theorem acc_mul {x y : F64} (hx : isFin x) (hy : isFin y) (h : |toR x * toR y| ≤ 10 ^ 250) :
    isFin (x *. y) ∧ |toR (x *. y) - toR x * toR y| ≤ ru * |toR x * toR y| + tiny := by
  have e : ((toQ x * toQ y : ℚ) : ℝ) = toR x * toR y := by unfold toR; push_cast; rfl
  obtain ⟨f1, f2⟩ := mul_fin' hx hy (acc_fits (by rw [e]; exact h))
  refine ⟨f1, ?_⟩
  have := acc_round (toQ x * toQ y)
  rw [e] at this
  show |((toQ (F64.mul x y) : ℚ) : ℝ) - _| ≤ _
  rw [f2]; exact this

theorem acc_div {x y : F64} (hx : isFin x) (hy : isFin y) (h0 : toR y ≠ 0) (h : |toR x / toR y| ≤ 10 ^ 250) :
    isFin (x /. y) ∧ |toR (x /. y) - toR x / toR y| ≤ ru * |toR x / toR y| + tiny := by
  have e : ((toQ x / toQ y : ℚ) : ℝ) = toR x / toR y := by unfold toR; push_cast; rfl
  have h0' : toQ y ≠ 0 := by intro h; apply h0; unfold toR; rw [h]; norm_num
  obtain ⟨f1, f2⟩ := div_fin' hx hy h0' (acc_fits (by rw [e]; exact h))
  refine ⟨f1, ?_⟩
  have := acc_round (toQ x / toQ y)
  rw [e] at this
  show |((toQ (F64.div x y) : ℚ) : ℝ) - _| ≤ _
  rw [f2]; exact this

theorem acc_add {x y : F64} (hx : isFin x) (hy : isFin y) (h : |toR x + toR y| ≤ 10 ^ 250) :
    isFin (x +. y) ∧ |toR (x +. y) - (toR x + toR y)| ≤ ru * |toR x + toR y| + tiny := by
  have e : ((toQ x + toQ y : ℚ) : ℝ) = toR x + toR y := by unfold toR; push_cast; rfl
  obtain ⟨f1, f2⟩ := add_fin' hx hy (acc_fits (by rw [e]; exact h))
  refine ⟨f1, ?_⟩
  have := acc_round (toQ x + toQ y)
  rw [e] at this
  show |((toQ (F64.add x y) : ℚ) : ℝ) - _| ≤ _
  rw [f2]; exact this

theorem acc_sub {x y : F64} (hx : isFin x) (hy : isFin y) (h : |toR x - toR y| ≤ 10 ^ 250) :
    isFin (x -. y) ∧ |toR (x -. y) - (toR x - toR y)| ≤ ru * |toR x - toR y| + tiny := by
  have e : ((toQ x - toQ y : ℚ) : ℝ) = toR x - toR y := by unfold toR; push_cast; rfl
  obtain ⟨f1, f2⟩ := sub_fin' hx hy (acc_fits (by rw [e]; exact h))
  refine ⟨f1, ?_⟩
  have := acc_round (toQ x - toQ y)
  rw [e] at this
  show |((toQ (F64.sub x y) : ℚ) : ℝ) - _| ≤ _
  rw [f2]; exact this

theorem toR_neg' (x : F64) : toR (-. x) = -toR x := by
  unfold toR; rw [show toQ (-. x) = - toQ x from toQ_neg x]; push_cast; rfl

/-! ### Perturbation of the logarithm and of the exponential -/

theorem log_pert {x y e : ℝ} (hy : 0 < y) (h : |x - y| ≤ e * y) (he : e ≤ 1 / 10) :
    0 < x ∧ |Real.log x - Real.log y| ≤ 6 / 5 * e := by
  obtain ⟨h1, h2⟩ := abs_le.mp h
  have e0 : 0 ≤ e := by
    have := (abs_nonneg _).trans h
    by_contra hn
    nlinarith [mul_pos_of_neg_of_neg (not_le.mp hn) (neg_neg_of_pos hy)]
  have hx : 0 < x := by nlinarith
  refine ⟨hx, ?_⟩
  rw [← Real.log_div hx.ne' hy.ne']
  have r1 : 1 - e ≤ x / y := by rw [le_div_iff₀ hy]; linarith
  have r2 : x / y ≤ 1 + e := by rw [div_le_iff₀ hy]; linarith
  have r0 : 0 < x / y := div_pos hx hy
  have l1 := Real.log_le_sub_one_of_pos r0
  have l2 := Real.one_sub_inv_le_log_of_pos r0
  have l3 : (x / y)⁻¹ ≤ 1 + 6 / 5 * e := by
    rw [inv_le_comm₀ r0 (by linarith)]
    refine le_trans ?_ r1
    rw [inv_le_iff_one_le_mul₀ (by linarith)]
    nlinarith
  rw [abs_le]
  constructor <;> linarith

theorem exp_pert {a b η : ℝ} (h : |a - b| ≤ η) (hη : η ≤ 1 / 10) : |Real.exp a - Real.exp b| ≤ 11 / 10 * η * Real.exp b := by
  have h1 : Real.exp a - Real.exp b = (Real.exp (a - b) - 1) * Real.exp b := by
    rw [sub_mul, ← Real.exp_add, _root_.one_mul, sub_add_cancel]
  rw [h1, abs_mul, abs_of_pos (Real.exp_pos b)]
  refine mul_le_mul_of_nonneg_right ?_ (Real.exp_pos b).le
  have h2 := Real.abs_exp_sub_one_sub_id_le (x := a - b) (h.trans (hη.trans (by norm_num)))
  have h3 : |Real.exp (a - b) - 1| ≤ |Real.exp (a - b) - 1 - (a - b)| + |a - b| := by
    have := abs_add_le (Real.exp (a - b) - 1 - (a - b)) (a - b)
    simpa using this
  have h4 : (a - b) ^ 2 ≤ 1 / 10 * |a - b| := by
    rw [← sq_abs, sq]
    exact mul_le_mul_of_nonneg_right (h.trans hη) (abs_nonneg _)
  linarith

/-! ### The computed logarithm of the computed quotient -/

namespace Spec

/-- relative accuracy of the logarithm around the argument `Q`: it is poor on [1/4, 1/2] (`C66_false`) -/
noncomputable def logErr (Q : ℝ) : ℝ := if 2499 / 10000 ≤ Q ∧ Q ≤ 5001 / 10000 then 11 / 10 ^ 10 else 3 / 10 ^ 15

end Spec

theorem logErr_bounds (Q : ℝ) : 3 / 10 ^ 15 ≤ Spec.logErr Q ∧ Spec.logErr Q ≤ 11 / 10 ^ 10 := by
  unfold Spec.logErr; split_ifs <;> constructor <;> norm_num

/-- the computed logarithm of a double close to `Q` -/
theorem acc_xlog {r : F64} (hr : isFin r) {Q e : ℝ} (hQ : 0 < Q) (h : |toR r - Q| ≤ e * Q) (he : e ≤ 1 / 10 ^ 8) :
    isFin (xlog muslFU r) ∧ |toR (xlog muslFU r) - Real.log Q| ≤ Spec.logErr Q * |Real.log Q| + (2 / 10 ^ 15 + 13 / 10 * e) := by
  obtain ⟨k1, k2⟩ := logErr_bounds Q
  obtain ⟨x0, hl⟩ := log_pert hQ h (he.trans (by norm_num))
  have r0 : 0 < toQ r := by unfold toR at x0; exact_mod_cast x0
  obtain ⟨f, g1, g2, g3⟩ := C66_partial r hr r0
  refine ⟨f, ?_⟩
  have hL : |Real.log (toR r)| ≤ |Real.log Q| + 6 / 5 * e := by
    have := abs_add_le (Real.log (toR r) - Real.log Q) (Real.log Q)
    rw [sub_add_cancel] at this
    linarith
  have e0 : 0 ≤ e := by linarith [abs_nonneg (Real.log (toR r) - Real.log Q)]
  have key : |toR (xlog muslFU r) - Real.log (toR r)| ≤ Spec.logErr Q * |Real.log (toR r)| + 2 / 10 ^ 15 := by
    have a0 := abs_nonneg (Real.log (toR r))
    by_cases c3 : 1 ≤ toR r ∧ toR r < 2
    · have := g3 c3.1 c3.2
      have : 0 ≤ Spec.logErr Q * |Real.log (toR r)| := mul_nonneg (by linarith) a0
      linarith
    by_cases c2 : 1 / 4 ≤ toR r ∧ toR r < 1 / 2
    · have h1 := g2 c2.1 c2.2
      have : Spec.logErr Q = 11 / 10 ^ 10 := by
        unfold Spec.logErr
        rw [if_pos]
        obtain ⟨b1, b2⟩ := abs_le.mp h
        have : e * Q ≤ 1 / 10 ^ 8 * Q := mul_le_mul_of_nonneg_right he hQ.le
        constructor <;> linarith
      rw [this]; linarith
    · have h1 := g1 (by
        by_contra hn
        push Not at hn
        obtain ⟨n1, n2, n3⟩ := hn
        by_cases c : toR r < 1 / 2
        · exact c2 ⟨n1, c⟩
        · exact c3 ⟨n2 (not_lt.mp c), n3⟩)
      have : 3 / 10 ^ 15 * |Real.log (toR r)| ≤ Spec.logErr Q * |Real.log (toR r)| := mul_le_mul_of_nonneg_right k1 a0
      linarith
  have t := abs_add_le (toR (xlog muslFU r) - Real.log (toR r)) (Real.log (toR r) - Real.log Q)
  rw [sub_add_sub_cancel] at t
  have m1 : Spec.logErr Q * |Real.log (toR r)| ≤ Spec.logErr Q * |Real.log Q| + Spec.logErr Q * (6 / 5 * e) := by
    rw [← mul_add]; exact mul_le_mul_of_nonneg_left hL (by linarith)
  have m2 : Spec.logErr Q * (6 / 5 * e) ≤ 11 / 10 ^ 10 * (6 / 5 * e) := mul_le_mul_of_nonneg_right k2 (by linarith)
  linarith

/-- the quotient `q / (Nt / n)` is computed to a relative 3e-16 -/
theorem acc_ratio {N n : ℕ} (h0 : 0 < N) (h : N ≤ n) (hn : n ≤ 2 ^ 53) {q : F64} (hq : isFin q) (q0 : 1 / 10 ^ 100 ≤ toR q)
    (q1 : toR q ≤ 1) :
    isFin (q /. (lit (N : ℚ) /. lit (n : ℚ))) ∧
      |toR (q /. (lit (N : ℚ) /. lit (n : ℚ))) - toR q / ((N : ℝ) / n)| ≤ 3 / 10 ^ 16 * (toR q / ((N : ℝ) / n)) := by
  obtain ⟨S1, S2, S3, S4⟩ := proportion_pos h0 h hn
  have pN : (1 : ℝ) ≤ N := by exact_mod_cast h0
  have pn : (0 : ℝ) < n := by exact_mod_cast h0.trans_le h
  have hle : (N : ℝ) ≤ n := by exact_mod_cast h
  have hn' : (n : ℝ) ≤ 2 ^ 53 := by exact_mod_cast hn
  set P : ℝ := (N : ℝ) / n with hP
  have P0 : 1 / 10 ^ 16 ≤ P := by
    rw [hP, le_div_iff₀ pn]; linarith
  have P1 : P ≤ 1 := by rw [hP, div_le_one pn]; exact hle
  have hS : |toR (lit (N : ℚ) /. lit (n : ℚ)) - P| ≤ 112 / 10 ^ 18 * P := by
    have := acc_round ((N : ℚ) / n)
    rw [← S2] at this
    have e : (((N : ℚ) / n : ℚ) : ℝ) = P := by push_cast; rfl
    rw [e, abs_of_pos (by linarith : 0 < P)] at this
    refine this.trans ?_
    unfold tiny ru
    have : (1 : ℝ) / 10 ^ 250 ≤ 1 / 10 ^ 40 := by norm_num
    linarith
  obtain ⟨s1, s2⟩ := abs_le.mp hS
  set S : ℝ := toR (lit (N : ℚ) /. lit (n : ℚ) : F64) with hSd
  have S0 : 0 < S := by linarith
  have hdiv : |toR q / S| ≤ 10 ^ 250 := by
    rw [abs_of_pos (div_pos (by linarith) S0)]
    refine (div_le_of_le_mul₀ S0.le (c := 10 ^ 17) (by norm_num) (by linarith)).trans (by norm_num)
  obtain ⟨f, g⟩ := acc_div hq S1 S0.ne' hdiv
  refine ⟨f, ?_⟩
  rw [← hSd] at g
  have q0' : 0 < toR q := lt_of_lt_of_le (by norm_num) q0
  have D0 : 0 < toR q / P := div_pos q0' (by linarith)
  have D1 : 1 / 10 ^ 100 ≤ toR q / P := by
    rw [le_div_iff₀ (by linarith)]
    have : 1 / 10 ^ 100 * P ≤ 1 / 10 ^ 100 * 1 := mul_le_mul_of_nonneg_left P1 (by norm_num)
    linarith
  have r1 : |toR q / S - toR q / P| ≤ 113 / 10 ^ 18 * (toR q / P) := by
    have : toR q / S - toR q / P = (toR q / P) * ((P - S) / S) := by field_simp
    rw [this, abs_mul, abs_of_pos D0, mul_comm]
    refine mul_le_mul_of_nonneg_right ?_ D0.le
    rw [abs_div, abs_of_pos S0, div_le_iff₀ S0, abs_sub_comm]
    linarith
  rw [abs_of_pos (div_pos q0' S0)] at g
  have t := abs_add_le (toR (q /. (lit (N : ℚ) /. lit (n : ℚ))) - toR q / S) (toR q / S - toR q / P)
  rw [sub_add_sub_cancel] at t
  have t1 : tiny ≤ 1 / 10 ^ 40 * (toR q / P) := by
    unfold tiny
    have : (1 : ℝ) / 10 ^ 40 * (1 / 10 ^ 100) ≤ 1 / 10 ^ 40 * (toR q / P) := mul_le_mul_of_nonneg_left D1 (by norm_num)
    have : (1 : ℝ) / 10 ^ 250 ≤ 1 / 10 ^ 40 * (1 / 10 ^ 100) := by norm_num
    linarith
  obtain ⟨-, r2⟩ := abs_le.mp r1
  unfold ru at g
  linarith

/-! ### The computed power -/

theorem acc_pow_aux {x X l L κ δ e a : ℝ} (hx : |x - X| ≤ 12 / 10 ^ 17 * |X|) (hX0 : 1 / 10 ^ 30 ≤ |X|)
    (k1 : 3 / 10 ^ 15 ≤ κ) (e0 : 0 ≤ e)
    (hδ : δ = κ * |L| + (2 / 10 ^ 15 + 13 / 10 * e)) (hl : |l - L| ≤ δ) (ha : |a - x * l| ≤ ru * |x * l| + tiny) :
    |a - X * L| ≤ |X| * (11 / 10 * (κ * |L|) + 21 / 10 ^ 16 + 14 / 10 * e) := by
  have X0 := abs_nonneg X
  have L0 := abs_nonneg L
  have δ0 : 0 ≤ δ := (abs_nonneg _).trans hl
  have hxa : |x| ≤ (1 + 12 / 10 ^ 17) * |X| := by
    have := abs_add_le (x - X) X
    rw [sub_add_cancel] at this
    linarith
  have hla : |l| ≤ |L| + δ := by
    have := abs_add_le (l - L) L
    rw [sub_add_cancel] at this
    linarith
  have h1 : |x * l - X * L| ≤ (1 + 12 / 10 ^ 17) * |X| * δ + 12 / 10 ^ 17 * |X| * |L| := by
    rw [show x * l - X * L = x * (l - L) + (x - X) * L by ring]
    refine (abs_add_le _ _).trans (add_le_add ?_ ?_)
    · rw [abs_mul]; exact mul_le_mul hxa hl (abs_nonneg _) (by positivity)
    · rw [abs_mul]; exact mul_le_mul_of_nonneg_right hx L0
  have h2 : |x * l| ≤ (1 + 12 / 10 ^ 17) * |X| * (|L| + δ) := by
    rw [abs_mul]; exact mul_le_mul hxa hla (abs_nonneg _) (by positivity)
  have h3 := abs_add_le (a - x * l) (x * l - X * L)
  rw [sub_add_sub_cancel] at h3
  have h4 : tiny ≤ 1 / 10 ^ 20 * |X| := by
    have : (1 : ℝ) / 10 ^ 20 * (1 / 10 ^ 30) ≤ 1 / 10 ^ 20 * |X| := mul_le_mul_of_nonneg_left hX0 (by norm_num)
    have : tiny ≤ 1 / 10 ^ 20 * (1 / 10 ^ 30) := by unfold tiny; norm_num
    linarith
  have h5 : ru * |x * l| ≤ 112 / 10 ^ 18 * (|X| * (|L| + δ)) := by
    have : ru * |x * l| ≤ ru * ((1 + 12 / 10 ^ 17) * |X| * (|L| + δ)) := mul_le_mul_of_nonneg_left h2 (by unfold ru; norm_num)
    refine this.trans ?_
    have : 0 ≤ |X| * (|L| + δ) := by positivity
    unfold ru
    linarith
  have hXL : 0 ≤ |X| * |L| := mul_nonneg X0 L0
  have hκL : 3 / 10 ^ 15 * (|X| * |L|) ≤ κ * (|X| * |L|) := mul_le_mul_of_nonneg_right k1 hXL
  have hXδ : |X| * δ = κ * (|X| * |L|) + |X| * (2 / 10 ^ 15) + 13 / 10 * (|X| * e) := by rw [hδ]; ring
  have hXe : 0 ≤ |X| * e := mul_nonneg X0 e0
  have goal : |X| * (11 / 10 * (κ * |L|) + 21 / 10 ^ 16 + 14 / 10 * e) =
      11 / 10 * (κ * (|X| * |L|)) + 21 / 10 ^ 16 * |X| + 14 / 10 * (|X| * e) := by ring
  rw [goal]
  have e1 : (1 + 12 / 10 ^ 17) * |X| * δ = (1 + 12 / 10 ^ 17) * (|X| * δ) := by ring
  have e2 : |X| * (|L| + δ) = |X| * |L| + |X| * δ := by ring
  rw [e1] at h1
  rw [e2] at h5
  linarith

theorem acc_pow_aux2 {X L κ e η ε w E a : ℝ} (k1 : 3 / 10 ^ 15 ≤ κ) (e0 : 0 ≤ e)
    (hη : η = |X| * (11 / 10 * (κ * |L|) + 21 / 10 ^ 16 + 14 / 10 * e)) (hη1 : η ≤ 1 / 100) (w0 : 0 < w)
    (ha : |Real.exp a - w| ≤ 11 / 10 * η * w) (haa : |a| ≤ |X * L| + η) (hε : ε = 4 / 10 ^ 15 + 2 / 10 ^ 16 * |a|)
    (hE : |E - Real.exp a| ≤ ε * Real.exp a) :
    |E - w| ≤ w * (|X| * (13 / 10 * (κ * |L|) + 24 / 10 ^ 16 + 16 / 10 * e) + 5 / 10 ^ 15) := by
  have X0 := abs_nonneg X
  have L0 := abs_nonneg L
  have η0 : 0 ≤ η := by rw [hη]; positivity
  obtain ⟨b1, b2⟩ := abs_le.mp ha
  have hexp : Real.exp a ≤ 102 / 100 * w := by nlinarith
  have ε0 : 0 ≤ ε := by rw [hε]; positivity
  have h1 : |E - Real.exp a| ≤ 102 / 100 * ε * w := by
    have := mul_le_mul_of_nonneg_left hexp ε0
    linarith
  have h2 := abs_add_le (E - Real.exp a) (Real.exp a - w)
  rw [sub_add_sub_cancel] at h2
  have h3 : |E - w| ≤ (102 / 100 * ε + 11 / 10 * η) * w := by linarith
  refine h3.trans ?_
  rw [mul_comm]
  refine mul_le_mul_of_nonneg_left ?_ w0.le
  have hXL : 0 ≤ |X| * |L| := mul_nonneg X0 L0
  have hκL : 3 / 10 ^ 15 * (|X| * |L|) ≤ κ * (|X| * |L|) := mul_le_mul_of_nonneg_right k1 hXL
  have hXe : 0 ≤ |X| * e := mul_nonneg X0 e0
  have hη' : η = 11 / 10 * (κ * (|X| * |L|)) + 21 / 10 ^ 16 * |X| + 14 / 10 * (|X| * e) := by rw [hη]; ring
  rw [abs_mul] at haa
  have goal : |X| * (13 / 10 * (κ * |L|) + 24 / 10 ^ 16 + 16 / 10 * e) =
      13 / 10 * (κ * (|X| * |L|)) + 24 / 10 ^ 16 * |X| + 16 / 10 * (|X| * e) := by ring
  rw [goal]
  linarith

/-- `xpow` of a base close to `Q` and an exponent close to `X` -/
theorem acc_pow {r x : F64} (hr : isFin r) (hx : isFin x) {Q X e : ℝ} (hQ : 0 < Q) (h : |toR r - Q| ≤ e * Q) (he : e ≤ 1 / 10 ^ 8)
    (hX : |toR x - X| ≤ 12 / 10 ^ 17 * |X|) (hX0 : 1 / 10 ^ 30 ≤ |X|) (hX1 : |X| ≤ 2 ^ 20) (hXe : |X| * e ≤ 1 / 1000)
    (hXL : |X * Real.log Q| ≤ 100) :
    ∃ y, xpow (codeMath muslFU) r x = .ok y ∧ isFin y ∧
      |toR y - Real.exp (X * Real.log Q)| ≤ Real.exp (X * Real.log Q) *
        (|X| * (13 / 10 * (Spec.logErr Q * |Real.log Q|) + 24 / 10 ^ 16 + 16 / 10 * e) + 5 / 10 ^ 15) := by
  obtain ⟨k1, k2⟩ := logErr_bounds Q
  obtain ⟨f, g⟩ := acc_xlog hr hQ h he
  have e0 : 0 ≤ e := by
    by_contra hn
    have := (abs_nonneg _).trans h
    nlinarith [mul_pos_of_neg_of_neg (not_le.mp hn) (neg_neg_of_pos hQ)]
  set L := Real.log Q with hL
  set κ := Spec.logErr Q with hκ
  set l := toR (xlog muslFU r) with hl
  have X0 := abs_nonneg X
  have L0 := abs_nonneg L
  have hXL' : |X| * |L| ≤ 100 := by rw [← abs_mul]; exact hXL
  have hκXL : κ * (|X| * |L|) ≤ 11 / 10 ^ 10 * 100 := mul_le_mul k2 hXL' (by positivity) (by norm_num)
  have hη1 : |X| * (11 / 10 * (κ * |L|) + 21 / 10 ^ 16 + 14 / 10 * e) ≤ 1 / 100 := by
    have : |X| * (11 / 10 * (κ * |L|) + 21 / 10 ^ 16 + 14 / 10 * e) =
      11 / 10 * (κ * (|X| * |L|)) + 21 / 10 ^ 16 * |X| + 14 / 10 * (|X| * e) := by ring
    rw [this]
    linarith
  have hmul : |toR x * l| ≤ 10 ^ 250 := by
    have a1 : |toR x| ≤ 2 ^ 21 := by
      have := abs_add_le (toR x - X) X
      rw [sub_add_cancel] at this
      linarith
    have a2 : |l| ≤ 10 ^ 40 := by
      have := abs_add_le (l - L) L
      rw [sub_add_cancel] at this
      have b1 : |L| ≤ 100 * 10 ^ 30 := by
        have : 1 / 10 ^ 30 * |L| ≤ |X| * |L| := mul_le_mul_of_nonneg_right hX0 L0
        linarith
      have b2 : κ * |L| ≤ 1 * |L| := mul_le_mul_of_nonneg_right (by linarith) L0
      linarith
    rw [abs_mul]
    refine (mul_le_mul a1 a2 (abs_nonneg _) (by norm_num)).trans (by norm_num)
  obtain ⟨fa, ga⟩ := acc_mul hx f hmul
  have hbnd := acc_pow_aux hX hX0 k1 e0 rfl g ga
  set a := toR (x *. xlog muslFU r) with ha
  have haa : |a| ≤ |X * L| + |X| * (11 / 10 * (κ * |L|) + 21 / 10 ^ 16 + 14 / 10 * e) := by
    have := abs_add_le (a - X * L) (X * L)
    rw [sub_add_cancel] at this
    linarith
  have ha1 : |a| ≤ 101 := by linarith
  obtain ⟨c1, c2⟩ := abs_le.mp ha1
  obtain ⟨y, y1, y2, y3⟩ := C67_accuracy (x *. xlog muslFU r) fa (by rw [← ha]; linarith) (by rw [← ha]; linarith)
  refine ⟨y, y1, y2, ?_⟩
  exact acc_pow_aux2 k1 e0 rfl hη1 (Real.exp_pos _) (exp_pert hbnd (hη1.trans (by norm_num))) haa rfl y3

/-! ### The tail quantile -/

theorem acc_quant_aux {R ρ c E w m B V : ℝ} (hV : |V| = R) (hw : 1 / 10 ^ 44 ≤ w) (hR : 1 / 10 ^ 107 ≤ R) (B0 : 0 ≤ B)
    (hE : |E - w| ≤ w * B) (hc : |c - (E - 1)| ≤ ru * |E - 1| + tiny) (hρ : |ρ - V| ≤ ru * |V| + tiny)
    (hm : |m - ρ * c| ≤ ru * |ρ * c| + tiny) :
    |m - V * (w - 1)| ≤ (1 + 1 / 10 ^ 10) * (R * w * B) + 35 / 10 ^ 17 * |V * (w - 1)| + 1 / 10 ^ 20 * (R * w) := by
  have hR0 : 0 < R := lt_of_lt_of_le (by norm_num) hR
  have hw0 : 0 < w := lt_of_lt_of_le (by norm_num) hw
  have W := abs_nonneg (w - 1)
  have t0 := tiny_pos
  -- tiny quantities
  have tw : tiny ≤ 1 / 10 ^ 100 * w := by
    have : (1 : ℝ) / 10 ^ 100 * (1 / 10 ^ 44) ≤ 1 / 10 ^ 100 * w := mul_le_mul_of_nonneg_left hw (by norm_num)
    have : tiny ≤ 1 / 10 ^ 100 * (1 / 10 ^ 44) := by unfold tiny; norm_num
    linarith
  have tR : tiny ≤ 1 / 10 ^ 100 * R := by
    have : (1 : ℝ) / 10 ^ 100 * (1 / 10 ^ 107) ≤ 1 / 10 ^ 100 * R := mul_le_mul_of_nonneg_left hR (by norm_num)
    have : tiny ≤ 1 / 10 ^ 100 * (1 / 10 ^ 107) := by unfold tiny; norm_num
    linarith
  have tRw : tiny ≤ 1 / 10 ^ 50 * (R * w) := by
    have : (1 : ℝ) / 10 ^ 107 * (1 / 10 ^ 44) ≤ R * w := mul_le_mul hR hw (by norm_num) hR0.le
    have : tiny ≤ 1 / 10 ^ 50 * (1 / 10 ^ 107 * (1 / 10 ^ 44)) := by unfold tiny; norm_num
    linarith
  rw [hV] at hρ
  have hE1 : |E - 1| ≤ |w - 1| + w * B := by
    have := abs_add_le (E - w) (w - 1)
    rw [sub_add_sub_cancel] at this
    linarith
  have hru : ru ≤ 112 / 10 ^ 18 := by unfold ru; norm_num
  have hru0 : 0 ≤ ru := by unfold ru; norm_num
  have hc1 : |c - (w - 1)| ≤ (1 + 112 / 10 ^ 18) * (w * B) + 112 / 10 ^ 18 * |w - 1| + 1 / 10 ^ 100 * w := by
    have t := abs_add_le (c - (E - 1)) (E - w)
    rw [show c - (E - 1) + (E - w) = c - (w - 1) by ring] at t
    have : ru * |E - 1| ≤ 112 / 10 ^ 18 * (|w - 1| + w * B) := mul_le_mul hru hE1 (abs_nonneg _) (by norm_num)
    linarith
  have hρ1 : |ρ - V| ≤ 113 / 10 ^ 18 * R := by
    have : ru * R ≤ 112 / 10 ^ 18 * R := mul_le_mul_of_nonneg_right hru hR0.le
    linarith
  have hρa : |ρ| ≤ (1 + 113 / 10 ^ 18) * R := by
    have := abs_add_le (ρ - V) V
    rw [sub_add_cancel, hV] at this
    linarith
  have hVw : |V * (w - 1)| = R * |w - 1| := by rw [abs_mul, hV]
  have hp : |ρ * c - V * (w - 1)| ≤ (1 + 113 / 10 ^ 18) * R * ((1 + 112 / 10 ^ 18) * (w * B) + 112 / 10 ^ 18 * |w - 1| + 1 / 10 ^ 100 * w) +
      113 / 10 ^ 18 * R * |w - 1| := by
    rw [show ρ * c - V * (w - 1) = ρ * (c - (w - 1)) + (ρ - V) * (w - 1) by ring]
    refine (abs_add_le _ _).trans (add_le_add ?_ ?_)
    · rw [abs_mul]; exact mul_le_mul hρa hc1 (abs_nonneg _) (by positivity)
    · rw [abs_mul]; exact mul_le_mul_of_nonneg_right hρ1 W
  have hpa : |ρ * c| ≤ |ρ * c - V * (w - 1)| + R * |w - 1| := by
    have := abs_add_le (ρ * c - V * (w - 1)) (V * (w - 1))
    rw [sub_add_cancel, hVw] at this
    exact this
  have hm2 : ru * |ρ * c| ≤ 112 / 10 ^ 18 * (|ρ * c - V * (w - 1)| + R * |w - 1|) := mul_le_mul hru hpa (abs_nonneg _) (by norm_num)
  have t := abs_add_le (m - ρ * c) (ρ * c - V * (w - 1))
  rw [sub_add_sub_cancel] at t
  rw [hVw]
  have n1 : 0 ≤ R * (w * B) := by positivity
  have n2 : 0 ≤ R * |w - 1| := by positivity
  have n3 : 0 ≤ R * w := by positivity
  have ex : (1 + 113 / 10 ^ 18) * R * ((1 + 112 / 10 ^ 18) * (w * B) + 112 / 10 ^ 18 * |w - 1| + 1 / 10 ^ 100 * w) +
      113 / 10 ^ 18 * R * |w - 1| ≤ (1 + 3 / 10 ^ 16) * (R * (w * B)) + 226 / 10 ^ 18 * (R * |w - 1|) + 1 / 10 ^ 99 * (R * w) := by
    have : (1 + 113 / 10 ^ 18) * R * ((1 + 112 / 10 ^ 18) * (w * B) + 112 / 10 ^ 18 * |w - 1| + 1 / 10 ^ 100 * w) +
      113 / 10 ^ 18 * R * |w - 1| = (1 + 113 / 10 ^ 18) * (1 + 112 / 10 ^ 18) * (R * (w * B)) +
        ((1 + 113 / 10 ^ 18) * (112 / 10 ^ 18) + 113 / 10 ^ 18) * (R * |w - 1|) + (1 + 113 / 10 ^ 18) * (1 / 10 ^ 100) * (R * w) := by ring
    rw [this]
    have a1 : (1 + 113 / 10 ^ 18) * (1 + 112 / 10 ^ 18) * (R * (w * B)) ≤ (1 + 3 / 10 ^ 16) * (R * (w * B)) :=
      mul_le_mul_of_nonneg_right (by norm_num) n1
    have a2 : ((1 + 113 / 10 ^ 18) * (112 / 10 ^ 18) + 113 / 10 ^ 18) * (R * |w - 1|) ≤ 226 / 10 ^ 18 * (R * |w - 1|) :=
      mul_le_mul_of_nonneg_right (by norm_num) n2
    have a3 : (1 + 113 / 10 ^ 18) * (1 / 10 ^ 100) * (R * w) ≤ 1 / 10 ^ 99 * (R * w) :=
      mul_le_mul_of_nonneg_right (by norm_num) n3
    linarith
  have e4 : R * w * B = R * (w * B) := by ring
  rw [e4]
  have b4 : (1 : ℝ) / 10 ^ 99 * (R * w) ≤ 1 / 10 ^ 50 * (R * w) := mul_le_mul_of_nonneg_right (by norm_num) n3
  have p := hp.trans ex
  clear hp ex tw tR
  linarith

/-! ### The tail probability -/

theorem acc_prop {N n : ℕ} (h0 : 0 < N) (h : N ≤ n) (hn : n ≤ 2 ^ 53) :
    isFin (lit (N : ℚ) /. lit (n : ℚ) : F64) ∧ 1 / 10 ^ 16 ≤ (N : ℝ) / n ∧ (N : ℝ) / n ≤ 1 ∧
      |toR (lit (N : ℚ) /. lit (n : ℚ)) - (N : ℝ) / n| ≤ 112 / 10 ^ 18 * ((N : ℝ) / n) := by
  obtain ⟨S1, S2, S3, S4⟩ := proportion_pos h0 h hn
  have pN : (1 : ℝ) ≤ N := by exact_mod_cast h0
  have pn : (0 : ℝ) < n := by exact_mod_cast h0.trans_le h
  have hle : (N : ℝ) ≤ n := by exact_mod_cast h
  have hn' : (n : ℝ) ≤ 2 ^ 53 := by exact_mod_cast hn
  set P : ℝ := (N : ℝ) / n with hP
  have P0 : 1 / 10 ^ 16 ≤ P := by
    rw [hP, le_div_iff₀ pn]; linarith
  have P1 : P ≤ 1 := by rw [hP, div_le_one pn]; exact hle
  refine ⟨S1, P0, P1, ?_⟩
  have := acc_round ((N : ℚ) / n)
  rw [← S2] at this
  have e : (((N : ℚ) / n : ℚ) : ℝ) = P := by push_cast; rfl
  rw [e, abs_of_pos (by linarith : 0 < P)] at this
  refine this.trans ?_
  unfold tiny ru
  have : (1 : ℝ) / 10 ^ 250 ≤ 1 / 10 ^ 40 := by norm_num
  linarith

theorem acc_scale {S P y w B p : ℝ} (P0 : 1 / 10 ^ 16 ≤ P) (hw : 1 / 10 ^ 180 ≤ w) (hS : |S - P| ≤ 112 / 10 ^ 18 * P)
    (hy : |y - w| ≤ w * B) (B0 : 0 ≤ B) (B1 : B ≤ 1) (hp : |p - S * y| ≤ ru * |S * y| + tiny) :
    |p - P * w| ≤ P * w * (1001 / 1000 * B + 4 / 10 ^ 16) := by
  have w0 : 0 < w := lt_of_lt_of_le (by norm_num) hw
  have P0' : 0 < P := lt_of_lt_of_le (by norm_num) P0
  have hSa : |S| ≤ (1 + 112 / 10 ^ 18) * P := by
    have := abs_add_le (S - P) P
    rw [sub_add_cancel, abs_of_pos P0'] at this
    linarith
  have h1 : |S * y - P * w| ≤ (1 + 112 / 10 ^ 18) * P * (w * B) + 112 / 10 ^ 18 * P * w := by
    rw [show S * y - P * w = S * (y - w) + (S - P) * w by ring]
    refine (abs_add_le _ _).trans (add_le_add ?_ ?_)
    · rw [abs_mul]; exact mul_le_mul hSa hy (abs_nonneg _) (by positivity)
    · rw [abs_mul, abs_of_pos w0]; exact mul_le_mul_of_nonneg_right hS w0.le
  have h2 : |S * y| ≤ |S * y - P * w| + P * w := by
    have := abs_add_le (S * y - P * w) (P * w)
    rw [sub_add_cancel, abs_of_pos (mul_pos P0' w0)] at this
    exact this
  have h3 : ru * |S * y| ≤ 112 / 10 ^ 18 * (|S * y - P * w| + P * w) := mul_le_mul (by unfold ru; norm_num) h2 (abs_nonneg _) (by norm_num)
  have h4 : tiny ≤ 1 / 10 ^ 20 * (P * w) := by
    have : (1 : ℝ) / 10 ^ 16 * (1 / 10 ^ 180) ≤ P * w := mul_le_mul P0 hw (by norm_num) P0'.le
    have : tiny ≤ 1 / 10 ^ 20 * (1 / 10 ^ 16 * (1 / 10 ^ 180)) := by unfold tiny; norm_num
    linarith
  have t := abs_add_le (p - S * y) (S * y - P * w)
  rw [sub_add_sub_cancel] at t
  have n1 : 0 ≤ P * w * B := by positivity
  have n2 : 0 ≤ P * w := by positivity
  have n3 : P * w * B ≤ P * w := by
    have := mul_le_mul_of_nonneg_left B1 n2
    linarith
  have e1 : (1 + 112 / 10 ^ 18) * P * (w * B) + 112 / 10 ^ 18 * P * w = (1 + 112 / 10 ^ 18) * (P * w * B) + 112 / 10 ^ 18 * (P * w) := by ring
  have e2 : P * w * (1001 / 1000 * B + 4 / 10 ^ 16) = 1001 / 1000 * (P * w * B) + 4 / 10 ^ 16 * (P * w) := by ring
  rw [e1] at h1
  rw [e2]
  linarith

/-- the argument of the exponential: `d` is close to `D` -/
theorem acc_expo_aux {d D σ a A : ℝ} (σ0 : 1 / 10 ^ 100 ≤ σ) (hA : A = -D / σ) (hd : |d - D| ≤ ru * |D| + tiny)
    (ha : |a - -d / σ| ≤ ru * |-d / σ| + tiny) : |a - A| ≤ 23 / 10 ^ 17 * |A| + 1 / 10 ^ 100 := by
  have σp : 0 < σ := lt_of_lt_of_le (by norm_num) σ0
  have hDσ : |D| / σ = |A| := by rw [hA, abs_div, abs_neg, abs_of_pos σp]
  have h1 : |-d / σ - A| ≤ 112 / 10 ^ 18 * |A| + 1 / 10 ^ 120 := by
    have e : -d / σ - A = -((d - D) / σ) := by rw [hA]; ring
    rw [e, abs_neg, abs_div, abs_of_pos σp, div_le_iff₀ σp]
    have e2 : |A| * σ = |D| := by rw [← hDσ]; field_simp
    have : ru * |D| ≤ 112 / 10 ^ 18 * |D| := mul_le_mul_of_nonneg_right (by unfold ru; norm_num) (abs_nonneg _)
    have : (1 : ℝ) / 10 ^ 120 * (1 / 10 ^ 100) ≤ 1 / 10 ^ 120 * σ := mul_le_mul_of_nonneg_left σ0 (by norm_num)
    have : tiny ≤ 1 / 10 ^ 120 * (1 / 10 ^ 100) := by unfold tiny; norm_num
    have e3 : (112 / 10 ^ 18 * |A| + 1 / 10 ^ 120) * σ = 112 / 10 ^ 18 * |D| + 1 / 10 ^ 120 * σ := by rw [← e2]; ring
    rw [e3]
    linarith
  have h2 : |-d / σ| ≤ |-d / σ - A| + |A| := by
    have := abs_add_le (-d / σ - A) A
    rwa [sub_add_cancel] at this
  have h3 : ru * |-d / σ| ≤ 112 / 10 ^ 18 * (|-d / σ - A| + |A|) := mul_le_mul (by unfold ru; norm_num) h2 (abs_nonneg _) (by norm_num)
  have t := abs_add_le (a - -d / σ) (-d / σ - A)
  rw [sub_add_sub_cancel] at t
  have ht : tiny ≤ 1 / 10 ^ 120 := by unfold tiny; norm_num
  have hs : (3 : ℝ) / 10 ^ 120 ≤ 1 / 10 ^ 100 := by norm_num
  have A0 := abs_nonneg A
  linarith

/-- the base of the power: `v` is close to `1 + U` -/
theorem acc_base_aux {d D γ σ k r v U : ℝ} (σ0 : 1 / 10 ^ 100 ≤ σ) (σ1 : σ ≤ 10 ^ 100) (γ0 : 1 / 2 ^ 20 ≤ |γ|) (γ1 : |γ| ≤ 2 ^ 20)
    (hU : U = γ * D / σ) (hd : |d - D| ≤ ru * |D| + tiny) (hk : |k - γ / σ| ≤ ru * |γ / σ| + tiny)
    (hr : |r - d * k| ≤ ru * |d * k| + tiny) (hv : |v - (1 + r)| ≤ ru * |1 + r| + tiny) :
    |d * k - U| ≤ 23 / 10 ^ 17 * |U| + 1 / 10 ^ 120 ∧ |v - (1 + U)| ≤ 5 / 10 ^ 16 * (1 + |U|) := by
  have σp : 0 < σ := lt_of_lt_of_le (by norm_num) σ0
  set K := γ / σ with hK
  have hKa : |K| = |γ| / σ := by rw [hK, abs_div, abs_of_pos σp]
  have K0 : 1 / 10 ^ 110 ≤ |K| := by
    rw [hKa, le_div_iff₀ σp]
    have : (1 : ℝ) / 10 ^ 110 * σ ≤ 1 / 10 ^ 110 * 10 ^ 100 := mul_le_mul_of_nonneg_left σ1 (by norm_num)
    have : (1 : ℝ) / 10 ^ 110 * 10 ^ 100 ≤ 1 / 2 ^ 20 := by norm_num
    linarith
  have K1 : |K| ≤ 10 ^ 107 := by
    rw [hKa, div_le_iff₀ σp]
    have : (10 : ℝ) ^ 107 * (1 / 10 ^ 100) ≤ 10 ^ 107 * σ := mul_le_mul_of_nonneg_left σ0 (by norm_num)
    have : (2 : ℝ) ^ 20 ≤ 10 ^ 107 * (1 / 10 ^ 100) := by norm_num
    linarith
  have hUK : U = D * K := by rw [hU, hK]; ring
  have hUa : |U| = |D| * |K| := by rw [hUK, abs_mul]
  have U0 := abs_nonneg U
  have D0 := abs_nonneg D
  have hru : ru ≤ 112 / 10 ^ 18 := by unfold ru; norm_num
  have hk1 : |k - K| ≤ 113 / 10 ^ 18 * |K| := by
    have : ru * |K| ≤ 112 / 10 ^ 18 * |K| := mul_le_mul_of_nonneg_right hru (abs_nonneg _)
    have : (1 : ℝ) / 10 ^ 40 * (1 / 10 ^ 110) ≤ 1 / 10 ^ 40 * |K| := mul_le_mul_of_nonneg_left K0 (by norm_num)
    have : tiny ≤ 1 / 10 ^ 40 * (1 / 10 ^ 110) := by unfold tiny; norm_num
    have := abs_nonneg K
    linarith
  have hka : |k| ≤ (1 + 113 / 10 ^ 18) * |K| := by
    have := abs_add_le (k - K) K
    rw [sub_add_cancel] at this
    linarith
  have hd1 : |d - D| ≤ 112 / 10 ^ 18 * |D| + tiny := by
    have : ru * |D| ≤ 112 / 10 ^ 18 * |D| := mul_le_mul_of_nonneg_right hru D0
    linarith
  have t0 := tiny_pos
  have tK : tiny * |K| ≤ 1 / 10 ^ 140 := by
    have := mul_le_mul_of_nonneg_left K1 t0.le
    have : tiny * 10 ^ 107 ≤ 1 / 10 ^ 140 := by unfold tiny; norm_num
    linarith
  have h1 : |d * k - U| ≤ 23 / 10 ^ 17 * |U| + 1 / 10 ^ 120 := by
    rw [hUK, show d * k - D * K = (d - D) * k + D * (k - K) by ring]
    have a1 : |(d - D) * k| ≤ (112 / 10 ^ 18 * |D| + tiny) * ((1 + 113 / 10 ^ 18) * |K|) := by
      rw [abs_mul]; exact mul_le_mul hd1 hka (abs_nonneg _) (by positivity)
    have a2 : |D * (k - K)| ≤ |D| * (113 / 10 ^ 18 * |K|) := by
      rw [abs_mul]; exact mul_le_mul_of_nonneg_left hk1 D0
    have t := abs_add_le ((d - D) * k) (D * (k - K))
    have e1 : (112 / 10 ^ 18 * |D| + tiny) * ((1 + 113 / 10 ^ 18) * |K|) =
      112 / 10 ^ 18 * (1 + 113 / 10 ^ 18) * (|D| * |K|) + (1 + 113 / 10 ^ 18) * (tiny * |K|) := by ring
    have e2 : |D| * (113 / 10 ^ 18 * |K|) = 113 / 10 ^ 18 * (|D| * |K|) := by ring
    rw [e1] at a1
    rw [e2] at a2
    rw [abs_mul]
    have : (2 : ℝ) * (1 / 10 ^ 140) ≤ 1 / 10 ^ 120 := by norm_num
    have : 0 ≤ |D| * |K| := by positivity
    linarith
  refine ⟨h1, ?_⟩
  have h2 : |d * k| ≤ |d * k - U| + |U| := by
    have := abs_add_le (d * k - U) U
    rwa [sub_add_cancel] at this
  have h3 : ru * |d * k| ≤ 112 / 10 ^ 18 * (|d * k - U| + |U|) := mul_le_mul hru h2 (abs_nonneg _) (by norm_num)
  have ht : tiny ≤ 1 / 10 ^ 120 := by unfold tiny; norm_num
  have h4 : |r - U| ≤ 345 / 10 ^ 18 * |U| + 1 / 10 ^ 100 := by
    have t := abs_add_le (r - d * k) (d * k - U)
    rw [sub_add_sub_cancel] at t
    have : (3 : ℝ) / 10 ^ 120 ≤ 1 / 10 ^ 100 := by norm_num
    linarith
  have h5 : |1 + r| ≤ |r - U| + (1 + |U|) := by
    have a := abs_add_le (r - U) (1 + U)
    have b := abs_add_le 1 U
    rw [abs_one] at b
    rw [show r - U + (1 + U) = 1 + r by ring] at a
    linarith
  have h6 : ru * |1 + r| ≤ 112 / 10 ^ 18 * (|r - U| + (1 + |U|)) := mul_le_mul hru h5 (abs_nonneg _) (by norm_num)
  have t := abs_add_le (v - (1 + r)) (r - U)
  rw [show v - (1 + r) + (r - U) = v - (1 + U) by ring] at t
  have : (1 : ℝ) / 10 ^ 100 ≤ 1 / 10 ^ 30 := by norm_num
  have : (1 : ℝ) / 10 ^ 120 ≤ 1 / 10 ^ 30 := by norm_num
  linarith

end Verif

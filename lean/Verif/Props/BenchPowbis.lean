/-
C147: the accuracy of the second power function of benchmark/pow_accuracy_speed.c.
-/
import Verif.Proofs.BenchPowbis
import Verif.Proofs.BenchExpErr

namespace Verif
open F64

namespace BenchPowbis

/-- the exponential near 0 -/
theorem exp_near {d : ℝ} (h : |d| ≤ 1 / 100) : |Real.exp d - 1| ≤ 102 / 100 * |d| := by
  have t := Real.abs_exp_sub_one_sub_id_le (x := d) (by linarith)
  have := abs_add_le (Real.exp d - 1 - d) d
  rw [sub_add_cancel] at this
  have hsq : d ^ 2 ≤ 1 / 100 * |d| := by
    rw [← sq_abs, sq]
    exact mul_le_mul_of_nonneg_right (by linarith) (abs_nonneg _)
  have := abs_nonneg d
  linarith

/-- the product of two approximations and its rounding -/
theorem prod_near {A B U V T a b : ℝ} (hU : 0 < U) (hV : 0 < V) (ha : 0 ≤ a) (ha1 : a ≤ 1 / 10 ^ 8) (hb : 0 ≤ b) (hb1 : b ≤ 1 / 10 ^ 13)
    (hA : |A - U| ≤ a * U) (hB : |B - V| ≤ b * V) (hT : |T - A * B| ≤ 1 / 9007199254740992 * |A * B|) : |T - U * V| ≤ (a + b + 2 / 10 ^ 16) * (U * V) := by
  have hUV : 0 < U * V := mul_pos hU hV
  have h1 : |A * B - U * V| ≤ (a + b + a * b) * (U * V) := by
    rw [show A * B - U * V = (A - U) * V + U * (B - V) + (A - U) * (B - V) by ring]
    refine (abs_add_le _ _).trans ?_
    refine (add_le_add_left (abs_add_le _ _) _).trans ?_
    rw [abs_mul, abs_mul, abs_mul, abs_of_pos hU, abs_of_pos hV]
    have m1 := mul_le_mul_of_nonneg_right hA hV.le
    have m2 := mul_le_mul_of_nonneg_left hB hU.le
    have m3 : |A - U| * |B - V| ≤ a * U * (b * V) := mul_le_mul hA hB (abs_nonneg _) (by positivity)
    nlinarith
  have hab : a * b ≤ 1 / 10 ^ 21 := (mul_le_mul ha1 hb1 hb (by norm_num)).trans (by norm_num)
  have h2 : |A * B| ≤ 101 / 100 * (U * V) := by
    have := abs_add_le (A * B - U * V) (U * V)
    rw [sub_add_cancel, abs_of_pos hUV] at this
    have c : (a + b + a * b) * (U * V) ≤ 1 / 100 * (U * V) := mul_le_mul_of_nonneg_right (by linarith) hUV.le
    linarith
  have h3 := abs_add_le (T - A * B) (A * B - U * V)
  rw [sub_add_sub_cancel] at h3
  have c : (a + b + a * b) * (U * V) ≤ (a + b + 1 / 10 ^ 21) * (U * V) := mul_le_mul_of_nonneg_right (by linarith) hUV.le
  have : (a + b + 2 / 10 ^ 16) * (U * V) = (a + b + 1 / 10 ^ 21) * (U * V) + (2 / 10 ^ 16 - 1 / 10 ^ 21) * (U * V) := by ring
  rw [this]
  have : 1 / 9007199254740992 * |A * B| ≤ (2 / 10 ^ 16 - 1 / 10 ^ 21) * (U * V) := by
    refine (mul_le_mul_of_nonneg_left h2 (by norm_num)).trans ?_
    rw [← mul_assoc]
    exact mul_le_mul_of_nonneg_right (by norm_num) hUV.le
  linarith

theorem two_pow_1022 : ((pow2 (-1022) : ℚ) : ℝ) = (2 ^ 1022)⁻¹ := by
  rw [pow2_eq]
  push_cast
  rw [zpow_neg]
  rfl

/-- normal powers -/
theorem exp_low {X : ℝ} (h : -707 ≤ X) : (2 ^ 1022 : ℝ)⁻¹ ≤ 1 / 2 * Real.exp X := by
  have := BenchExp.exp708 (X := 1 + -X) (by linarith)
  have hE := Real.exp_pos X
  have h1 := Real.add_one_le_exp (1 : ℝ)
  rw [Real.exp_add, Real.exp_neg] at this
  have hp : (0 : ℝ) < 2 ^ 1022 := by positivity
  rw [inv_le_iff_one_le_mul₀ hp]
  generalize (2 : ℝ) ^ 1022 = P at *
  have hI : 0 < (Real.exp X)⁻¹ := inv_pos.mpr hE
  have h2 : 2 * (Real.exp X)⁻¹ ≤ P := by nlinarith
  have h3 := mul_le_mul_of_nonneg_right h2 hE.le
  rw [mul_assoc, inv_mul_cancel₀ hE.ne'] at h3
  linarith

/-- the error of the exponent of 2 -/
theorem delta {X P β k L G x : ℝ} (hp : |P - X| ≤ |X| / 2 ^ 53 + 1 / 10 ^ 70) (hb : |β - (P - k)| ≤ 1 / 2 ^ 53 + 1 / 10 ^ 70) (hX : |X * L| ≤ G + 6932 / 10000 * x)
    (L0 : 0 < L) (L1 : L ≤ 7 / 10) : |(X - β - k) * L| ≤ 112 / 10 ^ 18 * (G + 6932 / 10000 * x) + 1 / 10 ^ 16 := by
  rw [abs_mul, abs_of_pos L0] at hX ⊢
  have s1 : |X - β - k| ≤ |X| / 2 ^ 53 + 1 / 2 ^ 53 + 2 / 10 ^ 70 := by
    rw [show X - β - k = -((P - X) + (β - (P - k))) by ring, abs_neg]
    refine (abs_add_le _ _).trans ?_
    linarith
  refine (mul_le_mul_of_nonneg_right s1 L0.le).trans ?_
  rw [show (|X| / 2 ^ 53 + 1 / 2 ^ 53 + 2 / 10 ^ 70) * L = (|X| * L) * (1 / 2 ^ 53) + (1 / 2 ^ 53 + 2 / 10 ^ 70) * L by ring]
  have s3 : (1 / 2 ^ 53 + 2 / 10 ^ 70) * L ≤ 1 / 10 ^ 16 := (mul_le_mul_of_nonneg_left L1 (by norm_num)).trans (by norm_num)
  have h0 : 0 ≤ G + 6932 / 10000 * x := le_trans (by positivity) hX
  have s4 : (|X| * L) * (1 / 2 ^ 53) ≤ (G + 6932 / 10000 * x) * (1 / 2 ^ 53) := mul_le_mul_of_nonneg_right hX (by norm_num)
  have s5 : (G + 6932 / 10000 * x) * (1 / 2 ^ 53) ≤ (G + 6932 / 10000 * x) * (112 / 10 ^ 18) := mul_le_mul_of_nonneg_left (by norm_num) h0
  linarith

/-- the sum of the errors -/
theorem combine {R Y E α x G d : ℝ} (E0 : 0 < E) (Y0 : 0 < Y) (x0 : 0 ≤ x) (x1 : x ≤ 1000) (G0 : 0 ≤ G) (G1 : G ≤ 700) (α1 : α ≤ 416 / 10 ^ 17 * x + 5 / 10 ^ 15)
    (hd : |d| ≤ 112 / 10 ^ 18 * (G + 6932 / 10000 * x) + 1 / 10 ^ 16) (hY : E = Y * Real.exp d) (hR : |R - Y| ≤ (α + 1 / 10 ^ 14 + 2 / 10 ^ 16) * Y) :
    |R - E| ≤ (5 / 10 ^ 15 * x + 2 / 10 ^ 16 * G + 2 / 10 ^ 14) * E := by
  have hd2 : |d| ≤ 1 / 10 ^ 12 := by linarith
  have hYE : Y = E * Real.exp (-d) := by rw [hY, mul_assoc, ← Real.exp_add]; simp
  have hm := exp_near (d := -d) (by rw [abs_neg]; linarith)
  rw [abs_neg] at hm
  have hYn : |Y - E| ≤ 102 / 100 * |d| * E := by
    rw [hYE, show E * Real.exp (-d) - E = (Real.exp (-d) - 1) * E by ring, abs_mul, abs_of_pos E0]
    exact mul_le_mul_of_nonneg_right hm E0.le
  have hY2 : Y ≤ (1 + 1 / 10 ^ 10) * E := by
    have := (abs_le.mp hYn).2
    have c : 102 / 100 * |d| * E ≤ 1 / 10 ^ 10 * E := mul_le_mul_of_nonneg_right (by linarith) E0.le
    linarith
  have s := abs_add_le (R - Y) (Y - E)
  rw [sub_add_sub_cancel] at s
  have s1 : (α + 1 / 10 ^ 14 + 2 / 10 ^ 16) * Y ≤ (416 / 10 ^ 17 * x + 153 / 10 ^ 16) * E := by
    calc _ ≤ (416 / 10 ^ 17 * x + 152 / 10 ^ 16) * ((1 + 1 / 10 ^ 10) * E) := mul_le_mul (by linarith) hY2 Y0.le (by positivity)
      _ = ((416 / 10 ^ 17 * x + 152 / 10 ^ 16) * (1 + 1 / 10 ^ 10)) * E := by ring
      _ ≤ _ := mul_le_mul_of_nonneg_right (by linarith) E0.le
  have s2 : 102 / 100 * |d| * E ≤ (2 / 10 ^ 16 * G + 1 / 10 ^ 16 * x + 2 / 10 ^ 16) * E := mul_le_mul_of_nonneg_right (by linarith) E0.le
  have s3 : (416 / 10 ^ 17 * x + 153 / 10 ^ 16) * E + (2 / 10 ^ 16 * G + 1 / 10 ^ 16 * x + 2 / 10 ^ 16) * E ≤ (5 / 10 ^ 15 * x + 2 / 10 ^ 16 * G + 2 / 10 ^ 14) * E := by
    rw [← add_mul]
    exact mul_le_mul_of_nonneg_right (by linarith) E0.le
  linarith

theorem exp_prod (u b d : ℝ) (k : ℤ) : Real.exp (u + b * Real.log 2 + k * Real.log 2 + d) = Real.exp u * Real.exp (b * Real.log 2) * 2 ^ k * Real.exp d := by
  have : (2 : ℝ) ^ k = Real.exp (k * Real.log 2) := by
    rw [← Real.rpow_intCast, Real.rpow_def_of_pos (by norm_num), mul_comm]
  rw [this, ← Real.exp_add, ← Real.exp_add, ← Real.exp_add]

/-- a product with a power of 2 that is between two normal numbers -/
theorem binade {t : F64} {k f : ℤ} {E : ℝ} (E0 : 0 < E) (f0 : (2 : ℚ) ^ f ≤ toQ t) (f1 : toQ t < 2 ^ (f + 1)) (hi : E * (101 / 100) ≤ 2 ^ 1022) (lo : (2 ^ 1022 : ℝ)⁻¹ ≤ 1 / 2 * E)
    (h : |toR t * 2 ^ k - E| ≤ 1 / 100 * E) : -1022 ≤ f + k ∧ f + k ≤ 1023 := by
  obtain ⟨u1, u2⟩ := abs_le.mp h
  have cast : ((toQ t * 2 ^ k : ℚ) : ℝ) = toR t * 2 ^ k := by push_cast; rfl
  constructor
  · have a : toQ t * 2 ^ k < (2 : ℚ) ^ (f + 1 + k) := by rw [zpow_add₀ (by norm_num) (f + 1) k]; exact mul_lt_mul_of_pos_right f1 (by positivity)
    have b : ((pow2 (-1022) : ℚ) : ℝ) ≤ ((toQ t * 2 ^ k : ℚ) : ℝ) := by
      rw [cast, two_pow_1022]
      generalize (2 ^ 1022 : ℝ)⁻¹ = Q at *
      linarith
    have c : (2 : ℚ) ^ (-1022 : ℤ) < 2 ^ (f + 1 + k) := lt_of_le_of_lt (by rw [← pow2_eq]; exact_mod_cast b) a
    have := (zpow_lt_zpow_iff_right₀ (by norm_num : (1 : ℚ) < 2)).mp c
    omega
  · have a : (2 : ℚ) ^ (f + k) ≤ toQ t * 2 ^ k := by rw [zpow_add₀ (by norm_num) f k]; exact mul_le_mul_of_nonneg_right f0 (by positivity)
    have b : ((toQ t * 2 ^ k : ℚ) : ℝ) ≤ ((2 ^ (1022 : ℤ) : ℚ) : ℝ) := by
      rw [cast]
      push_cast
      have : (2 : ℝ) ^ (1022 : ℤ) = 2 ^ 1022 := zpow_natCast 2 1022
      rw [this]
      generalize (2 : ℝ) ^ 1022 = Q at *
      linarith
    have c : (2 : ℚ) ^ (f + k) ≤ 2 ^ (1022 : ℤ) := a.trans (by exact_mod_cast b)
    have := (zpow_le_zpow_iff_right₀ (by norm_num : (1 : ℚ) < 2)).mp c
    omega

end BenchPowbis

open BenchPowbis in
/-- **C147**. For every positive normal base `a` and every exponent `x` of magnitude up to 1000 such that the power is between e^-700 and e^700, the function is defined
and its relative error is at most `5e-15 |x| + 2e-16 |x log a| + 2e-14`. -/
theorem C147 (a x : F64) (ha : isFin a) (h0 : 2 ^ (-1022 : ℤ) ≤ toQ a) (hx : isFin x) (hx1 : |toR x| ≤ 1000) (h : |toR x * Real.log (toR a)| ≤ 700) :
    ∃ y, Bench.powbis a x = .ok y ∧ isFin y ∧
      |toR y - toR a ^ toR x| ≤ (5 / 10 ^ 15 * |toR x| + 2 / 10 ^ 16 * |toR x * Real.log (toR a)| + 2 / 10 ^ 14) * toR a ^ toR x := by
  obtain ⟨e, e0, e1, eb, w1, w2, w3, w4⟩ := split ha h0
  obtain ⟨c1, c2⟩ := log_two_bounds
  unfold Bench.powbis
  dsimp only
  rw [show ((Bench.exponentBits a).toNat : ℤ) - 1023 = e by omega]
  generalize Bench.setExponent a 1023 = w at *
  have W1 : 1 ≤ toR w := by unfold toR; exact_mod_cast w2
  have W2 : toR w ≤ 2 := by unfold toR; exact_mod_cast w3.le
  have g0 : 0 ≤ Real.log (toR w) := Real.log_nonneg W1
  have g1 : Real.log (toR w) ≤ Real.log 2 := Real.log_le_log (by linarith) W2
  have aW : toR a = 2 ^ e * toR w := by unfold toR; rw [w4]; push_cast; rfl
  have a0 : 0 < toR a := by rw [aW]; positivity
  have hlog : Real.log (toR a) = Real.log (toR w) + e * Real.log 2 := by
    rw [aW, Real.log_mul (by positivity) (by linarith), Real.log_zpow]; ring
  have hxa := abs_nonneg (toR x)
  have hxw : |toR x * Real.log (toR w)| ≤ 6932 / 10000 * |toR x| := by
    rw [abs_mul, abs_of_nonneg g0, mul_comm]
    exact mul_le_mul_of_nonneg_right (by linarith) hxa
  set v := toR x * Real.log (toR a) with hv
  have hva := abs_nonneg v
  have hxe : |toR x * e * Real.log 2| ≤ |v| + 6932 / 10000 * |toR x| := by
    have : toR x * e * Real.log 2 = v - toR x * Real.log (toR w) := by rw [hv, hlog]; ring
    rw [this]
    exact (abs_sub _ _).trans (by linarith)
  have hxe2 : |toR x * e| ≤ 15 / 10 * |v| + 101 / 100 * |toR x| := by
    rw [abs_mul, abs_of_pos (by linarith : 0 < Real.log 2)] at hxe
    have := mul_le_mul_of_nonneg_left (by linarith : 6931 / 10000 ≤ Real.log 2) (abs_nonneg (toR x * e))
    linarith
  have hxe3 : |toR x * e| ≤ 2100 := by linarith
  -- the product
  have le : isFin (lit (e : ℚ) : F64) ∧ toR (lit (e : ℚ) : F64) = e := by
    have := App.lit_int (i := e) ((by rw [abs_le]; omega : |e| ≤ 1024).trans (by norm_num))
    exact ⟨this.1, by have := this.2; rw [sub_eq_zero.mp (abs_eq_zero.mp (le_antisymm this (abs_nonneg _)))]⟩
  have lqR : ((toQ x * toQ (lit (e : ℚ) : F64) : ℚ) : ℝ) = toR x * e := by
    push_cast; show toR x * toR (lit (e : ℚ) : F64) = _; rw [le.2]
  obtain ⟨p1, p2⟩ := mul_fin' hx le.1 (no_overflow (B := 2100) (by rw [lqR]; exact hxe3) (by norm_num))
  change isFin (x *. lit (e : ℚ)) at p1
  change toQ (x *. lit (e : ℚ)) = _ at p2
  have p3 : |toR (x *. lit (e : ℚ)) - toR x * e| ≤ |toR x * e| / 2 ^ 53 + 1 / 10 ^ 70 := by
    have t : ((|rq (toQ x * toQ (lit (e : ℚ) : F64)) - toQ x * toQ (lit (e : ℚ) : F64)| : ℚ) : ℝ) ≤ ((|toQ x * toQ (lit (e : ℚ) : F64)| / 2 ^ 53 + 1 / 10 ^ 70 : ℚ) : ℝ) :=
      Rat.cast_le.mpr (BenchExp.rq_u _)
    rw [← p2] at t
    rw [Rat.cast_abs, Rat.cast_sub, lqR, Rat.cast_add, Rat.cast_div, Rat.cast_abs, lqR] at t
    push_cast at t
    exact t
  generalize (x *. lit (e : ℚ) : F64) = p at *
  obtain ⟨k, k1, k2, k3⟩ := trunc_near p1
  have k2R : |toR p - k| < 1 := by unfold toR; exact_mod_cast k2
  have tiny : (1 : ℝ) / 10 ^ 70 ≤ 1 / 10 ^ 30 := by norm_num
  have hpB : |toR p| ≤ 2101 := by
    have := abs_add_le (toR p - toR x * e) (toR x * e)
    rw [sub_add_cancel] at this
    have : |toR x * e| / 2 ^ 53 ≤ 1 / 10 := by rw [div_le_iff₀ (by norm_num)]; linarith
    linarith
  have k3R : |(k : ℝ)| ≤ 2101 := by
    have : ((|(k : ℚ)| : ℚ) : ℝ) ≤ ((|toQ p| : ℚ) : ℝ) := Rat.cast_le.mpr k3
    push_cast at this
    exact this.trans hpB
  have k4 : |k| ≤ 2101 := by exact_mod_cast k3R
  have hLL : Bench.toLL p = .ok k := by
    unfold Bench.toLL
    rw [k1]
    have := abs_le.mp k4
    exact if_pos ⟨by omega, by omega⟩
  rw [hLL]
  show ∃ y, (Bench.pow w x >>= fun a => Bench.pow (lit 2) (p -. lit (k : ℚ)) >>= fun b =>
    Except.ok (Bench.setExponent (a *. b) (UInt64.ofInt ((Bench.exponentBits (a *. b)).toNat + k)))) = Except.ok y ∧ _
  -- the fractional part
  have lk : isFin (lit (k : ℚ) : F64) ∧ toR (lit (k : ℚ) : F64) = k := by
    have := App.lit_int (i := k) (k4.trans (by norm_num))
    exact ⟨this.1, by have := this.2; rw [sub_eq_zero.mp (abs_eq_zero.mp (le_antisymm this (abs_nonneg _)))]⟩
  have kqR : ((toQ p - toQ (lit (k : ℚ) : F64) : ℚ) : ℝ) = toR p - k := by
    push_cast; show toR p - toR (lit (k : ℚ) : F64) = _; rw [lk.2]
  obtain ⟨b1, b2⟩ := sub_fin' p1 lk.1 (no_overflow (B := 1) (by rw [kqR]; exact k2R.le) (by norm_num))
  change isFin (p -. lit (k : ℚ)) at b1
  change toQ (p -. lit (k : ℚ)) = _ at b2
  have b3 : |toR (p -. lit (k : ℚ)) - (toR p - k)| ≤ 1 / 2 ^ 53 + 1 / 10 ^ 70 := by
    have t : ((|rq (toQ p - toQ (lit (k : ℚ) : F64)) - (toQ p - toQ (lit (k : ℚ) : F64))| : ℚ) : ℝ) ≤ ((|toQ p - toQ (lit (k : ℚ) : F64)| / 2 ^ 53 + 1 / 10 ^ 70 : ℚ) : ℝ) :=
      Rat.cast_le.mpr (BenchExp.rq_u _)
    rw [← b2] at t
    rw [Rat.cast_abs, Rat.cast_sub, kqR, Rat.cast_add, Rat.cast_div, Rat.cast_abs, kqR] at t
    push_cast at t
    refine t.trans ?_
    have : |toR p - k| / 2 ^ 53 ≤ 1 / 2 ^ 53 := by
      refine div_le_div_of_nonneg_right k2R.le (by norm_num)
    linarith
  generalize (p -. lit (k : ℚ) : F64) = β at *
  have hβ : |toR β| ≤ 11 / 10 := by
    have := abs_add_le (toR β - (toR p - k)) (toR p - k)
    rw [sub_add_cancel] at this
    have : (1 : ℝ) / 2 ^ 53 ≤ 1 / 100 := by norm_num
    linarith
  -- the two powers
  have l2 : isFin (lit 2 : F64) ∧ toQ (lit 2 : F64) = 2 := by decide +kernel
  have r2 : toR (lit 2 : F64) = 2 := by unfold toR; rw [l2.2]; norm_num
  have hz : (2 : ℚ) ^ (-1022 : ℤ) ≤ 1 := zpow_le_one_of_nonpos₀ (by norm_num) (by norm_num)
  obtain ⟨A, A1, A2, A3⟩ := C146 w x w1 (hz.trans w2) hx (by linarith)
  have hβ2 : |toR β * Real.log 2| ≤ 77 / 100 := by
    rw [abs_mul, abs_of_pos (by linarith : 0 < Real.log 2)]
    exact (mul_le_mul hβ (by linarith : Real.log 2 ≤ 7 / 10) (by linarith) (by norm_num)).trans (by norm_num)
  obtain ⟨B, B1, B2, B3⟩ := C146 (lit 2) β l2.1 (by rw [l2.2]; linarith) b1 (by rw [r2]; linarith)
  rw [r2] at B3
  rw [A1]
  show ∃ y, (Bench.pow (lit 2) β >>= fun b => Except.ok (Bench.setExponent (A *. b) (UInt64.ofInt ((Bench.exponentBits (A *. b)).toNat + k)))) = Except.ok y ∧ _
  rw [B1]
  show ∃ y, Except.ok (Bench.setExponent (A *. B) (UInt64.ofInt ((Bench.exponentBits (A *. B)).toNat + k))) = Except.ok y ∧ _
  have hU : toR w ^ toR x = Real.exp (toR x * Real.log (toR w)) := by rw [Real.rpow_def_of_pos (by linarith), mul_comm]
  have hV : (2 : ℝ) ^ toR β = Real.exp (toR β * Real.log 2) := by rw [Real.rpow_def_of_pos (by norm_num), mul_comm]
  have hY : toR a ^ toR x = Real.exp v := by rw [Real.rpow_def_of_pos a0, mul_comm]
  rw [hU] at A3
  rw [hV] at B3
  rw [hY]
  set U := Real.exp (toR x * Real.log (toR w)) with hUd
  set V := Real.exp (toR β * Real.log 2) with hVd
  have U0 : 0 < U := Real.exp_pos _
  have V0 : 0 < V := Real.exp_pos _
  have hUV : U * V = Real.exp (toR x * Real.log (toR w) + toR β * Real.log 2) := by rw [hUd, hVd, ← Real.exp_add]
  have UVhi : U * V * (101 / 100) ≤ 2 ^ 1022 := by
    rw [hUV]
    refine BenchExp.exp708 ?_
    linarith [(abs_le.mp hxw).2, (abs_le.mp hβ2).2]
  have UVlo : (2 ^ 1022 : ℝ)⁻¹ ≤ 1 / 2 * (U * V) := by
    rw [hUV]
    refine exp_low ?_
    linarith [(abs_le.mp hxw).1, (abs_le.mp hβ2).1]
  have UV0 : 0 < U * V := mul_pos U0 V0
  set α := 6 / 10 ^ 15 * |toR x * Real.log (toR w)| + 5 / 10 ^ 15 with hα
  have α0 : 0 ≤ α := by positivity
  have α1 : α ≤ 416 / 10 ^ 17 * |toR x| + 5 / 10 ^ 15 := by rw [hα]; linarith
  have B3' : |toR B - V| ≤ 1 / 10 ^ 14 * V := B3.trans (mul_le_mul_of_nonneg_right (by linarith) V0.le)
  have hAB : ((toQ A * toQ B : ℚ) : ℝ) = toR A * toR B := by push_cast; rfl
  -- the product of the powers
  have near := prod_near (T := toR A * toR B) U0 V0 α0 (by linarith) (by norm_num) (by norm_num) A3 B3' (by rw [sub_self, abs_zero]; positivity)
  have near1 : |toR A * toR B - U * V| ≤ 1 / 100 * (U * V) := near.trans (mul_le_mul_of_nonneg_right (by linarith) UV0.le)
  obtain ⟨n1, n2⟩ := abs_le.mp near1
  have ABpos : 0 < toR A * toR B := by linarith
  have hov : |toQ A * toQ B| ≤ pow2 1023 := by
    have : ((|toQ A * toQ B| : ℚ) : ℝ) ≤ ((pow2 1023 : ℚ) : ℝ) := by
      rw [Rat.cast_abs, hAB, abs_of_pos ABpos]
      have : ((pow2 1023 : ℚ) : ℝ) = 2 ^ 1023 := by rw [pow2_eq]; push_cast; exact zpow_natCast 2 1023
      rw [this, pow_succ]
      generalize (2 : ℝ) ^ 1022 = P at *
      linarith
    exact_mod_cast this
  have hun : pow2 (-1022) ≤ |toQ A * toQ B| := by
    have : ((pow2 (-1022) : ℚ) : ℝ) ≤ ((|toQ A * toQ B| : ℚ) : ℝ) := by
      rw [Rat.cast_abs, hAB, abs_of_pos ABpos, two_pow_1022]
      linarith
    exact_mod_cast this
  obtain ⟨t1, t2⟩ := mul_fin' A2 B2 hov
  change isFin (A *. B) at t1
  change toQ (A *. B) = _ at t2
  have t3 : |toR (A *. B) - toR A * toR B| ≤ 1 / 9007199254740992 * |toR A * toR B| := by
    have := rq_rel_real hun
    rw [← t2, hAB] at this
    exact this
  have hT := prod_near U0 V0 α0 (by linarith) (by norm_num) (by norm_num) A3 B3' t3
  have hTlow : pow2 (-1022) ≤ toQ (A *. B) := by
    rw [t2]
    have q0 : 0 < toQ A * toQ B := by
      have : (0 : ℝ) < ((toQ A * toQ B : ℚ) : ℝ) := by rw [hAB]; exact ABpos
      exact_mod_cast this
    rw [abs_of_pos q0] at hun
    have := rq_mono hun
    rwa [rq_rep ⟨1, -1022, by norm_num, by norm_num, by rw [abs_of_pos (pow2_pos _)]; simp⟩] at this
  generalize (A *. B : F64) = t at *
  have qt : 0 < toQ t := lt_of_lt_of_le (pow2_pos _) hTlow
  obtain ⟨f, f0, f1⟩ := exists_mem_Ico_zpow qt (by norm_num : (1 : ℚ) < 2)
  have hf : -1022 ≤ f := by
    have : (2 : ℚ) ^ (-1022 : ℤ) < 2 ^ (f + 1) := by rw [← pow2_eq]; exact lt_of_le_of_lt hTlow f1
    have := (zpow_lt_zpow_iff_right₀ (by norm_num : (1 : ℚ) < 2)).mp this
    omega
  -- the power as a product
  have hδ := delta p3 b3 hxe (by linarith) (by linarith)
  have hvδ : Real.exp v = U * V * 2 ^ k * Real.exp ((toR x * e - toR β - k) * Real.log 2) := by
    rw [hUd, hVd, ← exp_prod, hv, hlog]
    exact congrArg Real.exp (by ring)
  have P0 : (0 : ℝ) < 2 ^ k := by positivity
  have hTk : |toR t * 2 ^ k - U * V * 2 ^ k| ≤ (α + 1 / 10 ^ 14 + 2 / 10 ^ 16) * (U * V * 2 ^ k) := by
    rw [← sub_mul, abs_mul, abs_of_pos P0, ← mul_assoc]
    exact mul_le_mul_of_nonneg_right hT P0.le
  have E0 := Real.exp_pos v
  have final := combine E0 (mul_pos UV0 P0) hxa hx1 hva h α1 hδ hvδ hTk
  have fin1 : |toR t * 2 ^ k - Real.exp v| ≤ 1 / 100 * Real.exp v := final.trans (mul_le_mul_of_nonneg_right (by linarith) E0.le)
  obtain ⟨v1, v2⟩ := abs_le.mp h
  obtain ⟨hfk0, hfk1⟩ := binade E0 f0 f1 (BenchExp.exp708 (X := v) (by linarith)) (exp_low (X := v) (by linarith)) fin1
  obtain ⟨z1, z2⟩ := shift t1 hf f0 f1 hfk0 hfk1
  refine ⟨_, rfl, z1, ?_⟩
  have : toR (Bench.setExponent t (UInt64.ofInt ((Bench.exponentBits t).toNat + k))) = toR t * 2 ^ k := by
    unfold toR; rw [z2]; push_cast; rfl
  rw [this]
  exact final

/-- the base 3 and the exponent -100 meet the hypotheses -/
example : ∃ a x : F64, isFin a ∧ 2 ^ (-1022 : ℤ) ≤ toQ a ∧ isFin x ∧ |toR x| ≤ 1000 ∧ |toR x * Real.log (toR a)| ≤ 700 ∧ toQ a = 3 ∧ toQ x = -100 := by
  have ea : isFin (lit 3 : F64) ∧ toQ (lit 3 : F64) = 3 ∧ 2 ^ (-1022 : ℤ) ≤ toQ (lit 3 : F64) := by decide +kernel
  have ex : isFin (lit (-100) : F64) ∧ toQ (lit (-100) : F64) = -100 := by decide +kernel
  have ra : toR (lit 3 : F64) = 3 := by unfold toR; rw [ea.2.1]; norm_num
  have rx : toR (lit (-100) : F64) = -100 := by unfold toR; rw [ex.2]; norm_num
  have l := Real.log_le_sub_one_of_pos (x := (3 : ℝ)) (by norm_num)
  have l0 : 0 ≤ Real.log 3 := Real.log_nonneg (by norm_num)
  refine ⟨_, _, ea.1, ea.2.2, ex.1, by rw [rx]; norm_num, ?_, ea.2.1, ex.2⟩
  rw [ra, rx, abs_mul, abs_of_nonneg l0, abs_neg, abs_of_pos (by norm_num : (0 : ℝ) < 100)]
  linarith

/-- **C147** (the bound on the exponent). Beyond 1000 the power of the mantissa can overflow: for 0.995 to the power 1032.5, about 0.0057, the result is more than 0.007,
whereas that of `_pow` is between 0.005 and 0.006. -/
theorem C147_limit : ∃ y z, Bench.powbis (lit (995 / 1000)) (lit (2065 / 2)) = .ok y ∧ Bench.pow (lit (995 / 1000)) (lit (2065 / 2)) = .ok z ∧ isFin y ∧ isFin z ∧
    7 / 1000 ≤ toQ y ∧ 5 / 1000 ≤ toQ z ∧ toQ z ≤ 6 / 1000 := by
  have a : (match Bench.powbis (lit (995 / 1000)) (lit (2065 / 2)), Bench.pow (lit (995 / 1000)) (lit (2065 / 2)) with
    | .ok y, .ok z => decide (isFin y) && decide (isFin z) && decide (7 / 1000 ≤ toQ y ∧ 5 / 1000 ≤ toQ z ∧ toQ z ≤ 6 / 1000)
    | _, _ => false) = true := by decide +kernel
  split at a
  · next y z hy hz =>
    simp only [Bool.and_eq_true, decide_eq_true_eq] at a
    exact ⟨y, z, hy, hz, a.1.1, a.1.2, a.2⟩
  · cases a

end Verif

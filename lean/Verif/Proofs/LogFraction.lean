/-
The continued fraction of the logarithm that docs/internals/50_math.md gives, at every depth: the exact tails of the fraction are ratios of the
integrals `∫ (t (1 - t))^m / (1 + z t)^(m + 1)` over [0, 1].
-/
import Verif.Spec.Fraction
import Mathlib.Analysis.SpecialFunctions.Integrals.Basic
import Mathlib.Analysis.SpecificLimits.Normed
import Mathlib.Analysis.SpecialFunctions.Log.Deriv
import Mathlib.MeasureTheory.Integral.IntervalIntegral.FundThmCalculus
import Mathlib.Tactic.LinearCombination
import Mathlib.Tactic.FieldSimp
import Mathlib.Tactic.Positivity

namespace Verif
namespace LogFraction
open intervalIntegral

/-- the integrand -/
noncomputable def f (z : ℝ) (m : ℕ) (t : ℝ) : ℝ := (t * (1 - t)) ^ m / (1 + z * t) ^ (m + 1)

noncomputable def J (z : ℝ) (m : ℕ) : ℝ := ∫ t in (0 : ℝ)..1, f z m t

theorem den_pos {z t : ℝ} (hz : -1 < z) (h0 : 0 ≤ t) (h1 : t ≤ 1) : 0 < 1 + z * t := by
  rcases h0.eq_or_lt with h | h
  · rw [← h]; norm_num
  · nlinarith

theorem f_cont {z : ℝ} (hz : -1 < z) (m : ℕ) : ContinuousOn (f z m) (Set.uIcc 0 1) := by
  rw [Set.uIcc_of_le zero_le_one]
  unfold f
  refine ContinuousOn.div (by fun_prop) (by fun_prop) fun t ht => pow_ne_zero _ (den_pos hz ht.1 ht.2).ne'

theorem f_int {z : ℝ} (hz : -1 < z) (m : ℕ) : IntervalIntegrable (f z m) MeasureTheory.volume 0 1 := (f_cont hz m).intervalIntegrable

theorem J_pos {z : ℝ} (hz : -1 < z) (m : ℕ) : 0 < J z m := by
  refine intervalIntegral_pos_of_pos_on (f_int hz m) (fun t ht => ?_) zero_lt_one
  have := den_pos hz ht.1.le ht.2.le
  have h1 : 0 < 1 - t := by linarith [ht.2]
  have h0 := ht.1
  unfold f
  positivity

/-- the antiderivative behind the recurrence -/
noncomputable def F (z : ℝ) (m : ℕ) (t : ℝ) : ℝ := (t * (1 - t)) ^ m * (1 - 2 * t - z * t ^ 2) / (1 + z * t) ^ (m + 1)

theorem F_deriv {z t : ℝ} (m : ℕ) (h : 1 + z * t ≠ 0) :
    HasDerivAt (F z m) (m * ((t * (1 - t)) ^ (m - 1) / (1 + z * t) ^ m) - (2 * m + 1) * (2 + z) * f z m t + (m + 1) * z ^ 2 * f z (m + 1) t) t := by
  have hu : HasDerivAt (fun t : ℝ => t * (1 - t)) (1 - 2 * t) t := by
    have := (hasDerivAt_id t).mul ((hasDerivAt_const t (1 : ℝ)).sub (hasDerivAt_id t))
    refine this.congr_deriv ?_
    simp; ring
  have hh : HasDerivAt (fun t : ℝ => 1 - 2 * t - z * t ^ 2) (-2 - 2 * z * t) t := by
    have := ((hasDerivAt_const t (1 : ℝ)).sub ((hasDerivAt_id t).const_mul 2)).sub (((hasDerivAt_id t).pow 2).const_mul z)
    refine this.congr_deriv ?_
    simp; ring
  have hw : HasDerivAt (fun t : ℝ => 1 + z * t) z t := by
    have := (hasDerivAt_const t (1 : ℝ)).add ((hasDerivAt_id t).const_mul z)
    refine this.congr_deriv ?_
    simp
  have := ((hu.pow m).mul hh).div (hw.pow (m + 1)) (pow_ne_zero _ h)
  refine this.congr_deriv ?_
  unfold f
  simp only [Pi.pow_apply, Pi.mul_apply, Nat.add_sub_cancel]
  rcases m with _ | m
  · simp
    field_simp
    ring
  · simp only [Nat.add_sub_cancel, Nat.cast_add, Nat.cast_one, pow_succ]
    have hW : (1 + z * t) ^ m ≠ 0 := pow_ne_zero _ h
    generalize (1 + z * t) ^ m = W at *
    generalize (t * (1 - t)) ^ m = A
    field_simp
    ring

theorem recurrence {z : ℝ} (hz : -1 < z) (m : ℕ) :
    (m + 1 : ℝ) * J z m - (2 * (m + 1) + 1) * (2 + z) * J z (m + 1) + (m + 2) * z ^ 2 * J z (m + 2) = 0 := by
  have key := integral_eq_sub_of_hasDerivAt (a := 0) (b := 1) (f := F z (m + 1))
    (f' := fun t => (m + 1 : ℝ) * f z m t - (2 * (m + 1) + 1) * (2 + z) * f z (m + 1) t + (m + 2) * z ^ 2 * f z (m + 2) t)
    (fun t ht => by
      rw [Set.uIcc_of_le zero_le_one] at ht
      refine (F_deriv (m + 1) (den_pos hz ht.1 ht.2).ne').congr_deriv ?_
      simp only [Nat.add_sub_cancel, f]
      push_cast
      ring)
    ((((f_int hz m).const_mul _).sub ((f_int hz (m + 1)).const_mul _)).add ((f_int hz (m + 2)).const_mul _))
  rw [integral_add (((f_int hz m).const_mul _).sub ((f_int hz (m + 1)).const_mul _)) ((f_int hz (m + 2)).const_mul _),
    integral_sub ((f_int hz m).const_mul _) ((f_int hz (m + 1)).const_mul _), intervalIntegral.integral_const_mul, intervalIntegral.integral_const_mul, intervalIntegral.integral_const_mul] at key
  unfold J
  rw [key]
  simp [F]

theorem base {z : ℝ} (hz : -1 < z) : (2 + z) * J z 0 - z ^ 2 * J z 1 = 2 := by
  have key := integral_eq_sub_of_hasDerivAt (a := 0) (b := 1) (f := F z 0)
    (f' := fun t => z ^ 2 * f z 1 t - (2 + z) * f z 0 t)
    (fun t ht => by
      rw [Set.uIcc_of_le zero_le_one] at ht
      refine (F_deriv 0 (den_pos hz ht.1 ht.2).ne').congr_deriv ?_
      simp only [f]
      push_cast
      ring)
    (((f_int hz 1).const_mul _).sub ((f_int hz 0).const_mul _))
  rw [integral_sub ((f_int hz 1).const_mul _) ((f_int hz 0).const_mul _), intervalIntegral.integral_const_mul, intervalIntegral.integral_const_mul] at key
  have h1 : (1 : ℝ) + z ≠ 0 := by linarith
  have : F z 0 1 - F z 0 0 = -2 := by
    unfold F
    simp
    field_simp
    ring
  unfold J
  linarith

theorem J_zero {z : ℝ} (hz : -1 < z) : z * J z 0 = Real.log (1 + z) := by
  have key := integral_eq_sub_of_hasDerivAt (a := 0) (b := 1) (f := fun t => Real.log (1 + z * t)) (f' := fun t => z * f z 0 t)
    (fun t ht => by
      rw [Set.uIcc_of_le zero_le_one] at ht
      have hw : HasDerivAt (fun t : ℝ => 1 + z * t) z t := by
        have := (hasDerivAt_const t (1 : ℝ)).add ((hasDerivAt_id t).const_mul z)
        refine this.congr_deriv ?_
        simp
      refine (hw.log (den_pos hz ht.1 ht.2).ne').congr_deriv ?_
      simp [f]
      ring)
    ((f_int hz 0).const_mul _)
  rw [intervalIntegral.integral_const_mul] at key
  unfold J
  rw [key]
  simp

theorem J_step {z : ℝ} (hz : -1 < z) (m : ℕ) : (1 + √(1 + z)) ^ 2 * J z (m + 1) ≤ J z m := by
  unfold J
  rw [← intervalIntegral.integral_const_mul]
  refine integral_mono_on zero_le_one ((f_int hz (m + 1)).const_mul _) (f_int hz m) fun t ht => ?_
  have hw := den_pos hz ht.1 ht.2
  have hu : 0 ≤ t * (1 - t) := mul_nonneg ht.1 (by linarith [ht.2])
  have hs : √(1 + z) ^ 2 = 1 + z := Real.sq_sqrt (by linarith)
  unfold f
  rw [pow_succ, pow_succ (1 + z * t) (m + 1), mul_div_assoc', div_le_div_iff₀ (by positivity) (by positivity)]
  have k : (1 + √(1 + z)) ^ 2 * (t * (1 - t)) ≤ 1 + z * t := by
    generalize √(1 + z) = s at *
    obtain rfl : z = s ^ 2 - 1 := by linarith
    nlinarith [sq_nonneg (1 - (1 + s) * t)]
  calc (1 + √(1 + z)) ^ 2 * ((t * (1 - t)) ^ m * (t * (1 - t))) * (1 + z * t) ^ (m + 1)
      = (t * (1 - t)) ^ m * (1 + z * t) ^ (m + 1) * ((1 + √(1 + z)) ^ 2 * (t * (1 - t))) := by ring
    _ ≤ (t * (1 - t)) ^ m * (1 + z * t) ^ (m + 1) * (1 + z * t) := by
      exact mul_le_mul_of_nonneg_left k (by positivity)
    _ = _ := by ring

/-- the exact tails of the fraction -/
noncomputable def c (z : ℝ) : ℕ → ℝ
  | 0 => 2 / J z 0
  | m + 1 => (m + 1) * J z m / J z (m + 1)

theorem c_pos {z : ℝ} (hz : -1 < z) (m : ℕ) : 0 < c z m := by
  cases m with
  | zero => exact div_pos two_pos (J_pos hz 0)
  | succ m => exact div_pos (mul_pos (by positivity) (J_pos hz m)) (J_pos hz (m + 1))

theorem c_rec {z : ℝ} (hz : -1 < z) (m : ℕ) : c z m = (2 * m + 1) * (2 + z) - (m + 1) ^ 2 * z ^ 2 / c z (m + 1) := by
  have h1 := (J_pos hz m).ne'
  have h2 := (J_pos hz (m + 1)).ne'
  have h3 : (m + 1 : ℝ) ≠ 0 := by positivity
  cases m with
  | zero =>
    have := base hz
    simp only [c, Nat.cast_zero]
    field_simp
    simp
    linarith
  | succ m =>
    have := recurrence hz m
    simp only [c]
    push_cast at *
    field_simp
    linear_combination this

theorem c_low {z : ℝ} (hz : -1 < z) (m : ℕ) : (m + 1) * (1 + √(1 + z)) ^ 2 ≤ c z (m + 1) := by
  simp only [c]
  rw [le_div_iff₀ (J_pos hz _), mul_assoc]
  exact mul_le_mul_of_nonneg_left (J_step hz m) (by positivity)

/-- the denominators of the truncated fraction, with `n` levels below -/
noncomputable def T (z : ℝ) (n m : ℕ) : ℝ := (2 * m + 1) * (2 + z) + Spec.logK z n (m + 1)

theorem T_zero (z : ℝ) (m : ℕ) : T z 0 m = (2 * m + 1) * (2 + z) := by simp [T, Spec.logK]

theorem T_succ (z : ℝ) (n m : ℕ) : T z (n + 1) m = (2 * m + 1) * (2 + z) - (m + 1) ^ 2 * z ^ 2 / T z n (m + 1) := by
  simp only [T, Spec.logK]
  push_cast
  ring

theorem T_low {z : ℝ} (hz : -1 < z) (n m : ℕ) : c z m ≤ T z n m := by
  induction n generalizing m with
  | zero =>
    rw [T_zero, c_rec hz m]
    have := c_pos hz (m + 1)
    have : 0 ≤ (m + 1 : ℝ) ^ 2 * z ^ 2 / c z (m + 1) := by positivity
    linarith
  | succ n ih =>
    rw [T_succ, c_rec hz m]
    have := div_le_div_of_nonneg_left (a := (m + 1 : ℝ) ^ 2 * z ^ 2) (by positivity) (c_pos hz (m + 1)) (ih (m + 1))
    linarith

theorem T_pos {z : ℝ} (hz : -1 < z) (n m : ℕ) : 0 < T z n m := (c_pos hz m).trans_le (T_low hz n m)

theorem T_anti {z : ℝ} (hz : -1 < z) (h0 : z ≠ 0) (n m : ℕ) : T z (n + 1) m < T z n m := by
  have hz2 : 0 < z ^ 2 := by positivity
  induction n generalizing m with
  | zero =>
    rw [T_succ, T_zero z m]
    have := T_pos hz 0 (m + 1)
    have : 0 < (m + 1 : ℝ) ^ 2 * z ^ 2 / T z 0 (m + 1) := by positivity
    linarith
  | succ n ih =>
    rw [T_succ z (n + 1) m, T_succ z n m]
    have := div_lt_div_of_pos_left (a := (m + 1 : ℝ) ^ 2 * z ^ 2) (by positivity) (T_pos hz (n + 1) (m + 1)) (ih (m + 1))
    linarith

theorem T_strict {z : ℝ} (hz : -1 < z) (h0 : z ≠ 0) (n m : ℕ) : c z m < T z n m :=
  (T_low hz (n + 1) m).trans_lt (T_anti hz h0 n m)

theorem T_err {z : ℝ} (hz : -1 < z) (n m : ℕ) :
    T z n m - c z m ≤ (m + n + 1) * (z ^ 2 / (1 + √(1 + z)) ^ 4) ^ n * (z ^ 2 / (1 + √(1 + z)) ^ 2) := by
  have hq : 0 < (1 + √(1 + z)) ^ 2 := by positivity
  induction n generalizing m with
  | zero =>
    rw [T_zero, c_rec hz m]
    have h1 := c_low hz m
    have : (m + 1 : ℝ) ^ 2 * z ^ 2 / c z (m + 1) ≤ (m + 1) ^ 2 * z ^ 2 / ((m + 1) * (1 + √(1 + z)) ^ 2) :=
      div_le_div_of_nonneg_left (by positivity) (by positivity) h1
    have e : (m + 1 : ℝ) ^ 2 * z ^ 2 / ((m + 1) * (1 + √(1 + z)) ^ 2) = (m + 1) * (z ^ 2 / (1 + √(1 + z)) ^ 2) := by
      field_simp
    rw [e] at this
    simp only [pow_zero, mul_one, Nat.cast_zero, add_zero]
    linarith
  | succ n ih =>
    rw [T_succ, c_rec hz m]
    have hc := c_pos hz (m + 1)
    have hT := T_pos hz n (m + 1)
    have l1 := c_low hz m
    have l2 := l1.trans (T_low hz n (m + 1))
    have d0 : 0 ≤ T z n (m + 1) - c z (m + 1) := sub_nonneg.mpr (T_low hz n (m + 1))
    have e : (2 * m + 1) * (2 + z) - (m + 1) ^ 2 * z ^ 2 / T z n (m + 1) -
        ((2 * m + 1) * (2 + z) - (m + 1) ^ 2 * z ^ 2 / c z (m + 1)) =
        (m + 1) ^ 2 * z ^ 2 * (T z n (m + 1) - c z (m + 1)) / (c z (m + 1) * T z n (m + 1)) := by
      field_simp
      ring
    rw [e]
    have p : ((m + 1) * (1 + √(1 + z)) ^ 2) * ((m + 1) * (1 + √(1 + z)) ^ 2) ≤ c z (m + 1) * T z n (m + 1) :=
      mul_le_mul l1 l2 (by positivity) hc.le
    refine (div_le_div_of_nonneg_left (by positivity) (by positivity) p).trans ?_
    have e2 : (m + 1 : ℝ) ^ 2 * z ^ 2 * (T z n (m + 1) - c z (m + 1)) / (((m + 1) * (1 + √(1 + z)) ^ 2) * ((m + 1) * (1 + √(1 + z)) ^ 2)) =
        z ^ 2 / (1 + √(1 + z)) ^ 4 * (T z n (m + 1) - c z (m + 1)) := by
      field_simp
    rw [e2]
    have := mul_le_mul_of_nonneg_left (ih (m + 1)) (show 0 ≤ z ^ 2 / (1 + √(1 + z)) ^ 4 by positivity)
    refine this.trans (le_of_eq ?_)
    push_cast
    ring

theorem logCF_eq (x : ℝ) (d : ℕ) : Spec.logCF x (d + 1) = 2 * (x - 1) / T (x - 1) d 0 := by
  simp [Spec.logCF, T]

theorem log_eq {x : ℝ} (hx : 0 < x) : Real.log x = 2 * (x - 1) / c (x - 1) 0 := by
  have h := J_zero (z := x - 1) (by linarith)
  rw [add_sub_cancel] at h
  have := (J_pos (z := x - 1) (by linarith) 0).ne'
  rw [← h]
  simp only [c]
  field_simp

theorem c_zero_low {x : ℝ} (hx : 0 < x) : 2 * √x ≤ c (x - 1) 0 := by
  have hz : -1 < x - 1 := by linarith
  have hs : √x ^ 2 = x := Real.sq_sqrt hx.le
  have h1 := c_low hz 0
  rw [add_sub_cancel] at h1
  rw [c_rec hz 0]
  have : ((0 : ℕ) + 1 : ℝ) ^ 2 * (x - 1) ^ 2 / c (x - 1) (0 + 1) ≤ ((0 : ℕ) + 1 : ℝ) ^ 2 * (x - 1) ^ 2 / (((0 : ℕ) + 1) * (1 + √x) ^ 2) :=
    div_le_div_of_nonneg_left (by positivity) (by positivity) h1
  refine le_trans ?_ (sub_le_sub_left this _)
  have e : ((0 : ℕ) + 1 : ℝ) ^ 2 * (x - 1) ^ 2 / (((0 : ℕ) + 1) * (1 + √x) ^ 2) = (√x - 1) ^ 2 := by
    have : (1 + √x) ^ 2 ≠ 0 := by positivity
    rw [div_eq_iff (by simpa using this)]
    generalize √x = s at *
    subst hs
    push_cast
    ring
  rw [e]
  generalize √x = s at *
  subst hs
  push_cast
  linarith

/-- the relative error at depth `d + 1` -/
theorem logCF_err {x : ℝ} (hx : 0 < x) (d : ℕ) :
    |Spec.logCF x (d + 1) - Real.log x| ≤
      (d + 1) * (((√x - 1) / (√x + 1)) ^ 2) ^ d * ((√x - 1) ^ 2 / (2 * √x)) * |Real.log x| := by
  have hz : -1 < x - 1 := by linarith
  have hs0 : 0 < √x := Real.sqrt_pos.mpr hx
  have hs : √x ^ 2 = x := Real.sq_sqrt hx.le
  have hc := c_pos hz 0
  have hT := T_pos hz d 0
  have he := T_err hz d 0
  rw [add_sub_cancel] at he
  have hl := c_zero_low hx
  have h0 : 0 ≤ T (x - 1) d 0 - c (x - 1) 0 := sub_nonneg.mpr (T_low hz d 0)
  have e : Spec.logCF x (d + 1) - Real.log x = -((T (x - 1) d 0 - c (x - 1) 0) / T (x - 1) d 0 * Real.log x) := by
    rw [logCF_eq, log_eq hx]
    field_simp
    ring
  rw [e, abs_neg, abs_mul]
  refine mul_le_mul_of_nonneg_right ?_ (abs_nonneg _)
  rw [abs_of_nonneg (div_nonneg h0 hT.le)]
  have r1 : (x - 1) ^ 2 / (1 + √x) ^ 4 = ((√x - 1) / (√x + 1)) ^ 2 := by
    rw [div_pow, div_eq_div_iff (by positivity) (by positivity)]
    generalize √x = s at *
    subst hs
    ring
  have r2 : (x - 1) ^ 2 / (1 + √x) ^ 2 = (√x - 1) ^ 2 := by
    rw [div_eq_iff (by positivity)]
    generalize √x = s at *
    subst hs
    ring
  rw [r1, r2] at he
  have : (T (x - 1) d 0 - c (x - 1) 0) / T (x - 1) d 0 ≤ (T (x - 1) d 0 - c (x - 1) 0) / (2 * √x) :=
    div_le_div_of_nonneg_left h0 (by positivity) (hl.trans (T_low hz d 0))
  refine this.trans ?_
  rw [div_le_iff₀ (by positivity)]
  refine he.trans (le_of_eq ?_)
  push_cast
  field_simp
  ring

end LogFraction
end Verif

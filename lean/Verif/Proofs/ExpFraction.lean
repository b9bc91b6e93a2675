/-
The continued fraction of the exponential that docs/internals/50_math.md gives, at every depth: the exact tails of the fraction are ratios of
the integrals `∫ (t (1 - t))^m exp (z t)` over [0, 1].
-/
import Verif.Spec.Fraction
import Mathlib.Analysis.SpecialFunctions.Integrals.Basic
import Mathlib.Analysis.SpecialFunctions.ExpDeriv
import Mathlib.Analysis.SpecificLimits.Normed
import Mathlib.Topology.Algebra.Order.Floor
import Mathlib.MeasureTheory.Integral.IntervalIntegral.FundThmCalculus
import Mathlib.Analysis.Complex.ExponentialBounds
import Mathlib.Tactic.LinearCombination
import Mathlib.Tactic.FieldSimp
import Mathlib.Tactic.Positivity

namespace Verif
namespace ExpFraction
open intervalIntegral

noncomputable def f (z : ℝ) (m : ℕ) (t : ℝ) : ℝ := (t * (1 - t)) ^ m * Real.exp (z * t)

noncomputable def E (z : ℝ) (m : ℕ) : ℝ := ∫ t in (0 : ℝ)..1, f z m t

theorem f_int (z : ℝ) (m : ℕ) : IntervalIntegrable (f z m) MeasureTheory.volume 0 1 := by
  refine Continuous.intervalIntegrable ?_ _ _
  unfold f
  fun_prop

theorem E_pos (z : ℝ) (m : ℕ) : 0 < E z m := by
  refine intervalIntegral_pos_of_pos_on (f_int z m) (fun t ht => ?_) zero_lt_one
  have h1 : 0 < 1 - t := by linarith [ht.2]
  have h0 := ht.1
  unfold f
  positivity

noncomputable def F (z : ℝ) (m : ℕ) (t : ℝ) : ℝ :=
  ((t * (1 - t)) ^ m * (1 - 2 * t) - z / (m + 1) * (t * (1 - t)) ^ (m + 1)) * Real.exp (z * t)

theorem F_deriv (z t : ℝ) (m : ℕ) :
    HasDerivAt (F z m) (m * ((t * (1 - t)) ^ (m - 1) * Real.exp (z * t)) - (4 * m + 2) * f z m t - z ^ 2 / (m + 1) * f z (m + 1) t) t := by
  have hu : HasDerivAt (fun t : ℝ => t * (1 - t)) (1 - 2 * t) t := by
    have := (hasDerivAt_id t).mul ((hasDerivAt_const t (1 : ℝ)).sub (hasDerivAt_id t))
    refine this.congr_deriv ?_
    simp; ring
  have hh : HasDerivAt (fun t : ℝ => 1 - 2 * t) (-2) t := by
    have := (hasDerivAt_const t (1 : ℝ)).sub ((hasDerivAt_id t).const_mul 2)
    refine this.congr_deriv ?_
    simp
  have hw : HasDerivAt (fun t : ℝ => z * t) z t := by
    have := (hasDerivAt_id t).const_mul z
    refine this.congr_deriv ?_
    simp
  have := (((hu.pow m).mul hh).sub ((hu.pow (m + 1)).const_mul (z / (m + 1)))).mul hw.exp
  refine this.congr_deriv ?_
  unfold f
  have hm : (m + 1 : ℝ) ≠ 0 := by positivity
  simp only [Pi.pow_apply, Pi.mul_apply, Pi.sub_apply, Nat.add_sub_cancel]
  rcases m with _ | m
  · simp
    ring
  · simp only [Nat.add_sub_cancel, Nat.cast_add, Nat.cast_one, pow_succ] at *
    generalize (t * (1 - t)) ^ m = A
    field_simp
    ring

theorem recurrence (z : ℝ) (m : ℕ) :
    (m + 1 : ℝ) * E z m - (4 * (m + 1) + 2) * E z (m + 1) - z ^ 2 / (m + 2) * E z (m + 2) = 0 := by
  have key := integral_eq_sub_of_hasDerivAt (a := 0) (b := 1) (f := F z (m + 1))
    (f' := fun t => (m + 1 : ℝ) * f z m t - (4 * (m + 1) + 2) * f z (m + 1) t - z ^ 2 / (m + 2) * f z (m + 2) t)
    (fun t _ => by
      refine (F_deriv z t (m + 1)).congr_deriv ?_
      simp only [Nat.add_sub_cancel, f]
      push_cast
      rw [show (m + 1 + 1 : ℝ) = m + 2 by ring])
    ((((f_int z m).const_mul _).sub ((f_int z (m + 1)).const_mul _)).sub ((f_int z (m + 2)).const_mul _))
  rw [integral_sub (((f_int z m).const_mul _).sub ((f_int z (m + 1)).const_mul _)) ((f_int z (m + 2)).const_mul _),
    integral_sub ((f_int z m).const_mul _) ((f_int z (m + 1)).const_mul _), intervalIntegral.integral_const_mul,
    intervalIntegral.integral_const_mul, intervalIntegral.integral_const_mul] at key
  unfold E
  rw [key]
  simp [F]

theorem base (z : ℝ) : 2 * E z 0 + z ^ 2 * E z 1 = Real.exp z + 1 := by
  have key := integral_eq_sub_of_hasDerivAt (a := 0) (b := 1) (f := F z 0)
    (f' := fun t => -2 * f z 0 t - z ^ 2 * f z 1 t)
    (fun t _ => by
      refine (F_deriv z t 0).congr_deriv ?_
      simp)
    (((f_int z 0).const_mul _).sub ((f_int z 1).const_mul _))
  rw [integral_sub ((f_int z 0).const_mul _) ((f_int z 1).const_mul _), intervalIntegral.integral_const_mul,
    intervalIntegral.integral_const_mul] at key
  have : F z 0 1 - F z 0 0 = -(Real.exp z + 1) := by
    unfold F
    simp
    ring
  unfold E
  linarith

theorem E_zero (z : ℝ) : z * E z 0 = Real.exp z - 1 := by
  have key := integral_eq_sub_of_hasDerivAt (a := 0) (b := 1) (f := fun t => Real.exp (z * t)) (f' := fun t => z * f z 0 t)
    (fun t _ => by
      have hw : HasDerivAt (fun t : ℝ => z * t) z t := by
        have := (hasDerivAt_id t).const_mul z
        refine this.congr_deriv ?_
        simp
      refine hw.exp.congr_deriv ?_
      simp [f]
      ring)
    ((f_int z 0).const_mul _)
  rw [intervalIntegral.integral_const_mul] at key
  unfold E
  rw [key]
  simp

/-- the exact tails of the fraction -/
noncomputable def g (z : ℝ) : ℕ → ℝ
  | 0 => (Real.exp z + 1) / (2 * E z 0)
  | m + 1 => (m + 1) * E z m / ((4 * m + 6) * E z (m + 1))

theorem g_pos (z : ℝ) (m : ℕ) : 0 < g z m := by
  cases m with
  | zero => exact div_pos (by positivity) (mul_pos two_pos (E_pos z 0))
  | succ m => exact div_pos (mul_pos (by positivity) (E_pos z m)) (mul_pos (by positivity) (E_pos z (m + 1)))

theorem g_rec (z : ℝ) (m : ℕ) : g z m = 1 + z ^ 2 / (4 * (2 * m + 1) * (2 * m + 3) * g z (m + 1)) := by
  have h1 := (E_pos z m).ne'
  have h2 := (E_pos z (m + 1)).ne'
  have h3 : (m + 1 : ℝ) ≠ 0 := by positivity
  have h5 : (2 * m + 1 : ℝ) ≠ 0 := by positivity
  have h6 : (2 * m + 3 : ℝ) ≠ 0 := by positivity
  have h7 : (4 * m + 6 : ℝ) ≠ 0 := by positivity
  cases m with
  | zero =>
    have := base z
    simp only [g, Nat.cast_zero]
    field_simp
    ring_nf
    linarith
  | succ m =>
    have := recurrence z m
    have h4 : (m + 2 : ℝ) ≠ 0 := by positivity
    have h8 : (4 * m + 6 : ℝ) ≠ 0 := by positivity
    simp only [g]
    push_cast at *
    have h9 : (m + 1 + 1 : ℝ) ≠ 0 := by positivity
    field_simp at this ⊢
    linear_combination this * (4 * (2 * m + 3) * (2 * m + 5))

theorem g_one (z : ℝ) (m : ℕ) : 1 ≤ g z m := by
  rw [g_rec]
  have := g_pos z (m + 1)
  have : 0 ≤ z ^ 2 / (4 * (2 * m + 1) * (2 * m + 3) * g z (m + 1)) := by positivity
  linarith

/-- the denominators of the truncated fraction, with `n` levels below -/
noncomputable def G (z : ℝ) (n m : ℕ) : ℝ := 1 + Spec.expK (z * z) n (m + 1)

theorem G_succ (z : ℝ) (n m : ℕ) : G z (n + 1) m = 1 + z ^ 2 / (4 * (2 * m + 1) * (2 * m + 3) * G z n (m + 1)) := by
  simp only [G, Spec.expK]
  push_cast
  rw [show (2 * (m + 1) - 1 : ℝ) = 2 * m + 1 by ring, show (2 * (m + 1) + 1 : ℝ) = 2 * m + 3 by ring, pow_two]

theorem G_one (z : ℝ) (n m : ℕ) : 1 ≤ G z n m := by
  induction n generalizing m with
  | zero => simp [G, Spec.expK]
  | succ n ih =>
    rw [G_succ]
    have := ih (m + 1)
    have : 0 ≤ z ^ 2 / (4 * (2 * m + 1) * (2 * m + 3) * G z n (m + 1)) := by positivity
    linarith

/-- the product of `k` coefficients of the fraction, the first one with the index `m + 1` -/
noncomputable def P (z : ℝ) : ℕ → ℕ → ℝ
  | 0, _ => 1
  | k + 1, m => z ^ 2 / (4 * (2 * m + 1) * (2 * m + 3)) * P z k (m + 1)

theorem P_nonneg (z : ℝ) (k m : ℕ) : 0 ≤ P z k m := by
  induction k generalizing m with
  | zero => exact zero_le_one
  | succ k ih =>
    have := ih (m + 1)
    unfold P
    positivity

theorem G_err (z : ℝ) (n m : ℕ) : |G z n m - g z m| ≤ P z (n + 1) m := by
  induction n generalizing m with
  | zero =>
    have e : G z 0 m = 1 := by simp [G, Spec.expK]
    have h := g_one z (m + 1)
    rw [e, g_rec, sub_add_cancel_left, abs_neg, abs_of_nonneg (by have := g_pos z (m + 1); positivity)]
    simp only [P, mul_one]
    exact div_le_div_of_nonneg_left (by positivity) (by positivity) (le_mul_of_one_le_right (by positivity) h)
  | succ n ih =>
    have h1 := G_one z n (m + 1)
    have h2 := g_one z (m + 1)
    have p1 : 0 < G z n (m + 1) := by linarith
    have p2 : 0 < g z (m + 1) := by linarith
    have h5 : (2 * m + 1 : ℝ) ≠ 0 := by positivity
    have h6 : (2 * m + 3 : ℝ) ≠ 0 := by positivity
    have e : G z (n + 1) m - g z m = -(z ^ 2 / (4 * (2 * m + 1) * (2 * m + 3)) * ((G z n (m + 1) - g z (m + 1)) / (G z n (m + 1) * g z (m + 1)))) := by
      rw [G_succ, g_rec]
      field_simp
      ring
    rw [e, abs_neg, abs_mul, abs_of_nonneg (by positivity)]
    show _ ≤ z ^ 2 / (4 * (2 * m + 1) * (2 * m + 3)) * P z (n + 1) (m + 1)
    refine mul_le_mul_of_nonneg_left ?_ (by positivity)
    rw [abs_div, abs_of_pos (mul_pos p1 p2)]
    refine (div_le_self (abs_nonneg _) ?_).trans (ih (m + 1))
    nlinarith

theorem P_le (z : ℝ) (k m : ℕ) : P z k m ≤ (z ^ 2) ^ k / k.factorial := by
  have key : ∀ k m : ℕ, P z k m * ((m + k).factorial : ℝ) ≤ (z ^ 2) ^ k * m.factorial := by
    intro k
    induction k with
    | zero => intro m; simp [P]
    | succ k ih =>
      intro m
      have h := ih (m + 1)
      have hf : ((m + 1).factorial : ℝ) = (m + 1) * m.factorial := by rw [Nat.factorial_succ]; push_cast; ring
      rw [hf, show m + 1 + k = m + (k + 1) by omega] at h
      have h0 := P_nonneg z k (m + 1)
      have hq : (m + 1 : ℝ) / (4 * (2 * m + 1) * (2 * m + 3)) ≤ 1 := by
        rw [div_le_one (by positivity)]
        have : (0 : ℝ) ≤ m := Nat.cast_nonneg m
        nlinarith
      calc P z (k + 1) m * ((m + (k + 1)).factorial : ℝ)
          = z ^ 2 / (4 * (2 * m + 1) * (2 * m + 3)) * (P z k (m + 1) * ((m + (k + 1)).factorial : ℝ)) := by
            show z ^ 2 / (4 * (2 * m + 1) * (2 * m + 3)) * P z k (m + 1) * _ = _
            ring
        _ ≤ z ^ 2 / (4 * (2 * m + 1) * (2 * m + 3)) * ((z ^ 2) ^ k * ((m + 1) * m.factorial)) :=
            mul_le_mul_of_nonneg_left h (by positivity)
        _ = (z ^ 2) ^ (k + 1) * m.factorial * ((m + 1) / (4 * (2 * m + 1) * (2 * m + 3))) := by ring
        _ ≤ (z ^ 2) ^ (k + 1) * m.factorial * 1 := mul_le_mul_of_nonneg_left hq (by positivity)
        _ = _ := mul_one _
  rw [le_div_iff₀ (by positivity)]
  have h1 := key k m
  have h2 : (m.factorial : ℝ) * k.factorial ≤ (m + k).factorial := by
    exact_mod_cast Nat.le_of_dvd (Nat.factorial_pos _) (Nat.factorial_mul_factorial_dvd_factorial_add m k)
  have hm : (0 : ℝ) < m.factorial := by positivity
  have := (mul_le_mul_of_nonneg_left h2 (P_nonneg z k m)).trans h1
  nlinarith

/-- the truncated fractions lie alternately below and above the limit -/
theorem G_sign {z : ℝ} (hz : z ≠ 0) (n m : ℕ) : (Even n → G z n m < g z m) ∧ (¬ Even n → g z m < G z n m) := by
  induction n generalizing m with
  | zero =>
    refine ⟨fun _ => ?_, fun h => absurd Even.zero h⟩
    have e : G z 0 m = 1 := by simp [G, Spec.expK]
    rw [e, g_rec]
    have := g_pos z (m + 1)
    have : 0 < z ^ 2 / (4 * (2 * m + 1) * (2 * m + 3) * g z (m + 1)) := by positivity
    linarith
  | succ n ih =>
    have h1 := g_pos z (m + 1)
    have h2 := lt_of_lt_of_le one_pos (G_one z n (m + 1))
    have hz2 : 0 < z ^ 2 := by positivity
    have hc : (0 : ℝ) < 4 * (2 * m + 1) * (2 * m + 3) := by positivity
    rw [Nat.even_add_one, not_not, G_succ, g_rec]
    constructor
    · intro h
      have := (ih (m + 1)).2 h
      have : z ^ 2 / (4 * (2 * m + 1) * (2 * m + 3) * G z n (m + 1)) < z ^ 2 / (4 * (2 * m + 1) * (2 * m + 3) * g z (m + 1)) :=
        div_lt_div_of_pos_left hz2 (by positivity) (by nlinarith)
      linarith
    · intro h
      have := (ih (m + 1)).1 h
      have : z ^ 2 / (4 * (2 * m + 1) * (2 * m + 3) * g z (m + 1)) < z ^ 2 / (4 * (2 * m + 1) * (2 * m + 3) * G z n (m + 1)) :=
        div_lt_div_of_pos_left hz2 (by positivity) (by nlinarith)
      linarith

theorem expCF_eq (z : ℝ) (d : ℕ) : Spec.expCF z (d + 1) = 1 + 2 * z / (2 * G z d 0 - z) := by
  simp only [Spec.expCF, G, Nat.add_sub_cancel]
  congr 2
  ring

theorem den_exact (z : ℝ) : 2 * g z 0 - z = 2 / E z 0 := by
  have h := E_zero z
  have := (E_pos z 0).ne'
  simp only [g]
  field_simp
  linarith

theorem exp_eq (z : ℝ) : Real.exp z = 1 + 2 * z / (2 * g z 0 - z) := by
  have h := E_zero z
  have := (E_pos z 0).ne'
  rw [den_exact]
  field_simp
  linarith

theorem expCF_sign {z : ℝ} (h0 : 0 < z) (h2 : z < 2) (d : ℕ) :
    (Even d → Real.exp z < Spec.expCF z (d + 1)) ∧ (¬ Even d → Spec.expCF z (d + 1) < Real.exp z) := by
  have hG := G_one z d 0
  have hg := g_one z 0
  rw [expCF_eq, exp_eq]
  constructor
  · intro h
    have := (G_sign h0.ne' d 0).1 h
    have := div_lt_div_of_pos_left (a := 2 * z) (b := 2 * g z 0 - z) (c := 2 * G z d 0 - z) (by linarith) (by linarith) (by linarith)
    linarith
  · intro h
    have := (G_sign h0.ne' d 0).2 h
    have := div_lt_div_of_pos_left (a := 2 * z) (b := 2 * G z d 0 - z) (c := 2 * g z 0 - z) (by linarith) (by linarith) (by linarith)
    linarith

/-- `expCF` converges at every number -/
theorem expCF_tendsto (z : ℝ) : Filter.Tendsto (Spec.expCF z) Filter.atTop (nhds (Real.exp z)) := by
  rw [← Filter.tendsto_add_atTop_iff_nat 1]
  have h0 : Filter.Tendsto (fun d => G z d 0) Filter.atTop (nhds (g z 0)) := by
    rw [tendsto_iff_norm_sub_tendsto_zero]
    have h1 := (FloorSemiring.tendsto_pow_div_factorial_atTop (z ^ 2)).comp (Filter.tendsto_add_atTop_nat 1)
    refine squeeze_zero (fun _ => norm_nonneg _) (fun d => ?_) h1
    exact (G_err z d 0).trans (P_le z (d + 1) 0)
  have h2 : (2 * g z 0 - z) ≠ 0 := by rw [den_exact]; exact (div_pos two_pos (E_pos z 0)).ne'
  have h3 := ((tendsto_const_nhds (x := 2 * z)).div ((h0.const_mul 2).sub_const z) h2).const_add 1
  rw [← exp_eq] at h3
  refine h3.congr fun d => (expCF_eq z d).symm

theorem E_le {z : ℝ} (h : |z| ≤ 1) : E z 0 ≤ 2 ∧ E z 0 ≤ 2 * Real.exp z := by
  obtain ⟨h1, h2⟩ := abs_le.mp h
  have hb : ∀ y : ℝ, |y| ≤ 1 → Real.exp y ≤ 1 + y + y ^ 2 := fun y hy => by
    have := abs_le.mp (Real.abs_exp_sub_one_sub_id_le hy)
    linarith [this.2]
  have e : ∀ y : ℝ, |y| ≤ 1 → E y 0 ≤ 2 := fun y hy => by
    have h := E_zero y
    rcases lt_trichotomy y 0 with c | c | c
    · have := Real.add_one_le_exp y
      nlinarith [abs_le.mp hy]
    · subst c
      unfold E f
      simp
    · have := hb y hy
      have := (abs_le.mp hy).2
      have : y * E y 0 ≤ y * 2 := by nlinarith
      exact le_of_mul_le_mul_left this c
  refine ⟨e z h, ?_⟩
  have h3 := e (-z) (by rwa [abs_neg])
  have : E z 0 = Real.exp z * E (-z) 0 := by
    rcases eq_or_ne z 0 with c | c
    · subst c; simp
    · have a := E_zero z
      have b := E_zero (-z)
      have m : Real.exp z * Real.exp (-z) = 1 := by rw [← Real.exp_add]; simp
      refine mul_left_cancel₀ c ?_
      linear_combination a + Real.exp z * b + m
  rw [this]
  nlinarith [Real.exp_pos z]

/-- the relative error on [-1, 1] at depth `d + 1` -/
theorem expCF_err {z : ℝ} (h : |z| ≤ 1) (d : ℕ) : |Spec.expCF z (d + 1) - Real.exp z| ≤ 8 * |z| * P z (d + 1) 0 * Real.exp z := by
  obtain ⟨b1, b2⟩ := E_le h
  have hE := E_pos z 0
  have he := G_err z d 0
  have hD : 1 ≤ 2 * g z 0 - z := by
    rw [den_exact, le_div_iff₀ hE]
    linarith
  have h1 : 2 * G z d 0 - z ≥ 1 := by
    have := G_one z d 0
    have := (abs_le.mp h).2
    linarith
  have e : Spec.expCF z (d + 1) - Real.exp z = 2 * z * (2 * (g z 0 - G z d 0)) / ((2 * G z d 0 - z) * (2 * g z 0 - z)) := by
    rw [expCF_eq, exp_eq]
    have p1 : 2 * G z d 0 - z ≠ 0 := by linarith
    have p2 : 2 * g z 0 - z ≠ 0 := by linarith
    field_simp
    ring
  rw [e, abs_div, abs_mul, abs_mul, abs_mul, abs_sub_comm, abs_two, abs_mul (2 * G z d 0 - z)]
  have p : 2 / E z 0 ≤ |2 * G z d 0 - z| * |2 * g z 0 - z| := by
    rw [abs_of_pos (by linarith : 0 < 2 * G z d 0 - z), den_exact, abs_of_pos (div_pos two_pos hE)]
    exact le_mul_of_one_le_left (div_pos two_pos hE).le h1
  refine (div_le_div_of_nonneg_left (by positivity) (div_pos two_pos hE) p).trans ?_
  have e2 : 2 * |z| * (2 * |G z d 0 - g z 0|) / (2 / E z 0) = 2 * |z| * |G z d 0 - g z 0| * E z 0 := by
    field_simp
  rw [e2]
  have := P_nonneg z (d + 1) 0
  calc 2 * |z| * |G z d 0 - g z 0| * E z 0 ≤ 2 * |z| * P z (d + 1) 0 * (2 * Real.exp z) := by
        refine mul_le_mul (mul_le_mul_of_nonneg_left he (by positivity)) b2 hE.le (by positivity)
    _ ≤ _ := by
        have := Real.exp_pos z
        have : 0 ≤ |z| * P z (d + 1) 0 * Real.exp z := by positivity
        linarith

end ExpFraction
end Verif

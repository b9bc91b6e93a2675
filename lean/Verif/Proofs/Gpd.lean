/-
The tail functions in exact arithmetic.
-/
import Verif.XR.Math
import Verif.Spec.Gpd
import Verif.Proofs.Stats
import Verif.Proofs.Estim
import Mathlib.Tactic.FieldSimp
import Mathlib.Tactic.Positivity

namespace Verif
open XR

theorem tail_probability_exact {t : Tail XR} {γ σ s d : ℝ} (hg : t.gamma = fin γ) (hs : t.sigma = fin σ) (hσ : 0 < σ)
    (hd : Spec.InSupport γ σ d) :
    tail_probability exactMath t (fin s) (fin d) = .ok (fin (s * Spec.gpdSurvival γ σ d)) := by
  unfold tail_probability Spec.gpdSurvival
  rw [hg, hs, lit_fin, eq_ff]
  unfold Spec.InSupport at hd
  by_cases h0 : γ = 0
  · simp only [h0, Rat.cast_zero, decide_true, if_true]
    rw [neg_f, div_ff hσ.ne', exp_f]
    simp only [C.ok_bind, mul_ff]
  · simp only [h0, Rat.cast_zero, decide_false, if_false, Bool.false_eq_true]
    rw [div_ff hσ.ne', mul_ff, lit_fin, lit_fin, div_ff h0, add_ff]
    have e : ((1 : ℚ) : ℝ) + d * (γ / σ) = 1 + γ * d / σ := by push_cast; ring
    rw [e, xpow_f hd]
    simp only [C.ok_bind, mul_ff]
    norm_num

/-- the value computed by `tail_quantile` -/
noncomputable def quantR (γ σ s q : ℝ) : ℝ := if γ = 0 then -σ * Real.log (q / s) else σ / γ * ((q / s) ^ (-γ) - 1)

theorem tail_quantile_exact {t : Tail XR} {γ σ s q : ℝ} (hg : t.gamma = fin γ) (hs : t.sigma = fin σ)
    (hs0 : 0 < s) (hq : 0 < q) :
    tail_quantile exactMath t (fin s) (fin q) = .ok (fin (quantR γ σ s q)) := by
  unfold tail_quantile quantR
  have hr : 0 < q / s := div_pos hq hs0
  rw [hg, hs, lit_fin, eq_ff, div_ff hs0.ne']
  by_cases h0 : γ = 0
  · simp only [h0, Rat.cast_zero, decide_true, if_true]
    rw [neg_f, log_f hr, mul_ff]
  · simp only [h0, Rat.cast_zero, decide_false, if_false, Bool.false_eq_true]
    rw [neg_f, xpow_f hr, div_ff h0]
    simp only [C.ok_bind, lit_fin, sub_ff, mul_ff, Rat.cast_one]

theorem quantR_support {γ σ s q : ℝ} (hσ : 0 < σ) :
    1 + γ * quantR γ σ s q / σ = (if γ = 0 then 1 else (q / s) ^ (-γ)) := by
  unfold quantR
  split
  · next h => simp [h]
  · field_simp; ring

theorem quantR_inSupport {γ σ s q : ℝ} (hσ : 0 < σ) (hs0 : 0 < s) (hq : 0 < q) :
    Spec.InSupport γ σ (quantR γ σ s q) := by
  unfold Spec.InSupport
  rw [quantR_support hσ]
  split
  · norm_num
  · exact Real.rpow_pos_of_pos (div_pos hq hs0) _

theorem survival_quantR {γ σ s q : ℝ} (hσ : 0 < σ) (hs0 : 0 < s) (hq : 0 < q) :
    s * Spec.gpdSurvival γ σ (quantR γ σ s q) = q := by
  have hr : 0 < q / s := div_pos hq hs0
  unfold Spec.gpdSurvival
  split
  · next h =>
    unfold quantR
    rw [if_pos h]
    have : -(-σ * Real.log (q / s)) / σ = Real.log (q / s) := by field_simp
    rw [this, Real.exp_log hr]
    field_simp
  · next h =>
    rw [quantR_support hσ, if_neg h, ← Real.rpow_mul hr.le]
    have : -γ * (-1 / γ) = 1 := by field_simp
    rw [this, Real.rpow_one]
    field_simp

theorem quantR_survival {γ σ s d : ℝ} (hσ : 0 < σ) (hs0 : 0 < s) (hd : Spec.InSupport γ σ d) :
    quantR γ σ s (s * Spec.gpdSurvival γ σ d) = d := by
  unfold Spec.InSupport at hd
  unfold quantR Spec.gpdSurvival
  split
  · have : s * Real.exp (-d / σ) / s = Real.exp (-d / σ) := by field_simp
    rw [this, Real.log_exp]; field_simp
  · next h =>
    have : s * (1 + γ * d / σ) ^ (-1 / γ) / s = (1 + γ * d / σ) ^ (-1 / γ) := by field_simp
    rw [this, ← Real.rpow_mul hd.le]
    have : -1 / γ * -γ = 1 := by field_simp
    rw [this, Real.rpow_one]
    field_simp; ring

theorem survival_pos {γ σ d : ℝ} (hd : Spec.InSupport γ σ d) : 0 < Spec.gpdSurvival γ σ d := by
  unfold Spec.gpdSurvival
  split
  · exact Real.exp_pos _
  · exact Real.rpow_pos_of_pos hd _

theorem survival_strictAnti {γ σ d d' : ℝ} (hσ : 0 < σ) (hd : Spec.InSupport γ σ d) (hd' : Spec.InSupport γ σ d')
    (h : d < d') : Spec.gpdSurvival γ σ d' < Spec.gpdSurvival γ σ d := by
  unfold Spec.InSupport at hd hd'
  unfold Spec.gpdSurvival
  split
  · apply Real.exp_lt_exp.mpr
    apply div_lt_div_of_pos_right _ hσ
    linarith
  · next h0 =>
    rcases lt_or_gt_of_ne h0 with hg | hg
    · apply Real.rpow_lt_rpow hd'.le
      · have : γ * d' / σ < γ * d / σ := by
          apply div_lt_div_of_pos_right _ hσ
          exact mul_lt_mul_of_neg_left h hg
        linarith
      · exact div_pos_of_neg_of_neg (by norm_num) hg
    · apply Real.rpow_lt_rpow_of_neg hd
      · have : γ * d / σ < γ * d' / σ := by
          apply div_lt_div_of_pos_right _ hσ
          exact mul_lt_mul_of_pos_left h hg
        linarith
      · exact div_neg_of_neg_of_pos (by norm_num) hg

theorem quantR_strictAnti {γ σ s q q' : ℝ} (hσ : 0 < σ) (hs0 : 0 < s) (hq : 0 < q) (h : q < q') :
    quantR γ σ s q' < quantR γ σ s q := by
  have hq' : 0 < q' := hq.trans h
  by_contra hc
  push Not at hc
  have e := survival_quantR (γ := γ) hσ hs0 hq
  have e' := survival_quantR (γ := γ) hσ hs0 hq'
  rcases hc.lt_or_eq with hlt | heq
  · have := survival_strictAnti hσ (quantR_inSupport hσ hs0 hq) (quantR_inSupport hσ hs0 hq') hlt
    have := mul_lt_mul_of_pos_left this hs0
    linarith
  · rw [heq] at e; linarith

theorem quantR_self {γ σ s : ℝ} (hs0 : 0 < s) : quantR γ σ s s = 0 := by
  unfold quantR
  rw [div_self hs0.ne']
  simp

theorem foldl_fin_add (l : List ℝ) (f : XR → XR) (g : ℝ → ℝ) (hfg : ∀ x ∈ l, f (fin x) = fin (g x)) (s : ℝ) :
    (l.map fin).foldl (fun r v => r +. f v) (fin s) = fin (s + (l.map g).sum) := by
  induction l generalizing s with
  | nil => simp
  | cons x l ih =>
    simp only [List.map_cons, List.foldl_cons, List.sum_cons]
    rw [hfg x (List.mem_cons_self ..), add_ff, ih (fun y hy => hfg y (List.mem_cons_of_mem _ hy)), add_assoc]

theorem logLikL_exact {l : List ℝ} {γ σ : ℝ} (hσ : 0 < σ) (hx : ∀ x ∈ l, Spec.InSupport γ σ x) :
    logLikL exactMath (fin l.sum) (l.map fin) (fin γ) (fin σ) = fin (Spec.gpdLogLik γ σ l) := by
  unfold logLikL Spec.gpdLogLik Spec.gpdPdf
  simp only [lit_fin, eq_ff, log_f hσ, neg_f, mul_ff, List.length_map]
  by_cases h0 : γ = 0
  · simp only [h0, Rat.cast_zero, decide_true, if_true]
    rw [div_ff hσ.ne', sub_ff, fin_inj]
    clear hx
    induction l with
    | nil => simp
    | cons x l ih =>
      simp only [List.length_cons, List.sum_cons, List.map_cons]
      rw [Real.log_mul (by positivity) (Real.exp_pos _).ne', Real.log_exp, ← ih, one_div, Real.log_inv]
      push_cast
      ring
  · simp only [h0, Rat.cast_zero, decide_false, if_false, Bool.false_eq_true]
    have hstep : ∀ x ∈ l, (-. (fin ((1 : ℚ) : ℝ) +. fin ((1 : ℚ) : ℝ) /. fin γ)) *.
        exactMath.log (fin ((1 : ℚ) : ℝ) +. fin γ /. fin σ *. fin x) =
        fin (-(1 + 1 / γ) * Real.log (1 + γ * x / σ)) := by
      intro x hxl
      have h1 := hx x hxl
      unfold Spec.InSupport at h1
      rw [div_ff h0, div_ff hσ.ne', mul_ff, add_ff, add_ff, neg_f]
      have e : ((1 : ℚ) : ℝ) + γ / σ * x = 1 + γ * x / σ := by push_cast; ring
      rw [e, log_f h1, mul_ff]
      push_cast
      rfl
    rw [foldl_fin_add l (fun v => (-. (fin ((1 : ℚ) : ℝ) +. fin ((1 : ℚ) : ℝ) /. fin γ)) *.
        exactMath.log (fin ((1 : ℚ) : ℝ) +. fin γ /. fin σ *. v)) _ hstep, fin_inj]
    clear hstep
    induction l with
    | nil => simp
    | cons x l ih =>
      have h1 := hx x (List.mem_cons_self ..)
      unfold Spec.InSupport at h1
      simp only [List.length_cons, List.map_cons, List.sum_cons]
      rw [← ih (fun y hy => hx y (List.mem_cons_of_mem _ hy)),
        Real.log_mul (by positivity) (Real.rpow_pos_of_pos h1 _).ne', Real.log_rpow h1, one_div σ, Real.log_inv]
      push_cast
      ring

end Verif

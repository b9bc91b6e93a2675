/-
The generalised Pareto distribution with shape `γ` and scale `σ > 0` (exponential for `γ = 0`).
-/
import Mathlib.Analysis.SpecialFunctions.Pow.Real
import Mathlib.Analysis.SpecialFunctions.Pow.Deriv

namespace Verif
namespace Spec

/-- `d` is in the interior of the domain where the distribution has mass to its right: `1 + γ d/σ > 0` -/
def InSupport (γ σ d : ℝ) : Prop := 0 < 1 + γ * d / σ

/-- probability of exceeding `d` -/
noncomputable def gpdSurvival (γ σ d : ℝ) : ℝ :=
  if γ = 0 then Real.exp (-d / σ) else (1 + γ * d / σ) ^ (-1 / γ)

/-- density -/
noncomputable def gpdPdf (γ σ x : ℝ) : ℝ :=
  if γ = 0 then 1 / σ * Real.exp (-x / σ) else 1 / σ * (1 + γ * x / σ) ^ (-(1 + 1 / γ))

/-- log-likelihood of a sample -/
noncomputable def gpdLogLik (γ σ : ℝ) (l : List ℝ) : ℝ := (l.map fun x => Real.log (gpdPdf γ σ x)).sum

/-- mean (for γ < 1) -/
noncomputable def gpdMean (γ σ : ℝ) : ℝ := σ / (1 - γ)

/-- variance (for γ < 1/2) -/
noncomputable def gpdVar (γ σ : ℝ) : ℝ := σ ^ 2 / ((1 - γ) ^ 2 * (1 - 2 * γ))

/-- the density is minus the derivative of the survival function -/
theorem hasDerivAt_gpdSurvival {γ σ d : ℝ} (hσ : 0 < σ) (h : InSupport γ σ d) :
    HasDerivAt (gpdSurvival γ σ) (-gpdPdf γ σ d) d := by
  unfold gpdSurvival gpdPdf
  by_cases h0 : γ = 0
  · simp only [h0, if_true]
    have h1 : HasDerivAt (fun d : ℝ => -d / σ) (-1 / σ) d := ((hasDerivAt_id d).neg).div_const σ
    have h2 := h1.exp
    convert h2 using 1
    ring
  · simp only [h0, if_false]
    unfold InSupport at h
    have h1 : HasDerivAt (fun d : ℝ => 1 + γ * d / σ) (γ / σ) d := by
      have := (((hasDerivAt_id d).const_mul γ).div_const σ).const_add 1
      simpa using this
    have h2 := h1.rpow_const (p := -1 / γ) (Or.inl h.ne')
    convert h2 using 1
    have : -(1 + 1 / γ) = -1 / γ - 1 := by ring
    rw [this]
    field_simp

end Spec
end Verif

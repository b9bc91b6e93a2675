/-
Grimshaw's functions in exact arithmetic.
-/
import Verif.Proofs.Gpd

namespace Verif
open XR

/-- Σ log(1 + x y) -/
noncomputable def sumLog (x : ℝ) (l : List ℝ) : ℝ := (l.map fun y => Real.log (1 + x * y)).sum
/-- Σ 1/(1 + x y) -/
noncomputable def sumInv (x : ℝ) (l : List ℝ) : ℝ := (l.map fun y => 1 / (1 + x * y)).sum

theorem foldl_fin_pair (l : List ℝ) (f g : XR → XR) (f' g' : ℝ → ℝ) (hf : ∀ x ∈ l, f (fin x) = fin (f' x))
    (hg : ∀ x ∈ l, g (fin x) = fin (g' x)) (s t : ℝ) :
    (l.map fin).foldl (fun (r : XR × XR) v => (r.1 +. f v, r.2 +. g v)) (fin s, fin t) =
      (fin (s + (l.map f').sum), fin (t + (l.map g').sum)) := by
  induction l generalizing s t with
  | nil => simp
  | cons x l ih =>
    simp only [List.map_cons, List.foldl_cons, List.sum_cons]
    rw [hf x (List.mem_cons_self ..), hg x (List.mem_cons_self ..), add_ff, add_ff,
      ih (fun y hy => hf y (List.mem_cons_of_mem _ hy)) (fun y hy => hg y (List.mem_cons_of_mem _ hy)), add_assoc, add_assoc]

theorem grimshawWL_exact {l : List ℝ} {x : ℝ} (hl : l ≠ []) (hx : ∀ y ∈ l, 0 < 1 + x * y) :
    grimshawWL exactMath (l.map fin) (fin x) =
      fin (sumInv x l / l.length * (1 + sumLog x l / l.length) - 1) := by
  have hn : (l.length : ℝ) ≠ 0 := by
    have := List.length_pos_of_ne_nil hl
    exact_mod_cast this.ne'
  unfold grimshawWL
  rw [lit_fin, lit_fin, foldl_fin_pair l (fun y => fin ((1 : ℚ) : ℝ) /. (fin ((1 : ℚ) : ℝ) +. fin x *. y))
    (fun y => exactMath.log (fin ((1 : ℚ) : ℝ) +. fin x *. y)) (fun y => 1 / (1 + x * y)) (fun y => Real.log (1 + x * y))]
  · simp only [List.length_map, lit_fin, Rat.cast_natCast]
    rw [div_ff hn, div_ff hn, add_ff, mul_ff, sub_ff]
    simp [sumInv, sumLog]
  · intro y hy
    have := hx y hy
    rw [mul_ff, add_ff, div_ff (by push_cast; exact this.ne')]
    norm_num
  · intro y hy
    have := hx y hy
    rw [mul_ff, add_ff, log_f (by push_cast; exact this)]
    norm_num

theorem grimshawVL_exact {l : List ℝ} {x : ℝ} (hl : l ≠ []) (hx : ∀ y ∈ l, 0 < 1 + x * y) :
    grimshawVL exactMath (l.map fin) (fin x) = fin (1 + sumLog x l / l.length) := by
  have hn : (l.length : ℝ) ≠ 0 := by
    have := List.length_pos_of_ne_nil hl
    exact_mod_cast this.ne'
  unfold grimshawVL
  rw [lit_fin, lit_fin, foldl_fin_add l (fun y => exactMath.log (fin ((1 : ℚ) : ℝ) +. fin x *. y))
    (fun y => Real.log (1 + x * y))]
  · simp only [List.length_map, lit_fin, Rat.cast_natCast]
    rw [div_ff hn, add_ff]
    simp [sumLog]
  · intro y hy
    have := hx y hy
    rw [mul_ff, add_ff, log_f (by push_cast; exact this)]
    norm_num

/-- the log-likelihood for γ ≠ 0 -/
theorem gpdLogLik_ne {l : List ℝ} {γ σ : ℝ} (hγ : γ ≠ 0) (hσ : 0 < σ) (hx : ∀ y ∈ l, 0 < 1 + γ * y / σ) :
    Spec.gpdLogLik γ σ l = -(l.length * Real.log σ) - (1 + 1 / γ) * (l.map fun y => Real.log (1 + γ * y / σ)).sum := by
  unfold Spec.gpdLogLik Spec.gpdPdf
  simp only [hγ, if_false]
  induction l with
  | nil => simp
  | cons y l ih =>
    have h1 := hx y (List.mem_cons_self ..)
    simp only [List.length_cons, List.map_cons, List.sum_cons]
    rw [ih (fun y hy => hx y (List.mem_cons_of_mem _ hy)), Real.log_mul (by positivity) (Real.rpow_pos_of_pos h1 _).ne',
      Real.log_rpow h1, one_div σ, Real.log_inv]
    push_cast
    ring

theorem hasDerivAt_list_sum {ι : Type} (l : List ι) (f : ι → ℝ → ℝ) (f' : ι → ℝ) (x : ℝ)
    (h : ∀ i ∈ l, HasDerivAt (f i) (f' i) x) :
    HasDerivAt (fun z => (l.map fun i => f i z).sum) (l.map f').sum x := by
  induction l with
  | nil => simpa using hasDerivAt_const x (0 : ℝ)
  | cons i l ih =>
    simp only [List.map_cons, List.sum_cons]
    exact (h i (List.mem_cons_self ..)).add (ih fun j hj => h j (List.mem_cons_of_mem _ hj))

open Filter Topology in
theorem eventually_list {ι : Type} {X : Type} [TopologicalSpace X] (l : List ι) (P : ι → X → Prop) (x : X)
    (h : ∀ i ∈ l, ∀ᶠ z in 𝓝 x, P i z) : ∀ᶠ z in 𝓝 x, ∀ i ∈ l, P i z := by
  induction l with
  | nil => simp
  | cons i l ih =>
    filter_upwards [h i (List.mem_cons_self ..), ih fun j hj => h j (List.mem_cons_of_mem _ hj)] with z h1 h2
    intro j hj
    rcases List.mem_cons.mp hj with rfl | hj
    · exact h1
    · exact h2 j hj

theorem sum_yx {l : List ℝ} {x : ℝ} (hx : ∀ y ∈ l, 0 < 1 + x * y) :
    (l.map fun y => x * y / (1 + x * y)).sum = l.length - sumInv x l := by
  unfold sumInv
  induction l with
  | nil => simp
  | cons y l ih =>
    have h1 := hx y (List.mem_cons_self ..)
    simp only [List.length_cons, List.map_cons, List.sum_cons]
    rw [ih (fun y hy => hx y (List.mem_cons_of_mem _ hy))]
    have : x * y / (1 + x * y) = 1 - 1 / (1 + x * y) := by field_simp; ring
    rw [this]; push_cast; ring

open Filter Topology in
/-- derivative of the log-likelihood in σ, with x = γ/σ -/
theorem hasDerivAt_logLik_sigma {l : List ℝ} {γ σ x : ℝ} (hγ : γ ≠ 0) (hσ : 0 < σ) (hx : x = γ / σ)
    (hs : ∀ y ∈ l, 0 < 1 + x * y) :
    HasDerivAt (fun s => Spec.gpdLogLik γ s l) (1 / σ * (-l.length + (1 + 1 / γ) * (l.length - sumInv x l))) σ := by
  have hs' : ∀ y ∈ l, 0 < 1 + γ * y / σ := fun y hy => by
    have := hs y hy; rw [hx] at this; convert this using 1; ring
  have hev : ∀ᶠ s in 𝓝 σ, (0 < s ∧ ∀ y ∈ l, 0 < 1 + γ * y / s) := by
    refine (lt_mem_nhds hσ).and (eventually_list l _ σ fun y hy => ?_)
    have hc : ContinuousAt (fun s : ℝ => 1 + γ * y / s) σ := by
      apply ContinuousAt.add continuousAt_const
      exact continuousAt_const.div continuousAt_id hσ.ne'
    exact hc.eventually (lt_mem_nhds (hs' y hy))
  have hd : HasDerivAt (fun s : ℝ => -(l.length * Real.log s) - (1 + 1 / γ) * (l.map fun y => Real.log (1 + γ * y / s)).sum)
      (1 / σ * (-l.length + (1 + 1 / γ) * (l.length - sumInv x l))) σ := by
    have h1 : HasDerivAt (fun s : ℝ => -(l.length * Real.log s)) (-(l.length * (1 / σ))) σ := by
      exact (((Real.hasDerivAt_log hσ.ne').const_mul (l.length : ℝ)).neg).congr_deriv (by simp)
    have h2 : HasDerivAt (fun s : ℝ => (l.map fun y => Real.log (1 + γ * y / s)).sum)
        (l.map fun y => -(1 / σ) * (x * y / (1 + x * y))).sum σ := by
      apply hasDerivAt_list_sum l (fun y s => Real.log (1 + γ * y / s))
      intro y hy
      have h3 : HasDerivAt (fun s : ℝ => 1 + γ * y / s) (-(γ * y) / σ ^ 2) σ := by
        exact (((hasDerivAt_const σ (γ * y)).div (hasDerivAt_id σ) hσ.ne').const_add 1).congr_deriv (by simp)
      have h4 := h3.log (hs' y hy).ne'
      convert h4 using 1
      have h5 := (hs y hy).ne'
      have h6 : 1 + γ * y / σ = 1 + x * y := by rw [hx]; ring
      rw [h6, hx] at *
      field_simp
    rw [List.sum_map_mul_left, sum_yx hs] at h2
    exact (h1.sub (h2.const_mul (1 + 1 / γ))).congr_deriv (by ring)
  refine hd.congr_of_eventuallyEq ?_
  filter_upwards [hev] with s hs2
  exact gpdLogLik_ne hγ hs2.1 hs2.2

open Filter Topology in
/-- derivative of the log-likelihood in γ, with x = γ/σ -/
theorem hasDerivAt_logLik_gamma {l : List ℝ} {γ σ x : ℝ} (hγ : γ ≠ 0) (hσ : 0 < σ) (hx : x = γ / σ)
    (hs : ∀ y ∈ l, 0 < 1 + x * y) :
    HasDerivAt (fun g => Spec.gpdLogLik g σ l)
      (1 / γ ^ 2 * sumLog x l - (1 + 1 / γ) * (1 / γ) * (l.length - sumInv x l)) γ := by
  have hs' : ∀ y ∈ l, 0 < 1 + γ * y / σ := fun y hy => by
    have := hs y hy; rw [hx] at this; convert this using 1; ring
  have hev : ∀ᶠ g in 𝓝 γ, (g ≠ 0 ∧ ∀ y ∈ l, 0 < 1 + g * y / σ) := by
    refine (isOpen_ne.eventually_mem hγ).and (eventually_list l _ γ fun y hy => ?_)
    have hc : ContinuousAt (fun g : ℝ => 1 + g * y / σ) γ := by fun_prop
    exact hc.eventually (lt_mem_nhds (hs' y hy))
  have hd : HasDerivAt (fun g : ℝ => -(l.length * Real.log σ) - (1 + 1 / g) * (l.map fun y => Real.log (1 + g * y / σ)).sum)
      (1 / γ ^ 2 * sumLog x l - (1 + 1 / γ) * (1 / γ) * (l.length - sumInv x l)) γ := by
    have h2 : HasDerivAt (fun g : ℝ => (l.map fun y => Real.log (1 + g * y / σ)).sum)
        (l.map fun y => (1 / γ) * (x * y / (1 + x * y))).sum γ := by
      apply hasDerivAt_list_sum l (fun y g => Real.log (1 + g * y / σ))
      intro y hy
      have h3 : HasDerivAt (fun g : ℝ => 1 + g * y / σ) (y / σ) γ := by
        have := (((hasDerivAt_id γ).mul_const y).div_const σ).const_add 1
        simpa using this
      have h4 := h3.log (hs' y hy).ne'
      convert h4 using 1
      have h5 := (hs y hy).ne'
      have h6 : 1 + γ * y / σ = 1 + x * y := by rw [hx]; ring
      rw [h6, hx] at *
      field_simp
    rw [List.sum_map_mul_left, sum_yx hs] at h2
    have h1 : HasDerivAt (fun g : ℝ => 1 + 1 / g) (-1 / γ ^ 2) γ := by
      exact (((hasDerivAt_const γ (1 : ℝ)).div (hasDerivAt_id γ) hγ).const_add 1).congr_deriv (by simp)
    refine ((h1.mul h2).const_sub (-(l.length * Real.log σ))).congr_deriv ?_
    have e : (l.map fun y => Real.log (1 + γ * y / σ)).sum = sumLog x l := by
      unfold sumLog
      congr 1
      apply List.map_congr_left
      intro y _
      rw [hx]; congr 1; ring
    rw [e]
    ring
  refine hd.congr_of_eventuallyEq ?_
  filter_upwards [hev] with g hs2
  exact gpdLogLik_ne hs2.1 hσ hs2.2

/-- sign of Σ log(1 + x y) for y ≥ 0 not all zero -/
theorem sumLog_sign {l : List ℝ} {x : ℝ} (hx0 : x ≠ 0) (hs : ∀ y ∈ l, 0 < 1 + x * y) (hy : ∀ y ∈ l, 0 ≤ y)
    (hp : ∃ y ∈ l, 0 < y) : 0 < sumLog x l / x := by
  have key : ∀ y ∈ l, 0 ≤ Real.log (1 + x * y) / x ∧ (0 < y → 0 < Real.log (1 + x * y) / x) := by
    intro y hyl
    have h1 := hs y hyl
    have h0 := hy y hyl
    rcases lt_or_gt_of_ne hx0 with hneg | hpos
    · constructor
      · apply div_nonneg_of_nonpos _ hneg.le
        apply Real.log_nonpos h1.le
        nlinarith
      · intro hyp
        apply div_pos_of_neg_of_neg _ hneg
        apply Real.log_neg h1
        nlinarith
    · constructor
      · apply div_nonneg _ hpos.le
        apply Real.log_nonneg
        nlinarith
      · intro hyp
        apply div_pos _ hpos
        apply Real.log_pos
        nlinarith
  have e : sumLog x l / x = (l.map fun y => Real.log (1 + x * y) / x).sum := by
    unfold sumLog
    simp only [div_eq_mul_inv]
    rw [List.sum_map_mul_right]
  rw [e]
  obtain ⟨y, hyl, hy0⟩ := hp
  have hle : Real.log (1 + x * y) / x ≤ (l.map fun y => Real.log (1 + x * y) / x).sum := by
    apply List.single_le_sum
    · intro z hz
      obtain ⟨w, hw, rfl⟩ := List.mem_map.mp hz
      exact (key w hw).1
    · exact List.mem_map.mpr ⟨y, hyl, rfl⟩
  exact lt_of_lt_of_le ((key y hyl).2 hy0) hle

end Verif

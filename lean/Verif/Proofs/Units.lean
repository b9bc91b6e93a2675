/-
Exact arithmetic: the estimators on data multiplied by a positive real number.
-/
import Verif.XR.Scale
import Verif.Proofs.Estim

namespace Verif
open XR
variable {a : ℝ}

theorem scale_ratio' (ha : 0 < a) (g s v : XR) : (g /. scale a s) *. scale a v = (g /. s) *. v := by
  have h := scale_ratio ha v g s
  have comm : ∀ x y : XR, x *. y = y *. x := by
    intro x y
    show XR.mul x y = XR.mul y x
    cases x <;> cases y <;> simp [XR.mul, mul_comm]
  rw [comm, h, comm]

theorem fold_shift (c : ℝ) (f : XR → XR) (l : List XR) (r : XR) :
    l.foldl (fun r v => r +. f v) (r +. .fin c) = l.foldl (fun r v => r +. f v) r +. .fin c := by
  induction l generalizing r with
  | nil => rfl
  | cons v l ih => rw [List.foldl_cons, List.foldl_cons, shift_add, ih]

theorem neg_len_log (ha : 0 < a) (n : ℕ) (s : XR) :
    (-. lit (n : ℚ)) *. exactMath.log (scale a s) = (-. lit (n : ℚ)) *. exactMath.log s +. .fin (-(n * Real.log a)) := by
  rw [log_scale ha, lit_fin, neg_f]
  generalize exactMath.log s = t
  show XR.mul _ (XR.add t _) = XR.add (XR.mul _ t) _
  cases t with
  | nan => rfl
  | fin r =>
    show XR.fin _ = XR.fin _
    push_cast; ring_nf
  | pinf =>
    show XR.infSign _ = XR.add (XR.infSign _) _
    unfold infSign
    split
    · rfl
    · split <;> rfl
  | ninf =>
    show XR.infSign _ = XR.add (XR.infSign _) _
    unfold infSign
    split
    · rfl
    · split <;> rfl

/-- the log-likelihood changes by the same amount for all candidates -/
theorem logLikL_scale (ha : 0 < a) (e : XR) (l : List XR) (g s : XR) :
    logLikL exactMath (scale a e) (l.map (scale a)) g (scale a s) =
      logLikL exactMath e l g s +. .fin (-(l.length * Real.log a)) := by
  unfold logLikL
  rw [List.length_map, neg_len_log ha, scale_div_scale ha]
  split
  · show XR.add (XR.add _ _) _ = XR.add (XR.add _ _) _
    exact shift_add _ _ _
  · rw [List.foldl_map]
    have : (fun (x : XR) (y : XR) => x +. (-. (lit 1 +. lit 1 /. g)) *. exactMath.log (lit 1 +. g /. scale a s *. scale a y)) =
        fun r v => r +. (-. (lit 1 +. lit 1 /. g)) *. exactMath.log (lit 1 +. g /. s *. v) := by
      funext x y; rw [scale_ratio' ha]
    rw [this]
    exact fold_shift _ (fun v => (-. (lit 1 +. lit 1 /. g)) *. exactMath.log (lit 1 +. g /. s *. v)) l _

/-- an estimate and the estimate on scaled data -/
structure EstScaled (a : ℝ) (n : ℕ) (E E' : Est XR) : Prop where
  gamma : E'.gamma = E.gamma
  sigma : E'.sigma = scale a E.sigma
  llhood : E'.llhood = E.llhood +. .fin (-(n * Real.log a))

theorem meanL_scale (ha : 0 < a) (e : XR) (l : List XR) : meanL (scale a e) (l.map (scale a)) = scale a (meanL e l) := by
  unfold meanL
  rw [List.length_map, scale_div ha]

theorem varL_scale (ha : 0 < a) (e e2 : XR) (l : List XR) :
    varL (scale a e) (scale (a * a) e2) (l.map (scale a)) = scale (a * a) (varL e e2 l) := by
  unfold varL
  rw [List.length_map, scale_div ha, scale_div (mul_pos ha ha), scale_mul_scale ha, scale_sub (mul_pos ha ha)]

theorem mom_scale (ha : 0 < a) (e e2 : XR) (l : List XR) :
    EstScaled a l.length (momL exactMath e e2 l) (momL exactMath (scale a e) (scale (a * a) e2) (l.map (scale a))) := by
  unfold momL
  dsimp only
  rw [meanL_scale ha, varL_scale ha, scale_mul_scale ha, scale_div_scale (mul_pos ha ha), mul_scale ha, scale_mul ha]
  exact ⟨rfl, rfl, logLikL_scale ha _ _ _ _⟩

theorem eq_zero_scale (ha : 0 < a) (x : XR) : (scale a x ==. lit 0) = (x ==. lit 0) := by
  obtain ⟨h1, h2, h3, h4⟩ := scale_cases ha
  cases x <;> simp only [h1, h2, h3, h4]
  rw [lit_fin, eq_ff, eq_ff]
  simp [ha.ne']

theorem scale_inv_mul (ha : 0 < a) (x y : XR) : scale a⁻¹ x *. scale a y = x *. y := by
  rw [scale_mul (inv_pos.mpr ha), mul_scale ha]
  generalize x *. y = t
  obtain ⟨h1, h2, h3, h4⟩ := scale_cases ha
  obtain ⟨k1, k2, k3, k4⟩ := scale_cases (inv_pos.mpr ha)
  cases t <;> simp only [h1, h2, h3, h4, k1, k2, k3, k4]
  rw [← mul_assoc, inv_mul_cancel₀ ha.ne', one_mul]

theorem grimshawVL_scale (ha : 0 < a) (l : List XR) (x : XR) :
    grimshawVL exactMath (l.map (scale a)) (scale a⁻¹ x) = grimshawVL exactMath l x := by
  unfold grimshawVL
  rw [List.length_map, List.foldl_map]
  simp only [scale_inv_mul ha]

theorem grimshawWL_scale (ha : 0 < a) (l : List XR) (x : XR) :
    grimshawWL exactMath (l.map (scale a)) (scale a⁻¹ x) = grimshawWL exactMath l x := by
  unfold grimshawWL
  rw [List.length_map, List.foldl_map]
  simp only [scale_inv_mul ha]

theorem div_scale_inv (ha : 0 < a) (g x : XR) : g /. scale a⁻¹ x = scale a (g /. x) := by
  have hi := inv_pos.mpr ha
  have e : g = scale a⁻¹ (scale a g) := by
    obtain ⟨h1, h2, h3, h4⟩ := scale_cases ha
    obtain ⟨k1, k2, k3, k4⟩ := scale_cases hi
    cases g <;> simp only [h1, h2, h3, h4, k1, k2, k3, k4]
    rw [← mul_assoc, inv_mul_cancel₀ ha.ne', one_mul]
  conv_lhs => rw [e]
  rw [scale_div_scale hi, scale_div ha]

theorem simplified_scale (ha : 0 < a) (e : XR) (l : List XR) (x : XR) :
    EstScaled a l.length (simplifiedL exactMath e l x) (simplifiedL exactMath (scale a e) (l.map (scale a)) (scale a⁻¹ x)) := by
  unfold simplifiedL
  rw [eq_zero_scale (inv_pos.mpr ha)]
  split
  · rw [meanL_scale ha]
    exact ⟨rfl, rfl, logLikL_scale ha _ _ _ _⟩
  · dsimp only
    rw [grimshawVL_scale ha, div_scale_inv ha]
    exact ⟨rfl, rfl, logLikL_scale ha _ _ _ _⟩

/-- two searches report corresponding roots (or both none) -/
def RootScaled (a : ℝ) (r r' : Bool × XR) : Prop := r'.1 = r.1 ∧ (r.1 = true → r'.2 = scale a⁻¹ r.2)

theorem better_scale (ha : 0 < a) (e : XR) (l : List XR) {E E' : Est XR} (h : EstScaled a l.length E E') {r r' : Bool × XR}
    (hr : RootScaled a r r') :
    EstScaled a l.length (betterL exactMath e l E r) (betterL exactMath (scale a e) (l.map (scale a)) E' r') := by
  obtain ⟨h1, h2⟩ := hr
  unfold betterL
  rw [h1]
  by_cases hr : r.1 = true
  · rw [if_pos hr, if_pos hr, h2 hr]
    have S := simplified_scale ha e l r.2
    rw [S.llhood, h.llhood, shift_lt]
    split
    · exact S
    · exact h
  · rw [if_neg hr, if_neg hr]; exact h

theorem zero_scale (a : ℝ) : scale a (lit 0) = lit 0 := by
  show XR.fin _ = _
  rw [lit_fin]; simp

theorem grimshaw_scale (ha : 0 < a) (e mn mx : XR) (l : List XR)
    (h1 : RootScaled a (rootsL exactMath e mn mx l).1 (rootsL exactMath (scale a e) (scale a mn) (scale a mx) (l.map (scale a))).1)
    (h2 : RootScaled a (rootsL exactMath e mn mx l).2 (rootsL exactMath (scale a e) (scale a mn) (scale a mx) (l.map (scale a))).2) :
    EstScaled a l.length (grimshawL exactMath e mn mx l)
      (grimshawL exactMath (scale a e) (scale a mn) (scale a mx) (l.map (scale a))) := by
  unfold grimshawL
  have := simplified_scale ha e l (lit 0)
  rw [zero_scale] at this
  exact better_scale ha e l (better_scale ha e l this h1) h2

end Verif

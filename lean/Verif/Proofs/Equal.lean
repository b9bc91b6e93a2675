/-
A tail whose recorded excesses are all equal, in exact arithmetic.
-/
import Verif.Proofs.Grimshaw
import Verif.Proofs.Brent

namespace Verif
open XR

namespace Equal

theorem brentP_zero (f : XR → XR) (x1 tol : XR) (hf : f (fin 0) = fin 0) : brentP f x1 (fin 0) tol = (true, fin 0) := by
  have l0 : (lit 0 : XR) = fin 0 := by rw [lit_fin]; push_cast; rfl
  have ss : ∀ y : XR, sameSign y (fin 0) = false := fun y => by
    unfold sameSign
    rw [l0]
    simp [show (fin 0 <. fin 0 : Bool) = false from by rw [lt_ff]; simp]
  have lt0 : ∀ r : ℝ, (fin r <. fin r : Bool) = false := fun r => by rw [lt_ff]; simp
  unfold brentP
  rw [hf, ss, if_neg (by simp)]
  have hb : BRENT_ITMAX = 199 + 1 := rfl
  rw [hb]
  have e0 : fabs (fin 0) = fin 0 := by unfold fabs; rw [l0, lt0]; simp
  unfold brentLoopP brentAdjust
  simp only [ss, Bool.false_eq_true, if_false, e0, lt0]
  rw [if_pos]
  unfold brentDone
  dsimp only
  rw [l0, eq_ff]
  simp

section
variable {x : ℝ} {c k : ℕ}

theorem slots_equal (hc : 0 < c) (k : ℕ) (x : ℝ) : slots c (List.replicate k x) = List.replicate (min k c) x := by
  rw [List.eq_replicate_iff]
  refine ⟨by rw [slots_length, List.length_replicate], fun b hb => ?_⟩
  exact List.eq_of_mem_replicate (slots_mem hc hb)

theorem recompute_last (l : List XR) (v : XR) : (Stats.recompute (l ++ [v])).e2 = v *. v := by
  unfold Stats.recompute
  rw [List.foldl_append]
  rfl

theorem statsOf_equal (h1 : 1 ≤ c) (h2 : c < 2 ^ 61) (hk : 1 ≤ k) :
    (statsOf c ((List.replicate k x).map fin)).e = fin ((min k c : ℕ) * x) ∧
    (statsOf c ((List.replicate k x).map fin)).min = fin x ∧ (statsOf c ((List.replicate k x).map fin)).max = fin x ∧
    ((statsOf c ((List.replicate k x).map fin)).e2 = fin ((min k c : ℕ) * (x * x)) ∨
      (1 < min k c ∧ (statsOf c ((List.replicate k x).map fin)).e2 = fin (x * x))) := by
  have hE : ∀ k, 1 ≤ k → (statsOf c ((List.replicate k x).map fin)).min = fin x ∧ (statsOf c ((List.replicate k x).map fin)).max = fin x := by
    intro k hk
    have h := statsOf_extremes h1 h2 ((List.replicate k x).map fin) (fun v hv => by
      obtain ⟨r, -, rfl⟩ := List.mem_map.mp hv; exact nan_f r) (by simp; omega)
    have m : ∀ v ∈ slots c ((List.replicate k x).map fin), v = fin x := fun v hv => by
      have := slots_mem h1 hv
      simp at this
      exact this.2.symm ▸ rfl
    exact ⟨m _ h.1.1, m _ h.2.1⟩
  refine ⟨?_, (hE k hk).1, (hE k hk).2, ?_⟩
  · rw [statsOf_sum h1, slots_equal h1, List.sum_replicate, nsmul_eq_mul]
  · by_cases hkc : k ≤ c
    · left
      rw [statsOf_sumsq h1 h2 _ (.inr (fun j a b => by simp at b; omega)), slots_equal h1, List.map_replicate, List.sum_replicate, nsmul_eq_mul]
    · by_cases hc1 : c = 1
      · left
        rw [statsOf_sumsq h1 h2 _ (.inl hc1), slots_equal h1, List.map_replicate, List.sum_replicate, nsmul_eq_mul]
      right
      refine ⟨by omega, ?_⟩
      obtain ⟨j, rfl⟩ : ∃ j, k = j + 1 := ⟨k - 1, by omega⟩
      have hj : 1 ≤ j := by omega
      rw [List.replicate_succ', List.map_append, List.map_singleton, statsOf_snoc]
      have hl : j % c < (slots c (List.replicate j x)).length := by
        rw [slots_length, List.length_replicate]
        have := Nat.mod_lt j h1
        omega
      have he : erasedOf c ((List.replicate j x).map fin ++ [fin x]) = fin x := by
        have := erasedOf_fin h1 (List.replicate j x) x (by simp; omega) (by simpa using hl)
        rw [this]
        congr 1
        exact List.eq_of_mem_replicate (slots_mem h1 (List.getElem_mem _))
      have hmin : ∀ s : UInt64, ((statsOf c ((List.replicate j x).map fin)).incr s (fin x)).min = fin x := fun s => by
        unfold Stats.incr
        dsimp only
        rw [(hE j hj).1]
        split <;> rfl
      rw [he]
      unfold Stats.evict
      dsimp only
      rw [hmin, nan_f, if_pos (by simp), if_pos (by rw [le_ff]; simp)]
      have hs : slots c ((List.replicate j x).map fin ++ [fin x]) = List.replicate (c - 1) (fin x) ++ [fin x] := by
        have := slots_equal h1 (j + 1) x
        have := congrArg (List.map fin) this
        rw [← slots_map, List.replicate_succ', List.map_append, List.map_singleton] at this
        rw [this, List.map_replicate, ← List.replicate_succ', show min (j + 1) c = c - 1 + 1 by omega]
      rw [hs, recompute_last, mul_ff]

theorem foldl_nanR (g : XR → XR) (l : List XR) : l.foldl (fun r v => r +. g v) (nan : XR) = nan := by
  induction l with
  | nil => rfl
  | cons v l ih => rw [List.foldl_cons]; exact ih

theorem mul_nan' (a : XR) : (a *. nan : XR) = nan := by cases a <;> rfl
theorem add_nan' (a : XR) : (a +. nan : XR) = nan := by cases a <;> rfl

theorem logLikL_nan {e g s : XR} {l : List XR} (h : exactMath.log s = nan) : logLikL exactMath e l g s = nan := by
  unfold logLikL
  rw [h, mul_nan', foldl_nanR]
  split
  · rfl
  · rfl

/-- the moments candidate of equal excesses has no likelihood -/
theorem momL_equal (hx : 0 < x) {n : ℕ} (hn : 1 ≤ n) {e2 : XR} (h : e2 = fin (n * (x * x)) ∨ (1 < n ∧ e2 = fin (x * x))) :
    (momL exactMath (fin (n * x)) e2 (List.replicate n (fin x))).llhood = nan := by
  have n0 : ((n : ℚ) : ℝ) ≠ 0 := by push_cast; positivity
  have n1 : (1 : ℝ) ≤ n := by exact_mod_cast hn
  have hm : meanL (fin (n * x)) (List.replicate n (fin x)) = fin x := by
    unfold meanL
    rw [List.length_replicate, lit_fin, div_ff n0]
    congr 1
    push_cast
    field_simp
  unfold momL
  dsimp only
  rw [hm]
  rcases h with rfl | ⟨h1, rfl⟩
  · have hv : varL (fin (n * x)) (fin (n * (x * x))) (List.replicate n (fin x)) = fin 0 := by
      unfold varL
      rw [List.length_replicate, lit_fin, div_ff n0, div_ff n0, mul_ff, sub_ff]
      congr 1
      push_cast
      field_simp
      ring
    have hR : (fin x *. fin x /. fin 0 : XR) = pinf := by
      rw [mul_ff]
      show XR.div _ _ = _
      unfold XR.div XR.infSign
      simp [hx.ne', mul_pos hx hx]
    rw [hv, hR]
    have hg : (lit (1 / 2) *. (lit 1 -. pinf) : XR) = ninf := by
      have : (lit 1 -. pinf : XR) = ninf := rfl
      rw [this, lit_fin]
      show XR.mul _ _ = _
      unfold XR.mul XR.infSign
      norm_num
    have hs : (lit (1 / 2) *. fin x *. (lit 1 +. pinf) : XR) = pinf := by
      have : (lit 1 +. pinf : XR) = pinf := rfl
      rw [this, lit_fin, mul_ff]
      show XR.mul _ _ = _
      unfold XR.mul XR.infSign
      simp [hx.ne', hx]
    rw [hg, hs]
    unfold logLikL
    obtain ⟨m, rfl⟩ : ∃ m, n = m + 1 := ⟨n - 1, by omega⟩
    rw [if_neg (by rw [lit_fin]; show ¬ XR.eq _ _ = true; unfold XR.eq; simp [XR.val]), List.replicate_succ', List.foldl_append]
    have : (lit 1 +. ninf /. pinf *. fin x : XR) = nan := by
      have : (ninf /. pinf : XR) = nan := rfl
      rw [this]
      rfl
    simp only [List.foldl_cons, List.foldl_nil, this]
    rw [show exactMath.log nan = nan from rfl, mul_nan', add_nan']
  · have hn1 : (1 : ℝ) < n := by exact_mod_cast h1
    have hv : varL (fin (n * x)) (fin (x * x)) (List.replicate n (fin x)) = fin (-(x * x * ((n - 1) / n))) := by
      unfold varL
      rw [List.length_replicate, lit_fin, div_ff n0, div_ff n0, mul_ff, sub_ff]
      congr 1
      push_cast
      field_simp
      ring
    have vp : -(x * x * (((n : ℝ) - 1) / n)) < 0 := by
      have : 0 < ((n : ℝ) - 1) / n := div_pos (by linarith) (by linarith)
      have := mul_pos (mul_pos hx hx) this
      linarith
    have hR : (fin x *. fin x /. fin (-(x * x * ((n - 1) / n))) : XR) = fin (-(n / (n - 1))) := by
      rw [mul_ff, div_ff vp.ne]
      congr 1
      have : (n : ℝ) - 1 ≠ 0 := by linarith
      field_simp
    rw [hv, hR]
    apply logLikL_nan
    have : (lit (1 / 2) *. fin x *. (lit 1 +. fin (-(n / (n - 1)))) : XR) = fin (-(x / (2 * (n - 1)))) := by
      rw [lit_fin, mul_ff, lit_fin, add_ff, mul_ff]
      congr 1
      have : (n : ℝ) - 1 ≠ 0 := by linarith
      push_cast
      field_simp
      ring
    rw [this]
    have : 0 < x / (2 * ((n : ℝ) - 1)) := div_pos hx (by linarith)
    show (if -(x / (2 * ((n : ℝ) - 1))) < 0 then (nan : XR) else _) = nan
    rw [if_pos (by linarith)]

theorem W_equal {n : ℕ} (hn : 1 ≤ n) {s : ℝ} (hs : 0 < 1 + s * x) :
    grimshawWL exactMath (List.replicate n (fin x)) (fin s) = fin (1 / (1 + s * x) * (1 + Real.log (1 + s * x)) - 1) := by
  have n0 : (n : ℝ) ≠ 0 := by positivity
  have := grimshawWL_exact (l := List.replicate n x) (x := s) (by simp; omega) (fun y hy => by rw [List.eq_of_mem_replicate hy]; exact hs)
  rw [List.map_replicate] at this
  rw [this]
  unfold sumInv sumLog
  rw [List.map_replicate, List.map_replicate, List.sum_replicate, List.sum_replicate, List.length_replicate, nsmul_eq_mul, nsmul_eq_mul]
  congr 1
  field_simp

theorem W_equal_neg {n : ℕ} (hn : 1 ≤ n) {s : ℝ} (hs : 0 < 1 + s * x) (h1 : 1 + s * x ≠ 1) :
    ∃ r < 0, grimshawWL exactMath (List.replicate n (fin x)) (fin s) = fin r := by
  refine ⟨_, ?_, W_equal hn hs⟩
  have := Real.log_lt_sub_one_of_pos hs h1
  rw [sub_neg, one_div, inv_mul_lt_iff₀ hs]
  linarith

/-- Grimshaw's estimator gives the exponential model -/
theorem grimshawL_equal (hx : 0 < x) {n : ℕ} (hn : 1 ≤ n) :
    grimshawL exactMath (fin (n * x)) (fin x) (fin x) (List.replicate n (fin x)) =
      ⟨logLikL exactMath (fin (n * x)) (List.replicate n (fin x)) (lit 0) (fin x), lit 0, fin x⟩ := by
  have n0 : ((n : ℚ) : ℝ) ≠ 0 := by push_cast; positivity
  have hm : meanL (fin (n * x)) (List.replicate n (fin x)) = fin x := by
    unfold meanL
    rw [List.length_replicate, lit_fin, div_ff n0]
    congr 1
    push_cast
    field_simp
  have l0 : (lit 0 : XR) = fin 0 := by rw [lit_fin]; push_cast; rfl
  have hs0 : simplifiedL exactMath (fin (n * x)) (List.replicate n (fin x)) (lit 0) =
      ⟨logLikL exactMath (fin (n * x)) (List.replicate n (fin x)) (lit 0) (fin x), lit 0, fin x⟩ := by
    unfold simplifiedL
    rw [if_pos (by rw [lit_fin, eq_ff]; simp), hm]
  obtain ⟨ε, e0, e1, he⟩ : ∃ ε : ℝ, 0 < ε ∧ ε * x ≤ 1 / 2 ∧ (xmin BRENT_DEFAULT_EPSILON (lit (1 / 2) /. fin x) : XR) = fin ε := by
    unfold xmin BRENT_DEFAULT_EPSILON
    rw [lit_fin, lit_fin, div_ff hx.ne', nan_f, nan_f, if_neg (by simp), lt_ff]
    push_cast
    split
    · rename_i h
      simp only [decide_eq_true_eq] at h
      refine ⟨_, by norm_num, ?_, rfl⟩
      rw [lt_div_iff₀ hx] at h
      norm_num at h ⊢
      linarith
    · exact ⟨_, by positivity, by rw [div_mul_cancel₀ _ hx.ne'], rfl⟩
  have hl : (brentP (grimshawWL exactMath (List.replicate n (fin x))) (lit (-1) /. fin x +. fin ε) (-. fin ε) BRENT_DEFAULT_EPSILON).1 = false := by
    have ea : (lit (-1) /. fin x +. fin ε : XR) = fin (-1 / x + ε) := by
      rw [lit_fin, div_ff hx.ne', add_ff]; congr 1; push_cast; rfl
    rw [ea, neg_f]
    have t1 : 1 + (-1 / x + ε) * x = ε * x := by field_simp; ring
    have t2 : 1 + -ε * x = 1 - ε * x := by ring
    have px : 0 < ε * x := mul_pos e0 hx
    obtain ⟨r1, n1, w1⟩ := W_equal_neg (x := x) hn (s := -1 / x + ε) (by rw [t1]; exact px) (by rw [t1]; linarith)
    obtain ⟨r2, n2, w2⟩ := W_equal_neg (x := x) hn (s := -ε) (by rw [t2]; linarith) (by rw [t2]; linarith)
    unfold brentP
    rw [w1, w2, if_pos]
    unfold sameSign
    rw [l0]
    simp [lt_ff, n1, n2]
  have hr : brentP (grimshawWL exactMath (List.replicate n (fin x))) (fin ε) (lit 2 *. (fin x -. fin x) /. (fin x *. fin x)) BRENT_DEFAULT_EPSILON =
      (true, fin 0) := by
    have : (lit 2 *. (fin x -. fin x) /. (fin x *. fin x) : XR) = fin 0 := by
      rw [lit_fin, sub_ff, mul_ff, mul_ff, div_ff (mul_pos hx hx).ne']
      simp
    rw [this]
    apply brentP_zero
    rw [W_equal hn (by simp)]
    simp
  unfold grimshawL rootsL
  dsimp only
  rw [he, hm, hr, hs0]
  have hb : ∀ b r, r.1 = false → betterL exactMath (fin (n * x)) (List.replicate n (fin x)) b r = b := fun b r h => by
    unfold betterL; rw [h]; simp
  rw [hb _ _ hl]
  unfold betterL
  dsimp only
  rw [if_pos rfl, ← l0, hs0]
  split <;> rfl

/-- **equal excesses**: the fit is the exponential model -/
theorem fitL_equal (hx : 0 < x) (h1 : 1 ≤ c) (h2 : c < 2 ^ 61) (hk : 1 ≤ k) (γ σ : XR) :
    (fitL exactMath γ σ (statsOf c ((List.replicate k x).map fin)) (slots c ((List.replicate k x).map fin))).2 = (lit 0, fin x) := by
  obtain ⟨a, b, d, e⟩ := statsOf_equal (x := x) h1 h2 hk
  have hs : slots c ((List.replicate k x).map fin) = List.replicate (min k c) (fin x) := by
    rw [slots_map, slots_equal h1, List.map_replicate]
  have hn : 1 ≤ min k c := by omega
  unfold fitL
  rw [hs, a, b, d, grimshawL_equal hx hn]
  have hm := momL_equal hx hn e
  unfold fitStepL
  dsimp only
  rw [CDoubleLaws.nan_cNAN, Bool.true_or, if_pos rfl]
  dsimp only
  rw [hm, nan_nan, Bool.true_or, if_pos rfl]
end

end Equal

end Verif

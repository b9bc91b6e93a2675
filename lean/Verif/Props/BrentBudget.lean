/-
C113: whether the root search finds a root when there is a sign change.
-/
import Verif.Proofs.BrentBudget
import Verif.Props.Brent

namespace Verif
open Spec XR Set

/-! ### C113 -/

/-- **C113_partial.** In exact arithmetic, for any function (continuous or not) without a common strict sign at the two ends: if the interval is
shorter than 2^13 times the tolerance of the search, whose values on the interval are at least `δ`, then a root is reported; and if the
function is real and continuous there is a true root next to the reported one. Missing: longer intervals (`C113_false`). -/
theorem C113_partial (f : XR → XR) (x1 x2 tol δ : ℝ) (htol : 0 ≤ tol) (hδ : 0 < δ)
    (hI : ∀ x ∈ uIcc x1 x2, δ ≤ 4 / 10 ^ 8 * |x| + tol / 2) (hlen : |x2 - x1| < 2 ^ 13 * δ)
    (hs : ¬ SameSign (f (fin x1)) (f (fin x2))) :
    ∃ b ∈ uIcc x1 x2, (search f (fin x1) (fin x2) (fin tol)).1 = (true, fin b) ∧
      ∀ g : ℝ → ℝ, (∀ x ∈ uIcc x1 x2, f (fin x) = fin (g x)) → ContinuousOn g (uIcc x1 x2) →
        ∃ z ∈ uIcc x1 x2, g z = 0 ∧ |z - b| ≤ 8 / 10 ^ 8 * |b| + tol := by
  have hI' : ∀ x ∈ uIcc x1 x2, δ ≤ tol1R tol x := by
    intro x hx
    have := hI x hx
    unfold tol1R
    linarith
  have hfound : (search f (fin x1) (fin x2) (fin tol)).1.1 = true := by
    rw [search_fst]
    unfold brentP
    rw [if_neg (by rw [sameSign_iff]; exact hs)]
    have hR : InI (uIcc x1 x2) (⟨fin x1, fin x2, fin x2, lit 0, lit 0, f (fin x1), f (fin x2), f (fin x2)⟩ : BrentSt XR) [] :=
      ⟨⟨x1, left_mem_uIcc, rfl⟩, ⟨x2, right_mem_uIcc, rfl⟩, ⟨x2, right_mem_uIcc, rfl⟩, ⟨_, lit_fin 0⟩, ⟨_, lit_fin 0⟩, by simp⟩
    obtain ⟨b, c, d, e, k1, k2, k3, k4, k⟩ := brentAdjust_f (s := (⟨fin x1, fin x2, fin x2, lit 0, lit 0, f (fin x1), f (fin x2), f (fin x2)⟩ : BrentSt XR))
      (a := x1) (b := x2) (c := x2) (d := ((0 : ℚ) : ℝ)) (e := ((0 : ℚ) : ℝ)) rfl rfl rfl (lit_fin 0) (lit_fin 0)
    refine Progress.found (m := 12) (r := 26) htol hδ hI' _ ⟨hR, b, c, d, e, k1, k2, k3, k4, ?_, ?_, ?_⟩ (by decide) (by decide)
    · have : |c - b| ≤ |x2 - x1| := by
        rcases k with ⟨-, -, ⟨p, q⟩ | ⟨p, q⟩⟩ | ⟨-, -, ⟨p, q⟩ | ⟨p, q⟩⟩ <;> rw [p, q]
        · rw [abs_sub_comm]
        · simp
        · simp
      have h13 : (2 : ℝ) ^ 13 * δ = 2 * δ * 2 ^ 12 := by ring
      linarith
    · rcases k with ⟨-, p, -⟩ | ⟨-, p, -⟩ <;> rw [p]
      · exact hlen
      · simpa using hδ
    · rcases k with ⟨p, -, -⟩ | ⟨p, -, -⟩ <;> rw [p]
      · exact hlen
      · simpa using hδ
  obtain ⟨-, h2⟩ := C22_interval f x1 x2 tol htol
  obtain ⟨b, hb, e⟩ := h2 (search f (fin x1) (fin x2) (fin tol)).1.2 (Prod.ext hfound rfl)
  have hres : (search f (fin x1) (fin x2) (fin tol)).1 = (true, fin b) := Prod.ext hfound e
  exact ⟨b, hb, hres, fun g hfg hg => C20_true_root f g x1 x2 tol b htol hfg hg hres⟩

/-- the hypotheses are met: a straight line with a root between 1 and 1 + 1/5000, with the tolerance of the library -/
example : (∀ x ∈ uIcc (1 : ℝ) (1 + 1 / 5000), 5 / 10 ^ 8 ≤ 4 / 10 ^ 8 * |x| + (2 / 10 ^ 8) / 2) ∧
    |(1 + 1 / 5000 : ℝ) - 1| < 2 ^ 13 * (5 / 10 ^ 8) ∧
    ¬ SameSign ((fun x : XR => x -. fin (1 + 1 / 10000)) (fin 1)) ((fun x : XR => x -. fin (1 + 1 / 10000)) (fin (1 + 1 / 5000))) := by
  refine ⟨?_, ?_, ?_⟩
  · intro x hx
    rw [uIcc_of_le (by norm_num)] at hx
    rw [abs_of_nonneg (by linarith [hx.1])]
    linarith [hx.1]
  · rw [abs_of_nonneg (by norm_num)]; norm_num
  · unfold SameSign
    dsimp only
    rw [lit_fin]
    simp only [sub_ff, lt_ff, decide_eq_true_eq]
    norm_num

/-- a continuous function that is -1 up to 1, 1 from 3 on -/
noncomputable def ramp (x : ℝ) : ℝ := max (-1) (min 1 (x - 2))

/-- the same function on the numbers of the exact model -/
noncomputable def rampX : XR → XR
  | fin x => fin (ramp x)
  | _ => nan

/-- while the interval is [0, 2^(202-k)] every iteration is a bisection -/
theorem ramp_loop (tol : ℝ) (h1 : tol ≤ 1) (n : ℕ) : ∀ (k : ℕ) (s : BrentSt XR), k + n = 200 →
    (brentAdjust s).b = fin (2 ^ (202 - k)) → (brentAdjust s).c = fin 0 → fabs (brentAdjust s).fa = fin 1 → (brentAdjust s).fb = fin 1 →
    (brentAdjust s).fc = fin (-1) → brentLoopP rampX (fin tol) n s = (false, lit 0) := by
  induction n with
  | zero => intros; rfl
  | succ n ih =>
    intro k s hk hb hc hfa hfb hfc
    have hB : (4 : ℝ) ≤ 2 ^ (202 - (k + 1)) := by
      calc (4 : ℝ) = 2 ^ 2 := by norm_num
        _ ≤ _ := pow_le_pow_right₀ (by norm_num) (by omega)
    have hbb : (2 : ℝ) ^ (202 - k) = 2 * 2 ^ (202 - (k + 1)) := by
      rw [show 202 - k = 202 - (k + 1) + 1 by omega, pow_succ]; ring
    generalize hz : (2 : ℝ) ^ (202 - (k + 1)) = z at *
    rw [hbb] at hb
    have hxm : brentXm (brentAdjust s) = fin (-z) := by rw [brentXm_f hb hc]; congr 1; ring
    have htol : tol1R tol (2 * z) < z := by
      unfold tol1R
      rw [abs_of_nonneg (by linarith)]
      linarith
    have hnd : brentDone (fin tol) (brentAdjust s) = false := by
      unfold brentDone
      rw [hxm, hb, brentTol1_f, fabs_f, le_ff, hfb, lit_fin, eq_ff, abs_neg, abs_of_nonneg (by linarith : (0 : ℝ) ≤ z)]
      simp only [Bool.or_eq_false_iff, decide_eq_false_iff_not, not_le]
      exact ⟨htol, by norm_num⟩
    have hde : brentDE (fin tol) (brentAdjust s) = (fin (-z), fin (-z)) := by
      unfold brentDE
      dsimp only
      rw [hfa, hfb, hxm, fabs_f, abs_one, lt_ff]
      simp
    have hnext : brentNext (fin tol) (brentAdjust s) (fin (-z)) = fin z := by
      unfold brentNext
      dsimp only
      rw [hb, brentTol1_f, fabs_f, lt_ff, abs_neg, abs_of_nonneg (by linarith : (0 : ℝ) ≤ z), if_pos (by simpa using htol), add_ff]
      congr 1; ring
    have hramp : rampX (fin z) = fin 1 := by
      show fin (ramp z) = fin 1
      unfold ramp
      rw [min_eq_left (by linarith), max_eq_right (by norm_num)]
    unfold brentLoopP
    dsimp only
    rw [if_neg (by rw [hnd]; simp)]
    change brentLoopP rampX (fin tol) n (brentStep rampX (fin tol) s) = _
    have fa : (brentStep rampX (fin tol) s).fa = fin 1 := hfb
    have fb' : (brentStep rampX (fin tol) s).b = fin z := by
      show brentNext (fin tol) (brentAdjust s) (brentDE (fin tol) (brentAdjust s)).1 = _
      rw [hde]; exact hnext
    have fb : (brentStep rampX (fin tol) s).fb = fin 1 := by
      show rampX (brentStep rampX (fin tol) s).b = _
      rw [fb', hramp]
    have fc' : (brentStep rampX (fin tol) s).c = fin 0 := hc
    have fc : (brentStep rampX (fin tol) s).fc = fin (-1) := hfc
    have hss : ¬ sameSign (brentStep rampX (fin tol) s).fb (brentStep rampX (fin tol) s).fc = true := by
      rw [fb, fc]; unfold sameSign; simp only [lit_fin, lt_ff]; norm_num
    have hlt : ¬ (fabs (brentStep rampX (fin tol) s).fc <. fabs (brentStep rampX (fin tol) s).fb) = true := by
      rw [fb, fc]; simp only [fabs_f, lt_ff]; norm_num
    have hadj : brentAdjust (brentStep rampX (fin tol) s) = brentStep rampX (fin tol) s := by
      conv_lhs => unfold brentAdjust
      dsimp only
      rw [if_neg hss, if_neg hlt]
    refine ih (k + 1) _ (by omega) ?_ ?_ ?_ ?_ ?_ <;> rw [hadj]
    · rw [fb', hz]
    · exact fc'
    · rw [fa, fabs_f, abs_one]
    · exact fb
    · exact fc

/-- **C113_false.** A sign change is not enough, even for a continuous function and in exact arithmetic: between 0 and 2^202 the search for the root of
`ramp` (negative at 0, positive from 3 on) uses up its 202 evaluations and reports failure. The same happens in binary64. -/
theorem C113_false :
    (Continuous ramp ∧ ramp 0 < 0 ∧ 0 < ramp (2 ^ 202) ∧ ∀ tol : ℝ, 0 ≤ tol → tol ≤ 1 →
      (search rampX (fin 0) (fin (2 ^ 202)) (fin tol)).1 = (false, lit 0)) ∧
    (let f : F64 → F64 := fun x => if x <. lit 1 then lit (-1) else if lit 3 <. x then lit 1 else x -. lit 2
     (search f (lit 0) (lit (2 ^ 202)) (lit (2 / 10 ^ 8))).1 = (false, lit 0) ∧
     (search f (lit 0) (lit (2 ^ 202)) (lit (2 / 10 ^ 8))).2.length = 202) := by
  refine ⟨⟨?_, ?_, ?_, ?_⟩, by decide +kernel⟩
  · exact continuous_const.max (continuous_const.min (continuous_id.sub continuous_const))
  · unfold ramp; norm_num
  · unfold ramp
    rw [min_eq_left (by norm_num)]; norm_num
  · intro tol _ h1
    have r0 : rampX (fin 0) = fin (-1) := by
      show fin (ramp 0) = _
      unfold ramp; congr 1; norm_num
    have r1 : rampX (fin (2 ^ 202)) = fin 1 := by
      show fin (ramp _) = _
      unfold ramp; congr 1; rw [min_eq_left (by norm_num)]; norm_num
    rw [search_fst]
    unfold brentP
    rw [r0, r1, if_neg (by unfold sameSign; simp only [lit_fin, lt_ff]; norm_num)]
    have hss : sameSign (fin 1) (fin 1) = true := by unfold sameSign; simp only [lit_fin, lt_ff]; norm_num
    have hlt : ¬ (fabs (fin (-1)) <. fabs (fin 1)) = true := by simp only [fabs_f, lt_ff]; norm_num
    have hadj : brentAdjust (⟨fin 0, fin (2 ^ 202), fin (2 ^ 202), lit 0, lit 0, fin (-1), fin 1, fin 1⟩ : BrentSt XR) =
        ⟨fin 0, fin (2 ^ 202), fin 0, fin (2 ^ 202) -. fin 0, fin (2 ^ 202) -. fin 0, fin (-1), fin 1, fin (-1)⟩ := by
      unfold brentAdjust
      dsimp only
      rw [if_pos hss]
      dsimp only
      rw [if_neg hlt]
    exact ramp_loop tol h1 200 0 _ rfl (by rw [hadj]) (by rw [hadj]) (by rw [hadj]; rw [fabs_f]; norm_num) (by rw [hadj]) (by rw [hadj])

end Verif

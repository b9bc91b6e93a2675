/-
The sign of the fitted scale parameter in binary64.
-/
import Verif.Proofs.BrentF64
import Verif.Proofs.Side
import Verif.Props.Xlog
import Verif.Props.Brent

namespace Verif
open F64 Spec

theorem nan_add_left (x : F64) : ((nan : F64) +. x) = nan := by cases x <;> rfl
theorem add_nan_right (x : F64) : (x +. (nan : F64)) = nan := by cases x <;> rfl
theorem nan_sub_left (x : F64) : ((nan : F64) -. x) = nan := by cases x <;> rfl
theorem nan_mul_left (x : F64) : ((nan : F64) *. x) = nan := by cases x <;> rfl
theorem nan_div_left (x : F64) : ((nan : F64) /. x) = nan := by cases x <;> rfl
theorem div_nan_right (x : F64) : (x /. (nan : F64)) = nan := by cases x <;> rfl

/-- a sum that is NaN stays NaN -/
theorem foldl_nan (g : F64 → F64) (l : List F64) : l.foldl (fun r v => r +. g v) (nan : F64) = nan := by
  induction l with
  | nil => rfl
  | cons v l ih => rw [List.foldl_cons, nan_add_left]; exact ih

/-- a sum with a NaN term is NaN -/
theorem foldl_nan_mem (g : F64 → F64) (l : List F64) (r : F64) (h : ∃ v ∈ l, g v = nan) : l.foldl (fun r v => r +. g v) r = nan := by
  induction l generalizing r with
  | nil => obtain ⟨v, hv, _⟩ := h; simp at hv
  | cons w l ih =>
    rw [List.foldl_cons]
    obtain ⟨v, hv, e⟩ := h
    rcases List.mem_cons.mp hv with rfl | hv
    · rw [e, add_nan_right]; exact foldl_nan g l
    · exact ih _ ⟨v, hv, e⟩

theorem xlog_not_pos {σ : F64} (h : ¬ (isFin σ ∧ 0 < toQ σ)) : xlog muslFU σ = nan ∨ (∃ s, σ = zero s) ∧ xlog muslFU σ = inf true := by
  obtain ⟨c1, c2, c3, -⟩ := C52_partial σ
  rcases σ with _ | (_ | _) | ⟨s, k⟩
  · left; exact c1 rfl
  · left; exact C52_false
  · left; exact c2 (by decide +kernel)
  · have hf : isFin (fin s k) := trivial
    have h0 := lit_int (i := 0) (by norm_num)
    rw [Int.cast_zero] at h0
    rcases lt_trichotomy (toQ (fin s k)) 0 with g | g | g
    · left; exact c2 ((lt_fin_iff hf h0.1).mpr (by rw [h0.2]; exact g))
    · right
      have hz : fin s k = zero s := by
        have := toQ_eq_zero.mp g
        unfold zero
        congr 1
        exact Fin.ext this
      refine ⟨⟨s, hz⟩, c3 ?_⟩
      rw [hz]
      cases s <;> decide +kernel
    · exact absurd ⟨hf, g⟩ h

theorem pos_form {x : F64} (hx : isFin x) (h : 0 < toQ x) : ∃ k : Fin finCodes, x = fin false k ∧ k.val ≠ 0 := by
  rcases x with _ | s | ⟨s, k⟩
  · exact absurd hx (by simp [isFin])
  · exact absurd hx (by simp [isFin])
  · have hs := sign_of_pos h
    subst hs
    refine ⟨k, rfl, fun h0 => ?_⟩
    have := toQ_eq_zero (s := false).mpr h0
    rw [this] at h
    exact lt_irrefl _ h

theorem lit_len {n : ℕ} (h1 : 1 ≤ n) (h2 : n ≤ 2 ^ 53) : isFin (lit (n : ℚ) : F64) ∧ toQ (lit (n : ℚ) : F64) = n := by
  have := lit_int (i := (n : ℤ)) (by rw [abs_of_nonneg (by positivity)]; exact_mod_cast h2)
  simpa using this

/-- The likelihood of parameters whose scale is not a positive number is NaN, with one exception: shape 0 and scale -0. -/
theorem logLik_scale {e : F64} {l : List F64} {γ σ : F64} (he : isFin e) (e0 : 0 < toQ e) (hl : l ≠ []) (hn : l.length ≤ 2 ^ 53)
    (hv : ∀ v ∈ l, isFin v ∧ 0 ≤ toQ v) (h : notNaN (logLikL (codeMath muslFU) e l γ σ)) :
    (isFin σ ∧ 0 < toQ σ) ∨ (isFin γ ∧ toQ γ = 0 ∧ σ = zero true) := by
  by_contra hc
  push Not at hc
  obtain ⟨hc1, hc2⟩ := hc
  apply h
  have hlog : (codeMath muslFU).log σ = xlog muslFU σ := rfl
  have hneg : ¬ (isFin σ ∧ 0 < toQ σ) := fun g => absurd (hc1 g.1) (not_le.mpr g.2)
  have h1n : 1 ≤ l.length := List.length_pos_iff.mpr hl
  obtain ⟨n1, n2⟩ := lit_len h1n hn
  have n3 : 0 < toQ (lit (l.length : ℚ) : F64) := by rw [n2]; exact_mod_cast h1n
  obtain ⟨k, hk, k0⟩ := pos_form n1 n3
  unfold logLikL
  rcases xlog_not_pos hneg with g | ⟨⟨s, hs⟩, g⟩
  · rw [hlog, g]
    split
    · rw [mul_nan_right, nan_sub_left]
    · rw [mul_nan_right]; exact foldl_nan _ l
  · rw [hlog, g, hk]
    have m1 : ((-. fin false k : F64) *. inf true) = inf false := by
      change F64.mul (F64.neg (fin false k)) (inf true) = _
      simp only [F64.neg, F64.mul, if_neg k0]
      rfl
    rw [m1]
    split
    · next hg =>
      have hg' := (eq_iff _ _).mp hg
      have hγ : isFin γ ∧ toQ γ = 0 := by
        obtain ⟨z, hz⟩ := zero_of_val hg'.1 (by rw [hg'.2.2]; exact (by rw [show (lit 0 : F64) = zero false from lit_zero, val_zero]))
        rw [hz]
        exact ⟨trivial, toQ_zero z⟩
      obtain ⟨k', hk', k0'⟩ := pos_form he e0
      have hsf : s = false := by
        cases s
        · rfl
        · exact absurd hs (hc2 hγ.1 hγ.2)
      subst hsf
      rw [hs, hk']
      have m2 : ((fin false k' : F64) /. zero false) = inf false := by
        change F64.div (fin false k') (fin false ⟨0, _⟩) = _
        simp only [F64.div, if_neg k0']
        rfl
      rw [m2]
      rfl
    · next hg =>
      obtain ⟨v, l', rfl⟩ := List.exists_cons_of_ne_nil hl
      rw [List.foldl_cons]
      have hterm : (codeMath muslFU).log (lit 1 +. γ /. σ *. v) = nan := by
        have hlog' : ∀ x, (codeMath muslFU).log x = xlog muslFU x := fun _ => rfl
        have hx : γ /. σ = nan ∨ ∃ t, (γ /. σ : F64) = inf t := by
          rw [hs]
          rcases γ with _ | t | ⟨t, j⟩
          · left; rfl
          · right; exact ⟨_, rfl⟩
          · right
            refine ⟨t != s, ?_⟩
            change F64.div (fin t j) (fin s ⟨0, _⟩) = _
            have j0 : j.val ≠ 0 := by
              intro h0
              apply hg
              refine (eq_iff _ _).mpr ⟨by simp [notNaN], by rw [show (lit 0 : F64) = zero false from lit_zero]; exact zero_ne_nan _, ?_⟩
              rw [show (lit 0 : F64) = zero false from lit_zero, val_zero, val_fin (by trivial), toQ_eq_zero.mpr h0]
              simp
            simp only [F64.div, if_neg j0]
            rfl
        have hmul : γ /. σ *. v = nan ∨ ∃ t, (γ /. σ *. v : F64) = inf t := by
          rcases hx with hx | ⟨t, hx⟩
          · left; rw [hx, nan_mul_left]
          · rw [hx]
            have hvf := (hv v (by simp)).1
            rcases v with _ | t' | ⟨t', j⟩
            · left; rfl
            · exact absurd hvf (by simp [isFin])
            · by_cases j0 : j.val = 0
              · left
                change F64.mul (inf t) (fin t' j) = _
                simp only [F64.mul, if_pos j0]
              · right
                refine ⟨t != t', ?_⟩
                change F64.mul (inf t) (fin t' j) = _
                simp only [F64.mul, if_neg j0]
        rw [hlog']
        rcases hmul with hm | ⟨t, hm⟩
        · rw [hm, add_nan_right]; exact (C52_partial nan).1 rfl
        · rw [hm]
          have one : ∃ k1, (lit 1 : F64) = fin false k1 := ⟨_, lit_one⟩
          obtain ⟨k1, hk1⟩ := one
          rw [hk1]
          change xlog muslFU (inf t) = nan
          cases t
          · exact C52_false
          · exact (C52_partial _).2.1 (by decide +kernel)
      rw [hterm, mul_nan_right, add_nan_right]
      exact foldl_nan _ l'

/-- a positive number, or -0 with a zero shape -/
def ScaleOK (γ σ : F64) : Prop := (isFin σ ∧ 0 < toQ σ) ∨ (isFin γ ∧ toQ γ = 0 ∧ σ = zero true)

theorem div_pos_fin {x y : F64} (hx : isFin x) (hy : isFin y) (x0 : pow2 (-900) ≤ toQ x) (x1 : toQ x ≤ pow2 1000) (y0 : 1 ≤ toQ y)
    (y1 : toQ y ≤ 2 ^ 53) : isFin (x /. y) ∧ 0 < toQ (x /. y) := by
  have yp : 0 < toQ y := by linarith
  have xp : 0 < toQ x := lt_of_lt_of_le (pow2_pos _) x0
  have hq : toQ x / toQ y ≤ toQ x := div_le_self xp.le y0
  have hle : |toQ x / toQ y| ≤ pow2 1023 := by
    rw [abs_of_pos (div_pos xp yp)]
    exact (hq.trans x1).trans (pow2_le (by norm_num))
  obtain ⟨d1, d2⟩ := div_fin' hx hy yp.ne' hle
  refine ⟨d1, ?_⟩
  have d2 : toQ (x /. y) = rq (toQ x / toQ y) := d2
  rw [d2]
  have h1 : pow2 (-1000) ≤ toQ x / toQ y := by
    rw [le_div_iff₀ yp]
    refine le_trans ?_ x0
    refine (mul_le_mul_of_nonneg_left y1 (pow2_pos _).le).trans ?_
    decide +kernel
  have h2 := rq_mono h1
  rw [show rq (pow2 (-1000)) = pow2 (-1000) by decide +kernel] at h2
  exact lt_of_lt_of_le (pow2_pos _) h2

theorem notNaN_of_gt {x y : F64} (h : (x >. y) = true) : notNaN x := ((lt_iff _ _).mp h).2.1

/-- the base of Grimshaw's estimator: shape 0, scale the mean -/
theorem simplified_zero (M : MathFns F64) (e : F64) (l : List F64) {x : F64} (h : (x ==. lit 0) = true) :
    (simplifiedL M e l x).gamma = lit 0 ∧ (simplifiedL M e l x).sigma = meanL e l := by
  unfold simplifiedL
  rw [if_pos h]
  exact ⟨rfl, rfl⟩

theorem simplifiedF_ll (M : MathFns F64) (e : F64) (l : List F64) (x : F64) :
    (simplifiedL M e l x).llhood = logLikL M e l (simplifiedL M e l x).gamma (simplifiedL M e l x).sigma := by
  unfold simplifiedL
  split <;> rfl

/-- A property of the parameters that holds of the mean and of every candidate with a defined likelihood holds of the result
of the estimation. -/
theorem tailFitL_cases (M : MathFns F64) (t : Tail F64) (l : List F64) (P : F64 → F64 → Prop)
    (h0 : P (lit 0) (meanL t.peaks.e l))
    (hmom : notNaN (momL M t.peaks.e t.peaks.e2 l).llhood → P (momL M t.peaks.e t.peaks.e2 l).gamma (momL M t.peaks.e t.peaks.e2 l).sigma)
    (hroot : ∀ x, (rootsL M t.peaks.e t.peaks.min t.peaks.max l).1 = (true, x) ∨ (rootsL M t.peaks.e t.peaks.min t.peaks.max l).2 = (true, x) →
      notNaN (simplifiedL M t.peaks.e l x).llhood → P (simplifiedL M t.peaks.e l x).gamma (simplifiedL M t.peaks.e l x).sigma) :
    P (tailFitL M t l).2.gamma (tailFitL M t l).2.sigma := by
  have hb : ∀ (best : Est F64) (r : Bool × F64), P best.gamma best.sigma →
      ((rootsL M t.peaks.e t.peaks.min t.peaks.max l).1 = r ∨ (rootsL M t.peaks.e t.peaks.min t.peaks.max l).2 = r) →
      P (betterL M t.peaks.e l best r).gamma (betterL M t.peaks.e l best r).sigma := by
    intro best r hP hr
    unfold betterL
    obtain ⟨found, x⟩ := r
    cases found
    · exact hP
    · rw [if_pos rfl]
      split
      · next hg => exact hroot x hr (notNaN_of_gt hg)
      · exact hP
  have hz : ((lit 0 : F64) ==. lit 0) = true := by decide +kernel
  have hG : P (grimshawL M t.peaks.e t.peaks.min t.peaks.max l).gamma (grimshawL M t.peaks.e t.peaks.min t.peaks.max l).sigma := by
    unfold grimshawL
    refine hb _ _ (hb _ _ ?_ (Or.inl rfl)) (Or.inr rfl)
    obtain ⟨a, b⟩ := simplified_zero M t.peaks.e l hz
    rw [a, b]
    exact h0
  have hn : is_nan (cNAN : F64) = true := by decide +kernel
  unfold tailFitL
  have s1 : tail_fit_step ((cNAN : F64), t) (momL M t.peaks.e t.peaks.e2 l) =
      ((momL M t.peaks.e t.peaks.e2 l).llhood, { t with gamma := (momL M t.peaks.e t.peaks.e2 l).gamma, sigma := (momL M t.peaks.e t.peaks.e2 l).sigma }) := by
    unfold tail_fit_step
    rw [hn, Bool.true_or, if_pos rfl]
  rw [s1]
  unfold tail_fit_step
  split
  · exact hG
  · next h =>
    refine hmom ((is_nan_false _).mp ?_)
    rw [Bool.or_eq_true, not_or] at h
    simpa using h.1

/-- The estimated scale is a positive number, or it is -0 with a shape equal to 0. -/
theorem tailFit_scale (t : Tail F64) (l : List F64) (hl : l ≠ []) (hn : l.length ≤ 2 ^ 53) (hv : ∀ v ∈ l, isFin v ∧ 0 ≤ toQ v)
    (he : isFin t.peaks.e) (e0 : pow2 (-900) ≤ toQ t.peaks.e) (e1 : toQ t.peaks.e ≤ pow2 1000) :
    ScaleOK (tailFitL (codeMath muslFU) t l).2.gamma (tailFitL (codeMath muslFU) t l).2.sigma := by
  have ep : 0 < toQ t.peaks.e := lt_of_lt_of_le (pow2_pos _) e0
  have h1n : 1 ≤ l.length := List.length_pos_iff.mpr hl
  apply tailFitL_cases
  · left
    obtain ⟨n1, n2⟩ := lit_len h1n hn
    exact div_pos_fin he n1 e0 e1 (by rw [n2]; exact_mod_cast h1n) (by rw [n2]; exact_mod_cast hn)
  · intro h
    exact logLik_scale he ep hl hn hv h
  · intro x _ h
    rw [simplifiedF_ll] at h
    exact logLik_scale he ep hl hn hv h

/-! ### excluding the exception -/

/-- NaN or not of negative sign -/
def PosSign (x : F64) : Prop := x = nan ∨ x = inf false ∨ ∃ k, x = fin false k

theorem PosSign.fin (k) : PosSign (fin false k) := .inr (.inr ⟨k, rfl⟩)

theorem PosSign.ne {x : F64} (h : PosSign x) : x ≠ zero true := by
  rcases h with rfl | rfl | ⟨k, rfl⟩
  · exact fun h => by cases h
  · exact fun h => by cases h
  · intro h
    unfold zero at h
    cases h

theorem PosSign.ofRat {q : ℚ} (h : 0 ≤ q) : PosSign (ofRat false q) := by
  unfold F64.ofRat
  split
  · exact .fin _
  · dsimp only
    split
    · rw [decide_eq_false (not_lt.mpr h)]; exact .fin _
    · rw [decide_eq_false (not_lt.mpr h)]; exact .inr (.inl rfl)

theorem toQ_fin_nonneg (k : Fin finCodes) : 0 ≤ toQ (F64.fin false k) := by
  by_contra h
  push Not at h
  have := sign_of_neg h
  cases this

theorem PosSign.mul {x y : F64} (hx : PosSign x) (hy : PosSign y) : PosSign (x *. y) := by
  change PosSign (F64.mul x y)
  rcases hx with rfl | rfl | ⟨k, rfl⟩ <;> rcases hy with rfl | rfl | ⟨j, rfl⟩ <;> simp only [F64.mul] <;> first
    | exact .inl rfl
    | exact .inr (.inl rfl)
    | (split <;> first | exact .inl rfl | exact .inr (.inl rfl))
    | exact PosSign.ofRat (mul_nonneg (toQ_fin_nonneg _) (toQ_fin_nonneg _))

theorem PosSign.add {x y : F64} (hx : PosSign x) (hy : PosSign y) : PosSign (x +. y) := by
  change PosSign (F64.add x y)
  rcases hx with rfl | rfl | ⟨k, rfl⟩ <;> rcases hy with rfl | rfl | ⟨j, rfl⟩ <;> simp only [F64.add] <;> first
    | exact .inl rfl
    | exact .inr (.inl rfl)
    | exact PosSign.ofRat (add_nonneg (toQ_fin_nonneg _) (toQ_fin_nonneg _))

theorem PosSign.div_pos {x y : F64} (hx : PosSign x) (hy : isFin y) (y0 : 0 < toQ y) : PosSign (x /. y) := by
  obtain ⟨k, rfl, k0⟩ := pos_form hy y0
  change PosSign (F64.div x (.fin false k))
  rcases hx with rfl | rfl | ⟨j, rfl⟩ <;> simp only [F64.div, if_neg k0] <;> first
    | exact .inl rfl
    | exact .inr (.inl rfl)
    | exact PosSign.ofRat (div_nonneg (toQ_fin_nonneg _) y0.le)

/-- the moment estimator does not give the exception -/
theorem mom_scale_ne {e e2 : F64} {l : List F64} (M : MathFns F64) (hm : isFin (meanL e l)) (m0 : 0 < toQ (meanL e l))
    (hγ : isFin (momL M e e2 l).gamma) (h0 : toQ (momL M e e2 l).gamma = 0) : (momL M e e2 l).sigma ≠ zero true := by
  unfold momL at hγ h0 ⊢
  dsimp only at hγ h0 ⊢
  generalize meanL e l *. meanL e l /. varL e e2 l = R at *
  have hh : isFin (lit (1 / 2) : F64) ∧ toQ (lit (1 / 2) : F64) = 1 / 2 := by decide +kernel
  have h1 : isFin (lit 1 : F64) ∧ toQ (lit 1 : F64) = 1 := by decide +kernel
  rcases R with _ | s | ⟨s, k⟩
  · exact absurd hγ (by simp [isFin, show ((lit 1 : F64) -. nan) = nan from by cases (lit 1 : F64) <;> rfl, mul_nan_right])
  · exfalso
    obtain ⟨k1, hk1⟩ : ∃ k1, (lit 1 : F64) = fin false k1 := ⟨_, lit_one⟩
    obtain ⟨k2, hk2, k0⟩ := pos_form hh.1 (by rw [hh.2]; norm_num)
    rw [hk1, hk2] at hγ
    change isFin (F64.mul (fin false k2) (inf (!s))) at hγ
    simp only [F64.mul, if_neg k0] at hγ
    exact hγ
  · have hR : isFin (fin s k) := trivial
    generalize fin s k = R at *
    -- R ≥ 1/2
    have hR2 : 1 / 2 ≤ toQ R := by
      by_contra hlt
      push Not at hlt
      have : LeN (lit (1 / 2)) ((lit 1 : F64) -. R) := by
        have a1 : LeN (F64.neg (lit (1 / 2))) (F64.neg R) := LeN.neg (.inr (.inr ((val_fin_le hR hh.1).mpr (by rw [hh.2]; exact hlt.le))))
        have a2 := LeN.add_left (lit 1) a1
        rwa [show F64.add (lit 1) (F64.neg (lit (1 / 2))) = (lit (1 / 2) : F64) by decide +kernel] at a2
      have h3 := LeN.mul_left (c := lit (1 / 2)) ((val_fin_nonneg hh.1).mpr (by rw [hh.2]; norm_num)) this
      rw [show F64.mul (lit (1 / 2)) (lit (1 / 2)) = (lit (1 / 4) : F64) by decide +kernel] at h3
      have hq : isFin (lit (1 / 4) : F64) ∧ toQ (lit (1 / 4) : F64) = 1 / 4 := by decide +kernel
      have h4 := (h3.le (isFin_iff_val.mp hq.1).1 (isFin_iff_val.mp hγ).1)
      have h5 := (val_fin_le hq.1 hγ).mp ((le_iff _ _).mp h4).2.2
      rw [hq.2] at h5
      rw [h0] at h5
      norm_num at h5
    obtain ⟨k1, e1, -⟩ := pos_form hh.1 (by rw [hh.2]; norm_num)
    obtain ⟨k2, e2, -⟩ := pos_form hm m0
    obtain ⟨k3, e3, -⟩ := pos_form h1.1 (by rw [h1.2]; norm_num)
    obtain ⟨k4, e4, -⟩ := pos_form hR (by linarith)
    have := PosSign.mul (PosSign.mul (e1 ▸ PosSign.fin k1) (e2 ▸ PosSign.fin k2)) (PosSign.add (e3 ▸ PosSign.fin k3) (e4 ▸ PosSign.fin k4))
    exact this.ne

theorem add_zero_val' {a : F64} (h : notNaN a) (s : Bool) : val (F64.add a (zero s)) = val a ∧ notNaN (F64.add a (zero s)) := by
  rcases a with _ | t | ⟨t, k⟩
  · exact absurd rfl h
  · exact ⟨rfl, by simp [F64.add, zero, notNaN]⟩
  · have hf : isFin (fin t k) := trivial
    refine ⟨?_, ?_⟩
    · cases s
      · exact (add_zero_val hf).1
      · exact (add_zero_val hf).2
    · obtain ⟨z, hz⟩ := add_fin hf (show isFin (zero s) from trivial)
      rw [hz]
      exact ofRat_notNaN _ _

theorem add_le_left {a b : F64} (ha : notNaN a) (hb : b = nan ∨ val b ≤ 0) : F64.add a b = nan ∨ val (F64.add a b) ≤ val a := by
  rcases hb with rfl | hb
  · left; cases a <;> rfl
  have h1 : LeN b (zero false) := .inr (.inr (by rw [val_zero]; exact hb))
  have h2 := LeN.add_left a h1
  obtain ⟨z1, z2⟩ := add_zero_val' ha false
  rcases h2 with h | h | h
  · exact .inl h
  · exact absurd h z2
  · exact .inr (h.trans_eq z1)

/-- a sum of non-positive terms is NaN or at most each of its terms -/
theorem fold_neg (g : F64 → F64) (l : List F64) (r : F64) (hr : notNaN r) (h0 : val r ≤ 0) (hg : ∀ v ∈ l, g v = nan ∨ val (g v) ≤ 0) :
    l.foldl (fun r v => r +. g v) r = nan ∨
      val (l.foldl (fun r v => r +. g v) r) ≤ val r ∧ ∀ v ∈ l, val (l.foldl (fun r v => r +. g v) r) ≤ val (g v) := by
  induction l generalizing r with
  | nil => right; exact ⟨le_rfl, by simp⟩
  | cons v l ih =>
    rw [List.foldl_cons]
    rcases nan_or (r +. g v) with h | h
    · left; rw [h]; exact foldl_nan g l
    have hv : notNaN (g v) := by
      intro e
      rw [e, add_nan_right] at h
      exact h rfl
    have hv0 : val (g v) ≤ 0 := (hg v (by simp)).resolve_left hv
    have a1 : val (r +. g v) ≤ val r := (add_le_left hr (.inr hv0)).resolve_left h
    have a2 : val (r +. g v) ≤ val (g v) := by
      have := add_le_left hv (.inr h0)
      rw [F64.add_comm'] at this
      exact this.resolve_left h
    rcases ih _ h (a1.trans h0) (fun w hw => hg w (by simp [hw])) with c | ⟨c1, c2⟩
    · exact .inl c
    · right
      refine ⟨c1.trans a1, fun w hw => ?_⟩
      rcases List.mem_cons.mp hw with rfl | hw
      · exact c1.trans a2
      · exact c2 w hw

/-- the logarithm of a number that does not exceed 1 -/
theorem xlog_le_one {s : F64} (h : s = nan ∨ val s ≤ 1) : xlog muslFU s = nan ∨ val (xlog muslFU s) ≤ 0 := by
  by_cases hp : isFin s ∧ 0 < toQ s
  · right
    have h1 : toQ s ≤ 1 := by
      rcases h with rfl | h
      · exact absurd hp.1 (by simp [isFin])
      · rw [val_fin hp.1] at h
        have := ratCast_le_EReal (toQ s) 1
        rw [← this]
        simpa using h
    have hx := (xlog_fin hp.1 hp.2).1
    have := xlog_nonpos hp.1 hp.2 h1
    rw [val_fin hx]
    have h2 := ratCast_le_EReal (toQ (xlog muslFU s)) 0
    have h3 := h2.mpr this
    simpa using h3
  · rcases xlog_not_pos hp with g | ⟨-, g⟩
    · exact .inl g
    · right; rw [g, val_inf_true]; exact bot_le

/-- log of a number below 1 -/
theorem xlog_lt_one {s : F64} {d : ℚ} (hs : isFin s) (h0 : 0 < toQ s) (hd : 0 ≤ d) (h1 : toQ s ≤ 1 - d) :
    toQ (xlog muslFU s) ≤ -(9 / 10 * d) := by
  obtain ⟨c1, c2, c3, -⟩ := C66_partial s hs h0
  have r0 : 0 < toR s := by unfold toR; exact_mod_cast h0
  have r1 : toR s ≤ 1 - d := by unfold toR; exact_mod_cast h1
  have hlog : Real.log (toR s) ≤ -(d : ℝ) := by
    have := Real.log_le_sub_one_of_pos r0
    linarith
  have d0 : (0 : ℝ) ≤ d := by exact_mod_cast hd
  have hneg : Real.log (toR s) ≤ 0 := by linarith
  have key : toR (xlog muslFU s) ≤ -(9 / 10 * (d : ℝ)) := by
    by_cases hlt : toR s < 1
    · by_cases hr : 1 / 4 ≤ toR s ∧ toR s < 1 / 2
      · have := c3 hr.1 hr.2
        rw [abs_le, abs_of_nonpos hneg] at this
        have := this.2
        nlinarith
      · have := c2 (by
          by_cases h4 : toR s < 1 / 4
          · exact .inl h4
          · right; left
            push Not at hr h4
            exact ⟨hr h4, hlt⟩)
        rw [abs_le, abs_of_nonpos hneg] at this
        have := this.2
        nlinarith
    · have hd0 : d = 0 := by
        have : (d : ℝ) ≤ 0 := by linarith
        have : d ≤ 0 := by exact_mod_cast this
        linarith
      have hx := xlog_nonpos hs h0 (by linarith)
      rw [hd0]
      have : toR (xlog muslFU s) ≤ 0 := by unfold toR; exact_mod_cast hx
      simpa using this
  have h2 : ((toQ (xlog muslFU s) : ℚ) : ℝ) ≤ ((-(9 / 10 * d) : ℚ) : ℝ) := by
    push_cast
    exact key
  exact_mod_cast h2

theorem rep_scaled {i : ℤ} {e : ℤ} (h : |i| ≤ 2 ^ 53) (he : -1074 ≤ e) : Rep (i * pow2 e) := by
  refine ⟨i.natAbs, e, by zify; exact h, he, ?_⟩
  rw [abs_mul, abs_of_pos (pow2_pos e), Nat.cast_natAbs, Int.cast_abs]

theorem lit_rep {q : ℚ} (h : Rep q) (hq : |q| ≤ pow2 1023) : isFin (lit q : F64) ∧ toQ (lit q : F64) = q := by
  have := fin_ofRat (z := false) hq
  rw [rq_rep h] at this
  exact this

/-- With a clearly negative product of the root and of the greatest excess the shape is not zero. -/
theorem left_shape {l : List F64} {x mx : F64} (hn : l.length ≤ 2 ^ 49) (hv : ∀ v ∈ l, isFin v ∧ 0 ≤ toQ v) (hx : isFin x) (x0 : toQ x ≤ 0)
    (hmx : mx ∈ l) (hp : toQ x * toQ mx ≤ -(l.length * pow2 (-50))) (hp2 : -2 ≤ toQ x * toQ mx) :
    ¬ (isFin (grimshawVL (codeMath muslFU) l x -. lit 1) ∧ toQ (grimshawVL (codeMath muslFU) l x -. lit 1) = 0) := by
  have h1n : 1 ≤ l.length := List.length_pos_iff.mpr (List.ne_nil_of_mem hmx)
  obtain ⟨n1, n2⟩ := lit_len h1n (hn.trans (by norm_num))
  have h1 : isFin (lit 1 : F64) ∧ toQ (lit 1 : F64) = 1 := by decide +kernel
  have nq : (1 : ℚ) ≤ l.length := by exact_mod_cast h1n
  have nq2 : (l.length : ℚ) ≤ 2 ^ 49 := by exact_mod_cast hn
  have p50 : pow2 (-50) = 1 / 2 ^ 50 := by decide +kernel
  have p51 : pow2 (-51) = 1 / 2 ^ 51 := by decide +kernel
  have big2 : (2 : ℚ) ≤ pow2 1023 := by decide +kernel
  -- the constant
  have hK := lit_rep (q := -(l.length * pow2 (-51))) (by
    have := rep_scaled (i := -(l.length : ℤ)) (e := -51) (by rw [abs_neg, abs_of_nonneg (by positivity)]; exact_mod_cast hn.trans (by norm_num)) (by norm_num)
    convert this using 1
    push_cast; ring) (by
    rw [abs_neg, abs_of_nonneg (by rw [p51]; positivity)]
    refine le_trans ?_ big2
    rw [p51]
    linarith)
  generalize hKd : (lit (-(l.length * pow2 (-51))) : F64) = K at hK
  have hsmax : ∀ v ∈ l, (lit 1 +. x *. v : F64) = nan ∨ val (lit 1 +. x *. v : F64) ≤ 1 := by
    intro v hvm
    obtain ⟨v1, v2⟩ := hv v hvm
    have m1 : LeN (F64.mul x v) (zero false) := by
      rcases mul_nonpos_val (a := x) (c := v) ((val_fin_nonneg v1).mpr v2) (by
        rw [val_fin hx]
        have := (ratCast_le_EReal (toQ x) 0).mpr x0
        simpa using this) with h | h
      · left; rw [F64.mul_comm', h]
      · right; right; rw [F64.mul_comm', val_zero]; exact h
    have m2 := LeN.add_left (lit 1) m1
    have m3 : F64.add (lit 1) (zero false) = (lit 1 : F64) := by decide +kernel
    rw [m3] at m2
    rcases m2 with h | h | h
    · exact .inl h
    · exact absurd h h1.1.notNaN
    · right
      refine h.trans ?_
      rw [val_fin h1.1, h1.2]
      simp
  have hterm : xlog muslFU (lit 1 +. x *. mx) = nan ∨ val (xlog muslFU (lit 1 +. x *. mx)) ≤ val K := by
    by_cases hpos : isFin (lit 1 +. x *. mx : F64) ∧ 0 < toQ (lit 1 +. x *. mx : F64)
    · right
      obtain ⟨a1, a2⟩ := mul_fin' hx (hv mx hmx).1 (by
        rw [abs_le]
        refine ⟨le_trans ?_ hp2, hp.trans ?_⟩
        · linarith
        · rw [p50]; linarith)
      have r1 : Rep (-(l.length * pow2 (-50))) := by
        have := rep_scaled (i := -(l.length : ℤ)) (e := -50) (by rw [abs_neg, abs_of_nonneg (by positivity)]; exact_mod_cast hn.trans (by norm_num)) (by norm_num)
        convert this using 1
        push_cast; ring
      have a3 : toQ (F64.mul x mx) ≤ -(l.length * pow2 (-50)) := by
        rw [a2, ← rq_rep r1]; exact rq_mono hp
      have a4 : -2 ≤ toQ (F64.mul x mx) := by
        have := rq_mono hp2
        rw [show rq (-2) = -2 by decide +kernel] at this
        rw [a2]; exact this
      obtain ⟨b1, b2⟩ := add_fin' h1.1 a1 (by
        rw [h1.2, abs_le]
        constructor
        · linarith
        · rw [p50] at a3; linarith)
      have r2 : Rep (1 - l.length * pow2 (-50)) := by
        have := rep_scaled (i := 2 ^ 50 - (l.length : ℤ)) (e := -50) (by
          have : (l.length : ℤ) ≤ 2 ^ 49 := by exact_mod_cast hn
          rw [abs_of_nonneg (by linarith)]
          have : (0 : ℤ) ≤ l.length := by positivity
          linarith) (by norm_num)
        convert this using 1
        push_cast
        rw [p50]; ring
      have b3 : toQ (lit 1 +. x *. mx : F64) ≤ 1 - l.length * pow2 (-50) := by
        have b2 : toQ (lit 1 +. x *. mx : F64) = rq (toQ (lit 1 : F64) + toQ (F64.mul x mx)) := b2
        rw [b2, ← rq_rep r2]
        apply rq_mono
        rw [h1.2]; linarith
      have c := xlog_lt_one hpos.1 hpos.2 (by rw [p50]; positivity) b3
      rw [val_fin_le (xlog_fin hpos.1 hpos.2).1 hK.1, hK.2]
      refine c.trans ?_
      rw [p50, p51]
      linarith
    · rcases xlog_not_pos hpos with g | ⟨-, g⟩
      · exact .inl g
      · right; rw [g, val_inf_true]; exact bot_le
  -- the sum
  have hlog : ∀ y : F64, (codeMath muslFU).log y = xlog muslFU y := fun _ => rfl
  have hS := fold_neg (fun v => xlog muslFU (lit 1 +. x *. v)) l (lit 0) (by decide +kernel)
    (by rw [show (lit 0 : F64) = zero false from lit_zero, val_zero]) (fun v hvm => xlog_le_one (hsmax v hvm))
  unfold grimshawVL
  simp only [hlog]
  generalize hSd : l.foldl (fun v y => v +. xlog muslFU (lit 1 +. x *. y)) (lit 0) = S at *
  have hSK : LeN S K := by
    rcases hS with h | ⟨-, h⟩
    · exact .inl h
    rcases hterm with ht | ht
    · left
      rw [← hSd]
      exact foldl_nan_mem (fun v => xlog muslFU (lit 1 +. x *. v)) l _ ⟨mx, hmx, ht⟩
    · exact .inr (.inr ((h mx hmx).trans ht))
  have d1 := LeN.div_right n1 (by rw [n2]; linarith) hSK
  have d2 : F64.div K (lit (l.length : ℚ)) = lit (-pow2 (-51)) := by
    have : F64.div K (lit (l.length : ℚ)) = ofRat false (-pow2 (-51)) := by
      obtain ⟨z, hz⟩ := div_fin hK.1 n1 (by rw [n2]; linarith)
      have hq : toQ K / toQ (lit (l.length : ℚ) : F64) = -pow2 (-51) := by
        rw [hK.2, n2]
        field_simp
      rw [hz, hq]
      unfold ofRat
      rw [if_neg (by rw [p51]; norm_num), if_neg (by rw [p51]; norm_num)]
    exact this
  rw [d2] at d1
  have d3 := LeN.sub_right (lit 1) (LeN.add_left (lit 1) d1)
  have d4 : F64.sub (F64.add (lit 1) (lit (-pow2 (-51)))) (lit 1) = (lit (-pow2 (-51)) : F64) := by decide +kernel
  rw [d4] at d3
  have k : isFin (lit (-pow2 (-51)) : F64) ∧ toQ (lit (-pow2 (-51)) : F64) < 0 := by decide +kernel
  rintro ⟨f1, f2⟩
  have f3 := d3.le f1.notNaN k.1.notNaN
  have f4 := (val_fin_le f1 k.1).mp ((le_iff _ _).mp f3).2.2
  have f2' : toQ (F64.sub (F64.add (lit 1) (F64.div S (lit (l.length : ℚ)))) (lit 1)) = 0 := f2
  linarith

/-- the quotient of a number of moderate size by another -/
theorem div_rel {x y : F64} (hx : isFin x) (hy : isFin y) (y0 : 0 < toQ y) (h0 : pow2 (-1022) ≤ |toQ x / toQ y|) (h1 : |toQ x / toQ y| ≤ pow2 1023) :
    isFin (x /. y) ∧ |toQ (x /. y) - toQ x / toQ y| ≤ 1 / 9007199254740992 * |toQ x / toQ y| := by
  obtain ⟨d1, d2⟩ := div_fin' hx hy y0.ne' h1
  refine ⟨d1, ?_⟩
  have d2 : toQ (x /. y) = rq (toQ x / toQ y) := d2
  rw [d2, ← pow2_m53]
  exact rq_rel (.inr h0)

/-- the reciprocal of the greatest excess, times a constant -/
theorem recip_bounds {mx c : F64} (hmx : isFin mx) (m0 : pow2 (-24) ≤ toQ mx) (m1 : toQ mx ≤ pow2 100) (hc : isFin c) (c0 : 1 / 2 ≤ |toQ c|)
    (c1 : |toQ c| ≤ 1) :
    isFin (c /. mx) ∧ |toQ (c /. mx) * toQ mx - toQ c| ≤ 1 / 9007199254740992 * |toQ c| ∧ pow2 (-102) ≤ |toQ (c /. mx)| := by
  have mp : 0 < toQ mx := lt_of_lt_of_le (pow2_pos _) m0
  have q0 : pow2 (-101) ≤ |toQ c / toQ mx| := by
    rw [abs_div, abs_of_pos mp, le_div_iff₀ mp]
    refine le_trans (mul_le_mul_of_nonneg_left m1 (pow2_pos _).le) (le_trans ?_ c0)
    decide +kernel
  have q1 : |toQ c / toQ mx| ≤ pow2 24 := by
    rw [abs_div, abs_of_pos mp, div_le_iff₀ mp]
    refine le_trans c1 (le_trans ?_ (mul_le_mul_of_nonneg_left m0 (pow2_pos _).le))
    decide +kernel
  obtain ⟨d1, d2⟩ := div_rel hc hmx mp (q0.trans' (pow2_le (by norm_num))) (q1.trans (pow2_le (by norm_num)))
  generalize toQ (c /. mx) = r at *
  clear q1
  refine ⟨d1, ?_, ?_⟩
  · have e1 : r * toQ mx - toQ c = (r - toQ c / toQ mx) * toQ mx := by field_simp
    have e2 : |toQ c| = |toQ c / toQ mx| * toQ mx := by rw [abs_div, abs_of_pos mp]; field_simp
    rw [e1, abs_mul, abs_of_pos mp, e2, ← mul_assoc]
    exact mul_le_mul_of_nonneg_right d2 mp.le
  · have h1 : |toQ c / toQ mx| ≤ |r| + |r - toQ c / toQ mx| := by
      have := abs_sub_abs_le_abs_sub (toQ c / toQ mx) r
      rw [abs_sub_comm] at this
      linarith
    have h2 : pow2 (-101) = 2 * pow2 (-102) := by decide +kernel
    rw [h2] at q0
    linarith [abs_nonneg r]

theorem eps_const : isFin (BRENT_DEFAULT_EPSILON : F64) ∧ 19 / 10 ^ 9 ≤ toQ (BRENT_DEFAULT_EPSILON : F64) ∧
    toQ (BRENT_DEFAULT_EPSILON : F64) ≤ 3 / 10 ^ 8 := by decide +kernel

theorem eps_bounds {mx : F64} (hmx : isFin mx) (m0 : pow2 (-24) ≤ toQ mx) (m1 : toQ mx ≤ pow2 100) :
    isFin (xmin BRENT_DEFAULT_EPSILON (lit (1 / 2) /. mx)) ∧ pow2 (-102) ≤ toQ (xmin BRENT_DEFAULT_EPSILON (lit (1 / 2) /. mx)) ∧
    toQ (xmin BRENT_DEFAULT_EPSILON (lit (1 / 2) /. mx)) ≤ 3 / 10 ^ 8 ∧
    toQ (xmin BRENT_DEFAULT_EPSILON (lit (1 / 2) /. mx)) * toQ mx ≤ 51 / 100 ∧
    (19 / 10 ^ 9 ≤ toQ (xmin BRENT_DEFAULT_EPSILON (lit (1 / 2) /. mx)) ∨
      49 / 100 ≤ toQ (xmin BRENT_DEFAULT_EPSILON (lit (1 / 2) /. mx)) * toQ mx) := by
  have mp : 0 < toQ mx := lt_of_lt_of_le (pow2_pos _) m0
  have hh : isFin (lit (1 / 2) : F64) ∧ toQ (lit (1 / 2) : F64) = 1 / 2 := by decide +kernel
  obtain ⟨r1, r2, r3⟩ := recip_bounds hmx m0 m1 hh.1 (by rw [hh.2]; norm_num) (by rw [hh.2]; norm_num)
  obtain ⟨c1, c2, c3⟩ := eps_const
  generalize (lit (1 / 2) /. mx : F64) = d at *
  rw [hh.2, abs_le, abs_of_pos (by norm_num)] at r2
  have dp : 0 < toQ d := by
    have : 0 < toQ d * toQ mx := by linarith [r2.1]
    exact (mul_pos_iff_of_pos_right mp).mp this
  rw [abs_of_pos dp] at r3
  unfold xmin
  rw [if_neg (by rw [(is_nan_false _).mpr c1.notNaN, (is_nan_false _).mpr r1.notNaN]; decide)]
  by_cases hlt : ((BRENT_DEFAULT_EPSILON : F64) <. d) = true
  · rw [if_pos hlt]
    have := (lt_fin_iff c1 r1).mp hlt
    refine ⟨c1, le_trans (by decide +kernel) c2, c3, ?_, .inl c2⟩
    have := mul_le_mul_of_nonneg_right this.le mp.le
    linarith [r2.2]
  · rw [if_neg hlt]
    have : toQ d ≤ toQ (BRENT_DEFAULT_EPSILON : F64) := by
      by_contra h
      exact hlt ((lt_fin_iff c1 r1).mpr (not_le.mp h))
    exact ⟨r1, r3, this.trans c3, by linarith [r2.2], .inr (by linarith [r2.1])⟩

/-- a point of the left interval -/
theorem left_interval {mx : F64} {n : ℕ} (hmx : isFin mx) (m0 : n * pow2 (-24) ≤ toQ mx) (n1 : 1 ≤ n) (n2 : n ≤ 2 ^ 24) (m1 : toQ mx ≤ pow2 100)
    (f : F64 → F64) (x : F64)
    (hx : brentP f (lit (-1) /. mx +. xmin BRENT_DEFAULT_EPSILON (lit (1 / 2) /. mx)) (-. xmin BRENT_DEFAULT_EPSILON (lit (1 / 2) /. mx))
      BRENT_DEFAULT_EPSILON = (true, x)) :
    isFin x ∧ toQ x ≤ 0 ∧ toQ x * toQ mx ≤ -(n * pow2 (-50)) ∧ -2 ≤ toQ x * toQ mx := by
  have nq : (1 : ℚ) ≤ n := by exact_mod_cast n1
  have nq2 : (n : ℚ) ≤ 2 ^ 24 := by exact_mod_cast n2
  have m0' : pow2 (-24) ≤ toQ mx := le_trans (le_mul_of_one_le_left (pow2_pos _).le nq) m0
  have mp : 0 < toQ mx := lt_of_lt_of_le (pow2_pos _) m0'
  obtain ⟨e1, e2, e3, e4, e5⟩ := eps_bounds hmx m0' m1
  have hm : isFin (lit (-1) : F64) ∧ toQ (lit (-1) : F64) = -1 := by decide +kernel
  obtain ⟨r1, r2, r3⟩ := recip_bounds hmx m0' m1 hm.1 (by rw [hm.2]; norm_num) (by rw [hm.2]; norm_num)
  generalize (xmin BRENT_DEFAULT_EPSILON (lit (1 / 2) /. mx) : F64) = eps at *
  generalize (lit (-1) /. mx : F64) = d at *
  rw [hm.2, abs_le] at r2
  norm_num at r2
  have ep : 0 < toQ eps := lt_of_lt_of_le (pow2_pos _) e2
  have p24 : pow2 (-24) = 1 / 2 ^ 24 := by decide +kernel
  have p50 : pow2 (-50) = 1 / 2 ^ 50 := by decide +kernel
  -- the sum
  have dlo : -(2 ^ 25) ≤ toQ d := by
    by_contra h
    push Not at h
    have h1 : toQ d * toQ mx < -(2 ^ 25) * (1 / 2 ^ 24) := by
      rw [p24] at m0'
      nlinarith
    linarith [r2.1]
  have d0 : toQ d < 0 := by
    by_contra h
    push Not at h
    have := mul_nonneg h mp.le
    linarith [r2.2]
  have b25 : (2 ^ 26 : ℚ) ≤ pow2 1000 := by decide +kernel
  obtain ⟨a1, a2⟩ := add_rel r1 e1 (by
    refine le_trans ?_ (b25.trans (pow2_le (by norm_num)))
    rw [abs_le]
    constructor <;> linarith)
  clear m1 e2
  have s1 : (toQ d + toQ eps) * toQ mx ≤ -(48 / 100) := by nlinarith [r2.2]
  have s2 : -(101 / 100) ≤ (toQ d + toQ eps) * toQ mx := by nlinarith [r2.1, mul_pos ep mp]
  have sneg : toQ d + toQ eps < 0 := by
    by_contra h
    push Not at h
    have := mul_nonneg h mp.le
    linarith
  generalize hX1 : (d +. eps : F64) = X1 at *
  rw [abs_of_neg sneg, abs_le] at a2
  have t1 : toQ X1 * toQ mx ≤ -(47 / 100) := by
    have := mul_le_mul_of_nonneg_right a2.2 mp.le
    nlinarith
  have t2 : -(102 / 100) ≤ toQ X1 * toQ mx := by
    have := mul_le_mul_of_nonneg_right a2.1 mp.le
    nlinarith
  have hX2 : isFin (-. eps) ∧ toQ (-. eps) = -toQ eps := by
    refine ⟨?_, toQ_neg eps⟩
    cases eps
    · exact e1
    · exact e1
    · trivial
  have u1 : -toQ eps * toQ mx ≤ -(n * pow2 (-50)) := by
    rw [p50]
    rw [p24] at m0
    rcases e5 with h | h
    · have := mul_le_mul h m0 (by positivity) ep.le
      have k : (19 / 10 ^ 9 : ℚ) * (1 / 2 ^ 24) ≥ 1 / 2 ^ 50 := by norm_num
      nlinarith
    · nlinarith
  have X1lo : |toQ X1| ≤ pow2 1000 := by
    refine le_trans ?_ b25
    rw [abs_le]
    constructor <;> linarith
  have X2lo : |toQ (-. eps)| ≤ pow2 1000 := by
    refine le_trans ?_ b25
    rw [hX2.2, abs_neg, abs_of_pos ep]
    linarith
  obtain ⟨c1, c2, c3⟩ := eps_const
  have hin := search_in f X1 (-. eps) BRENT_DEFAULT_EPSILON a1 hX2.1 X1lo X2lo c1 (le_trans (by decide +kernel) c2) (c3.trans (by decide +kernel))
  rw [← search_fst] at hx
  obtain ⟨x1, x2⟩ := hin x (C20_bracketed f _ _ _ x hx).1
  rw [hX2.2, Set.mem_uIcc] at x2
  clear X1lo X2lo b25 hin
  have np : 0 ≤ n * pow2 (-50) := by rw [p50]; positivity
  have n47 : n * pow2 (-50) ≤ 47 / 100 := by rw [p50]; linarith
  have X1neg : toQ X1 ≤ 0 := by
    by_contra h
    push Not at h
    have := mul_pos h mp
    linarith
  rcases x2 with ⟨l1, l2⟩ | ⟨l1, l2⟩
  · refine ⟨x1, by linarith, ?_, ?_⟩
    · exact (mul_le_mul_of_nonneg_right l2 mp.le).trans u1
    · exact le_trans (by linarith) (mul_le_mul_of_nonneg_right l1 mp.le)
  · refine ⟨x1, by linarith, ?_, ?_⟩
    · exact (mul_le_mul_of_nonneg_right l2 mp.le).trans (by linarith)
    · refine le_trans ?_ (mul_le_mul_of_nonneg_right l1 mp.le)
      linarith

/-- a double of at least 2^-400 is a multiple of 2^-452 -/
theorem mag_multiple_400 {k : ℕ} (h1 : pow2 (-400) ≤ mag k) : ∃ n : ℕ, mag k = n * pow2 (-452) := by
  have hk : 2805742567851819008 ≤ k := by
    rw [← mag_le_iff]
    have : mag 2805742567851819008 = pow2 (-400) := by decide +kernel
    rw [this]; exact h1
  unfold mag
  rw [if_neg]
  · have hq : 623 ≤ k / 2 ^ 52 := by
      rw [Nat.le_div_iff_mul_le (by norm_num)]; norm_num; omega
    refine ⟨(2 ^ 52 + k % 2 ^ 52) * 2 ^ (k / 2 ^ 52 - 623), ?_⟩
    have : ((k / 2 ^ 52 : ℕ) : ℤ) - 1075 = ((k / 2 ^ 52 - 623 : ℕ) : ℤ) + (-452) := by omega
    rw [this, pow2_add, pow2_natCast]; push_cast; ring
  · intro h
    have : 2 ^ 52 < 2805742567851819008 := by norm_num
    omega

/-- two distinct doubles of at least 2^-400 differ by at least 2^-452 -/
theorem gap_400 {x y : F64} (hx : isFin x) (hy : isFin y) (h : pow2 (-400) ≤ toQ x) (hlt : toQ x < toQ y) : pow2 (-452) ≤ toQ y - toQ x := by
  obtain ⟨k, rfl, -⟩ := pos_form hx (lt_of_lt_of_le (pow2_pos _) h)
  obtain ⟨j, rfl, -⟩ := pos_form hy (lt_of_lt_of_le (pow2_pos _) (h.trans hlt.le))
  have h2 := h.trans hlt.le
  change pow2 (-400) ≤ mag k at h
  change pow2 (-400) ≤ mag j at h2
  change mag k < mag j at hlt
  change pow2 (-452) ≤ mag j - mag k
  obtain ⟨n, hn⟩ := mag_multiple_400 h
  obtain ⟨m, hm⟩ := mag_multiple_400 h2
  rw [hn, hm] at hlt ⊢
  have hp := pow2_pos (-452)
  generalize pow2 (-452) = p at *
  have : (n : ℚ) < m := lt_of_mul_lt_mul_right hlt hp.le
  have : (n : ℚ) + 1 ≤ m := by exact_mod_cast (by exact_mod_cast this : n < m)
  nlinarith

/-- a point of the right interval -/
theorem right_interval {mx mn me : F64} (hmx : isFin mx) (m0 : pow2 (-24) ≤ toQ mx) (m1 : toQ mx ≤ pow2 100) (hmn : isFin mn)
    (n0 : pow2 (-400) ≤ toQ mn) (n1 : toQ mn ≤ pow2 100) (hme : isFin me) (le : toQ mn ≤ toQ me) (me1 : toQ me ≤ pow2 150) (f : F64 → F64) (x : F64)
    (hx : brentP f (xmin BRENT_DEFAULT_EPSILON (lit (1 / 2) /. mx)) (lit 2 *. (me -. mn) /. (mn *. mn)) BRENT_DEFAULT_EPSILON = (true, x)) :
    isFin x ∧ 0 ≤ toQ x ∧ toQ x ≤ pow2 1000 ∧ (toQ mn < toQ me → pow2 (-652) ≤ toQ x) := by
  obtain ⟨e1, e2, e3, -, -⟩ := eps_bounds hmx m0 m1
  generalize (xmin BRENT_DEFAULT_EPSILON (lit (1 / 2) /. mx) : F64) = eps at *
  have two : isFin (lit 2 : F64) ∧ toQ (lit 2 : F64) = 2 := by decide +kernel
  have np : 0 < toQ mn := lt_of_lt_of_le (pow2_pos _) n0
  -- the difference
  have D0 : 0 ≤ toQ me - toQ mn := by linarith
  have D1 : toQ me - toQ mn ≤ pow2 150 := by linarith
  obtain ⟨a1, a2⟩ := sub_fin' hme hmn (by rw [abs_of_nonneg D0]; exact D1.trans (pow2_le (by norm_num)))
  have a3 : 0 ≤ toQ (F64.sub me mn) := by
    rw [a2]; have := rq_mono D0; rwa [show rq 0 = 0 by decide +kernel] at this
  have a4 : toQ (F64.sub me mn) ≤ pow2 150 := by
    have := rq_abs_le (by norm_num : (-1074 : ℤ) ≤ 150) (by rw [abs_of_nonneg D0]; exact D1)
    rw [a2]; exact (le_abs_self _).trans this
  have B0 : 0 ≤ toQ (lit 2 : F64) * toQ (F64.sub me mn) := by rw [two.2]; linarith
  have B1 : toQ (lit 2 : F64) * toQ (F64.sub me mn) ≤ pow2 151 := by
    rw [two.2, show pow2 151 = 2 * pow2 150 by decide +kernel]; linarith
  obtain ⟨b1, b2⟩ := mul_fin' two.1 a1 (by rw [abs_of_nonneg B0]; exact B1.trans (pow2_le (by norm_num)))
  have b3 : 0 ≤ toQ (F64.mul (lit 2) (F64.sub me mn)) := by
    rw [b2]; have := rq_mono B0; rwa [show rq 0 = 0 by decide +kernel] at this
  have b4 : toQ (F64.mul (lit 2) (F64.sub me mn)) ≤ pow2 151 := by
    have := rq_abs_le (by norm_num : (-1074 : ℤ) ≤ 151) (by rw [abs_of_nonneg B0]; exact B1)
    rw [b2]; exact (le_abs_self _).trans this
  -- the square
  have C0 : pow2 (-800) ≤ toQ mn * toQ mn := by
    have := mul_le_mul n0 n0 (pow2_pos _).le np.le
    rwa [show pow2 (-400) * pow2 (-400) = pow2 (-800) by decide +kernel] at this
  have C1 : toQ mn * toQ mn ≤ pow2 200 := by
    have := mul_le_mul n1 n1 np.le (pow2_pos _).le
    rwa [show pow2 100 * pow2 100 = pow2 200 by decide +kernel] at this
  obtain ⟨c1, c2⟩ := mul_fin' hmn hmn (by rw [abs_of_nonneg (mul_pos np np).le]; exact C1.trans (pow2_le (by norm_num)))
  have c3 : pow2 (-800) ≤ toQ (F64.mul mn mn) := by
    rw [c2]; exact le_rq (by norm_num) C0
  have cp : 0 < toQ (F64.mul mn mn) := lt_of_lt_of_le (pow2_pos _) c3
  have c4 : toQ (F64.mul mn mn) ≤ pow2 200 := by
    have := rq_abs_le (by norm_num : (-1074 : ℤ) ≤ 200) (by rw [abs_of_nonneg (mul_pos np np).le]; exact C1)
    rw [c2]; exact (le_abs_self _).trans this
  have b5 : toQ mn < toQ me → pow2 (-452) ≤ toQ (F64.mul (lit 2) (F64.sub me mn)) := fun hlt => by
    have g1 := gap_400 hmn hme n0 hlt
    have g2 : pow2 (-452) ≤ toQ (F64.sub me mn) := by rw [a2]; exact le_rq (by norm_num) g1
    rw [b2]
    refine le_rq (by norm_num) (g2.trans ?_)
    rw [two.2]
    linarith
  -- the quotient
  generalize hN : F64.mul (lit 2) (F64.sub me mn) = N at *
  generalize hDn : F64.mul mn mn = Dn at *
  have Q0 : 0 ≤ toQ N / toQ Dn := div_nonneg b3 cp.le
  have Q1 : toQ N / toQ Dn ≤ pow2 951 := by
    rw [div_le_iff₀ cp]
    refine b4.trans (le_trans ?_ (mul_le_mul_of_nonneg_left c3 (pow2_pos _).le))
    decide +kernel
  obtain ⟨d1, d2⟩ := div_fin' b1 c1 cp.ne' (by rw [abs_of_nonneg Q0]; exact Q1.trans (pow2_le (by norm_num)))
  have d3 : 0 ≤ toQ (F64.div N Dn) := by
    rw [d2]; have := rq_mono Q0; rwa [show rq 0 = 0 by decide +kernel] at this
  have d4 : |toQ (F64.div N Dn)| ≤ pow2 1000 := by
    have := rq_abs_le (by norm_num : (-1074 : ℤ) ≤ 951) (by rw [abs_of_nonneg Q0]; exact Q1)
    rw [d2]; exact this.trans (pow2_le (by norm_num))
  have d5 : toQ mn < toQ me → pow2 (-652) ≤ toQ (F64.div N Dn) := fun hlt => by
    rw [d2]
    refine le_rq (by norm_num) ?_
    rw [le_div_iff₀ cp]
    refine le_trans (mul_le_mul_of_nonneg_left c4 (pow2_pos _).le) (le_trans ?_ (b5 hlt))
    decide +kernel
  have ep : 0 < toQ eps := lt_of_lt_of_le (pow2_pos _) e2
  obtain ⟨k1, k2, k3⟩ := eps_const
  have hxe : (lit 2 *. (me -. mn) /. (mn *. mn) : F64) = F64.div N Dn := by rw [← hN, ← hDn]; rfl
  rw [hxe, ← search_fst] at hx
  have hin := search_in f eps (F64.div N Dn) BRENT_DEFAULT_EPSILON e1 d1 (by rw [abs_of_pos ep]; exact e3.trans (by decide +kernel)) d4 k1
    (le_trans (by decide +kernel) k2) (k3.trans (by decide +kernel))
  obtain ⟨x1, x2⟩ := hin x (C20_bracketed f _ _ _ x hx).1
  have e3' : toQ eps ≤ pow2 1000 := e3.trans (by decide +kernel)
  have d4' := (le_abs_self _).trans d4
  have e2' : pow2 (-652) ≤ toQ eps := le_trans (pow2_le (by norm_num)) e2
  rw [Set.mem_uIcc] at x2
  rcases x2 with ⟨l1, l2⟩ | ⟨l1, l2⟩
  · exact ⟨x1, ep.le.trans l1, l2.trans d4', fun _ => e2'.trans l1⟩
  · exact ⟨x1, d3.trans l1, l2.trans e3', fun h => (d5 h).trans l1⟩

/-- The estimated scale is positive. -/
theorem tailFit_scale_pos (t : Tail F64) (l : List F64) (hl : l ≠ []) (hn : l.length ≤ 2 ^ 24) (hv : ∀ v ∈ l, isFin v ∧ 0 ≤ toQ v)
    (hmx : t.peaks.max ∈ l) (m0 : l.length * pow2 (-24) ≤ toQ t.peaks.max) (m1 : toQ t.peaks.max ≤ pow2 100)
    (hmn : t.peaks.min ∈ l) (n0 : pow2 (-400) ≤ toQ t.peaks.min) (n1 : toQ t.peaks.min ≤ pow2 100)
    (he : isFin t.peaks.e) (e0 : pow2 (-900) ≤ toQ t.peaks.e) (e1 : toQ t.peaks.e ≤ pow2 149)
    (hmean : (t.peaks.min <=. meanL t.peaks.e l) = true) :
    isFin (tailFitL (codeMath muslFU) t l).2.sigma ∧ 0 < toQ (tailFitL (codeMath muslFU) t l).2.sigma := by
  have ep : 0 < toQ t.peaks.e := lt_of_lt_of_le (pow2_pos _) e0
  have h1n : 1 ≤ l.length := List.length_pos_iff.mpr hl
  have hn' : l.length ≤ 2 ^ 53 := hn.trans (by norm_num)
  obtain ⟨k1, k2⟩ := lit_len h1n hn'
  have nq : (1 : ℚ) ≤ l.length := by exact_mod_cast h1n
  have hM := div_pos_fin he k1 e0 (e1.trans (pow2_le (by norm_num))) (by rw [k2]; exact nq) (by rw [k2]; exact_mod_cast hn')
  have hM1 : toQ (meanL t.peaks.e l) ≤ pow2 150 := by
    have q1 : toQ t.peaks.e / toQ (lit (l.length : ℚ) : F64) ≤ pow2 149 := by
      rw [k2]; exact (div_le_self ep.le nq).trans e1
    have q0 : 0 ≤ toQ t.peaks.e / toQ (lit (l.length : ℚ) : F64) := by rw [k2]; exact div_nonneg ep.le (by linarith)
    obtain ⟨d1, d2⟩ := div_fin' he k1 (by rw [k2]; linarith) (by rw [abs_of_nonneg q0]; exact q1.trans (pow2_le (by norm_num)))
    have d2 : toQ (meanL t.peaks.e l) = rq (toQ t.peaks.e / toQ (lit (l.length : ℚ) : F64)) := d2
    have := rq_abs_le (by norm_num : (-1074 : ℤ) ≤ 149) (by rw [abs_of_nonneg q0]; exact q1)
    rw [d2]; exact (le_abs_self _).trans (this.trans (pow2_le (by norm_num)))
  have hMf : isFin (meanL t.peaks.e l) := hM.1
  have hM0 : 0 < toQ (meanL t.peaks.e l) := hM.2
  have hle := (le_fin_iff (hv _ hmn).1 hMf).mp hmean
  have m0' : pow2 (-24) ≤ toQ t.peaks.max := le_trans (le_mul_of_one_le_left (pow2_pos _).le nq) m0
  have mpos : ∀ k, meanL t.peaks.e l = fin false k → PosSign (meanL t.peaks.e l) := fun k hk => hk ▸ .fin k
  obtain ⟨km, hkm, -⟩ := pos_form hMf hM0
  apply tailFitL_cases (P := fun _ σ => isFin σ ∧ 0 < toQ σ)
  · exact hM
  · intro h
    rcases logLik_scale he ep hl hn' hv h with g | ⟨g1, g2, g3⟩
    · exact g
    · exact absurd g3 (mom_scale_ne (codeMath muslFU) hMf hM0 g1 g2)
  · intro x hx h
    rw [simplifiedF_ll] at h
    rcases logLik_scale he ep hl hn' hv h with g | ⟨g1, g2, g3⟩
    · exact g
    exfalso
    by_cases hx0 : (x ==. lit 0) = true
    · rw [(simplified_zero _ _ l hx0).2] at g3
      exact (mpos km hkm).ne g3
    unfold simplifiedL at g1 g2 g3
    rw [if_neg hx0] at g1 g2 g3
    dsimp only at g1 g2 g3
    rcases hx with hx | hx
    · obtain ⟨a1, a2, a3, a4⟩ := left_interval (hv _ hmx).1 m0 h1n hn m1 _ x hx
      exact left_shape (hn.trans (by norm_num)) hv a1 a2 hmx a3 a4 ⟨g1, g2⟩
    · obtain ⟨a1, a2, -⟩ := right_interval (hv _ hmx).1 m0' m1 (hv _ hmn).1 n0 n1 hMf hle hM1 _ x hx
      have x0 : 0 < toQ x := by
        rcases a2.lt_or_eq with h | h
        · exact h
        · exfalso
          apply hx0
          refine (eq_iff _ _).mpr ⟨a1.notNaN, by decide +kernel, ?_⟩
          rw [show (lit 0 : F64) = zero false from lit_zero, val_zero, val_fin a1, ← h]
          simp
      refine (PosSign.div_pos ?_ a1 x0).ne g3
      right; right
      obtain ⟨z, hz⟩ := zero_of_val g1.notNaN (by rw [val_fin g1, g2]; simp)
      have hz' : z = false := by
        by_contra hc
        have hz'' : z = true := by simpa using hc
        rw [hz''] at hz
        refine sub_ne_negzero (e := grimshawVL (codeMath muslFU) l x) ?_ hz
        intro hV
        rw [hV] at hz
        exact absurd hz (by decide +kernel)
      rw [hz, hz']
      exact ⟨_, rfl⟩

end Verif

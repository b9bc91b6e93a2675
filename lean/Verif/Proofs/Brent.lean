/-
Invariants of the root search.
-/
import Verif.Spec.Brent
import Verif.Proofs.Estim
import Verif.XR.Simp
import Mathlib.Order.Interval.Set.UnorderedInterval

set_option linter.unusedSectionVars false

namespace Verif
open Spec
section
variable {α : Type} [CDouble α] {f : α → α} {x1 x2 tol : α}

/-- the next state of the loop -/
def brentStep (f : α → α) (tol : α) (s0 : BrentSt α) : BrentSt α :=
  let s := brentAdjust s0
  let de := brentDE tol s
  let b' := brentNext tol s de.1
  { s with a := s.b, fa := s.fb, d := de.1, e := de.2, b := b', fb := f b' }

theorem brentLoop_zero (s : BrentSt α) (l : List α) : brentLoop (logged f) tol 0 s l = ((false, lit 0), l) := rfl

theorem brentLoop_succ (n : ℕ) (s : BrentSt α) (l : List α) :
    brentLoop (logged f) tol (n + 1) s l =
      if brentDone tol (brentAdjust s) then ((true, (brentAdjust s).b), l)
      else brentLoop (logged f) tol n (brentStep f tol s) (l ++ [(brentStep f tol s).b]) := by
  conv_lhs => unfold brentLoop
  dsimp only
  split
  · rfl
  · rfl

theorem search_eq (f : α → α) (x1 x2 tol : α) :
    search f x1 x2 tol = if sameSign (f x1) (f x2) then ((false, lit 0), [x1, x2])
      else brentLoop (logged f) tol BRENT_ITMAX ⟨x1, x2, x2, lit 0, lit 0, f x1, f x2, f x2⟩ [x1, x2] := by
  unfold search
  have : ∀ l, brent (logged f) x1 x2 tol l = (if sameSign (f x1) (f x2) then (pure (false, lit 0) : StateM (List α) _)
      else brentLoop (logged f) tol BRENT_ITMAX ⟨x1, x2, x2, lit 0, lit 0, f x1, f x2, f x2⟩) ((l ++ [x1]) ++ [x2]) := by
    intro l; rfl
  rw [this]
  split <;> rfl

/-- General form of a loop invariant `P`. -/
theorem brentLoop_inv (P : BrentSt α → List α → Prop)
    (hP : ∀ s l, P s l → brentDone tol (brentAdjust s) = false → P (brentStep f tol s) (l ++ [(brentStep f tol s).b]))
    (n : ℕ) (s : BrentSt α) (l : List α) (h : P s l) :
    ∃ s', P s' (brentLoop (logged f) tol n s l).2 ∧
      (brentLoop (logged f) tol n s l).2.length ≤ l.length + n ∧
      (brentDone tol (brentAdjust s') = true ∧ (brentLoop (logged f) tol n s l).1 = (true, (brentAdjust s').b) ∨
       (brentLoop (logged f) tol n s l).1 = (false, lit 0) ∧ (brentLoop (logged f) tol n s l).2.length = l.length + n) := by
  induction n generalizing s l with
  | zero => exact ⟨s, h, by simp [brentLoop_zero], Or.inr ⟨rfl, rfl⟩⟩
  | succ n ih =>
    rw [brentLoop_succ]
    by_cases hd : brentDone tol (brentAdjust s) = true
    · rw [if_pos hd]
      exact ⟨s, h, by simp, Or.inl ⟨hd, rfl⟩⟩
    · rw [if_neg hd]
      rw [Bool.not_eq_true] at hd
      obtain ⟨s', h1, h2, h3⟩ := ih _ _ (hP s l h hd)
      refine ⟨s', h1, ?_, ?_⟩
      · simp only [List.length_append, List.length_cons, List.length_nil] at h2; omega
      · simp only [List.length_append, List.length_cons, List.length_nil] at h3
        rcases h3 with h3 | ⟨h3, h4⟩
        · exact Or.inl h3
        · exact Or.inr ⟨h3, by omega⟩

/-- the logged search computes the same result as the search on a function without effects -/
theorem brentLoop_fst (n : ℕ) (s : BrentSt α) (l : List α) : (brentLoop (logged f) tol n s l).1 = brentLoopP f tol n s := by
  induction n generalizing s l with
  | zero => rfl
  | succ n ih =>
    rw [brentLoop_succ]
    unfold brentLoopP
    dsimp only
    split
    · rfl
    · rw [ih]; rfl

theorem search_fst (f : α → α) (x1 x2 tol : α) : (search f x1 x2 tol).1 = brentP f x1 x2 tol := by
  rw [search_eq]
  unfold brentP
  split
  · rfl
  · exact brentLoop_fst _ _ _

end

section
variable {α : Type} [CDouble α] [L : CDoubleLaws α] {f : α → α} {x1 x2 tol : α}

theorem sameSign_iff (u v : α) : sameSign u v = true ↔ SameSign u v := by
  unfold sameSign SameSign
  simp only [Bool.or_eq_true, Bool.and_eq_true]

theorem sameSign_symm {u v : α} (h : SameSign u v) : SameSign v u := by
  unfold SameSign at *; tauto

theorem pos_not_neg {u : α} (h : (u >. lit 0) = true) : ¬ (u <. lit 0) = true := by
  intro h'
  rw [L.lt_iff] at h h'
  exact absurd (h.2.2.trans h'.2.2) (lt_irrefl _)

/-- the sign is an equivalence on non-zero numbers -/
theorem not_sameSign_of {u v w : α} (h : SameSign u v) (h' : ¬ SameSign w v) : ¬ SameSign u w := by
  intro h2
  apply h'
  unfold SameSign at *
  rcases h with ⟨a, b⟩ | ⟨a, b⟩
  · rcases h2 with ⟨c, d⟩ | ⟨c, d⟩
    · exact Or.inl ⟨d, b⟩
    · exact absurd c (pos_not_neg a)
  · rcases h2 with ⟨c, d⟩ | ⟨c, d⟩
    · exact absurd a (pos_not_neg c)
    · exact Or.inr ⟨d, b⟩

/-- `a`, `b`, `c` have been evaluated and `a`, `c` bracket -/
structure Bracket (f : α → α) (s : BrentSt α) (l : List α) : Prop where
  a : s.a ∈ l
  b : s.b ∈ l
  c : s.c ∈ l
  fa : s.fa = f s.a
  fb : s.fb = f s.b
  fc : s.fc = f s.c
  sign : ¬ SameSign s.fa s.fc

theorem Bracket.adjust {s : BrentSt α} {l : List α} (B : Bracket f s l) :
    (brentAdjust s).a ∈ l ∧ (brentAdjust s).b ∈ l ∧ (brentAdjust s).c ∈ l ∧
    (brentAdjust s).fa = f (brentAdjust s).a ∧ (brentAdjust s).fb = f (brentAdjust s).b ∧
    (brentAdjust s).fc = f (brentAdjust s).c ∧ ¬ SameSign (brentAdjust s).fb (brentAdjust s).fc := by
  unfold brentAdjust
  dsimp only
  by_cases h : sameSign s.fb s.fc = true
  · rw [if_pos h]
    have hs := not_sameSign_of ((sameSign_iff _ _).mp h) B.sign
    dsimp only
    split
    · exact ⟨B.b, B.a, B.b, B.fb, B.fa, B.fb, fun h => hs (sameSign_symm h)⟩
    · exact ⟨B.a, B.b, B.a, B.fa, B.fb, B.fa, hs⟩
  · rw [if_neg h]
    rw [sameSign_iff] at h
    split
    · exact ⟨B.b, B.c, B.b, B.fb, B.fc, B.fb, fun h' => h (sameSign_symm h')⟩
    · exact ⟨B.a, B.b, B.c, B.fa, B.fb, B.fc, h⟩

theorem Bracket.step {s : BrentSt α} {l : List α} (B : Bracket f s l) :
    Bracket f (brentStep f tol s) (l ++ [(brentStep f tol s).b]) := by
  obtain ⟨_, hb, hc, _, fb, fc, hs⟩ := B.adjust
  exact ⟨List.mem_append_left _ hb, by simp, List.mem_append_left _ hc, fb, rfl, fc, hs⟩

theorem search_bracket (f : α → α) (x1 x2 tol : α) (h : ¬ SameSign (f x1) (f x2)) :
    ∃ s', Bracket f s' (search f x1 x2 tol).2 ∧ (search f x1 x2 tol).2.length ≤ 202 ∧
      (brentDone tol (brentAdjust s') = true ∧ (search f x1 x2 tol).1 = (true, (brentAdjust s').b) ∨
       (search f x1 x2 tol).1 = (false, lit 0) ∧ (search f x1 x2 tol).2.length = 202) := by
  rw [search_eq, if_neg (by rw [sameSign_iff]; exact h)]
  exact brentLoop_inv (Bracket f) (fun s l B _ => B.step) _ _ _
    ⟨by simp, by simp, by simp, rfl, rfl, rfl, h⟩

end

/-! ### exact arithmetic: the points stay in the interval -/

section
open XR Set
variable {f : XR → XR} {x1 x2 tol : ℝ}

/-- all abscissas are real, `a`, `b`, `c` in the interval `I` -/
structure InI (I : Set ℝ) (s : BrentSt XR) (l : List XR) : Prop where
  a : ∃ r ∈ I, s.a = fin r
  b : ∃ r ∈ I, s.b = fin r
  c : ∃ r ∈ I, s.c = fin r
  d : ∃ r, s.d = fin r
  e : ∃ r, s.e = fin r
  log : ∀ x ∈ l, ∃ r ∈ I, x = fin r

theorem fabs_f (r : ℝ) : fabs (fin r) = fin |r| := by
  unfold fabs
  rw [lit_fin, lt_ff]
  by_cases h : r < 0
  · simp only [Rat.cast_zero, h, decide_true, if_true, neg_f, abs_of_neg h]
  · simp only [Rat.cast_zero, h, decide_false, if_false, abs_of_nonneg (not_lt.mp h), Bool.false_eq_true]

theorem InI.adjust {I : Set ℝ} {s : BrentSt XR} {l : List XR} (B : InI I s l) : InI I (brentAdjust s) l := by
  obtain ⟨ra, ha, ea⟩ := B.a
  obtain ⟨rb, hb, eb⟩ := B.b
  obtain ⟨rc, hc, ec⟩ := B.c
  have hd : ∃ r, s.b -. s.a = fin r := ⟨rb - ra, by rw [ea, eb, sub_ff]⟩
  unfold brentAdjust
  dsimp only
  split <;> split
  · exact ⟨B.b, B.a, B.b, hd, hd, B.log⟩
  · exact ⟨B.a, B.b, B.a, hd, hd, B.log⟩
  · exact ⟨B.b, B.c, B.b, B.d, B.e, B.log⟩
  · exact B

/-- the real tolerance -/
noncomputable def tol1R (tol b : ℝ) : ℝ := 2 * (2 / 10 ^ 8) * |b| + 1 / 2 * tol

theorem brentTol1_f (tol b : ℝ) : brentTol1 (fin tol) (fin b) = fin (tol1R tol b) := by
  unfold brentTol1 BRENT_DEFAULT_EPSILON tol1R
  simp only [lit_fin, fabs_f, mul_ff, add_ff]
  norm_num

theorem brentXm_f {s : BrentSt XR} {b c : ℝ} (hb : s.b = fin b) (hc : s.c = fin c) :
    brentXm s = fin (1 / 2 * (c - b)) := by
  unfold brentXm
  rw [hb, hc, sub_ff, lit_fin, mul_ff]
  norm_num

theorem lt_fin_left {p : XR} {r : ℝ} (h : (p <. fin r) = true) : p = ninf ∨ ∃ a, p = fin a ∧ a < r := by
  cases p with
  | nan => rw [nan_lt_left nan_nan] at h; cases h
  | pinf => rw [CDoubleLaws.lt_iff] at h; exact absurd h.2.2 (by simp [CDoubleLaws.val, val])
  | ninf => exact Or.inl rfl
  | fin a => rw [lt_ff] at h; exact Or.inr ⟨a, rfl, by simpa using h⟩

theorem fabs_ninf : fabs (ninf : XR) = pinf := by
  unfold fabs
  have : (ninf <. (lit 0 : XR)) = true := by
    rw [CDoubleLaws.lt_iff]; exact ⟨by rw [is_nan_false]; simp, CDoubleLaws.nan_lit 0, by simp [CDoubleLaws.val, val, lit_fin]⟩
  rw [if_pos this]; rfl

theorem fabs_pinf : fabs (pinf : XR) = pinf := by
  unfold fabs
  have : (pinf <. (lit 0 : XR)) = false := by
    rw [← Bool.not_eq_true, CDoubleLaws.lt_iff]; rintro ⟨_, _, h⟩; simp [CDoubleLaws.val, val, lit_fin] at h
  rw [if_neg (by rw [this]; simp)]

theorem fabs_nan : fabs (nan : XR) = nan := by
  unfold fabs
  rw [if_neg (by rw [nan_lt_left nan_nan]; simp)]

/-- `fabs` is a non-negative real, +inf or NaN -/
theorem fabs_cases (p : XR) : fabs p = nan ∨ fabs p = pinf ∨ ∃ r, 0 ≤ r ∧ fabs p = fin r := by
  cases p with
  | nan => exact Or.inl fabs_nan
  | pinf => exact Or.inr (Or.inl fabs_pinf)
  | ninf => exact Or.inr (Or.inl fabs_ninf)
  | fin r => exact Or.inr (Or.inr ⟨_, abs_nonneg r, fabs_f r⟩)

theorem pinf_lt (x : XR) : (pinf <. x) = false := by
  rw [← Bool.not_eq_true, CDoubleLaws.lt_iff]
  rintro ⟨_, _, h⟩
  exact absurd h (by simp [CDoubleLaws.val, val])

/-- an accepted interpolation step points from `b` towards `c` and is shorter than 3/2 |xm|; it is 0 if q is infinite -/
theorem accepted_step {p0 q : XR} {xm t e : ℝ}
    (h : (lit 2 *. fabs p0 <. (if (lit 3 *. fin xm *. q -. fabs (fin t *. q)) <. fabs (fin e *. q) then
      (lit 3 *. fin xm *. q -. fabs (fin t *. q)) else fabs (fin e *. q))) = true) :
    ∃ d, fabs p0 /. q = fin d ∧ (d = 0 ∨ 0 < d * xm ∧ |d| < 3 / 2 * |xm|) := by
  rcases fabs_cases p0 with hp | hp | ⟨p, hp0, hp⟩
  · rw [hp, nan_lt_left (CDoubleLaws.nan_mul_right _ _ nan_nan)] at h; cases h
  · have : lit 2 *. (pinf : XR) = pinf := by
      show mul (fin ((2 : ℚ) : ℝ)) pinf = _; simp [mul, infSign]
    rw [hp, this, pinf_lt] at h; cases h
  · rw [hp] at h ⊢
    rw [lit_fin, mul_ff] at h
    cases q with
    | nan =>
      rw [if_neg (by rw [nan_lt_right]; · simp
                     · rw [CDoubleLaws.nan_mul_right _ _ nan_nan |> (is_nan_iff _).mp, fabs_nan]; exact nan_nan)] at h
      rw [CDoubleLaws.nan_mul_right _ _ nan_nan |> (is_nan_iff _).mp, fabs_nan, nan_lt_right nan_nan] at h
      cases h
    | pinf => exact ⟨0, rfl, Or.inl rfl⟩
    | ninf => exact ⟨0, rfl, Or.inl rfl⟩
    | fin q =>
      simp only [lit_fin, mul_ff, fabs_f, sub_ff, lt_ff] at h
      have hlt : ((2 : ℚ) : ℝ) * p < ((3 : ℚ) : ℝ) * xm * q - |t * q| := by
        by_cases hc : ((3 : ℚ) : ℝ) * xm * q - |t * q| < |e * q|
        · simp only [hc, decide_true, if_true, lt_ff] at h
          exact of_decide_eq_true h
        · simp only [hc, decide_false, Bool.false_eq_true, if_false, lt_ff] at h
          have := of_decide_eq_true h
          push Not at hc
          linarith
      push_cast at hlt
      have h3 : 0 < 3 * xm * q - 2 * p := by have := abs_nonneg (t * q); linarith
      have hq : q ≠ 0 := by rintro rfl; simp at h3; linarith
      refine ⟨p / q, div_ff hq, ?_⟩
      rcases hp0.eq_or_lt with h0 | h0
      · left; rw [← h0]; simp
      · right
        have hxq : 0 < xm * q := by nlinarith
        constructor
        · have : p / q * xm = p * (xm * q) / q ^ 2 := by field_simp
          rw [this]; positivity
        · rw [abs_div, abs_of_pos h0, div_lt_iff₀ (abs_pos.mpr hq)]
          have : 3 / 2 * |xm| * |q| = 3 / 2 * (xm * q) := by
            rw [mul_assoc, ← abs_mul, abs_of_pos hxq]
          rw [this]; linarith

theorem brentDE_f {s : BrentSt XR} {tol b c e d : ℝ} (hb : s.b = fin b) (hc : s.c = fin c) (he : s.e = fin e)
    (hd : s.d = fin d) :
    ∃ d' e', brentDE (fin tol) s = (fin d', fin e') ∧
      (d' = 0 ∨ d' = 1 / 2 * (c - b) ∨ 0 < d' * (1 / 2 * (c - b)) ∧ |d'| < 3 / 2 * |1 / 2 * (c - b)|) := by
  unfold brentDE
  dsimp only
  rw [hb, brentTol1_f, brentXm_f hb hc]
  obtain ⟨p0, q, hpq⟩ : ∃ p0 q, brentPQ s = (fabs p0, q) := ⟨_, _, rfl⟩
  rw [hpq, he, hd]
  split
  · by_cases h : (lit 2 *. fabs p0 <. (if (lit 3 *. fin (1 / 2 * (c - b)) *. q -. fabs (fin (tol1R tol b) *. q)) <.
        fabs (fin e *. q) then (lit 3 *. fin (1 / 2 * (c - b)) *. q -. fabs (fin (tol1R tol b) *. q))
        else fabs (fin e *. q))) = true
    · rw [if_pos h]
      obtain ⟨d', e1, e2⟩ := accepted_step h
      refine ⟨d', d, ?_, ?_⟩
      · rw [e1]
      · tauto
    · rw [if_neg h]
      exact ⟨_, _, rfl, Or.inr (Or.inl rfl)⟩
  · exact ⟨_, _, rfl, Or.inr (Or.inl rfl)⟩

theorem InI.step (htol : 0 ≤ tol) {s : BrentSt XR} {l : List XR} (B : InI (uIcc x1 x2) s l)
    (hnd : brentDone (fin tol) (brentAdjust s) = false) :
    InI (uIcc x1 x2) (brentStep f (fin tol) s) (l ++ [(brentStep f (fin tol) s).b]) := by
  have A := B.adjust
  generalize hs : brentAdjust s = s' at *
  obtain ⟨rb, hb, eb⟩ := A.b
  obtain ⟨rc, hc, ec⟩ := A.c
  obtain ⟨rd, ed⟩ := A.d
  obtain ⟨re, ee⟩ := A.e
  obtain ⟨d', e', hde, hd'⟩ := brentDE_f (tol := tol) eb ec ee ed
  have ht0 : 0 ≤ tol1R tol rb := by unfold tol1R; positivity
  have hxm : tol1R tol rb < |1 / 2 * (rc - rb)| := by
    unfold brentDone at hnd
    rw [brentXm_f eb ec, eb, brentTol1_f, fabs_f, le_ff, Bool.or_eq_false_iff] at hnd
    have := of_decide_eq_false hnd.1
    exact not_le.mp this
  have key : ∃ r ∈ uIcc x1 x2, brentNext (fin tol) s' (fin d') = fin r := by
    have conv : ∀ δ : ℝ, (∃ θ : ℝ, 0 ≤ θ ∧ θ ≤ 1 ∧ δ = θ * (rc - rb)) → rb + δ ∈ uIcc x1 x2 := by
      rintro δ ⟨θ, h0, h1, rfl⟩
      rw [mem_uIcc] at hb hc ⊢
      rcases hb with hb | hb <;> rcases hc with hc | hc
      · left; constructor <;> nlinarith [mul_nonneg h0 (sub_nonneg.mpr h1)]
      · left
        have : x1 = x2 := le_antisymm (hb.1.trans hb.2) (hc.1.trans hc.2)
        subst this
        constructor <;> nlinarith
      · left
        have : x1 = x2 := le_antisymm (hc.1.trans hc.2) (hb.1.trans hb.2)
        subst this
        constructor <;> nlinarith
      · right; constructor <;> nlinarith
    unfold brentNext
    dsimp only
    rw [eb, brentTol1_f, brentXm_f eb ec, fabs_f, fabs_f, lt_ff, lit_fin, le_ff]
    have hne : rc - rb ≠ 0 := by
      intro h; rw [h] at hxm; simp at hxm; linarith
    by_cases hg : tol1R tol rb < |d'|
    · simp only [hg, decide_true, if_true, add_ff]
      refine ⟨_, conv d' ⟨d' / (rc - rb), ?_, ?_, by field_simp⟩, rfl⟩
      · rcases hd' with h | h | h
        · rw [h]; simp
        · rw [h]; field_simp; norm_num
        · have : d' / (rc - rb) = d' * (1 / 2 * (rc - rb)) * 2 / (rc - rb) ^ 2 := by field_simp
          rw [this]; have := h.1; positivity
      · rcases hd' with h | h | h
        · rw [h]; simp
        · rw [h]; field_simp; norm_num
        · refine (le_abs_self _).trans ?_
          rw [abs_div, div_le_one (abs_pos.mpr hne)]
          have h2 := h.2
          rw [abs_mul] at h2
          norm_num at h2
          have := abs_nonneg (rc - rb)
          linarith
    · simp only [hg, decide_false, Bool.false_eq_true, if_false]
      by_cases h0 : 0 ≤ 1 / 2 * (rc - rb)
      · simp only [Rat.cast_zero, h0, decide_true, if_true, add_ff]
        refine ⟨_, conv _ ⟨|tol1R tol rb| / (rc - rb), ?_, ?_, by field_simp⟩, rfl⟩
        · have : 0 ≤ rc - rb := by linarith
          positivity
        · have h1 : 0 < rc - rb := lt_of_le_of_ne (by linarith) hne.symm
          rw [div_le_one h1, abs_of_nonneg ht0]
          rw [abs_of_nonneg h0] at hxm
          linarith
      · simp only [Rat.cast_zero, h0, decide_false, Bool.false_eq_true, if_false, neg_f, add_ff]
        have h1 : rc - rb < 0 := by push Not at h0; linarith
        refine ⟨_, conv _ ⟨-|tol1R tol rb| / (rc - rb), ?_, ?_, by field_simp⟩, rfl⟩
        · apply div_nonneg_of_nonpos _ h1.le
          simp
        · rw [div_le_one_of_neg h1, abs_of_nonneg ht0]
          rw [abs_of_neg (not_le.mp h0)] at hxm
          linarith
  obtain ⟨r, hr, er⟩ := key
  have hb' : (brentStep f (fin tol) s).b = fin r := by
    unfold brentStep
    dsimp only
    rw [hs, hde]
    exact er
  refine ⟨?_, ⟨r, hr, hb'⟩, ?_, ?_, ?_, ?_⟩
  · show ∃ r ∈ _, (brentAdjust s).b = fin r
    rw [hs]; exact A.b
  · show ∃ r ∈ _, (brentAdjust s).c = fin r
    rw [hs]; exact A.c
  · refine ⟨d', ?_⟩
    show (brentDE (fin tol) (brentAdjust s)).1 = _
    rw [hs, hde]
  · refine ⟨e', ?_⟩
    show (brentDE (fin tol) (brentAdjust s)).2 = _
    rw [hs, hde]
  · intro x hx
    rcases List.mem_append.mp hx with hx | hx
    · exact B.log x hx
    · rw [List.mem_singleton.mp hx]; exact ⟨r, hr, hb'⟩

end
end Verif

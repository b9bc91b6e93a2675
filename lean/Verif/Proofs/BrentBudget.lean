/-
How many iterations the root search needs, in exact arithmetic: the interval is halved by every bisection, and between two bisections the
interpolation steps shrink by a factor of two every second time.
-/
import Verif.Proofs.Brent

namespace Verif
open Spec XR Set

/-- an accepted interpolation step is at most half of `e` -/
theorem accepted_half {p0 q : XR} {xm t e : ℝ}
    (h : (lit 2 *. fabs p0 <. (if (lit 3 *. fin xm *. q -. fabs (fin t *. q)) <. fabs (fin e *. q) then
      (lit 3 *. fin xm *. q -. fabs (fin t *. q)) else fabs (fin e *. q))) = true) (d : ℝ) (hd : fabs p0 /. q = fin d) :
    |d| ≤ |e| / 2 := by
  rcases fabs_cases p0 with hp | hp | ⟨p, hp0, hp⟩
  · rw [hp, nan_lt_left (CDoubleLaws.nan_mul_right _ _ nan_nan)] at h; cases h
  · have : lit 2 *. (pinf : XR) = pinf := by
      show mul (fin ((2 : ℚ) : ℝ)) pinf = _; simp [mul, infSign]
    rw [hp, this, pinf_lt] at h; cases h
  · rw [hp] at h hd
    rw [lit_fin, mul_ff] at h
    cases q with
    | nan => cases hd
    | pinf =>
      have : (0 : ℝ) = d := by injection hd
      rw [← this, abs_zero]; positivity
    | ninf =>
      have : (0 : ℝ) = d := by injection hd
      rw [← this, abs_zero]; positivity
    | fin q =>
      simp only [lit_fin, mul_ff, fabs_f, sub_ff, lt_ff] at h
      have hlt : ((2 : ℚ) : ℝ) * p < |e * q| := by
        by_cases hc : ((3 : ℚ) : ℝ) * xm * q - |t * q| < |e * q|
        · simp only [hc, decide_true, if_true, lt_ff] at h
          exact (of_decide_eq_true h).trans hc
        · simp only [hc, decide_false, Bool.false_eq_true, if_false, lt_ff] at h
          exact of_decide_eq_true h
      push_cast at hlt
      have hq : q ≠ 0 := by rintro rfl; simp at hlt; linarith
      rw [div_ff hq] at hd
      have : p / q = d := by injection hd
      rw [← this, abs_div, abs_of_nonneg hp0, div_le_iff₀ (abs_pos.mpr hq)]
      rw [abs_mul] at hlt
      linarith

/-- an iteration is an interpolation, which is only tried if `|e|` is not below the tolerance, or a bisection -/
theorem brentDE_cases {s : BrentSt XR} {tol b c e d : ℝ} (hb : s.b = fin b) (hc : s.c = fin c) (he : s.e = fin e) (hd : s.d = fin d) :
    (∃ d', brentDE (fin tol) s = (fin d', fin d) ∧ tol1R tol b ≤ |e| ∧ |d'| ≤ |e| / 2 ∧
      (d' = 0 ∨ 0 < d' * (1 / 2 * (c - b)) ∧ |d'| < 3 / 2 * |1 / 2 * (c - b)|)) ∨
    brentDE (fin tol) s = (fin (1 / 2 * (c - b)), fin (1 / 2 * (c - b))) := by
  unfold brentDE
  dsimp only
  rw [hb, brentTol1_f, brentXm_f hb hc]
  obtain ⟨p0, q, hpq⟩ : ∃ p0 q, brentPQ s = (fabs p0, q) := ⟨_, _, rfl⟩
  rw [hpq, he, hd]
  by_cases h1 : (fabs (fin e) >=. fin (tol1R tol b) && fabs s.fa >. fabs s.fb) = true
  · rw [if_pos h1]
    by_cases h : (lit 2 *. fabs p0 <. (if (lit 3 *. fin (1 / 2 * (c - b)) *. q -. fabs (fin (tol1R tol b) *. q)) <.
        fabs (fin e *. q) then (lit 3 *. fin (1 / 2 * (c - b)) *. q -. fabs (fin (tol1R tol b) *. q))
        else fabs (fin e *. q))) = true
    · rw [if_pos h]
      obtain ⟨d', e1, e2⟩ := accepted_step h
      left
      refine ⟨d', by rw [e1], ?_, accepted_half h d' e1, e2⟩
      rw [fabs_f, le_ff, Bool.and_eq_true] at h1
      exact of_decide_eq_true h1.1
    · rw [if_neg h]; exact Or.inr rfl
  · rw [if_neg h1]; exact Or.inr rfl

/-- the next point is `d` away from `b` or, if that is too little, the tolerance; it is between `b` and `c` -/
theorem brentNext_f {s : BrentSt XR} {tol b c d : ℝ} (hb : s.b = fin b) (hc : s.c = fin c) (ht0 : 0 ≤ tol1R tol b)
    (hxm : tol1R tol b < |1 / 2 * (c - b)|)
    (hd : d = 0 ∨ d = 1 / 2 * (c - b) ∨ 0 < d * (1 / 2 * (c - b)) ∧ |d| < 3 / 2 * |1 / 2 * (c - b)|) :
    ∃ δ, brentNext (fin tol) s (fin d) = fin (b + δ) ∧ (tol1R tol b < |d| ∧ δ = d ∨ |d| ≤ tol1R tol b ∧ |δ| = tol1R tol b) ∧
      |δ| ≤ |c - b| ∧ |c - (b + δ)| ≤ |c - b| := by
  have conv : ∀ δ : ℝ, 0 ≤ δ * (c - b) → |δ| ≤ |c - b| → |c - (b + δ)| ≤ |c - b| := by
    intro δ h1 h2
    rw [show c - (b + δ) = (c - b) - δ by ring]
    rcases le_total 0 (c - b) with h | h
    · have : 0 ≤ δ ∨ c - b = 0 := by
        rcases h.eq_or_lt with h' | h'
        · exact Or.inr h'.symm
        · exact Or.inl (nonneg_of_mul_nonneg_left h1 h')
      rcases this with h3 | h3
      · rw [abs_of_nonneg h3, abs_of_nonneg h] at h2
        rw [abs_of_nonneg (by linarith), abs_of_nonneg h]; linarith
      · rw [h3, abs_zero] at h2
        have := abs_nonpos_iff.mp h2
        rw [h3, this]; simp
    · have : δ ≤ 0 ∨ c - b = 0 := by
        rcases h.eq_or_lt with h' | h'
        · exact Or.inr h'
        · left; by_contra hn; push Not at hn; nlinarith
      rcases this with h3 | h3
      · rw [abs_of_nonpos h3, abs_of_nonpos h] at h2
        rw [abs_of_nonpos (by linarith), abs_of_nonpos h]; linarith
      · rw [h3, abs_zero] at h2
        have := abs_nonpos_iff.mp h2
        rw [h3, this]; simp
  unfold brentNext
  dsimp only
  rw [hb, brentTol1_f, brentXm_f hb hc, fabs_f, fabs_f, lt_ff, lit_fin, le_ff]
  by_cases hg : tol1R tol b < |d|
  · simp only [hg, decide_true, if_true, add_ff]
    have h1 : 0 ≤ d * (c - b) := by
      rcases hd with h | h | h
      · rw [h]; simp
      · rw [h]; nlinarith [sq_nonneg (c - b)]
      · have := h.1; linarith
    have h2 : |d| ≤ |c - b| := by
      rcases hd with h | h | h
      · rw [h]; simp
      · rw [h, abs_mul]; norm_num; have := abs_nonneg (c - b); linarith
      · have h2 := h.2
        rw [abs_mul] at h2; norm_num at h2; have := abs_nonneg (c - b); linarith
    exact ⟨d, rfl, Or.inl ⟨trivial, rfl⟩, h2, conv d h1 h2⟩
  · simp only [hg, decide_false, Bool.false_eq_true, if_false]
    have hxm' := hxm
    rw [abs_mul] at hxm'
    norm_num at hxm'
    have hw := abs_nonneg (c - b)
    by_cases h0 : 0 ≤ 1 / 2 * (c - b)
    · simp only [Rat.cast_zero, h0, decide_true, if_true, add_ff]
      have h2 : |(|tol1R tol b|)| ≤ |c - b| := by rw [abs_abs, abs_of_nonneg ht0]; linarith
      refine ⟨_, rfl, Or.inr ⟨not_lt.mp hg, by rw [abs_abs, abs_of_nonneg ht0]⟩, h2, conv _ ?_ h2⟩
      exact mul_nonneg (abs_nonneg _) (by linarith)
    · simp only [Rat.cast_zero, h0, decide_false, Bool.false_eq_true, if_false, neg_f, add_ff]
      have h2 : |(-|tol1R tol b|)| ≤ |c - b| := by rw [abs_neg, abs_abs, abs_of_nonneg ht0]; linarith
      refine ⟨_, rfl, Or.inr ⟨not_lt.mp hg, by rw [abs_neg, abs_abs, abs_of_nonneg ht0]⟩, h2, conv _ ?_ h2⟩
      push Not at h0
      have := abs_nonneg (tol1R tol b)
      nlinarith

/-- what the adjustment at the beginning of an iteration makes of real abscissas -/
theorem brentAdjust_f {s : BrentSt XR} {a b c d e : ℝ} (ha : s.a = fin a) (hb : s.b = fin b) (hc : s.c = fin c) (hd : s.d = fin d)
    (he : s.e = fin e) :
    ∃ b' c' d' e' : ℝ, (brentAdjust s).b = fin b' ∧ (brentAdjust s).c = fin c' ∧ (brentAdjust s).d = fin d' ∧ (brentAdjust s).e = fin e' ∧
      (d' = b - a ∧ e' = b - a ∧ (b' = b ∧ c' = a ∨ b' = a ∧ c' = b) ∨
        d' = d ∧ e' = e ∧ (b' = b ∧ c' = c ∨ b' = c ∧ c' = b)) := by
  have hs : s.b -. s.a = fin (b - a) := by rw [ha, hb, sub_ff]
  unfold brentAdjust
  dsimp only
  split <;> split
  · exact ⟨a, b, b - a, b - a, ha, hb, hs, hs, Or.inl ⟨rfl, rfl, Or.inr ⟨rfl, rfl⟩⟩⟩
  · exact ⟨b, a, b - a, b - a, hb, ha, hs, hs, Or.inl ⟨rfl, rfl, Or.inl ⟨rfl, rfl⟩⟩⟩
  · exact ⟨c, b, d, e, hc, hb, hd, he, Or.inr ⟨rfl, rfl, Or.inr ⟨rfl, rfl⟩⟩⟩
  · exact ⟨b, c, d, e, hb, hc, hd, he, Or.inr ⟨rfl, rfl, Or.inl ⟨rfl, rfl⟩⟩⟩

section
variable {f : XR → XR} {x1 x2 tol δ : ℝ}

/-- progress: `m` bisections are enough, and at most `r` interpolation steps come before the next one -/
structure Progress (x1 x2 δ : ℝ) (m r : ℕ) (s : BrentSt XR) : Prop where
  reals : InI (uIcc x1 x2) s []
  bounds : ∃ b c d e : ℝ, (brentAdjust s).b = fin b ∧ (brentAdjust s).c = fin c ∧ (brentAdjust s).d = fin d ∧ (brentAdjust s).e = fin e ∧
    |c - b| < 2 * δ * 2 ^ m ∧ |e| < 2 ^ ((r + 1) / 2) * δ ∧ |d| < 2 ^ (r / 2) * δ

theorem Progress.step (htol : 0 ≤ tol) (hδ : 0 < δ) (hI : ∀ b ∈ uIcc x1 x2, δ ≤ tol1R tol b) {m r : ℕ} {s : BrentSt XR}
    (P : Progress x1 x2 δ m r s) (hnd : brentDone (fin tol) (brentAdjust s) = false) :
    1 ≤ m ∧ (brentDone (fin tol) (brentAdjust (brentStep f (fin tol) s)) = true ∨
      (1 ≤ r ∧ Progress x1 x2 δ m (r - 1) (brentStep f (fin tol) s)) ∨
      Progress x1 x2 δ (m - 1) (2 * m) (brentStep f (fin tol) s)) := by
  obtain ⟨b, c, d, e, eb, ec, ed, ee, hw, he, hd⟩ := P.bounds
  have hbI : b ∈ uIcc x1 x2 := by
    obtain ⟨r', h, e'⟩ := P.reals.adjust.b
    rw [eb] at e'; cases e'; exact h
  have ht := hI b hbI
  have hxm : tol1R tol b < |1 / 2 * (c - b)| := by
    unfold brentDone at hnd
    rw [brentXm_f eb ec, eb, brentTol1_f, fabs_f, le_ff, Bool.or_eq_false_iff] at hnd
    have := of_decide_eq_false hnd.1
    exact not_le.mp this
  have hxm' : tol1R tol b < 1 / 2 * |c - b| := by
    rw [abs_mul] at hxm; norm_num at hxm; linarith
  have hm : 1 ≤ m := by
    rcases Nat.eq_zero_or_pos m with rfl | h
    · rw [pow_zero] at hw; linarith
    · exact h
  have hreals : InI (uIcc x1 x2) (brentStep f (fin tol) s) [] := by
    have := P.reals.step (f := f) htol hnd
    exact ⟨this.a, this.b, this.c, this.d, this.e, by simp⟩
  refine ⟨hm, ?_⟩
  -- the fields of the next state
  have fa : (brentStep f (fin tol) s).a = fin b := eb
  have fc : (brentStep f (fin tol) s).c = fin c := ec
  rcases brentDE_cases (tol := tol) eb ec ee ed with ⟨d', hde, h1, h2, h3⟩ | hde
  · -- interpolation
    obtain ⟨η, hn, hη, hle, hle'⟩ := brentNext_f eb ec (hδ.le.trans ht) hxm (d := d') (by tauto)
    have fb : (brentStep f (fin tol) s).b = fin (b + η) := by
      show brentNext (fin tol) (brentAdjust s) (brentDE (fin tol) (brentAdjust s)).1 = _
      rw [hde]; exact hn
    have fd : (brentStep f (fin tol) s).d = fin d' := by
      show (brentDE (fin tol) (brentAdjust s)).1 = _; rw [hde]
    have fe : (brentStep f (fin tol) s).e = fin d := by
      show (brentDE (fin tol) (brentAdjust s)).2 = _; rw [hde]
    have hr : 1 ≤ r := by
      rcases Nat.eq_zero_or_pos r with rfl | h
      · norm_num at he; linarith
      · exact h
    have hd' : |d'| < 2 ^ ((r - 1) / 2) * δ := by
      have : (2 : ℝ) ^ ((r + 1) / 2) = 2 * 2 ^ ((r - 1) / 2) := by
        rw [show (r + 1) / 2 = (r - 1) / 2 + 1 by omega, pow_succ]; ring
      rw [this] at he
      linarith
    obtain ⟨b', c', dd, ee', k1, k2, k3, k4, k⟩ := brentAdjust_f fa fb fc fd fe
    rcases k with ⟨kd, ke, k⟩ | ⟨kd, ke, k⟩
    · rcases hη with ⟨_, hη⟩ | ⟨_, hη⟩
      · right; left
        have hs : b + η - b = d' := by rw [hη]; ring
        rw [hs] at kd ke
        refine ⟨hr, hreals, b', c', dd, ee', k1, k2, k3, k4, ?_, ?_, ?_⟩
        · have : |c' - b'| = |η| := by
            rcases k with ⟨p, q⟩ | ⟨p, q⟩ <;> rw [p, q]
            · rw [show b - (b + η) = -η by ring, abs_neg]
            · rw [show b + η - b = η by ring]
          rw [this]; linarith
        · rw [ke]
          refine hd'.trans_le (mul_le_mul_of_nonneg_right (pow_le_pow_right₀ (by norm_num) (by omega)) hδ.le)
        · rw [kd]; exact hd'
      · -- a step of the size of the tolerance across the root: the next interval is short enough
        left
        unfold brentDone
        rw [brentXm_f k1 k2, k1, brentTol1_f, fabs_f, le_ff, Bool.or_eq_true]
        left
        rw [decide_eq_true_eq, abs_mul]
        have hcb : |c' - b'| = tol1R tol b := by
          rw [← hη]
          rcases k with ⟨p, q⟩ | ⟨p, q⟩ <;> rw [p, q]
          · rw [show b - (b + η) = -η by ring, abs_neg]
          · rw [show b + η - b = η by ring]
        rw [hcb]
        have hb' : |b| - tol1R tol b ≤ |b'| := by
          rcases k with ⟨p, -⟩ | ⟨p, -⟩ <;> rw [p]
          · have := abs_sub_abs_le_abs_sub b (b + η)
            rw [show b - (b + η) = -η by ring, abs_neg, hη] at this
            linarith
          · linarith
        have h0 : 0 ≤ tol1R tol b := hδ.le.trans ht
        have : tol1R tol b - 4 / 10 ^ 8 * tol1R tol b ≤ tol1R tol b' := by
          have e1 : tol1R tol b = 4 / 10 ^ 8 * |b| + 1 / 2 * tol := by unfold tol1R; ring
          have e2 : tol1R tol b' = 4 / 10 ^ 8 * |b'| + 1 / 2 * tol := by unfold tol1R; ring
          rw [e2]
          nlinarith
        norm_num at this ⊢
        linarith
    · right; left
      refine ⟨hr, hreals, b', c', dd, ee', k1, k2, k3, k4, ?_, ?_, ?_⟩
      · have : |c' - b'| = |c - (b + η)| := by
          rcases k with ⟨p, q⟩ | ⟨p, q⟩ <;> rw [p, q]
          · rw [abs_sub_comm]
        rw [this]; linarith
      · rw [ke, show (r - 1 + 1) / 2 = r / 2 by omega]; exact hd
      · rw [kd]; exact hd'
  · -- bisection
    obtain ⟨η, hn, hη, -, -⟩ := brentNext_f eb ec (hδ.le.trans ht) hxm (d := 1 / 2 * (c - b)) (by tauto)
    have hη : η = 1 / 2 * (c - b) := by
      rcases hη with ⟨_, h⟩ | ⟨h, _⟩
      · exact h
      · exact absurd h (not_le.mpr hxm)
    subst hη
    have fb : (brentStep f (fin tol) s).b = fin (b + 1 / 2 * (c - b)) := by
      show brentNext (fin tol) (brentAdjust s) (brentDE (fin tol) (brentAdjust s)).1 = _
      rw [hde]; exact hn
    have fd : (brentStep f (fin tol) s).d = fin (1 / 2 * (c - b)) := by
      show (brentDE (fin tol) (brentAdjust s)).1 = _; rw [hde]
    have fe : (brentStep f (fin tol) s).e = fin (1 / 2 * (c - b)) := by
      show (brentDE (fin tol) (brentAdjust s)).2 = _; rw [hde]
    obtain ⟨b', c', dd, ee', k1, k2, k3, k4, k⟩ := brentAdjust_f fa fb fc fd fe
    right; right
    have hdd : dd = 1 / 2 * (c - b) ∧ ee' = 1 / 2 * (c - b) ∧ |c' - b'| = 1 / 2 * |c - b| := by
      have habs : |1 / 2 * (c - b)| = 1 / 2 * |c - b| := by rw [abs_mul]; norm_num
      rcases k with ⟨kd, ke, k⟩ | ⟨kd, ke, k⟩
      · refine ⟨by rw [kd]; ring, by rw [ke]; ring, ?_⟩
        rcases k with ⟨p, q⟩ | ⟨p, q⟩ <;> rw [p, q]
        · rw [show b - (b + 1 / 2 * (c - b)) = -(1 / 2 * (c - b)) by ring, abs_neg, habs]
        · rw [show b + 1 / 2 * (c - b) - b = 1 / 2 * (c - b) by ring, habs]
      · refine ⟨kd, ke, ?_⟩
        rcases k with ⟨p, q⟩ | ⟨p, q⟩ <;> rw [p, q]
        · rw [show c - (b + 1 / 2 * (c - b)) = 1 / 2 * (c - b) by ring, habs]
        · rw [show b + 1 / 2 * (c - b) - c = -(1 / 2 * (c - b)) by ring, abs_neg, habs]
    obtain ⟨rfl, rfl, hcb⟩ := hdd
    have hpow : (2 : ℝ) ^ m = 2 * 2 ^ (m - 1) := by
      obtain ⟨k, rfl⟩ : ∃ k, m = k + 1 := ⟨m - 1, by omega⟩
      rw [Nat.add_sub_cancel, pow_succ]; ring
    refine ⟨hreals, b', c', _, _, k1, k2, k3, k4, ?_, ?_, ?_⟩
    · rw [hcb, ← mul_lt_mul_iff_right₀ (show (0 : ℝ) < 2 by norm_num)]
      rw [hpow] at hw; linarith
    · rw [abs_mul, show (2 * m + 1) / 2 = m by omega]
      norm_num; linarith
    · rw [abs_mul, show 2 * m / 2 = m by omega]
      norm_num; linarith

/-- enough iterations are left -/
theorem Progress.found (htol : 0 ≤ tol) (hδ : 0 < δ) (hI : ∀ b ∈ uIcc x1 x2, δ ≤ tol1R tol b) (n : ℕ) :
    ∀ {m r : ℕ} {s : BrentSt XR}, Progress x1 x2 δ m r s → 1 ≤ n → r + m * m + 2 * m ≤ n + 1 → (brentLoopP f (fin tol) n s).1 = true := by
  induction n with
  | zero => intro m r s _ h; omega
  | succ n ih =>
    intro m r s P _ hn
    unfold brentLoopP
    dsimp only
    cases hd : brentDone (fin tol) (brentAdjust s)
    · rw [if_neg (by simp)]
      obtain ⟨hm, h⟩ := P.step (f := f) htol hδ hI hd
      have hmm : 1 ≤ m * m := Nat.mul_pos hm hm
      change (brentLoopP f (fin tol) n (brentStep f (fin tol) s)).1 = true
      rcases h with h | ⟨hr, h⟩ | h
      · obtain ⟨k, rfl⟩ : ∃ k, n = k + 1 := ⟨n - 1, by omega⟩
        unfold brentLoopP
        dsimp only
        rw [if_pos h]
      · exact ih h (by omega) (by omega)
      · refine ih h (by omega) ?_
        obtain ⟨k, rfl⟩ : ∃ k, m = k + 1 := ⟨m - 1, by omega⟩
        rw [Nat.add_sub_cancel]
        have : (k + 1) * (k + 1) = k * k + 2 * k + 1 := by ring
        rw [this] at hn
        omega
    · rw [if_pos rfl]

end
end Verif

/-
The root search in binary64 stays in the interval.
-/
import Verif.Proofs.Brent
import Verif.Proofs.Drift
import Verif.F64.Zeros

namespace Verif
open F64 Spec

theorem fabs_fin {x : F64} (h : isFin x) : isFin (fabs x) ∧ toQ (fabs x) = |toQ x| := by
  unfold fabs
  split
  · next hn =>
    have h1 : F64.lt x (F64.ofRat false 0) = true := hn
    rw [lt_iff, lit_zero, val_zero, val_fin h] at h1
    have h2 : toQ x < 0 := by
      have := h1.2.2
      rw [show (0 : EReal) = (((0 : ℚ) : ℝ) : EReal) by simp, ratCast_lt_EReal] at this
      exact this
    refine ⟨isFin_neg.mpr h, ?_⟩
    rw [abs_of_neg h2]
    exact toQ_neg x
  · next hn =>
    have h1 : ¬ F64.lt x (F64.ofRat false 0) = true := hn
    rw [lt_iff, lit_zero, val_zero, val_fin h] at h1
    have h2 : ¬ toQ x < 0 := by
      intro h3
      apply h1
      refine ⟨h.notNaN, (zero_ne_nan false), ?_⟩
      rw [show (0 : EReal) = (((0 : ℚ) : ℝ) : EReal) by simp, ratCast_lt_EReal]
      exact h3
    exact ⟨h, by rw [abs_of_nonneg (not_lt.mp h2)]⟩

/-- `fabs` is non-negative or NaN -/
theorem fabs_nonneg (x : F64) : fabs x = nan ∨ 0 ≤ val (fabs x) := by
  rcases x with _ | s | ⟨s, k⟩
  · left; rfl
  · right
    cases s
    · have : fabs (inf false) = inf false := by decide
      rw [this, val_inf_false]; exact le_top
    · have : fabs (inf true) = inf false := by decide
      rw [this, val_inf_false]; exact le_top
  · right
    obtain ⟨h1, h2⟩ := fabs_fin (x := fin s k) (by trivial)
    rw [val_fin_nonneg h1, h2]
    exact abs_nonneg _

theorem lt_fin_iff {x y : F64} (hx : isFin x) (hy : isFin y) : (x <. y) = true ↔ toQ x < toQ y := by
  change F64.lt x y = true ↔ _
  rw [lt_iff, val_fin hx, val_fin hy, ratCast_lt_EReal]
  exact ⟨fun h => h.2.2, fun h => ⟨hx.notNaN, hy.notNaN, h⟩⟩

theorem le_fin_iff {x y : F64} (hx : isFin x) (hy : isFin y) : (x <=. y) = true ↔ toQ x ≤ toQ y := by
  change F64.le x y = true ↔ _
  rw [le_iff, val_fin hx, val_fin hy, ratCast_le_EReal]
  exact ⟨fun h => h.2.2, fun h => ⟨hx.notNaN, hy.notNaN, h⟩⟩

/-- subtracting a non-negative number does not increase -/
theorem sub_le_self' {z w : F64} (h : w = nan ∨ 0 ≤ val w) : LeN (z -. w) z := by
  rcases h with rfl | h
  · left; exact sub_nan z
  have h1 : LeN (F64.neg w) (zero false) := by
    refine .inr (.inr ?_)
    rw [val_neg, val_zero]
    exact EReal.neg_le_zero.mpr h
  have h2 := h1.add_left z
  rcases h2 with h2 | h2 | h2
  · exact .inl h2
  · right; left
    rcases z with _ | s | ⟨s, k⟩
    · rfl
    · cases h2
    · exfalso
      obtain ⟨z', hz⟩ := add_fin (x := fin s k) (y := zero false) (by trivial) (by trivial)
      rw [hz] at h2
      exact ofRat_notNaN _ _ h2
  · right; right
    refine h2.trans (le_of_eq ?_)
    by_cases hz : z = zero true
    · rw [hz]
      have : F64.add (zero true) (zero false) = zero false := by decide +kernel
      rw [this, val_zero, val_zero]
    · rw [add_zero_eq hz]

/-- `δ` goes from 0 towards `w`, at most that far -/
def Toward (w δ : ℚ) : Prop := 0 ≤ δ * w ∧ |δ| ≤ |w|

theorem toward_of {w δ : ℚ} (h : Toward w δ) : 0 ≤ w ∧ 0 ≤ δ ∧ δ ≤ w ∨ w ≤ 0 ∧ δ ≤ 0 ∧ w ≤ δ := by
  obtain ⟨h1, h2⟩ := h
  rcases lt_trichotomy w 0 with hw | hw | hw
  · right
    have h3 : δ ≤ 0 := by
      by_contra h
      push Not at h
      nlinarith
    rw [abs_of_nonpos h3, abs_of_neg hw] at h2
    exact ⟨hw.le, h3, by linarith⟩
  · left
    rw [hw, abs_zero] at h2
    have : δ = 0 := abs_eq_zero.mp (le_antisymm h2 (abs_nonneg _))
    rw [hw, this]
    exact ⟨le_rfl, le_rfl, le_rfl⟩
  · left
    have h3 : 0 ≤ δ := by
      by_contra h
      push Not at h
      nlinarith
    rw [abs_of_nonneg h3, abs_of_pos hw] at h2
    exact ⟨hw.le, h3, h2⟩

theorem big_le {q : ℚ} (h : |q| ≤ pow2 1010) : |q| ≤ pow2 1023 := h.trans (pow2_le (by norm_num))

/-- a rounded step from `b` towards `c` ends between `b` and `c` -/
theorem between_step {b c d : F64} (hb : isFin b) (hd : isFin d) (Bb : |toQ b| ≤ pow2 1000) (Bc : |toQ c| ≤ pow2 1000)
    (h : Toward (toQ c - toQ b) (toQ d)) : isFin (b +. d) ∧ toQ (b +. d) ∈ Set.uIcc (toQ b) (toQ c) := by
  have hbc : toQ b + toQ d ∈ Set.uIcc (toQ b) (toQ c) := by
    rw [Set.mem_uIcc]
    rcases toward_of h with ⟨h1, h2, h3⟩ | ⟨h1, h2, h3⟩
    · left; constructor <;> linarith
    · right; constructor <;> linarith
  have hB : |toQ b + toQ d| ≤ pow2 1000 := by
    rw [abs_le] at *
    rw [Set.mem_uIcc] at hbc
    rcases hbc with h1 | h1 <;> constructor <;> linarith
  obtain ⟨h1, h2⟩ := add_fin' hb hd (hB.trans (pow2_le (by norm_num)))
  refine ⟨h1, ?_⟩
  have h3 : toQ (b +. d) = rq (toQ b + toQ d) := h2
  rw [h3, Set.mem_uIcc]
  rw [Set.mem_uIcc] at hbc
  rcases hbc with ⟨k1, k2⟩ | ⟨k1, k2⟩
  · left
    have := rq_mono k1; have := rq_mono k2
    rw [rq_toQ] at *
    constructor <;> assumption
  · right
    have := rq_mono k1; have := rq_mono k2
    rw [rq_toQ] at *
    constructor <;> assumption

/-- the half width -/
theorem brentXm_fin {s : BrentSt F64} (hb : isFin s.b) (hc : isFin s.c) (Bb : |toQ s.b| ≤ pow2 1000) (Bc : |toQ s.c| ≤ pow2 1000) :
    isFin (brentXm s) ∧ (pow2 (-1010) ≤ |toQ (brentXm s)| →
      |toQ (brentXm s) - (toQ s.c - toQ s.b) / 2| ≤ |toQ s.c - toQ s.b| / 2 ^ 50) ∧ |toQ (brentXm s)| ≤ pow2 1003 := by
  have e1 : pow2 1001 = 2 * pow2 1000 := pow2_succ 1000
  have e2 : pow2 1002 = 2 * pow2 1001 := pow2_succ 1001
  have e3 : pow2 1003 = 2 * pow2 1002 := pow2_succ 1002
  have hp : 0 < pow2 1000 := pow2_pos _
  have hw : |toQ s.c - toQ s.b| ≤ pow2 1001 := by
    refine (abs_sub _ _).trans ?_
    linarith
  obtain ⟨d1, d2⟩ := sub_rel hc hb (hw.trans (pow2_le (by norm_num)))
  have hhalf : isFin (lit (1 / 2) : F64) ∧ toQ (lit (1 / 2) : F64) = 1 / 2 := by
    constructor
    · exact (fin_ofRat (z := false) (q := 1 / 2) (by rw [abs_of_pos (by norm_num)]; exact le_trans (by norm_num) (pow2_big))).1
    · decide +kernel
  generalize hD : toQ (s.c -. s.b) = D at d2
  generalize hW : toQ s.c - toQ s.b = w at *
  have hDle : |D| ≤ 2 * |w| := by
    have := abs_sub_abs_le_abs_sub D w
    have h0 := abs_nonneg w
    linarith
  have hq : |toQ (lit (1 / 2) : F64) * toQ (s.c -. s.b)| ≤ pow2 1002 := by
    rw [hhalf.2, hD, abs_mul, abs_of_pos (by norm_num : (0 : ℚ) < 1 / 2)]
    linarith
  obtain ⟨m1, m2⟩ := mul_fin' hhalf.1 d1 (hq.trans (pow2_le (by norm_num)))
  have m3 : toQ (brentXm s) = rq (1 / 2 * D) := by
    have h0 : toQ (brentXm s) = rq (toQ (lit (1 / 2) : F64) * toQ (s.c -. s.b)) := m2
    rw [h0, hD, hhalf.2]
  rw [m3]
  rw [hhalf.2, hD] at hq
  refine ⟨m1, ?_, ?_⟩
  · intro hbig
    have hn : pow2 (-1022) ≤ |1 / 2 * D| := by
      by_contra hlt
      push Not at hlt
      have h1 : |rq (1 / 2 * D)| ≤ pow2 (-1022) := by
        obtain ⟨k, hk⟩ := pow2_isMag (e := -1022) (by norm_num)
        rw [rq_abs, ← hk]
        rw [← hk] at hlt
        exact (mag_le_iff.mpr (rnd_le hlt.le))
      have h2 := hbig.trans h1
      have h3 : pow2 (-1022) < pow2 (-1010) := pow2_lt (by norm_num)
      linarith
    have h1 := rq_rel (Or.inr hn)
    rw [pow2_m53] at h1
    have h2 : rq (1 / 2 * D) - w / 2 = (rq (1 / 2 * D) - 1 / 2 * D) + (D - w) / 2 := by ring
    rw [h2]
    refine (abs_add_le _ _).trans ?_
    rw [abs_div, abs_of_pos (by norm_num : (0 : ℚ) < 2)]
    have h3 : |1 / 2 * D| = |D| / 2 := by rw [abs_mul, abs_of_pos (by norm_num : (0 : ℚ) < 1 / 2)]; ring
    rw [h3] at h1
    have h4 : |w| / 2 ^ 50 = |w| * (1 / 1125899906842624) := by norm_num; ring
    rw [h4]
    have h5 := abs_nonneg w
    linarith
  · obtain ⟨k, hk⟩ := pow2_isMag (e := 1003) (by norm_num)
    rw [rq_abs, ← hk]
    rw [← hk] at e3
    have h5 : |1 / 2 * D| ≤ mag k := by rw [e3]; linarith
    exact mag_le_iff.mpr (rnd_le h5)

theorem eps2_val : isFin (lit 2 *. BRENT_DEFAULT_EPSILON : F64) ∧ 0 ≤ toQ (lit 2 *. BRENT_DEFAULT_EPSILON : F64) ∧
    toQ (lit 2 *. BRENT_DEFAULT_EPSILON : F64) ≤ 1 := by
  have h : ((zero false : F64) <=. (lit 2 *. BRENT_DEFAULT_EPSILON)) = true ∧ ((lit 2 *. BRENT_DEFAULT_EPSILON : F64) <=. lit 1) = true := by
    decide +kernel
  have hf : isFin (lit 2 *. BRENT_DEFAULT_EPSILON : F64) := by
    rw [isFin_iff_val]
    have h1 := (le_iff _ _).mp h.1
    have h2 := (le_iff _ _).mp h.2
    refine ⟨h1.2.1, ?_, ?_⟩
    · intro hh
      have h3 := h2.2.2
      have h4 : val (F64.mul (lit 2) BRENT_DEFAULT_EPSILON) = ⊤ := hh
      rw [show (CDouble.mul (lit 2) BRENT_DEFAULT_EPSILON : F64) = F64.mul (lit 2) BRENT_DEFAULT_EPSILON from rfl, h4] at h3
      have h5 : isFin (lit 1 : F64) := by have := (lit_int (i := 1) (by norm_num)).1; rwa [Int.cast_one] at this
      rw [val_fin h5] at h3
      exact absurd h3 (not_le.mpr (EReal.coe_lt_top _))
    · intro hh
      have h3 := h1.2.2
      have h4 : val (F64.mul (lit 2) BRENT_DEFAULT_EPSILON) = ⊥ := hh
      rw [show (CDouble.mul (lit 2) BRENT_DEFAULT_EPSILON : F64) = F64.mul (lit 2) BRENT_DEFAULT_EPSILON from rfl, h4, val_zero] at h3
      exact absurd h3 (by simp)
  have h1 := lit_int (i := 1) (by norm_num)
  rw [Int.cast_one] at h1
  refine ⟨hf, ?_, ?_⟩
  · have := (le_fin_iff (x := zero false) (by trivial) hf).mp h.1
    rwa [toQ_zero] at this
  · have := (le_fin_iff hf h1.1).mp h.2
    rwa [h1.2] at this

theorem rq_abs_le {q : ℚ} {e : ℤ} (he : -1074 ≤ e) (h : |q| ≤ pow2 e) : |rq q| ≤ pow2 e := by
  obtain ⟨k, hk⟩ := pow2_isMag he
  rw [rq_abs, ← hk]
  rw [← hk] at h
  exact mag_le_iff.mpr (rnd_le h)

theorem le_rq {q : ℚ} {e : ℤ} (he : -1074 ≤ e) (h : pow2 e ≤ q) : pow2 e ≤ rq q := by
  obtain ⟨k, hk⟩ := pow2_isMag he
  rw [← hk] at h ⊢
  have := rq_mono h
  rwa [rq_mag] at this

/-- the tolerance is a positive number -/
theorem brentTol1_fin {b tol : F64} (hb : isFin b) (ht : isFin tol) (Bb : |toQ b| ≤ pow2 1000) (T0 : pow2 (-1000) ≤ toQ tol)
    (T1 : toQ tol ≤ pow2 1000) : isFin (brentTol1 tol b) ∧ pow2 (-1001) ≤ toQ (brentTol1 tol b) := by
  obtain ⟨k1, k2, k3⟩ := eps2_val
  obtain ⟨f1, f2⟩ := fabs_fin hb
  have hp : 0 < pow2 1000 := pow2_pos _
  have q1 : |toQ (lit 2 *. BRENT_DEFAULT_EPSILON : F64) * toQ (fabs b)| ≤ pow2 1000 := by
    rw [f2, abs_mul, abs_abs, abs_of_nonneg k2]
    have := mul_le_mul k3 Bb (abs_nonneg _) zero_le_one
    linarith
  obtain ⟨m1, m2⟩ := mul_fin' k1 f1 (q1.trans (pow2_le (by norm_num)))
  have hhalf : isFin (lit (1 / 2) : F64) ∧ toQ (lit (1 / 2) : F64) = 1 / 2 := by
    constructor
    · exact (fin_ofRat (z := false) (q := 1 / 2) (by rw [abs_of_pos (by norm_num)]; exact le_trans (by norm_num) (pow2_big))).1
    · decide +kernel
  have e0 : pow2 (-1000) = 2 * pow2 (-1001) := by rw [← pow2_succ]; norm_num
  have hp0 : 0 < pow2 (-1001) := pow2_pos _
  have q2 : |toQ (lit (1 / 2) : F64) * toQ tol| ≤ pow2 1000 := by
    have t0 : 0 ≤ toQ tol := (pow2_pos _).le.trans T0
    rw [hhalf.2, abs_mul, abs_of_nonneg t0, abs_of_pos (by norm_num : (0 : ℚ) < 1 / 2)]
    linarith
  obtain ⟨n1, n2⟩ := mul_fin' hhalf.1 ht (q2.trans (pow2_le (by norm_num)))
  have a1 := rq_abs_le (by norm_num) q1
  have a2 := rq_abs_le (by norm_num) q2
  have e1 : pow2 1001 = 2 * pow2 1000 := pow2_succ 1000
  have q3 : |toQ (lit 2 *. BRENT_DEFAULT_EPSILON *. fabs b : F64) + toQ (lit (1 / 2) *. tol : F64)| ≤ pow2 1001 := by
    refine (abs_add_le _ _).trans ?_
    rw [← m2] at a1
    rw [← n2] at a2
    rw [e1]
    have a1' : |toQ (lit 2 *. BRENT_DEFAULT_EPSILON *. fabs b : F64)| ≤ pow2 1000 := a1
    have a2' : |toQ (lit (1 / 2) *. tol : F64)| ≤ pow2 1000 := a2
    linarith
  obtain ⟨s1, s2⟩ := add_fin' m1 n1 (q3.trans (pow2_le (by norm_num)))
  refine ⟨s1, ?_⟩
  have s3 : toQ (brentTol1 tol b) = rq (toQ (lit 2 *. BRENT_DEFAULT_EPSILON *. fabs b : F64) + toQ (lit (1 / 2) *. tol : F64)) := s2
  rw [s3]
  refine le_rq (by norm_num) ?_
  have m3 : 0 ≤ toQ (lit 2 *. BRENT_DEFAULT_EPSILON *. fabs b : F64) := by
    have : toQ (lit 2 *. BRENT_DEFAULT_EPSILON *. fabs b : F64) = _ := m2
    rw [this]
    refine rq_nonneg (mul_nonneg k2 ?_)
    rw [f2]; exact abs_nonneg _
  have n3 : pow2 (-1001) ≤ toQ (lit (1 / 2) *. tol : F64) := by
    have : toQ (lit (1 / 2) *. tol : F64) = _ := n2
    rw [this]
    refine le_rq (by norm_num) ?_
    rw [hhalf.2]
    linarith
  linarith

theorem rq_abs_mono {p q : ℚ} (h : |p| ≤ |q|) : |rq p| ≤ |rq q| := by
  rw [rq_abs, rq_abs]
  exact mag_le_iff.mpr (rnd_mono h)

theorem rq_same_sign {p x : ℚ} (h : 0 ≤ p * x) : 0 ≤ rq p * x := by
  rcases lt_trichotomy x 0 with hx | hx | hx
  · have hp : p ≤ 0 := by
      by_contra hh
      push Not at hh
      nlinarith
    have := rq_mono hp
    rw [rq_zero] at this
    nlinarith
  · rw [hx, mul_zero]
  · have hp : 0 ≤ p := by
      by_contra hh
      push Not at hh
      nlinarith
    have := rq_nonneg hp
    positivity

theorem mul_nan_right (x : F64) : (x *. nan : F64) = nan := by cases x <;> rfl

theorem nan_lt_left' (x : F64) : ((nan : F64) <. x) = false := by cases x <;> rfl

/-- the comparison of an accepted interpolation, without the rounding -/
theorem accepted_lt {p0 q T t e : F64} (hT : isFin T) (ht : isFin t) (hq : isFin q)
    (h : (lit 2 *. fabs p0 <. (if (T *. q -. fabs (t *. q)) <. fabs (e *. q) then (T *. q -. fabs (t *. q)) else fabs (e *. q))) = true) :
    isFin (fabs p0) ∧ 0 ≤ toQ (fabs p0) ∧ 2 * toQ (fabs p0) < toQ T * toQ q := by
  have h2 : isFin (lit 2 : F64) ∧ toQ (lit 2 : F64) = 2 := by
    have := lit_int (i := 2) (by norm_num); simpa using this
  -- the left-hand side is less than the rounded product
  have key : notNaN (lit 2 *. fabs p0 : F64) ∧ val (lit 2 *. fabs p0 : F64) < val (T *. q : F64) := by
    obtain ⟨z, hz⟩ := mul_fin hT hq
    obtain ⟨z', hz'⟩ := mul_fin ht hq
    have hz1 : (T *. q : F64) = ofRat z (toQ T * toQ q) := hz
    have hz2 : (t *. q : F64) = ofRat z' (toQ t * toQ q) := hz'
    have hle := sub_le_self' (z := (T *. q : F64)) (fabs_nonneg (t *. q))
    generalize hmin : (T *. q -. fabs (t *. q) : F64) = min1 at *
    have hlt : ∀ m : F64, (lit 2 *. fabs p0 <. m) = true → notNaN (lit 2 *. fabs p0 : F64) ∧ notNaN m ∧ val (lit 2 *. fabs p0 : F64) < val m :=
      fun m hm => (lt_iff _ _).mp hm
    rcases nan_or min1 with hn | hn
    · -- inf - inf
      have hTq : (T *. q : F64) = inf false := by
        rw [hz1] at hmin ⊢
        rw [hz2] at hmin
        have n1 := ofRat_notNaN z (toQ T * toQ q)
        have n2 : fabs (ofRat z' (toQ t * toQ q)) ≠ nan := by
          intro hh
          generalize hx : ofRat z' (toQ t * toQ q) = x at hh
          have n3 := ofRat_notNaN z' (toQ t * toQ q)
          rw [hx] at n3
          rcases x with _ | s | ⟨s, k⟩
          · exact n3 rfl
          · cases s <;> revert hh <;> decide
          · have := (fabs_fin (x := fin s k) (by trivial)).1
            rw [hh] at this
            exact this
        have n4 := fabs_nonneg (ofRat z' (toQ t * toQ q))
        generalize ofRat z (toQ T * toQ q) = x at *
        generalize fabs (ofRat z' (toQ t * toQ q)) = y at *
        rw [hn] at hmin
        rcases n4 with n4 | n4
        · exact absurd n4 n2
        rcases x with _ | s | ⟨s, k⟩ <;> rcases y with _ | s' | ⟨s', k'⟩
        · exact absurd rfl n1
        · exact absurd rfl n1
        · exact absurd rfl n1
        · exact absurd rfl n2
        · cases s'
          · cases s
            · rfl
            · cases hmin
          · rw [val_inf_true] at n4
            exact absurd n4 (by simp)
        · cases hmin
        · exact absurd rfl n2
        · cases hmin
        · exfalso
          obtain ⟨z3, hz3⟩ := sub_fin (x := fin s k) (y := fin s' k') (by trivial) (by trivial)
          have : (fin s k -. fin s' k' : F64) = ofRat z3 _ := hz3
          rw [this] at hmin
          exact ofRat_notNaN _ _ hmin
      rw [hTq, val_inf_false]
      have hm : ∃ m : F64, (lit 2 *. fabs p0 <. m) = true := ⟨_, h⟩
      obtain ⟨m, hm⟩ := hm
      obtain ⟨a1, _, a2⟩ := hlt m hm
      exact ⟨a1, a2.trans_le le_top⟩
    · have hlm : notNaN (lit 2 *. fabs p0 : F64) ∧ val (lit 2 *. fabs p0 : F64) < val min1 := by
        by_cases hc : (min1 <. fabs (e *. q)) = true
        · rw [if_pos hc] at h
          exact ⟨(hlt _ h).1, (hlt _ h).2.2⟩
        · rw [if_neg hc] at h
          obtain ⟨a1, a2, a3⟩ := hlt _ h
          refine ⟨a1, a3.trans_le ?_⟩
          by_contra hh
          apply hc
          exact (lt_iff _ _).mpr ⟨hn, a2, not_le.mp hh⟩
      refine ⟨hlm.1, hlm.2.trans_le ?_⟩
      rcases hle with hle | hle | hle
      · exact absurd hle hn
      · rw [hz1] at hle
        exact absurd hle (ofRat_notNaN _ _)
      · exact hle
  obtain ⟨k1, k2⟩ := key
  have hp : isFin (fabs p0) ∧ 0 ≤ toQ (fabs p0) := by
    rcases fabs_nonneg p0 with hh | hh
    · exfalso
      rw [hh] at k1
      exact k1 (mul_nan_right _)
    · generalize fabs p0 = p at *
      rcases p with _ | s | ⟨s, k⟩
      · exfalso
        exact k1 (mul_nan_right _)
      · exfalso
        cases s
        · have : (lit 2 *. inf false : F64) = inf false := by decide +kernel
          rw [this, val_inf_false] at k2
          exact absurd k2 (by simp)
        · rw [val_inf_true] at hh
          exact absurd hh (by simp)
      · exact ⟨trivial, (val_fin_nonneg (by trivial)).mp hh⟩
  refine ⟨hp.1, hp.2, ?_⟩
  by_contra hh
  push Not at hh
  obtain ⟨z, hz⟩ := mul_fin hT hq
  obtain ⟨z', hz'⟩ := mul_fin h2.1 hp.1
  have hz1 : (T *. q : F64) = ofRat z (toQ T * toQ q) := hz
  have hz2 : (lit 2 *. fabs p0 : F64) = ofRat z' (toQ (lit 2 : F64) * toQ (fabs p0)) := hz'
  rw [hz1, hz2, h2.2] at k2
  exact absurd (ofRat_mono (z := z) (z' := z') hh) (not_le.mpr k2)

/-- an accepted interpolation step goes from `b` towards `c`, not farther than (about) 3/2 of the half width -/
theorem accepted_step_F64 {p0 q xm t e : F64} (hxm : isFin xm) (ht : isFin t) (X0 : pow2 (-1010) ≤ |toQ xm|) (X1 : |toQ xm| ≤ pow2 1003)
    (h : (lit 2 *. fabs p0 <. (if (lit 3 *. xm *. q -. fabs (t *. q)) <. fabs (e *. q) then
      (lit 3 *. xm *. q -. fabs (t *. q)) else fabs (e *. q))) = true) :
    isFin (fabs p0 /. q : F64) ∧ 0 ≤ toQ (fabs p0 /. q : F64) * toQ xm ∧ |toQ (fabs p0 /. q : F64)| ≤ 8 / 5 * |toQ xm| := by
  have h3 : isFin (lit 3 : F64) ∧ toQ (lit 3 : F64) = 3 := by
    have := lit_int (i := 3) (by norm_num); simpa using this
  have hx0 : 0 < |toQ xm| := (pow2_pos _).trans_le X0
  have a3 : |(3 : ℚ) * toQ xm| = 3 * |toQ xm| := by rw [abs_mul, abs_of_pos (by norm_num : (0 : ℚ) < 3)]
  have e4 : pow2 1004 = 2 * pow2 1003 := pow2_succ 1003
  have e5 : pow2 1005 = 2 * pow2 1004 := pow2_succ 1004
  have b3 : |toQ (lit 3 : F64) * toQ xm| ≤ pow2 1005 := by
    rw [h3.2, a3]
    linarith
  obtain ⟨t1, t2⟩ := mul_fin' h3.1 hxm (b3.trans (pow2_le (by norm_num)))
  have t3 : toQ (lit 3 *. xm : F64) = rq (3 * toQ xm) := by
    have h0 : toQ (lit 3 *. xm : F64) = rq (toQ (lit 3 : F64) * toQ xm) := t2
    rw [h0, h3.2]
  have t4 : |rq (3 * toQ xm) - 3 * toQ xm| ≤ 1 / 9007199254740992 * (3 * |toQ xm|) := by
    have hn : pow2 (-1022) ≤ |3 * toQ xm| := by
      have : pow2 (-1022) ≤ pow2 (-1010) := pow2_le (by norm_num)
      rw [a3]; linarith
    have := rq_rel (Or.inr hn)
    rwa [pow2_m53, a3] at this
  rcases q with _ | s | ⟨s, k⟩
  · exfalso
    have e1 : (t *. nan : F64) = nan := by cases t <;> rfl
    have e2 : (e *. nan : F64) = nan := by cases e <;> rfl
    have e3 : fabs (nan : F64) = nan := rfl
    rw [e1, e2, e3] at h
    have n1 : ∀ x : F64, (x <. (nan : F64)) = false := by intro x; cases x <;> rfl
    rw [n1, if_neg (by simp), n1] at h
    cases h
  · -- the quotient by an infinity
    have hz : ∃ s', (fabs p0 /. inf s : F64) = zero s' := by
      have hp : isFin (fabs p0) := by
        rcases fabs_nonneg p0 with hh | hh
        · exfalso
          rw [hh] at h
          have : ∀ x : F64, ((lit 2 *. nan : F64) <. x) = false := by intro x; rw [mul_nan_right, nan_lt_left']
          rw [this] at h
          cases h
        · generalize fabs p0 = p at *
          rcases p with _ | s' | ⟨s', k⟩
          · exfalso
            have : ∀ x : F64, ((lit 2 *. nan : F64) <. x) = false := by intro x; rw [mul_nan_right, nan_lt_left']
            rw [this] at h
            cases h
          · exfalso
            cases s'
            · have e1 : (lit 2 *. inf false : F64) = inf false := by decide +kernel
              rw [e1] at h
              obtain ⟨_, _, h6⟩ := (lt_iff _ _).mp h
              rw [val_inf_false] at h6
              exact absurd h6 (by simp)
            · rw [val_inf_true] at hh
              exact absurd hh (by simp)
          · trivial
      generalize fabs p0 = p at *
      rcases p with _ | s' | ⟨s', k⟩
      · exact absurd hp (by simp [isFin])
      · exact absurd hp (by simp [isFin])
      · exact ⟨_, rfl⟩
    obtain ⟨s', hz⟩ := hz
    rw [hz, toQ_zero]
    refine ⟨trivial, by simp, ?_⟩
    rw [abs_zero]
    positivity
  · obtain ⟨p1, p2, p3⟩ := accepted_lt t1 ht (by trivial) h
    generalize hq : (fin s k : F64) = q at *
    have hqf : isFin q := by rw [← hq]; trivial
    rw [t2, h3.2] at p3
    generalize toQ xm = x at *
    have hT : 0 < rq (3 * x) * toQ q := by linarith
    have hq0 : toQ q ≠ 0 := by
      intro h0; rw [h0, mul_zero] at hT; exact lt_irrefl _ hT
    -- the exact quotient
    have q1 : |toQ (fabs p0) / toQ q| ≤ |rq (3 * x) / 2| := by
      rw [abs_div, abs_of_nonneg p2, div_le_iff₀ (abs_pos.mpr hq0), abs_div, abs_of_pos (by norm_num : (0 : ℚ) < 2)]
      have : |rq (3 * x)| / 2 * |toQ q| = |rq (3 * x) * toQ q| / 2 := by rw [abs_mul]; ring
      rw [this, abs_of_pos hT]
      linarith
    have q2 : |rq (3 * x) / 2| ≤ (8 / 5 - 1 / 100) * |x| := by
      rw [abs_div, abs_of_pos (by norm_num : (0 : ℚ) < 2)]
      have := abs_sub_abs_le_abs_sub (rq (3 * x)) (3 * x)
      rw [a3] at this
      linarith
    have q3 : 0 ≤ toQ (fabs p0) / toQ q * x := by
      have hxT : 0 < rq (3 * x) * x := by
        rcases lt_or_gt_of_ne (abs_pos.mp hx0) with hx | hx
        · rw [abs_of_neg hx] at t4
          rw [abs_le] at t4
          nlinarith [t4.1, t4.2]
        · rw [abs_of_pos hx] at t4
          rw [abs_le] at t4
          nlinarith [t4.1, t4.2]
      have hxq : 0 < toQ q * x := by
        have h1 : 0 < (rq (3 * x) * toQ q) * (rq (3 * x) * x) := mul_pos hT hxT
        have h2 : (rq (3 * x) * toQ q) * (rq (3 * x) * x) = rq (3 * x) ^ 2 * (toQ q * x) := by ring
        rw [h2] at h1
        exact (pos_iff_pos_of_mul_pos h1).mp (lt_of_le_of_ne (sq_nonneg _) (by rintro h0; rw [← h0, zero_mul] at h1; exact lt_irrefl _ h1))
      have : toQ (fabs p0) / toQ q * x = toQ (fabs p0) * (toQ q * x) / toQ q ^ 2 := by field_simp
      rw [this]
      positivity
    have q4 : |toQ (fabs p0) / toQ q| ≤ pow2 1005 := by linarith
    obtain ⟨d1, d2⟩ := div_fin' p1 hqf hq0 (q4.trans (pow2_le (by norm_num)))
    have d3 : toQ (fabs p0 /. q : F64) = rq (toQ (fabs p0) / toQ q) := d2
    refine ⟨d1, ?_, ?_⟩
    · rw [d3]
      exact rq_same_sign q3
    · rw [d3]
      have r1 := rq_abs_mono q1
      have hn : pow2 (-1022) ≤ |rq (3 * x) / 2| := by
        rw [abs_div, abs_of_pos (by norm_num : (0 : ℚ) < 2)]
        have := abs_sub_abs_le_abs_sub (3 * x) (rq (3 * x))
        rw [a3, abs_sub_comm] at this
        have h5 : pow2 (-1022) ≤ pow2 (-1010) := pow2_le (by norm_num)
        linarith
      have r2 := rq_rel (Or.inr hn)
      rw [pow2_m53] at r2
      have r3 := abs_sub_abs_le_abs_sub (rq (rq (3 * x) / 2)) (rq (3 * x) / 2)
      linarith

/-- the step of one iteration -/
theorem brentDE_F64 {tol : F64} {s : BrentSt F64} (hxm : isFin (brentXm s)) (ht : isFin (brentTol1 tol s.b))
    (X0 : pow2 (-1010) ≤ |toQ (brentXm s)|) (X1 : |toQ (brentXm s)| ≤ pow2 1003) :
    isFin (brentDE tol s).1 ∧ 0 ≤ toQ (brentDE tol s).1 * toQ (brentXm s) ∧ |toQ (brentDE tol s).1| ≤ 8 / 5 * |toQ (brentXm s)| := by
  have triv : isFin (brentXm s) ∧ 0 ≤ toQ (brentXm s) * toQ (brentXm s) ∧ |toQ (brentXm s)| ≤ 8 / 5 * |toQ (brentXm s)| :=
    ⟨hxm, mul_self_nonneg _, by have := abs_nonneg (toQ (brentXm s)); linarith⟩
  unfold brentDE
  dsimp only
  obtain ⟨p0, q, hpq⟩ : ∃ p0 q, brentPQ s = (fabs p0, q) := ⟨_, _, rfl⟩
  rw [hpq]
  dsimp only
  split
  · by_cases h : (lit 2 *. fabs p0 <. (if (lit 3 *. brentXm s *. q -. fabs (brentTol1 tol s.b *. q)) <. fabs (s.e *. q) then
        (lit 3 *. brentXm s *. q -. fabs (brentTol1 tol s.b *. q)) else fabs (s.e *. q))) = true
    · rw [if_pos h]
      exact accepted_step_F64 hxm ht X0 X1 h
    · rw [if_neg h]
      exact triv
  · exact triv

/-- all points of the search are finite and in the interval -/
structure InF (I : Set ℚ) (s : BrentSt F64) (l : List F64) : Prop where
  a : isFin s.a ∧ toQ s.a ∈ I
  b : isFin s.b ∧ toQ s.b ∈ I
  c : isFin s.c ∧ toQ s.c ∈ I
  log : ∀ x ∈ l, isFin x ∧ toQ x ∈ I

theorem InF.adjust {I : Set ℚ} {s : BrentSt F64} {l : List F64} (B : InF I s l) : InF I (brentAdjust s) l := by
  unfold brentAdjust
  dsimp only
  split <;> split
  · exact ⟨B.b, B.a, B.b, B.log⟩
  · exact ⟨B.a, B.b, B.a, B.log⟩
  · exact ⟨B.b, B.c, B.b, B.log⟩
  · exact B

theorem toward_add {w x δ : ℚ} (hx : |x - w / 2| ≤ |w| / 2 ^ 50) (h1 : 0 ≤ δ * x) (h2 : |δ| ≤ 8 / 5 * |x|) : Toward w δ := by
  have hw := abs_nonneg w
  have hw' : |w| / 2 ^ 50 ≤ |w| / 100 := by
    apply div_le_div_of_nonneg_left hw (by norm_num) (by norm_num)
  have h3 : |x| ≤ (51 / 100) * |w| := by
    have := abs_sub_abs_le_abs_sub x (w / 2)
    rw [abs_div, abs_of_pos (by norm_num : (0 : ℚ) < 2)] at this
    linarith
  refine ⟨?_, by linarith⟩
  rcases lt_trichotomy w 0 with hw0 | hw0 | hw0
  · rw [abs_of_neg hw0] at hx hw'
    have hx' := (abs_le.mp hx).2
    have hxn : x < 0 := by linarith
    have : δ ≤ 0 := by
      by_contra hh
      push Not at hh
      nlinarith
    nlinarith
  · rw [hw0, mul_zero]
  · rw [abs_of_pos hw0] at hx hw'
    have hx' := (abs_le.mp hx).1
    have hxn : 0 < x := by linarith
    have : 0 ≤ δ := by
      by_contra hh
      push Not at hh
      nlinarith
    positivity

theorem mem_big {x1 x2 q : ℚ} (B1 : |x1| ≤ pow2 1000) (B2 : |x2| ≤ pow2 1000) (h : q ∈ Set.uIcc x1 x2) : |q| ≤ pow2 1000 := by
  rw [abs_le] at *
  rw [Set.mem_uIcc] at h
  rcases h with ⟨h1, h2⟩ | ⟨h1, h2⟩
  · exact ⟨B1.1.trans h1, h2.trans B2.2⟩
  · exact ⟨B2.1.trans h1, h2.trans B1.2⟩

theorem InF.step {f : F64 → F64} {x1 x2 : ℚ} {tol : F64} (B1 : |x1| ≤ pow2 1000) (B2 : |x2| ≤ pow2 1000) (htol : isFin tol)
    (T0 : pow2 (-1000) ≤ toQ tol) (T1 : toQ tol ≤ pow2 1000) {s : BrentSt F64} {l : List F64} (B : InF (Set.uIcc x1 x2) s l)
    (hnd : brentDone tol (brentAdjust s) = false) :
    InF (Set.uIcc x1 x2) (brentStep f tol s) (l ++ [(brentStep f tol s).b]) := by
  have A := B.adjust
  have hsb : (brentStep f tol s).b = brentNext tol (brentAdjust s) (brentDE tol (brentAdjust s)).1 := rfl
  have hsa : (brentStep f tol s).a = (brentAdjust s).b := rfl
  have hsc : (brentStep f tol s).c = (brentAdjust s).c := rfl
  generalize hs : brentAdjust s = s' at *
  have Bb := mem_big B1 B2 A.b.2
  have Bc := mem_big B1 B2 A.c.2
  obtain ⟨t1, t2⟩ := brentTol1_fin A.b.1 htol Bb T0 T1
  obtain ⟨m1, m2, m3⟩ := brentXm_fin A.b.1 A.c.1 Bb Bc
  obtain ⟨f1, f2⟩ := fabs_fin m1
  have hlt : toQ (brentTol1 tol s'.b) < |toQ (brentXm s')| := by
    unfold brentDone at hnd
    rw [Bool.or_eq_false_iff] at hnd
    by_contra hh
    push Not at hh
    have := (le_fin_iff f1 t1).mpr (by rw [f2]; exact hh)
    rw [hnd.1] at this
    cases this
  have X0 : pow2 (-1010) ≤ |toQ (brentXm s')| := by
    have : pow2 (-1010) ≤ pow2 (-1001) := pow2_le (by norm_num)
    linarith
  obtain ⟨d1, d2, d3⟩ := brentDE_F64 m1 t1 X0 m3
  have key : isFin (brentNext tol s' (brentDE tol s').1) ∧ toQ (brentNext tol s' (brentDE tol s').1) ∈ Set.uIcc x1 x2 := by
    have go : ∀ d : F64, isFin d → 0 ≤ toQ d * toQ (brentXm s') → |toQ d| ≤ 8 / 5 * |toQ (brentXm s')| →
        isFin (s'.b +. d) ∧ toQ (s'.b +. d) ∈ Set.uIcc x1 x2 := by
      intro d g1 g2 g3
      obtain ⟨k1, k2⟩ := between_step A.b.1 g1 Bb Bc (toward_add (m2 X0) g2 g3)
      exact ⟨k1, Set.uIcc_subset_uIcc A.b.2 A.c.2 k2⟩
    unfold brentNext
    dsimp only
    split
    · exact go _ d1 d2 d3
    · obtain ⟨ft1, ft2⟩ := fabs_fin t1
      have ht0 : 0 ≤ toQ (brentTol1 tol s'.b) := (pow2_pos _).le.trans t2
      rw [abs_of_nonneg ht0] at ft2
      have h0 := lit_int (i := 0) (by norm_num)
      rw [Int.cast_zero] at h0
      have hx0 := abs_nonneg (toQ (brentXm s'))
      split
      · next hge =>
        have hge' := (le_fin_iff h0.1 m1).mp hge
        rw [h0.2] at hge'
        refine go _ ft1 ?_ ?_
        · rw [ft2]; exact mul_nonneg ht0 hge'
        · rw [ft2, abs_of_nonneg ht0]; linarith
      · next hge =>
        have hge' : ¬ (0 : ℚ) ≤ toQ (brentXm s') := by
          intro hh
          apply hge
          rw [le_fin_iff h0.1 m1, h0.2]
          exact hh
        push Not at hge'
        refine go _ (isFin_neg.mpr ft1) ?_ ?_
        · have : toQ (-. fabs (brentTol1 tol s'.b) : F64) = - toQ (fabs (brentTol1 tol s'.b)) := toQ_neg _
          rw [this, ft2]
          nlinarith
        · have : toQ (-. fabs (brentTol1 tol s'.b) : F64) = - toQ (fabs (brentTol1 tol s'.b)) := toQ_neg _
          rw [this, ft2, abs_neg, abs_of_nonneg ht0]; linarith
  refine ⟨by rw [hsa]; exact A.b, by rw [hsb]; exact key, by rw [hsc]; exact A.c, ?_⟩
  intro x hx
  rcases List.mem_append.mp hx with h | h
  · exact A.log x h
  · simp only [List.mem_singleton] at h
    rw [h, hsb]
    exact key

/-- all evaluated points are in the interval -/
theorem search_in (f : F64 → F64) (x1 x2 tol : F64) (h1 : isFin x1) (h2 : isFin x2) (B1 : |toQ x1| ≤ pow2 1000) (B2 : |toQ x2| ≤ pow2 1000)
    (htol : isFin tol) (T0 : pow2 (-1000) ≤ toQ tol) (T1 : toQ tol ≤ pow2 1000) :
    ∀ x ∈ (search f x1 x2 tol).2, isFin x ∧ toQ x ∈ Set.uIcc (toQ x1) (toQ x2) := by
  have i0 : ∀ x ∈ [x1, x2], isFin x ∧ toQ x ∈ Set.uIcc (toQ x1) (toQ x2) := by
    intro x hx
    simp only [List.mem_cons, List.not_mem_nil, or_false] at hx
    rcases hx with rfl | rfl
    · exact ⟨h1, Set.left_mem_uIcc⟩
    · exact ⟨h2, Set.right_mem_uIcc⟩
  rw [search_eq]
  split
  · exact i0
  · obtain ⟨_, I, _⟩ := brentLoop_inv (f := f) (tol := tol) (InF (Set.uIcc (toQ x1) (toQ x2))) (fun s l B hd => B.step B1 B2 htol T0 T1 hd)
      BRENT_ITMAX ⟨x1, x2, x2, lit 0, lit 0, f x1, f x2, f x2⟩ [x1, x2]
      ⟨⟨h1, Set.left_mem_uIcc⟩, ⟨h2, Set.right_mem_uIcc⟩, ⟨h2, Set.right_mem_uIcc⟩, i0⟩
    exact I.log

end Verif

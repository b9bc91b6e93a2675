/-
The points at which `grimshaw_estimator` evaluates the likelihood equation, in binary64.
-/
import Verif.Proofs.Regular

namespace Verif
open F64 Spec

/-- a computed sum of terms bounded by a power of two -/
theorem fold_scaled (g : F64 → F64) (e : ℤ) (e0 : -1074 ≤ e) (e1 : e ≤ 900) (l : List F64) (k : ℕ) (r : F64) (hr : isFin r)
    (hrb : |toQ r| ≤ k * pow2 e) (hk : k + l.length ≤ 2 ^ 53) (hg : ∀ v ∈ l, isFin (g v) ∧ |toQ (g v)| ≤ pow2 e) :
    isFin (l.foldl (fun r v => r +. g v) r) ∧ |toQ (l.foldl (fun r v => r +. g v) r)| ≤ (k + l.length : ℕ) * pow2 e := by
  induction l generalizing r k with
  | nil => simpa using ⟨hr, hrb⟩
  | cons v l ih =>
    rw [List.foldl_cons]
    rw [List.length_cons] at hk
    obtain ⟨g1, g2⟩ := hg v (by simp)
    have hq : (k : ℚ) * pow2 e + pow2 e = (((k + 1 : ℕ) : ℤ) : ℚ) * pow2 e := by push_cast; ring
    have hb : |toQ r + toQ (g v)| ≤ (((k + 1 : ℕ) : ℤ) : ℚ) * pow2 e := by
      rw [← hq]; exact (abs_add_le _ _).trans (add_le_add hrb g2)
    have hi : |((k + 1 : ℕ) : ℤ)| ≤ 2 ^ 53 := by
      rw [abs_of_nonneg (by positivity)]
      exact_mod_cast (by omega : k + 1 ≤ 2 ^ 53)
    have h0 : (0 : ℚ) ≤ (((k + 1 : ℕ) : ℤ) : ℚ) * pow2 e := (abs_nonneg _).trans hb
    have hbig : (((k + 1 : ℕ) : ℤ) : ℚ) * pow2 e ≤ pow2 1023 := by
      have h1 : (((k + 1 : ℕ) : ℤ) : ℚ) ≤ pow2 53 := by
        rw [show pow2 53 = ((2 ^ 53 : ℤ) : ℚ) by decide +kernel]
        exact_mod_cast (le_abs_self _).trans hi
      refine (mul_le_mul h1 (pow2_le e1) (pow2_pos _).le (pow2_pos _).le).trans ?_
      decide +kernel
    obtain ⟨a1, a2⟩ := add_fin' hr g1 (hb.trans hbig)
    have a3 : |toQ (r +. g v)| ≤ ((k + 1 : ℕ) : ℚ) * pow2 e := by
      have a2 : toQ (r +. g v) = rq (toQ r + toQ (g v)) := a2
      rw [a2]
      have h1 : |toQ r + toQ (g v)| ≤ |(((k + 1 : ℕ) : ℤ) : ℚ) * pow2 e| := by rw [abs_of_nonneg h0]; exact hb
      have h2 := rq_abs_mono h1
      rw [rq_rep (rep_scaled hi e0), abs_of_nonneg h0] at h2
      exact_mod_cast h2
    have := ih (k + 1) (r +. g v) a1 a3 (by omega) (fun w hw => hg w (by simp [hw]))
    rwa [show k + 1 + l.length = k + (v :: l).length by rw [List.length_cons]; omega] at this

/-- the argument of the logarithms, for a point of the admissible range -/
theorem arg_pos {x y : F64} {mx : ℚ} (hx : isFin x) (hy : isFin y) (y0 : 0 ≤ toQ y) (y1 : toQ y ≤ mx) (lo : -1 + 1 / 2 ^ 50 ≤ toQ x * mx)
    (hi : toQ x ≤ pow2 905) (m1 : mx ≤ pow2 100) :
    isFin (lit 1 +. x *. y) ∧ 1 / 2 ^ 50 ≤ toQ (lit 1 +. x *. y) ∧ toQ (lit 1 +. x *. y) ≤ pow2 1006 := by
  have one : isFin (lit 1 : F64) ∧ toQ (lit 1 : F64) = 1 := by decide +kernel
  have lo' : -1 + 1 / 2 ^ 50 ≤ toQ x * toQ y := by
    rcases le_total 0 (toQ x) with h | h
    · have := mul_nonneg h y0
      norm_num at this ⊢
      linarith
    · exact lo.trans (mul_le_mul_of_nonpos_left y1 h)
  have hi' : toQ x * toQ y ≤ pow2 1005 := by
    rcases le_total 0 (toQ x) with h | h
    · refine (mul_le_mul hi (y1.trans m1) y0 (pow2_pos _).le).trans ?_
      decide +kernel
    · exact (mul_nonpos_of_nonpos_of_nonneg h y0).trans (pow2_pos _).le
  have one5 : (1 : ℚ) ≤ pow2 1005 := by decide +kernel
  have ab : |toQ x * toQ y| ≤ pow2 1005 := by
    rw [abs_le]
    refine ⟨?_, hi'⟩
    have : (-1 : ℚ) ≤ -1 + 1 / 2 ^ 50 := by norm_num
    linarith
  obtain ⟨p1, p2⟩ := mul_fin' hx hy (ab.trans (pow2_le (by norm_num)))
  have k1 : rq (-1 + 1 / 2 ^ 50) = -1 + 1 / 2 ^ 50 := by decide +kernel
  have p3 : -1 + 1 / 2 ^ 50 ≤ toQ (F64.mul x y) := by
    rw [p2, ← k1]; exact rq_mono lo'
  have p4 : toQ (F64.mul x y) ≤ pow2 1005 := by
    rw [p2]; exact (le_abs_self _).trans (rq_abs_le (by norm_num) ab)
  have b6 : pow2 1006 = pow2 1005 + pow2 1005 := by decide +kernel
  have q0 : 1 / 2 ^ 50 ≤ toQ (lit 1 : F64) + toQ (F64.mul x y) := by rw [one.2]; linarith
  have q1 : toQ (lit 1 : F64) + toQ (F64.mul x y) ≤ pow2 1006 := by rw [one.2, b6]; linarith
  have q2 : |toQ (lit 1 : F64) + toQ (F64.mul x y)| ≤ pow2 1006 := by
    rw [abs_of_nonneg (le_trans (by norm_num) q0)]; exact q1
  obtain ⟨s1, s2⟩ := add_fin' one.1 p1 (q2.trans (pow2_le (by norm_num)))
  have k2 : rq (1 / 2 ^ 50) = 1 / 2 ^ 50 := by decide +kernel
  refine ⟨s1, ?_, ?_⟩
  · change _ ≤ toQ (F64.add (lit 1) (F64.mul x y))
    rw [s2, ← k2]; exact rq_mono q0
  · change toQ (F64.add (lit 1) (F64.mul x y)) ≤ _
    rw [s2]; exact (le_abs_self _).trans (rq_abs_le (by norm_num) q2)

theorem foldl_pair (g k : F64 → F64) (l : List F64) (u v : F64) :
    l.foldl (fun (uv : F64 × F64) y => (uv.1 +. g y, uv.2 +. k y)) (u, v) = (l.foldl (fun r y => r +. g y) u, l.foldl (fun r y => r +. k y) v) := by
  induction l generalizing u v with
  | nil => rfl
  | cons y l ih => rw [List.foldl_cons, List.foldl_cons, List.foldl_cons, ih]

/-- the likelihood equation at a point of the admissible range is a finite number -/
theorem w_fin {l : List F64} {x : F64} {mx : ℚ} (hl : l ≠ []) (hn : l.length ≤ 2 ^ 24) (hx : isFin x) (hv : ∀ y ∈ l, isFin y ∧ 0 ≤ toQ y ∧ toQ y ≤ mx)
    (lo : -1 + 1 / 2 ^ 50 ≤ toQ x * mx) (hi : toQ x ≤ pow2 905) (m1 : mx ≤ pow2 100) : isFin (grimshawWL (codeMath muslFU) l x) := by
  have h1n : 1 ≤ l.length := List.length_pos_iff.mpr hl
  obtain ⟨n1, n2⟩ := lit_len h1n (hn.trans (by norm_num))
  have nq : (1 : ℚ) ≤ l.length := by exact_mod_cast h1n
  have np : (0 : ℚ) < l.length := by linarith
  have nq2 : (l.length : ℚ) ≤ pow2 24 := by
    rw [show pow2 24 = ((2 ^ 24 : ℕ) : ℚ) by decide +kernel]; exact_mod_cast hn
  have one : isFin (lit 1 : F64) ∧ toQ (lit 1 : F64) = 1 := by decide +kernel
  have zer : isFin (lit 0 : F64) ∧ toQ (lit 0 : F64) = 0 := by decide +kernel
  have hs : ∀ y ∈ l, isFin (lit 1 +. x *. y) ∧ 1 / 2 ^ 50 ≤ toQ (lit 1 +. x *. y) ∧ toQ (lit 1 +. x *. y) ≤ pow2 1006 :=
    fun y hy => arg_pos hx (hv y hy).1 (hv y hy).2.1 (hv y hy).2.2 lo hi m1
  have p50 : pow2 50 = 2 ^ 50 := by decide +kernel
  obtain ⟨u1, u2⟩ := fold_scaled (fun y => lit 1 /. (lit 1 +. x *. y)) 50 (by norm_num) (by norm_num) l 0 (lit 0) zer.1 (by rw [zer.2]; simp)
    (by omega) (fun y hy => by
      obtain ⟨a, b, -⟩ := hs y hy
      generalize (lit 1 +. x *. y : F64) = s at *
      have sp : 0 < toQ s := lt_of_lt_of_le (by positivity) b
      have q : |toQ (lit 1 : F64) / toQ s| ≤ pow2 50 := by
        rw [one.2, abs_of_pos (by positivity), div_le_iff₀ sp, p50]
        linarith
      obtain ⟨d1, d2⟩ := div_fin' one.1 a sp.ne' (q.trans (pow2_le (by norm_num)))
      refine ⟨d1, ?_⟩
      change |toQ (F64.div (lit 1) s)| ≤ _
      rw [d2]
      exact rq_abs_le (by norm_num) q)
  obtain ⟨v1, v2⟩ := fold_scaled (fun y => xlog muslFU (lit 1 +. x *. y)) 10 (by norm_num) (by norm_num) l 0 (lit 0) zer.1 (by rw [zer.2]; simp)
    (by omega) (fun y hy => by
      obtain ⟨a, b, -⟩ := hs y hy
      obtain ⟨c, d⟩ := xlog_fin a (lt_of_lt_of_le (by positivity) b)
      exact ⟨c, d.trans (by decide +kernel)⟩)
  unfold grimshawWL
  have hlog : ∀ y : F64, (codeMath muslFU).log y = xlog muslFU y := fun _ => rfl
  simp only [hlog]
  rw [foldl_pair (fun y => lit 1 /. (lit 1 +. x *. y)) (fun y => xlog muslFU (lit 1 +. x *. y))]
  dsimp only
  generalize (l.foldl (fun r y => r +. lit 1 /. (lit 1 +. x *. y)) (lit 0) : F64) = U at *
  generalize (l.foldl (fun r y => r +. xlog muslFU (lit 1 +. x *. y)) (lit 0) : F64) = V at *
  rw [Nat.zero_add] at u2 v2
  have qu : |toQ U / toQ (lit (l.length : ℚ) : F64)| ≤ pow2 50 := by
    rw [n2, abs_div, abs_of_pos np, div_le_iff₀ np, mul_comm]; exact u2
  have qv : |toQ V / toQ (lit (l.length : ℚ) : F64)| ≤ pow2 10 := by
    rw [n2, abs_div, abs_of_pos np, div_le_iff₀ np, mul_comm]; exact v2
  obtain ⟨a1, a2⟩ := div_fin' u1 n1 (by rw [n2]; exact np.ne') (qu.trans (pow2_le (by norm_num)))
  obtain ⟨b1, b2⟩ := div_fin' v1 n1 (by rw [n2]; exact np.ne') (qv.trans (pow2_le (by norm_num)))
  have a3 := rq_abs_le (by norm_num) qu
  have b3 := rq_abs_le (by norm_num) qv
  rw [← a2] at a3
  rw [← b2] at b3
  have p11 : 1 + pow2 10 ≤ pow2 11 := by decide +kernel
  have qc : |toQ (lit 1 : F64) + toQ (F64.div V (lit (l.length : ℚ)))| ≤ pow2 11 := by
    refine (abs_add_le _ _).trans ?_
    rw [one.2, abs_one]
    linarith
  obtain ⟨c1, c2⟩ := add_fin' one.1 b1 (qc.trans (pow2_le (by norm_num)))
  have c3 := rq_abs_le (by norm_num) qc
  rw [← c2] at c3
  have qd : |toQ (F64.div U (lit (l.length : ℚ))) * toQ (F64.add (lit 1) (F64.div V (lit (l.length : ℚ))))| ≤ pow2 61 := by
    rw [abs_mul]
    refine (mul_le_mul a3 c3 (abs_nonneg _) (pow2_pos _).le).trans ?_
    decide +kernel
  obtain ⟨d1, d2⟩ := mul_fin' a1 c1 (qd.trans (pow2_le (by norm_num)))
  have d3 := rq_abs_le (by norm_num) qd
  rw [← d2] at d3
  refine (sub_fin' d1 one.1 ?_).1
  refine (abs_sub _ _).trans ?_
  rw [one.2, abs_one]
  have : pow2 61 + 1 ≤ pow2 1023 := by decide +kernel
  linarith

/-- the points of the left interval -/
theorem left_points {mx : F64} (hmx : isFin mx) (m0 : pow2 (-24) ≤ toQ mx) (m1 : toQ mx ≤ pow2 100) (f : F64 → F64) :
    ∀ x ∈ (search f (lit (-1) /. mx +. xmin BRENT_DEFAULT_EPSILON (lit (1 / 2) /. mx)) (-. xmin BRENT_DEFAULT_EPSILON (lit (1 / 2) /. mx))
      BRENT_DEFAULT_EPSILON).2, isFin x ∧ -1 + 1 / 2 ^ 50 ≤ toQ x * toQ mx ∧ toQ x < 0 := by
  have mp : 0 < toQ mx := lt_of_lt_of_le (pow2_pos _) m0
  obtain ⟨e1, e2, e3, e4, e5⟩ := eps_bounds hmx m0 m1
  have hm : isFin (lit (-1) : F64) ∧ toQ (lit (-1) : F64) = -1 := by decide +kernel
  obtain ⟨r1, r2, r3⟩ := recip_bounds hmx m0 m1 hm.1 (by rw [hm.2]; norm_num) (by rw [hm.2]; norm_num)
  generalize (xmin BRENT_DEFAULT_EPSILON (lit (1 / 2) /. mx) : F64) = eps at *
  generalize (lit (-1) /. mx : F64) = d at *
  rw [hm.2, abs_le] at r2
  norm_num at r2
  have ep : 0 < toQ eps := lt_of_lt_of_le (pow2_pos _) e2
  have p24 : pow2 (-24) = 1 / 2 ^ 24 := by decide +kernel
  have dlo : -(2 ^ 25) ≤ toQ d := by
    by_contra h
    push Not at h
    have h1 : toQ d * toQ mx < -(2 ^ 25) * (1 / 2 ^ 24) := by
      rw [p24] at m0
      nlinarith
    linarith [r2.1]
  have d0 : toQ d < 0 := by
    by_contra h
    push Not at h
    have := mul_nonneg h mp.le
    linarith [r2.2]
  have b25 : (2 ^ 26 : ℚ) ≤ pow2 1000 := by decide +kernel
  obtain ⟨a1, a2⟩ := add_rel r1 e1 (by
    refine le_trans ?_ (b25.trans (pow2_le (by norm_num)))
    rw [abs_le]
    constructor <;> linarith)
  clear m1 e2
  have em : 113 / 10 ^ 17 ≤ toQ eps * toQ mx := by
    rw [p24] at m0
    rcases e5 with h | h
    · have := mul_le_mul h m0 (by norm_num) ep.le
      refine le_trans ?_ this
      norm_num
    · exact le_trans (by norm_num) h
  have s1 : (toQ d + toQ eps) * toQ mx ≤ -(48 / 100) := by nlinarith [r2.2]
  have s2 : -1 - 1 / 9007199254740992 + 113 / 10 ^ 17 ≤ (toQ d + toQ eps) * toQ mx := by rw [add_mul]; linarith [r2.1]
  have sneg : toQ d + toQ eps < 0 := by
    by_contra h
    push Not at h
    have := mul_nonneg h mp.le
    linarith
  generalize hX1 : (d +. eps : F64) = X1 at *
  rw [abs_of_neg sneg, abs_le] at a2
  have t1 : toQ X1 * toQ mx ≤ -(47 / 100) := by
    have := mul_le_mul_of_nonneg_right a2.2 mp.le
    nlinarith
  have t2 : -1 + 1 / 2 ^ 50 ≤ toQ X1 * toQ mx := by
    have h1 := mul_le_mul_of_nonneg_right a2.1 mp.le
    have h2 : toQ X1 * toQ mx ≥ (toQ d + toQ eps) * toQ mx * (1 + 1 / 9007199254740992) := by linarith
    have h3 := mul_le_mul_of_nonneg_right s2 (by norm_num : (0 : ℚ) ≤ 1 + 1 / 9007199254740992)
    refine le_trans ?_ (h3.trans h2)
    norm_num
  have hX2 : isFin (-. eps) ∧ toQ (-. eps) = -toQ eps := by
    refine ⟨?_, toQ_neg eps⟩
    cases eps
    · exact e1
    · exact e1
    · trivial
  have X1lo : |toQ X1| ≤ pow2 1000 := by
    refine le_trans ?_ b25
    rw [abs_le]
    constructor <;> linarith
  have X2lo : |toQ (-. eps)| ≤ pow2 1000 := by
    refine le_trans ?_ b25
    rw [hX2.2, abs_neg, abs_of_pos ep]
    linarith
  obtain ⟨c1, c2, c3⟩ := eps_const
  have hin := search_in f X1 (-. eps) BRENT_DEFAULT_EPSILON a1 hX2.1 X1lo X2lo c1 (le_trans (by decide +kernel) c2) (c3.trans (by decide +kernel))
  intro x hx
  obtain ⟨x1, x2⟩ := hin x hx
  rw [hX2.2, Set.mem_uIcc] at x2
  clear X1lo X2lo b25 hin
  have X1neg : toQ X1 < 0 := by
    by_contra h
    push Not at h
    have := mul_nonneg h mp.le
    linarith
  rcases x2 with ⟨l1, l2⟩ | ⟨l1, l2⟩
  · exact ⟨x1, t2.trans (mul_le_mul_of_nonneg_right l1 mp.le), by linarith⟩
  · refine ⟨x1, le_trans ?_ (mul_le_mul_of_nonneg_right l1 mp.le), by linarith⟩
    norm_num
    linarith

/-- twice a double is representable -/
theorem rep_two {x : F64} (hx : isFin x) : Rep (2 * toQ x) := by
  rcases x with _ | s | ⟨s, k⟩
  · exact absurd hx (by simp [isFin])
  · exact absurd hx (by simp [isFin])
  · obtain ⟨n, e, h1, h2, h3⟩ := toQ_rep s k
    refine ⟨n, e + 1, h1, by omega, ?_⟩
    rw [abs_mul, h3, pow2_add, show pow2 1 = 2 by decide +kernel, abs_of_pos (by norm_num : (0 : ℚ) < 2)]
    ring

/-- the lower bound on the right bound of the interval when the mean is below the minimum -/
theorem right_low {N D mn : ℚ} (np : 0 < mn) (hN : -(2 / 7 * mn) ≤ N) (hD : mn * mn * (1 - 1 / 9007199254740992) ≤ D) : -(1 / 3 / mn) ≤ N / D := by
  have m2 : 0 < mn * mn := mul_pos np np
  have Dp : 0 < D := lt_of_lt_of_le (mul_pos m2 (by norm_num)) hD
  rw [le_div_iff₀ Dp]
  refine le_trans ?_ hN
  have h1 : 1 / 3 / mn * (mn * mn * (1 - 1 / 9007199254740992)) ≤ 1 / 3 / mn * D := mul_le_mul_of_nonneg_left hD (by positivity)
  have h2 : 1 / 3 / mn * (mn * mn * (1 - 1 / 9007199254740992)) = 1 / 3 * (1 - 1 / 9007199254740992) * mn := by field_simp
  rw [h2] at h1
  have h3 : (2 / 7 : ℚ) * mn ≤ 1 / 3 * (1 - 1 / 9007199254740992) * mn := mul_le_mul_of_nonneg_right (by norm_num) np.le
  linarith

/-- the points of the right interval -/
theorem right_points {mx mn me : F64} (hmx : isFin mx) (m0 : pow2 (-24) ≤ toQ mx) (m1 : toQ mx ≤ pow2 100) (hmn : isFin mn)
    (n0 : pow2 (-400) ≤ toQ mn) (n1 : toQ mn ≤ toQ mx) (hme : isFin me) (me1 : toQ me ≤ pow2 101)
    (H : toQ mn ≤ toQ me ∨ 7 / 8 * toQ mn ≤ toQ me ∧ toQ mx ≤ 5 / 4 * toQ mn) (f : F64 → F64) :
    ∀ x ∈ (search f (xmin BRENT_DEFAULT_EPSILON (lit (1 / 2) /. mx)) (lit 2 *. (me -. mn) /. (mn *. mn)) BRENT_DEFAULT_EPSILON).2,
      isFin x ∧ -1 + 1 / 2 ^ 50 ≤ toQ x * toQ mx ∧ toQ x ≤ pow2 905 := by
  have mp : 0 < toQ mx := lt_of_lt_of_le (pow2_pos _) m0
  obtain ⟨e1, e2, e3, -, -⟩ := eps_bounds hmx m0 m1
  generalize (xmin BRENT_DEFAULT_EPSILON (lit (1 / 2) /. mx) : F64) = eps at *
  have two : isFin (lit 2 : F64) ∧ toQ (lit 2 : F64) = 2 := by decide +kernel
  have np : 0 < toQ mn := lt_of_lt_of_le (pow2_pos _) n0
  have n1' : toQ mn ≤ pow2 100 := n1.trans m1
  have r0 : rq 0 = 0 := by decide +kernel
  -- the difference
  have D1 : toQ me - toQ mn ≤ pow2 101 := by linarith
  have D0 : 0 ≤ toQ me - toQ mn ∨ -(toQ mn / 8) ≤ toQ me - toQ mn ∧ toQ mx ≤ 5 / 4 * toQ mn := by
    rcases H with h | ⟨h, h'⟩
    · exact .inl (by linarith)
    · exact .inr ⟨by linarith, h'⟩
  have D2 : |toQ me - toQ mn| ≤ pow2 101 := by
    rw [abs_le]
    refine ⟨?_, D1⟩
    have : pow2 101 = 2 * pow2 100 := by decide +kernel
    rcases D0 with h | h
    · exact le_trans (by linarith [pow2_pos 101]) h
    · rw [this]; linarith
  obtain ⟨a1, a2⟩ := sub_fin' hme hmn (D2.trans (pow2_le (by norm_num)))
  have A0 : 0 ≤ toQ (F64.sub me mn) ∨ -(toQ mn / 7) ≤ toQ (F64.sub me mn) ∧ toQ mx ≤ 5 / 4 * toQ mn := by
    rcases D0 with h | ⟨h, h'⟩
    · refine .inl ?_
      have := rq_mono h
      rwa [r0, ← a2] at this
    · refine .inr ⟨?_, h'⟩
      rw [a2]
      have h1 : pow2 (-1022) ≤ toQ mn / 8 := by
        refine le_trans ?_ (div_le_div_of_nonneg_right n0 (by norm_num : (0 : ℚ) ≤ 8))
        decide +kernel
      have h2 := (rq_pos_bounds h1).2
      have h3 := rq_mono h
      rw [rq_neg] at h3
      clear h1 D1 D2 me1 n1' m1 n0
      linarith
  have A2 : |toQ (F64.sub me mn)| ≤ pow2 101 := by rw [a2]; exact rq_abs_le (by norm_num) D2
  -- twice the difference
  have B2 : |toQ (lit 2 : F64) * toQ (F64.sub me mn)| ≤ pow2 102 := by
    rw [two.2, abs_mul, abs_of_pos (by norm_num : (0 : ℚ) < 2), show pow2 102 = 2 * pow2 101 by decide +kernel]
    exact mul_le_mul_of_nonneg_left A2 (by norm_num)
  obtain ⟨b1, b2⟩ := mul_fin' two.1 a1 (B2.trans (pow2_le (by norm_num)))
  rw [two.2, rq_rep (rep_two a1)] at b2
  rw [two.2, ← b2] at B2
  have B0 : 0 ≤ toQ (F64.mul (lit 2) (F64.sub me mn)) ∨ -(2 / 7 * toQ mn) ≤ toQ (F64.mul (lit 2) (F64.sub me mn)) ∧ toQ mx ≤ 5 / 4 * toQ mn := by
    rw [b2]
    rcases A0 with h | ⟨h, h'⟩
    · exact .inl (by linarith)
    · exact .inr ⟨by linarith, h'⟩
  -- the square
  have C0 : pow2 (-800) ≤ toQ mn * toQ mn := by
    have := mul_le_mul n0 n0 (pow2_pos _).le np.le
    rwa [show pow2 (-400) * pow2 (-400) = pow2 (-800) by decide +kernel] at this
  have C1 : toQ mn * toQ mn ≤ pow2 200 := by
    have := mul_le_mul n1' n1' np.le (pow2_pos _).le
    rwa [show pow2 100 * pow2 100 = pow2 200 by decide +kernel] at this
  obtain ⟨c1, c2⟩ := mul_fin' hmn hmn (by rw [abs_of_nonneg (mul_pos np np).le]; exact C1.trans (pow2_le (by norm_num)))
  have c3 : pow2 (-800) ≤ toQ (F64.mul mn mn) := by
    rw [c2]; exact le_rq (by norm_num) C0
  have c4 : toQ mn * toQ mn * (1 - 1 / 9007199254740992) ≤ toQ (F64.mul mn mn) := by
    rw [c2]; exact (rq_pos_bounds ((pow2_le (by norm_num)).trans C0)).1
  have cp : 0 < toQ (F64.mul mn mn) := lt_of_lt_of_le (pow2_pos _) c3
  -- the quotient
  generalize hN : F64.mul (lit 2) (F64.sub me mn) = N at *
  generalize hDn : F64.mul mn mn = Dn at *
  have Q2 : |toQ N / toQ Dn| ≤ pow2 902 := by
    rw [abs_div, abs_of_pos cp, div_le_iff₀ cp]
    refine B2.trans (le_trans ?_ (mul_le_mul_of_nonneg_left c3 (pow2_pos _).le))
    decide +kernel
  obtain ⟨d1, d2⟩ := div_fin' b1 c1 cp.ne' (Q2.trans (pow2_le (by norm_num)))
  have d3 : |toQ (F64.div N Dn)| ≤ pow2 902 := by rw [d2]; exact rq_abs_le (by norm_num) Q2
  have d4 : -(1 / 2) ≤ toQ (F64.div N Dn) * toQ mx := by
    rw [d2]
    rcases B0 with h | ⟨h, h'⟩
    · have h1 := rq_mono (div_nonneg h cp.le)
      rw [r0] at h1
      have := mul_nonneg h1 mp.le
      linarith
    · have h1 := right_low np h c4
      have h2 : pow2 (-1022) ≤ 1 / 3 / toQ mn := by
        rw [le_div_iff₀ np]
        refine (mul_le_mul_of_nonneg_left n1' (pow2_pos _).le).trans ?_
        decide +kernel
      have h3 := (rq_pos_bounds h2).2
      have h4 := rq_mono h1
      rw [rq_neg] at h4
      have h5 : -(2 / 5 / toQ mn) ≤ rq (toQ N / toQ Dn) := by
        have h6 : 1 / 3 / toQ mn * (1 + 1 / 9007199254740992) ≤ 2 / 5 / toQ mn := by
          rw [div_mul_eq_mul_div]
          exact div_le_div_of_nonneg_right (by norm_num) np.le
        exact le_trans (neg_le_neg (h3.trans h6)) h4
      refine le_trans ?_ (mul_le_mul_of_nonneg_right h5 mp.le)
      have h7 : 2 / 5 / toQ mn * toQ mx ≤ 1 / 2 := by
        rw [div_mul_eq_mul_div, div_le_iff₀ np]
        clear h2 n1' m1 me1 D1 C1 C0 c3 Q2 d3 n0 m0
        linarith
      linarith
  have ep : 0 < toQ eps := lt_of_lt_of_le (pow2_pos _) e2
  obtain ⟨k1, k2, k3⟩ := eps_const
  have hxe : (lit 2 *. (me -. mn) /. (mn *. mn) : F64) = F64.div N Dn := by rw [← hN, ← hDn]; rfl
  rw [hxe]
  have hin := search_in f eps (F64.div N Dn) BRENT_DEFAULT_EPSILON e1 d1 (by rw [abs_of_pos ep]; exact e3.trans (by decide +kernel))
    (d3.trans (pow2_le (by norm_num))) k1 (le_trans (by decide +kernel) k2) (k3.trans (by decide +kernel))
  intro x hx
  obtain ⟨x1, x2⟩ := hin x hx
  have e3' : toQ eps ≤ pow2 905 := e3.trans (by decide +kernel)
  have d5 : toQ (F64.div N Dn) ≤ pow2 905 := ((le_abs_self _).trans d3).trans (pow2_le (by norm_num))
  have half : (-1 + 1 / 2 ^ 50 : ℚ) ≤ -(1 / 2) := by norm_num
  have ex : -(1 / 2) ≤ toQ eps * toQ mx := le_trans (by norm_num) (mul_pos ep mp).le
  rw [Set.mem_uIcc] at x2
  rcases x2 with ⟨l1, l2⟩ | ⟨l1, l2⟩
  · exact ⟨x1, half.trans (ex.trans (mul_le_mul_of_nonneg_right l1 mp.le)), l2.trans d5⟩
  · exact ⟨x1, half.trans (d4.trans (mul_le_mul_of_nonneg_right l1 mp.le)), l2.trans e3'⟩

/-- the sum of a list, from its least and greatest values -/
theorem sum_ge_max {l : List F64} {m : ℚ} (h : ∀ v ∈ l, m ≤ toQ v) {a : F64} (ha : a ∈ l) : (l.length - 1) * m + toQ a ≤ (l.map toQ).sum := by
  induction l with
  | nil => simp at ha
  | cons v l ih =>
    rw [List.map_cons, List.sum_cons, List.length_cons]
    push_cast
    rcases List.mem_cons.mp ha with rfl | ha
    · have : (l.length : ℚ) * m ≤ (l.map toQ).sum := by
        have h' : ∀ w ∈ l, m ≤ toQ w := fun w hw => h w (by simp [hw])
        clear ih h
        induction l with
        | nil => simp
        | cons w l ih =>
          rw [List.map_cons, List.sum_cons, List.length_cons]
          push_cast
          have h1 := h' w (by simp)
          have h2 := ih (by simp) (fun z hz => h' z (by simp [hz]))
          linarith
      linarith
    · have h1 := ih (fun w hw => h w (by simp [hw])) ha
      have h2 := h v (by simp)
      linarith

/-- the computed mean is not far below the minimum -/
theorem mean_low {e n S mn mx D : ℚ} (n1 : 1 ≤ n) (np : 0 < mn) (n0 : pow2 (-400) ≤ mn) (hmn : rq mn = mn) (hD : D ≤ 1 / 16) (le : mn ≤ mx)
    (hS : (n - 1) * mn + mx ≤ S) (hd : |e - S| ≤ D * mx) :
    mn ≤ rq (e / n) ∨ 7 / 8 * mn ≤ rq (e / n) ∧ mx ≤ 5 / 4 * mn := by
  have n0' : 0 < n := by linarith
  rcases le_or_gt mn (e / n) with h | h
  · left
    rw [← hmn]; exact rq_mono h
  · right
    rw [div_lt_iff₀ n0'] at h
    have h1 := (abs_le.mp hd).1
    have h2 : D * mx ≤ 1 / 16 * mx := mul_le_mul_of_nonneg_right hD (np.le.trans le)
    have h3 : mx ≤ 5 / 4 * mn := by linarith
    refine ⟨?_, h3⟩
    have h4 : 14 / 15 * mn ≤ e / n := by
      rw [le_div_iff₀ n0']
      have : 14 / 15 * mn * n ≤ n * mn - 1 / 15 * mn := by
        have := mul_le_mul_of_nonneg_right n1 np.le
        linarith
      linarith
    have h5 : pow2 (-1022) ≤ 14 / 15 * mn := by
      refine le_trans ?_ (mul_le_mul_of_nonneg_left n0 (by norm_num : (0 : ℚ) ≤ 14 / 15))
      decide +kernel
    have h6 := (rq_pos_bounds h5).1
    have h7 := rq_mono h4
    clear h5 n0
    linarith

end Verif

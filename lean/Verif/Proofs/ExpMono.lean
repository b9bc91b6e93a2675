/-
`xexp` is non-decreasing in binary64: the continued fraction on [0, 7/10].
-/
import Verif.Proofs.XexpF64

namespace Verif
open F64 ExpCF

/-! ### Spacing of the doubles -/

theorem mag_gap {k : ℕ} (hk : k ≠ 0) : mag k * pow2 (-53) ≤ mag k - mag (k - 1) := by
  have pp : ∀ e : ℤ, 0 < pow2 e := pow2_pos
  have key : ∀ (e : ℤ) (m : ℕ), -1022 ≤ e → m ≤ 2 ^ 53 → (e = -1022 ∨ 2 ^ 52 < m) → 1 ≤ m → k = ((e + 1022) * 2 ^ 52).toNat + m →
      mag k * pow2 (-53) ≤ mag k - mag (k - 1) := by
    intro e m he hm h h1 hk'
    have a : mag k = m * pow2 (e - 52) := by
      rw [hk']; exact mag_lin he hm (h.imp id fun h => h.le)
    have b : mag (k - 1) = ((m - 1 : ℕ) : ℚ) * pow2 (e - 52) := by
      have : k - 1 = ((e + 1022) * 2 ^ 52).toNat + (m - 1) := by omega
      rw [this]; exact mag_lin he (by omega) (h.imp id fun h => by omega)
    have c : ((m - 1 : ℕ) : ℚ) = m - 1 := by push_cast [h1]; ring
    have d : (m : ℚ) * pow2 (-53) ≤ 1 := by
      rw [pow2_m53]
      have : (m : ℚ) ≤ (2 ^ 53 : ℕ) := Nat.cast_le.mpr hm
      rw [show ((2 ^ 53 : ℕ) : ℚ) = 9007199254740992 by norm_num] at this
      linarith
    rw [a, b, c]
    have := pp (e - 52)
    nlinarith
  set n := k / 2 ^ 52 with hn
  set r := k % 2 ^ 52 with hr
  have hdm : 2 ^ 52 * n + r = k := Nat.div_add_mod k _
  have hr2 : r < 2 ^ 52 := Nat.mod_lt _ (by norm_num)
  rcases Nat.lt_or_ge n 2 with h | h
  · refine key (-1022) k (by norm_num) ?_ (.inl rfl) (by omega) (by norm_num)
    omega
  · rcases Nat.eq_zero_or_pos r with h0 | h0
    · refine key (n - 1024) (2 ^ 53) (by omega) (by norm_num) (.inr (by norm_num)) (by norm_num) ?_
      omega
    · refine key (n - 1023) (2 ^ 52 + r) (by omega) (by omega) (.inr (by omega)) (by omega) ?_
      omega

/-- two different positive doubles are at relative distance at least 2^-53 -/
theorem toQ_gap {x y : F64} (hx : isFin x) (hy : isFin y) (h0 : 0 ≤ toQ x) (h : toQ x < toQ y) : toQ y * pow2 (-53) ≤ toQ y - toQ x := by
  have code : ∀ x : F64, isFin x → 0 ≤ toQ x → ∃ k : ℕ, toQ x = mag k := by
    intro x hx h0
    rcases x with _ | _ | ⟨s, k⟩
    · exact absurd hx id
    · exact absurd hx id
    · exact ⟨k.val, by rw [← abs_toQ_fin s k, abs_of_nonneg h0]⟩
  obtain ⟨a, ha⟩ := code x hx h0
  obtain ⟨b, hb⟩ := code y hy (h0.trans h.le)
  rw [ha, hb] at h
  rw [ha, hb]
  have hab := mag_lt_iff.mp h
  have h1 := mag_gap (k := b) (by omega)
  have h2 : mag a ≤ mag (b - 1) := mag_le_iff.mpr (by omega)
  linarith

theorem toR_gap {x y : F64} (hx : isFin x) (hy : isFin y) (h0 : 0 ≤ toR x) (h : toR x < toR y) :
    1 / 9007199254740992 * toR y ≤ toR y - toR x := by
  unfold toR at h0 h ⊢
  have := toQ_gap hx hy (by exact_mod_cast h0) (by exact_mod_cast h)
  rw [pow2_m53] at this
  have h2 : ((toQ y * (1 / 9007199254740992) : ℚ) : ℝ) ≤ ((toQ y - toQ x : ℚ) : ℝ) := Rat.cast_le.mpr this
  push_cast at h2
  linarith

/-! ### The denominators are increasing -/

theorem cf_step {c d a b y y' : ℝ} (hc : 0 ≤ c) (hd : 0 ≤ d) (hy : 0 < y) (hy' : y ≤ y') (ha : 0 < a) (hab : a ≤ b) (hr : b * y ≤ a * y') :
    c * y / a + d ≤ c * y' / b + d ∧ (c * y' / b + d) * y ≤ (c * y / a + d) * y' := by
  have hb : 0 < b := by linarith
  constructor
  · have : c * y / a ≤ c * y' / b := by
      rw [div_le_div_iff₀ ha hb]; nlinarith
    linarith
  · have h1 : c * y' / b * y ≤ c * y / a * y' := by
      rw [div_mul_eq_mul_div, div_mul_eq_mul_div, div_le_div_iff₀ hb ha]
      have : 0 ≤ c * y * y' := by have : 0 ≤ y' := by linarith
                                  positivity
      nlinarith
    nlinarith

theorem w2_mono {z z' : ℝ} (h0 : 0 < z) (h : z ≤ z') : w2 z ≤ w2 z' := by
  have hy : 0 < z * z := by positivity
  have hy' : z * z ≤ z' * z' := by nlinarith
  have e5 : ∀ z, w5 z = 7 * (z * z) / 11 + 252 := fun _ => rfl
  have s5 : w5 z ≤ w5 z' ∧ w5 z' * (z * z) ≤ w5 z * (z' * z') := by
    rw [e5, e5]; constructor
    · linarith
    · nlinarith
  have s4 := cf_step (c := 140) (d := 140) (by norm_num) (by norm_num) hy hy' (w5_pos z) s5.1 s5.2
  have s3 := cf_step (c := 60) (d := 60) (by norm_num) (by norm_num) hy hy' (w4_pos z) s4.1 s4.2
  exact (cf_step (c := 12) (d := 12) (by norm_num) (by norm_num) hy hy' (w3_pos z) s3.1 s3.2).1

/-! ### The term `2 z^2 / w2(z)` -/

theorem rq_two_mul {x : F64} (hx : isFin x) : rq (2 * toQ x) = 2 * toQ x := by
  rcases x with _ | _ | ⟨s, k⟩
  · exact absurd hx id
  · exact absurd hx id
  apply rq_rep
  obtain ⟨n, i, h1, h2, h3⟩ := toQ_rep s k
  refine ⟨n, i + 1, h1, by omega, ?_⟩
  rw [abs_mul, h3, pow2_succ, abs_of_pos (by norm_num : (0 : ℚ) < 2)]; ring

/-- the computed `2 z^2 / w2(z)` -/
def expA (z : F64) : F64 := lit 2 *. (z *. z) /. expW z

theorem lit2 : isFin (lit 2 : F64) ∧ toQ (lit 2 : F64) = 2 := by
  have := F64.lit_int (i := 2) (by norm_num); simpa using this

theorem lit1 : isFin (lit 1 : F64) ∧ toQ (lit 1 : F64) = 1 := by
  have := F64.lit_int (i := 1) (by norm_num); simpa using this

theorem sq_fin {z : F64} (hz : isFin z) (h1 : |toR z| ≤ 7 / 10) : isFin (z *. z) ∧ toQ (z *. z) = rq (toQ z * toQ z) ∧
    isFin (lit 2 *. (z *. z)) ∧ toQ (lit 2 *. (z *. z)) = 2 * rq (toQ z * toQ z) := by
  have hq : |(((toQ z * toQ z : ℚ)) : ℝ)| ≤ 1 := by
    push_cast; rw [abs_mul]
    have : |((toQ z : ℚ) : ℝ)| ≤ 7 / 10 := h1
    nlinarith [abs_nonneg ((toQ z : ℚ) : ℝ)]
  have a := mul_fin' hz hz (no_overflow hq (by norm_num))
  change isFin (z *. z) ∧ toQ (z *. z) = _ at a
  have b : |((rq (toQ z * toQ z) : ℚ) : ℝ)| ≤ 2 := by
    have := rq_err_le (B := 1) hq (by norm_num)
    have h3 := abs_add_le (((rq (toQ z * toQ z) : ℚ) : ℝ) - ((toQ z * toQ z : ℚ) : ℝ)) ((toQ z * toQ z : ℚ) : ℝ)
    rw [sub_add_cancel] at h3
    unfold ru at this
    have : (1 : ℝ) / 9000000000000000 * 1 ≤ 1 := by norm_num
    linarith
  have c := mul_fin' lit2.1 a.1 (no_overflow (B := 4) (by
    rw [lit2.2, a.2]; push_cast; rw [abs_mul]; norm_num; linarith) (by norm_num))
  rw [lit2.2, rq_two_mul a.1] at c
  refine ⟨a.1, a.2, c.1, ?_⟩
  rw [← a.2]; exact c.2

theorem expW_bounds {z : F64} (hz : isFin z) (h1 : |toR z| ≤ 7 / 10) : isFin (expW z) ∧ 11 ≤ toR (expW z) ∧
    |toR (expW z) - w2 (toR z)| ≤ 149509 / 10 ^ 20 := by
  obtain ⟨a, b⟩ := abs_le.mp h1
  obtain ⟨-, w, e⟩ := expW_app hz (by linarith) b
  have := w2_lo (toR z)
  have e' := (abs_le.mp e).1
  refine ⟨w, ?_, by refine e.trans (by norm_num)⟩
  have : (149509 : ℝ) / 100000000000000000000 ≤ 1 := by norm_num
  linarith

theorem expA_fin {z : F64} (hz : isFin z) (h1 : |toR z| ≤ 7 / 10) : isFin (expA z) ∧
    toQ (expA z) = rq (2 * rq (toQ z * toQ z) / toQ (expW z)) := by
  obtain ⟨a1, a2, a3, a4⟩ := sq_fin hz h1
  obtain ⟨b1, b2, b3⟩ := expW_bounds hz h1
  have hw : (11 : ℚ) ≤ toQ (expW z) := by unfold toR at b2; exact_mod_cast b2
  have b : |((rq (toQ z * toQ z) : ℚ) : ℝ)| ≤ 2 := by
    have hq : |(((toQ z * toQ z : ℚ)) : ℝ)| ≤ 1 := by
      push_cast; rw [abs_mul]
      have : |((toQ z : ℚ) : ℝ)| ≤ 7 / 10 := h1
      nlinarith [abs_nonneg ((toQ z : ℚ) : ℝ)]
    have := rq_err_le (B := 1) hq (by norm_num)
    have h3 := abs_add_le (((rq (toQ z * toQ z) : ℚ) : ℝ) - ((toQ z * toQ z : ℚ) : ℝ)) ((toQ z * toQ z : ℚ) : ℝ)
    rw [sub_add_cancel] at h3
    unfold ru at this
    have : (1 : ℝ) / 9000000000000000 * 1 ≤ 1 := by norm_num
    linarith
  have := div_fin' a3 b1 (by linarith) (no_overflow (B := 4) (by
    rw [a4]; push_cast; rw [abs_div, abs_mul]
    have : (11 : ℝ) ≤ |((toQ (expW z) : ℚ) : ℝ)| := b2.trans (le_abs_self _)
    rw [div_le_iff₀ (by linarith)]
    norm_num; linarith) (by norm_num))
  rw [a4] at this
  exact this

/-- relative error of the computed term -/
theorem expA_rel {z : F64} (hz : isFin z) (h0 : 1 / 10 ^ 20 ≤ toR z) (h1 : toR z ≤ 7 / 10) :
    |toR (expA z) - 2 * (toR z * toR z) / w2 (toR z)| ≤ 348 / 10 ^ 18 * (2 * (toR z * toR z) / w2 (toR z)) := by
  have hz1 : |toR z| ≤ 7 / 10 := abs_le.mpr ⟨by have : (0 : ℝ) < 1 / 10 ^ 20 := by norm_num
                                                linarith, h1⟩
  obtain ⟨f, e⟩ := expA_fin hz hz1
  obtain ⟨b1, b2, b3⟩ := expW_bounds hz hz1
  set Z := toR z with hZ
  set W := toR (expW z) with hW
  have hZ0 : 0 < Z := lt_of_lt_of_le (by norm_num) h0
  have hs : (1 : ℝ) / 10 ^ 40 ≤ Z * Z := by
    have := mul_le_mul h0 h0 (by norm_num) hZ0.le
    refine le_trans (by norm_num) this
  have hsq : ((toQ z * toQ z : ℚ) : ℝ) = Z * Z := by push_cast; rfl
  have lowq : ∀ q : ℚ, (1 : ℝ) / 10 ^ 60 ≤ |(q : ℝ)| → pow2 (-1022) ≤ |q| := by
    intro q hq
    refine tiny_le.trans ?_
    have : ((1 / 10 ^ 60 : ℚ) : ℝ) ≤ ((|q| : ℚ) : ℝ) := by push_cast; exact hq
    exact_mod_cast this
  have hZZ : 0 < Z * Z := by positivity
  have e1 := rq_rel_real (lowq (toQ z * toQ z) (by
    rw [hsq, abs_of_pos hZZ]; exact le_trans (by norm_num) hs))
  rw [hsq, abs_of_pos hZZ] at e1
  set S := ((rq (toQ z * toQ z) : ℚ) : ℝ) with hS
  obtain ⟨e1a, e1b⟩ := abs_le.mp e1
  have hq2 : ((2 * rq (toQ z * toQ z) / toQ (expW z) : ℚ) : ℝ) = 2 * S / W := by push_cast; rfl
  have hSpos : (1 : ℝ) / 10 ^ 41 ≤ S := by
    have : (1 : ℝ) / 10 ^ 41 ≤ 1 / 10 ^ 40 * (1 - 1 / 9007199254740992) := by norm_num
    nlinarith
  have hS0 : 0 < S := lt_of_lt_of_le (by norm_num) hSpos
  have w2h : w2 Z ≤ 13 := w2_hi (by nlinarith)
  have w2l := w2_lo Z
  obtain ⟨b3a, b3b⟩ := abs_le.mp b3
  have hWh : W ≤ 14 := by
    have : (149509 : ℝ) / 10 ^ 20 ≤ 1 := by norm_num
    linarith
  have hW0 : 0 < W := by linarith
  have hqpos : 0 < 2 * S / W := by positivity
  have e2 := rq_rel_real (lowq (2 * rq (toQ z * toQ z) / toQ (expW z)) (by
    rw [hq2, abs_of_pos hqpos, le_div_iff₀ hW0]
    have : (1 : ℝ) / 10 ^ 60 * 14 ≤ 2 * (1 / 10 ^ 41) := by norm_num
    nlinarith))
  rw [hq2, abs_of_pos hqpos, ← e] at e2
  change |toR (expA z) - 2 * S / W| ≤ _ at e2
  -- 2 S / W against A
  set A := 2 * (Z * Z) / w2 Z with hA
  have hA0 : 0 < A := by positivity
  have hAw : A * w2 Z = 2 * (Z * Z) := by rw [hA]; field_simp
  have e3 : |2 * S / W - A| ≤ 2357 / 10 ^ 19 * A := by
    have : 2 * S / W - A = (2 * (S - Z * Z) + A * (w2 Z - W)) / W := by
      rw [eq_div_iff hW0.ne', sub_mul, div_mul_cancel₀ _ hW0.ne', mul_sub A, hAw]; ring
    rw [this, abs_div, abs_of_pos hW0, div_le_iff₀ hW0]
    have t1 : |2 * (S - Z * Z) + A * (w2 Z - W)| ≤ 1 / 9007199254740992 * (A * w2 Z) + A * (149509 / 10 ^ 20) := by
      refine (abs_add_le _ _).trans (add_le_add ?_ ?_)
      · rw [abs_mul, abs_of_pos (by norm_num : (0 : ℝ) < 2), hAw]; linarith
      · rw [abs_mul, abs_of_pos hA0, abs_sub_comm]
        exact mul_le_mul_of_nonneg_left b3 hA0.le
    refine t1.trans ?_
    have : 1 / 9007199254740992 * w2 Z + 149509 / 10 ^ 20 ≤ 2357 / 10 ^ 19 * W := by
      norm_num at b3a ⊢
      linarith
    nlinarith
  have := abs_sub_le (toR (expA z)) (2 * S / W) A
  have h4 : 2 * S / W ≤ (1 + 2357 / 10 ^ 19) * A := by have := (abs_le.mp e3).2; linarith
  have h5 : 1 / 9007199254740992 * (2 * S / W) ≤ 1 / 9007199254740992 * ((1 + 2357 / 10 ^ 19) * A) := by
    apply mul_le_mul_of_nonneg_left h4 (by norm_num)
  have h6 : 1 / 9007199254740992 * ((1 + 2357 / 10 ^ 19) * A) + 2357 / 10 ^ 19 * A ≤ 348 / 10 ^ 18 * A := by
    rw [← mul_assoc, ← add_mul]; exact mul_le_mul_of_nonneg_right (by norm_num) hA0.le
  linarith

/-- crude bound of the computed term -/
theorem expA_le {z : F64} (hz : isFin z) (h1 : |toR z| ≤ 7 / 10) :
    0 ≤ toR (expA z) ∧ toR (expA z) ≤ toR z * toR z / 5 + 10 * ((pow2 (-1075) : ℚ) : ℝ) := by
  obtain ⟨f, e⟩ := expA_fin hz h1
  obtain ⟨b1, b2, b3⟩ := expW_bounds hz h1
  obtain ⟨τ, hτ⟩ : ∃ τ : ℝ, ((pow2 (-1075) : ℚ) : ℝ) = τ := ⟨_, rfl⟩
  have hτ0 : 0 < τ := by rw [← hτ]; exact_mod_cast pow2_pos _
  have herr : ∀ q : ℚ, |((rq q : ℚ) : ℝ) - q| ≤ 1 / 9007199254740992 * |(q : ℝ)| + τ := by
    intro q
    have h1 := rq_err q
    rw [pow2_m53] at h1
    have h2 : ((|rq q - q| : ℚ) : ℝ) ≤ ((1 / 9007199254740992 * |q| + pow2 (-1075) : ℚ) : ℝ) := Rat.cast_le.mpr h1
    push_cast at h2
    rw [hτ] at h2
    exact h2
  rw [hτ]
  clear hτ
  set Z := toR z with hZ
  set W := toR (expW z) with hW
  have hsq : ((toQ z * toQ z : ℚ) : ℝ) = Z * Z := by push_cast; rfl
  have hZZ : 0 ≤ Z * Z := mul_self_nonneg _
  have e1 := herr (toQ z * toQ z)
  rw [hsq, abs_of_nonneg hZZ] at e1
  have s0 : 0 ≤ rq (toQ z * toQ z) := rq_nonneg (mul_self_nonneg _)
  set S := ((rq (toQ z * toQ z) : ℚ) : ℝ) with hS
  have hS0 : 0 ≤ S := by rw [hS]; exact_mod_cast s0
  have hq2 : ((2 * rq (toQ z * toQ z) / toQ (expW z) : ℚ) : ℝ) = 2 * S / W := by push_cast; rfl
  have hW0 : 0 < W := by linarith
  have hqn : 0 ≤ 2 * S / W := by positivity
  have e2 := herr (2 * rq (toQ z * toQ z) / toQ (expW z))
  rw [hq2, abs_of_nonneg hqn, ← e] at e2
  change |toR (expA z) - 2 * S / W| ≤ _ at e2
  constructor
  · unfold toR; rw [e]
    have : 0 ≤ rq (2 * rq (toQ z * toQ z) / toQ (expW z)) := by
      apply rq_nonneg
      have : ((0 : ℚ) : ℝ) ≤ ((2 * rq (toQ z * toQ z) / toQ (expW z) : ℚ) : ℝ) := by rw [hq2]; simpa using hqn
      exact_mod_cast this
    exact_mod_cast this
  · have h3 : 2 * S / W ≤ 2 * S / 11 := by gcongr
    have := (abs_le.mp e2).2
    have := (abs_le.mp e1).2
    linarith

theorem rq_tiny {q : ℚ} (h0 : 0 ≤ q) (h : q < pow2 (-1075)) : rq q = 0 := by
  have h1 := rnd_abs_sub h0 (h.le.trans (pow2_le (by norm_num)))
  rw [rq_of_nonneg h0]
  obtain ⟨a, ha⟩ := mag_multiple (rnd q)
  rw [ha] at h1 ⊢
  have h2 := (abs_le.mp h1).2
  have h3 : pow2 (-1074) = 2 * pow2 (-1075) := by
    rw [← pow2_succ]; exact congrArg pow2 (by norm_num)
  have hp := pow2_pos (-1075)
  rcases Nat.eq_zero_or_pos a with h | h
  · rw [h]; simp
  · have : (1 : ℚ) ≤ a := by exact_mod_cast h
    nlinarith

theorem expA_zero {z : F64} (hz : isFin z) (h1 : |toR z| ≤ 7 / 10) (h : |toQ z| < pow2 (-1000)) : toQ (expA z) = 0 := by
  rw [(expA_fin hz h1).2, rq_tiny (mul_self_nonneg _)]
  · simp [rq_zero]
  · rw [← abs_mul_abs_self]
    have : pow2 (-1075) = pow2 (-1000) * pow2 (-75) := by rw [← pow2_add]; rfl
    rw [this]
    have h2 : pow2 (-1000) ≤ pow2 (-75) := pow2_le (by norm_num)
    have := abs_nonneg (toQ z)
    have := pow2_pos (-1000)
    nlinarith

/-- the computed `2 z^2 / w2(z)` grows slower than `z` -/
theorem expA_slow {z z' : F64} (hz : isFin z) (hz' : isFin z') (h0 : 0 ≤ toR z) (h : toR z ≤ toR z') (h1 : toR z' ≤ 7 / 10) :
    toR (expA z') - toR z' ≤ toR (expA z) - toR z := by
  have ha : |toR z| ≤ 7 / 10 := abs_le.mpr ⟨by linarith, by linarith⟩
  have ha' : |toR z'| ≤ 7 / 10 := abs_le.mpr ⟨by linarith, by linarith⟩
  obtain ⟨c1, -⟩ := expA_le hz ha
  obtain ⟨-, c2'⟩ := expA_le hz' ha'
  have h0q : 0 ≤ toQ z := by unfold toR at h0; exact_mod_cast h0
  have hq : toQ z ≤ toQ z' := by unfold toR at h; exact_mod_cast h
  rcases lt_or_ge (toQ z') (pow2 (-1000)) with hs | hs
  · have e1 := expA_zero hz ha (by rw [abs_of_nonneg h0q]; linarith)
    have e2 := expA_zero hz' ha' (by rw [abs_of_nonneg (h0q.trans hq)]; linarith)
    have e1' : toR (expA z) = 0 := by unfold toR; rw [e1]; simp
    have e2' : toR (expA z') = 0 := by unfold toR; rw [e2]; simp
    rw [e1', e2']; linarith
  have hz0 : 0 < toQ z' := lt_of_lt_of_le (pow2_pos _) hs
  rcases h.eq_or_lt with heq | hlt
  · have he : toQ z = toQ z' := by unfold toR at heq; exact_mod_cast heq
    have : z = z' := by
      rw [← ofRat_toQ false hz (by linarith), ← ofRat_toQ false hz' (by linarith), he]
    rw [this]
  have gap := toR_gap hz hz' h0 hlt
  have tiny : 10 * ((pow2 (-1075) : ℚ) : ℝ) ≤ 1 / 10 ^ 20 * toR z' := by
    have e : pow2 (-1075) = pow2 (-1000) * pow2 (-75) := by rw [← pow2_add]; rfl
    have e2 : pow2 (-75) * 10 ≤ 1 / 10 ^ 20 := by rw [pow2_eq]; norm_num
    have : 10 * pow2 (-1075) ≤ 1 / 10 ^ 20 * toQ z' := by
      rw [e]
      have := pow2_pos (-1000)
      calc 10 * (pow2 (-1000) * pow2 (-75)) = (pow2 (-75) * 10) * pow2 (-1000) := by ring
        _ ≤ 1 / 10 ^ 20 * pow2 (-1000) := mul_le_mul_of_nonneg_right e2 this.le
        _ ≤ _ := mul_le_mul_of_nonneg_left hs (by norm_num)
    have h2 : ((10 * pow2 (-1075) : ℚ) : ℝ) ≤ ((1 / 10 ^ 20 * toQ z' : ℚ) : ℝ) := Rat.cast_le.mpr this
    push_cast at h2
    exact h2
  set Z := toR z with hZ
  set Z' := toR z' with hZ'
  have hZ0 : 0 < Z' := by linarith
  rcases le_or_gt Z' (1 / 4503599627370496) with hs2 | hs2
  · have : Z' * Z' ≤ 1 / 4503599627370496 * Z' := mul_le_mul_of_nonneg_right hs2 hZ0.le
    norm_num at tiny
    linarith
  rcases le_or_gt Z (Z' / 2) with hs3 | hs3
  · have : Z' * Z' ≤ 7 / 10 * Z' := mul_le_mul_of_nonneg_right h1 hZ0.le
    norm_num at tiny
    linarith
  have r := (abs_le.mp (expA_rel hz (by rw [← hZ]; norm_num; linarith) (by linarith))).1
  have r' := (abs_le.mp (expA_rel hz' (by rw [← hZ']; norm_num; linarith) h1)).2
  rw [← hZ] at r
  rw [← hZ'] at r'
  have hw := w2_mono (z := Z) (z' := Z') (by linarith) h
  have wl := w2_lo Z
  have wl' := w2_lo Z'
  have d1 : 2 * (Z' * Z') / w2 Z' - 2 * (Z * Z) / w2 Z ≤ (Z' - Z) * (Z' + Z) / 6 := by
    have a : 2 * (Z * Z) / w2 Z' ≤ 2 * (Z * Z) / w2 Z := by gcongr
    have b : 2 * (Z' * Z') / w2 Z' - 2 * (Z * Z) / w2 Z' = 2 * ((Z' - Z) * (Z' + Z)) / w2 Z' := by ring
    have c : 2 * ((Z' - Z) * (Z' + Z)) / w2 Z' ≤ 2 * ((Z' - Z) * (Z' + Z)) / 12 := by
      have : 0 ≤ (Z' - Z) * (Z' + Z) := mul_nonneg (by linarith) (by linarith)
      gcongr
    linarith
  have d2 : 2 * (Z' * Z') / w2 Z' ≤ Z' * Z' / 6 := by
    rw [div_le_iff₀ (by linarith)]; nlinarith
  have d3 : 2 * (Z * Z) / w2 Z ≤ Z' * Z' / 6 := by
    rw [div_le_iff₀ (by linarith)]
    have : Z * Z ≤ Z' * Z' := by nlinarith
    nlinarith
  -- total
  have t1 : toR (expA z') - toR (expA z) ≤ (Z' - Z) * (Z' + Z) / 6 + 348 / 10 ^ 18 * (Z' * Z' / 3) := by
    have m1 := mul_le_mul_of_nonneg_left d2 (by norm_num : (0 : ℝ) ≤ 348 / 10 ^ 18)
    have m2 := mul_le_mul_of_nonneg_left d3 (by norm_num : (0 : ℝ) ≤ 348 / 10 ^ 18)
    linarith
  have t2 : (Z' - Z) * (Z' + Z) / 6 ≤ (Z' - Z) * (7 / 30) := by
    have : 0 < Z' - Z := by linarith
    nlinarith
  have t3 : 348 / 10 ^ 18 * (Z' * Z' / 3) ≤ 348 / 10 ^ 18 * (7 / 30 * Z') := by
    have : Z' * Z' ≤ 7 / 10 * Z' := mul_le_mul_of_nonneg_right h1 hZ0.le
    linarith
  norm_num at t3 t1
  linarith

/-! ### The whole fraction -/

/-- the fraction without the final `+ 1` -/
def expQ (z : F64) : F64 := lit 2 *. z /. expD z

theorem expD_fin {z : F64} (hz : isFin z) (h0 : -1 / 100 ≤ toR z) (h1 : toR z ≤ 7 / 10) : isFin (expD z) ∧
    toQ (expD z) = rq (rq (toQ (expA z) - toQ z) + 2) ∧ 6 / 5 ≤ toR (expD z) := by
  have ha : |toR z| ≤ 7 / 10 := abs_le.mpr ⟨by linarith, by linarith⟩
  obtain ⟨f, -⟩ := expA_fin hz ha
  obtain ⟨c1, c2⟩ := expA_le hz ha
  have tiny : 10 * ((pow2 (-1075) : ℚ) : ℝ) ≤ 1 := by
    have h1 : 10 * pow2 (-1075) ≤ 10 * (1 / 10 ^ 70) := mul_le_mul_of_nonneg_left pow2_small (by norm_num)
    have h2 : ((10 * pow2 (-1075) : ℚ) : ℝ) ≤ ((1 : ℚ) : ℝ) := Rat.cast_le.mpr (h1.trans (by norm_num))
    push_cast at h2
    exact h2
  have hA : |toR (expA z)| ≤ 2 := by
    rw [abs_of_nonneg c1]
    have : toR z * toR z ≤ 1 := by nlinarith
    linarith
  have hq : |((toQ (expA z) - toQ z : ℚ) : ℝ)| ≤ 3 := by
    push_cast
    have := abs_sub (toR (expA z)) (toR z)
    unfold toR at this hA ha
    linarith
  have s1 := sub_fin' f hz (no_overflow hq (by norm_num))
  change isFin (expA z -. z) ∧ toQ (expA z -. z) = _ at s1
  have hr : |((rq (toQ (expA z) - toQ z) : ℚ) : ℝ)| ≤ 4 := by
    have := rq_err_le (B := 3) hq (by norm_num)
    have h3 := abs_add_le (((rq (toQ (expA z) - toQ z) : ℚ) : ℝ) - ((toQ (expA z) - toQ z : ℚ) : ℝ)) ((toQ (expA z) - toQ z : ℚ) : ℝ)
    rw [sub_add_cancel] at h3
    unfold ru at this
    have : (1 : ℝ) / 9000000000000000 * 3 ≤ 1 := by norm_num
    linarith
  have s2 := add_fin' s1.1 lit2.1 (no_overflow (B := 6) (by
    rw [s1.2, lit2.2]; push_cast
    have := abs_add_le ((rq (toQ (expA z) - toQ z) : ℚ) : ℝ) 2
    rw [abs_of_pos (by norm_num : (0 : ℝ) < 2)] at this
    linarith) (by norm_num))
  rw [s1.2, lit2.2] at s2
  obtain ⟨-, d⟩ := (exp_cf_app hz h0 h1).1
  refine ⟨s2.1, s2.2, ?_⟩
  have w1lo : 13 / 10 ≤ w1 (toR z) := by
    unfold w1
    have : 0 ≤ 2 * (toR z * toR z) / w2 (toR z) := by
      have := w2_pos (toR z); have := mul_self_nonneg (toR z); positivity
    linarith
  have := (abs_le.mp d).1
  have h5 : (38887 : ℝ) / 100000000000000000000 ≤ 1 / 10 := by norm_num
  linarith

theorem expQ_fin {z : F64} (hz : isFin z) (h0 : -1 / 100 ≤ toR z) (h1 : toR z ≤ 7 / 10) :
    (isFin (expQ z) ∧ toQ (expQ z) = rq (2 * toQ z / toQ (expD z))) ∧
    isFin (exp_cf_6 z) ∧ toQ (exp_cf_6 z) = rq (toQ (expQ z) + 1) := by
  have ha : |toR z| ≤ 7 / 10 := abs_le.mpr ⟨by linarith, by linarith⟩
  obtain ⟨d1, d2, d3⟩ := expD_fin hz h0 h1
  have d3q : (6 / 5 : ℚ) ≤ toQ (expD z) := by
    have : ((6 / 5 : ℚ) : ℝ) ≤ ((toQ (expD z) : ℚ) : ℝ) := by push_cast; exact d3
    exact_mod_cast this
  have m := mul_fin' lit2.1 hz (no_overflow (B := 2) (by
    rw [lit2.2]; push_cast; rw [abs_mul, abs_of_pos (by norm_num : (0 : ℝ) < 2)]
    unfold toR at ha; linarith) (by norm_num))
  rw [lit2.2, rq_two_mul hz] at m
  change isFin (lit 2 *. z) ∧ toQ (lit 2 *. z) = _ at m
  have hq : |((2 * toQ z / toQ (expD z) : ℚ) : ℝ)| ≤ 2 := by
    push_cast
    have d3' : 6 / 5 ≤ ((toQ (expD z) : ℚ) : ℝ) := d3
    rw [abs_div, abs_mul, abs_of_pos (by norm_num : (0 : ℝ) < 2), abs_of_pos (by linarith : 0 < ((toQ (expD z) : ℚ) : ℝ)), div_le_iff₀ (by linarith)]
    unfold toR at ha; linarith
  have q := div_fin' m.1 d1 (by linarith) (by rw [m.2]; exact no_overflow hq (by norm_num))
  rw [m.2] at q
  change isFin (expQ z) ∧ toQ (expQ z) = _ at q
  refine ⟨q, ?_⟩
  have hr : |((rq (2 * toQ z / toQ (expD z)) : ℚ) : ℝ)| ≤ 3 := by
    have := rq_err_le (B := 2) hq (by norm_num)
    have h3 := abs_add_le (((rq (2 * toQ z / toQ (expD z)) : ℚ) : ℝ) - ((2 * toQ z / toQ (expD z) : ℚ) : ℝ)) ((2 * toQ z / toQ (expD z) : ℚ) : ℝ)
    rw [sub_add_cancel] at h3
    unfold ru at this
    have : (1 : ℝ) / 9000000000000000 * 2 ≤ 1 := by norm_num
    linarith
  have s := add_fin' q.1 lit1.1 (no_overflow (B := 4) (by
    rw [q.2, lit1.2]; push_cast
    have := abs_add_le ((rq (2 * toQ z / toQ (expD z)) : ℚ) : ℝ) 1
    rw [abs_of_pos (by norm_num : (0 : ℝ) < 1)] at this
    linarith) (by norm_num))
  rw [lit1.2] at s
  exact s

theorem rq_one' : rq 1 = 1 := by
  have := rq_rep (rep_int (i := 1) (by norm_num)); simpa using this

/-- sign of the fraction -/
theorem exp_cf_sign {z : F64} (hz : isFin z) (h0 : -1 / 100 ≤ toR z) (h1 : toR z ≤ 7 / 10) :
    (0 ≤ toR z → 1 ≤ toQ (exp_cf_6 z)) ∧ (toR z ≤ 0 → toQ (exp_cf_6 z) ≤ 1) := by
  obtain ⟨⟨q1, q2⟩, e1, e2⟩ := expQ_fin hz h0 h1
  obtain ⟨d1, d2, d3⟩ := expD_fin hz h0 h1
  have d3q : (0 : ℚ) < toQ (expD z) := by
    have : ((0 : ℚ) : ℝ) < ((toQ (expD z) : ℚ) : ℝ) := by
      rw [Rat.cast_zero]; exact lt_of_lt_of_le (by norm_num) d3
    exact_mod_cast this
  constructor
  · intro h
    have h' : 0 ≤ toQ z := by unfold toR at h; exact_mod_cast h
    have : 0 ≤ toQ (expQ z) := by rw [q2]; apply rq_nonneg; positivity
    rw [e2, ← rq_one']; apply rq_mono; rw [rq_one']; linarith
  · intro h
    have h' : toQ z ≤ 0 := by unfold toR at h; exact_mod_cast h
    have : toQ (expQ z) ≤ 0 := by
      rw [q2, ← rq_zero]; apply rq_mono
      exact div_nonpos_of_nonpos_of_nonneg (by linarith) d3q.le
    rw [e2, ← rq_one']; apply rq_mono; rw [rq_one']; linarith

/-- `exp_cf_6` is non-decreasing on [0, 7/10] -/
theorem exp_cf_mono_pos {z z' : F64} (hz : isFin z) (hz' : isFin z') (h0 : 0 ≤ toR z) (h : toR z ≤ toR z') (h1 : toR z' ≤ 7 / 10) :
    toQ (exp_cf_6 z) ≤ toQ (exp_cf_6 z') := by
  obtain ⟨⟨-, q2⟩, -, e2⟩ := expQ_fin hz (by linarith) (by linarith)
  obtain ⟨⟨-, q2'⟩, -, e2'⟩ := expQ_fin hz' (by linarith) (by linarith)
  obtain ⟨-, d2, -⟩ := expD_fin hz (by linarith) (by linarith)
  obtain ⟨-, d2', d3'⟩ := expD_fin hz' (by linarith) (by linarith)
  have hs := expA_slow hz hz' h0 h h1
  have hs' : toQ (expA z') - toQ z' ≤ toQ (expA z) - toQ z := by
    have : ((toQ (expA z') - toQ z' : ℚ) : ℝ) ≤ ((toQ (expA z) - toQ z : ℚ) : ℝ) := by push_cast; exact hs
    exact_mod_cast this
  have hD : toQ (expD z') ≤ toQ (expD z) := by
    rw [d2, d2']; apply rq_mono
    have := rq_mono hs'
    linarith
  have d3q : (0 : ℚ) < toQ (expD z') := by
    have : ((0 : ℚ) : ℝ) < ((toQ (expD z') : ℚ) : ℝ) := by
      rw [Rat.cast_zero]; exact lt_of_lt_of_le (by norm_num) d3'
    exact_mod_cast this
  have h0q : 0 ≤ toQ z := by unfold toR at h0; exact_mod_cast h0
  have hq : toQ z ≤ toQ z' := by unfold toR at h; exact_mod_cast h
  rw [e2, e2']
  apply rq_mono
  have : toQ (expQ z) ≤ toQ (expQ z') := by
    rw [q2, q2']; apply rq_mono
    gcongr
    linarith
  linarith

theorem w2_neg (z : ℝ) : w2 (-z) = w2 z := by
  unfold w2 w3 w4 w5; simp only [neg_mul_neg]

/-- small negative arguments at distance at least 2^-53 -/
theorem exp_cf_mono_neg {z z' : F64} (hz : isFin z) (hz' : isFin z') (h0 : -1 / 100 ≤ toR z) (h : 1 / 9007199254740992 ≤ toR z' - toR z)
    (h1 : toR z' ≤ -1 / 9007199254740992) : toQ (exp_cf_6 z) ≤ toQ (exp_cf_6 z') := by
  -- relative error of the fraction
  have key : ∀ z : F64, isFin z → -1 / 100 ≤ toR z → toR z ≤ -1 / 9007199254740992 →
      |toR (expQ z) - 2 * toR z / w1 (toR z)| ≤ 1 / 10 ^ 17 ∧ 2 ≤ w1 (toR z) ∧ w1 (toR z) ≤ 2011 / 1000 := by
    intro z hz h0 h1
    have h1' : toR z < 0 := lt_of_le_of_lt h1 (by norm_num)
    obtain ⟨⟨-, q2⟩, -, -⟩ := expQ_fin hz h0 (by linarith)
    obtain ⟨d1, -, d3⟩ := expD_fin hz h0 (by linarith)
    obtain ⟨-, d⟩ := (exp_cf_app hz h0 (by linarith)).1
    set Z := toR z with hZ
    set D := toR (expD z) with hD
    have wl := w2_lo Z
    have hp : 0 ≤ 2 * (Z * Z) / w2 Z := by
      have := w2_pos Z; have := mul_self_nonneg Z; positivity
    have hp2 : 2 * (Z * Z) / w2 Z ≤ 1 / 1000 := by
      rw [div_le_iff₀ (w2_pos Z)]; nlinarith
    have wa : 2 ≤ w1 Z := by unfold w1; linarith
    have wb : w1 Z ≤ 2011 / 1000 := by unfold w1; linarith
    refine ⟨?_, wa, wb⟩
    have hD0 : 0 < D := by linarith
    have hw0 : 0 < w1 Z := by linarith
    have hcast : ((2 * toQ z / toQ (expD z) : ℚ) : ℝ) = 2 * Z / D := by push_cast; rfl
    have hDh : D ≤ 3 := by
      have := (abs_le.mp d).2
      have h5 : (38887 : ℝ) / 100000000000000000000 ≤ 1 / 10 := by norm_num
      linarith
    have hneg : 2 * Z / D < 0 := div_neg_of_neg_of_pos (by linarith) hD0
    have r1 := rq_err_le (q := 2 * toQ z / toQ (expD z)) (B := 1 / 50) (by
      rw [hcast, abs_of_neg hneg, ← neg_div, div_le_iff₀ hD0]; linarith) (by norm_num)
    rw [hcast, ← q2] at r1
    change |toR (expQ z) - 2 * Z / D| ≤ _ at r1
    have r2 : |2 * Z / D - 2 * Z / w1 Z| ≤ 5 / 10 ^ 18 := by
      have : 2 * Z / D - 2 * Z / w1 Z = 2 * Z * (w1 Z - D) / (D * w1 Z) := by field_simp
      rw [this, abs_div, abs_mul, abs_mul, abs_of_pos (by positivity : 0 < D * w1 Z), div_le_iff₀ (by positivity), abs_of_neg h1',
        abs_of_pos (by norm_num : (0 : ℝ) < 2), abs_sub_comm]
      have a1 : 2 * -Z * |D - w1 Z| ≤ 2 * (1 / 100) * (38887 / 100000000000000000000) := by
        apply mul_le_mul _ d (abs_nonneg _) (by norm_num)
        linarith
      have a2 : 12 / 5 ≤ D * w1 Z := by nlinarith
      have a3 : (2 * (1 / 100) * (38887 / 100000000000000000000) : ℝ) ≤ 5 / 10 ^ 18 * (12 / 5) := by norm_num
      have a4 := mul_le_mul_of_nonneg_left a2 (by norm_num : (0 : ℝ) ≤ 5 / 10 ^ 18)
      linarith
    have := abs_sub_le (toR (expQ z)) (2 * Z / D) (2 * Z / w1 Z)
    unfold ru at r1
    norm_num at r1 r2 ⊢
    linarith
  have hlt : toR z < toR z' := by
    have : (0 : ℝ) < 1 / 9007199254740992 := by norm_num
    linarith
  have hn' : toR z' < 0 := lt_of_le_of_lt h1 (by norm_num)
  obtain ⟨k1, k2, k3⟩ := key z hz h0 (by linarith)
  obtain ⟨k1', k2', k3'⟩ := key z' hz' (by linarith) h1
  obtain ⟨-, -, e2⟩ := expQ_fin hz (by linarith) (by linarith)
  obtain ⟨-, -, e2'⟩ := expQ_fin hz' (by linarith) (by linarith)
  set Z := toR z with hZ
  set Z' := toR z' with hZ'
  have main : 9 / 10 * (Z' - Z) ≤ 2 * Z' / w1 Z' - 2 * Z / w1 Z := by
    have hw := w2_mono (z := -Z') (z' := -Z) (by linarith) (by linarith)
    rw [w2_neg, w2_neg] at hw
    have wl := w2_lo Z'
    have hpos : 0 < w1 Z * w1 Z' := by positivity
    have e : 2 * Z' / w1 Z' - 2 * Z / w1 Z = 2 * (Z' * w1 Z - Z * w1 Z') / (w1 Z * w1 Z') := by
      have : w1 Z ≠ 0 := by linarith
      have : w1 Z' ≠ 0 := by linarith
      field_simp
    rw [e, le_div_iff₀ hpos]
    have hprod : w1 Z * w1 Z' ≤ 2011 / 1000 * (2011 / 1000) := mul_le_mul k3 k3' (by linarith) (by norm_num)
    have t : -Z / w2 Z - -Z' / w2 Z' ≤ (Z' - Z) / 12 := by
      have a : -Z / w2 Z ≤ -Z / w2 Z' := by
        apply div_le_div_of_nonneg_left (by linarith) (by linarith) hw
      have b : -Z / w2 Z' - -Z' / w2 Z' = (Z' - Z) / w2 Z' := by ring
      have c : (Z' - Z) / w2 Z' ≤ (Z' - Z) / 12 := by
        apply div_le_div_of_nonneg_left (by linarith) (by norm_num) wl
      linarith
    have f : Z' * w1 Z - Z * w1 Z' = 2 * (Z' - Z) - 2 * (Z * Z') * (-Z / w2 Z - -Z' / w2 Z') := by
      unfold w1; ring
    have hzz : 0 ≤ Z * Z' := mul_nonneg_of_nonpos_of_nonpos (by linarith) (by linarith)
    have hzz2 : Z * Z' ≤ 1 / 10000 := by nlinarith
    have g := mul_le_mul_of_nonneg_left t hzz
    have g2 : Z * Z' * ((Z' - Z) / 12) ≤ 1 / 10000 * ((Z' - Z) / 12) := mul_le_mul_of_nonneg_right hzz2 (by linarith)
    have g3 : 9 / 10 * (Z' - Z) * (w1 Z * w1 Z') ≤ 9 / 10 * (Z' - Z) * (2011 / 1000 * (2011 / 1000)) :=
      mul_le_mul_of_nonneg_left hprod (by linarith)
    rw [f]
    linarith
  have hQ : toR (expQ z) ≤ toR (expQ z') := by
    have := (abs_le.mp k1).2
    have := (abs_le.mp k1').1
    norm_num at *
    linarith
  have hQ' : toQ (expQ z) ≤ toQ (expQ z') := by unfold toR at hQ; exact_mod_cast hQ
  rw [e2, e2']
  apply rq_mono
  linarith

end Verif

/-
Exactly representable numbers and exact operations.
-/
import Verif.F64.Arith

namespace Verif

/-- `n * 2^e` with `n ≤ 2^53` and `e ≥ -1074` is representable (with unbounded exponent upwards) -/
theorem isMag_int {n : ℕ} {e : ℤ} (hn : n ≤ 2 ^ 53) (he : -1074 ≤ e) : ∃ k, mag k = n * pow2 e := by
  rcases Nat.eq_zero_or_pos n with h0 | h0
  · exact ⟨0, by rw [h0, mag_zero]; simp⟩
  rcases Nat.eq_or_lt_of_le hn with h53 | h53
  · obtain ⟨k, hk⟩ := pow2_isMag (e := 53 + e) (by omega)
    refine ⟨k, ?_⟩
    rw [hk, pow2_add, h53, show (53 : ℤ) = ((53 : ℕ) : ℤ) by rfl, pow2_natCast]
  · set L := Nat.log2 n with hL
    have hL1 : 2 ^ L ≤ n := Nat.log2_self_le h0.ne'
    have hL2 : n < 2 ^ (L + 1) := Nat.lt_log2_self
    have hL52 : L ≤ 52 := by
      by_contra h
      have : 2 ^ 53 ≤ 2 ^ L := Nat.pow_le_pow_right (by norm_num) (by omega)
      omega
    set e' : ℤ := max (L + e) (-1022) with he'
    set j : ℕ := (e - e' + 52).toNat with hj
    have hj' : (j : ℤ) = e - e' + 52 := by rw [hj, Int.toNat_of_nonneg]; omega
    have hjL : j ≤ 52 - L := by omega
    have hm : n * 2 ^ j ≤ 2 ^ 53 := by
      calc n * 2 ^ j ≤ 2 ^ (L + 1) * 2 ^ (52 - L) := Nat.mul_le_mul hL2.le (Nat.pow_le_pow_right (by norm_num) hjL)
        _ = 2 ^ 53 := by rw [← pow_add]; congr 1; omega
    have hor : e' = -1022 ∨ 2 ^ 52 ≤ n * 2 ^ j := by
      by_cases h : e' = -1022
      · exact Or.inl h
      · right
        have : j = 52 - L := by omega
        calc 2 ^ 52 = 2 ^ L * 2 ^ j := by rw [← pow_add]; congr 1; omega
          _ ≤ n * 2 ^ j := Nat.mul_le_mul_right _ hL1
    refine ⟨_, (mag_lin (e := e') (by omega) hm hor).trans ?_⟩
    push_cast
    rw [mul_assoc, show (2 : ℚ) ^ j = pow2 (j : ℤ) by rw [pow2_natCast]; push_cast; rfl, ← pow2_add]
    congr 2; omega

namespace F64

theorem mag_pow1023 : mag 9214364837600034816 = pow2 1023 := by decide +kernel

/-- numbers of magnitude at most 2^1023 do not overflow -/
theorem noOverflow_of_le {q : ℚ} (h : |q| ≤ pow2 1023) : noOverflow q := by
  unfold noOverflow
  have : rnd |q| ≤ 9214364837600034816 := rnd_le (by rw [mag_pow1023]; exact h)
  unfold finCodes; omega

/-- `q` is a representable number `± n * 2^e` -/
def Rep (q : ℚ) : Prop := ∃ n : ℕ, ∃ e : ℤ, n ≤ 2 ^ 53 ∧ -1074 ≤ e ∧ |q| = n * pow2 e

theorem rq_rep {q : ℚ} (h : Rep q) : rq q = q := by
  obtain ⟨n, e, hn, he, hq⟩ := h
  obtain ⟨k, hk⟩ := isMag_int hn he
  rw [← hk] at hq
  rcases le_total 0 q with h0 | h0
  · rw [abs_of_nonneg h0] at hq; rw [hq, rq_mag]
  · rw [abs_of_nonpos h0] at hq
    have : q = -mag k := by linarith
    rw [this, rq_neg, rq_mag]

theorem rep_int {i : ℤ} (h : |i| ≤ 2 ^ 53) : Rep i :=
  ⟨i.natAbs, 0, by rw [Int.abs_eq_natAbs] at h; omega, by omega, by rw [pow2_zero, mul_one, Nat.cast_natAbs, Int.cast_abs]⟩

theorem abs_int_le {i : ℤ} (h : |i| ≤ 2 ^ 53) : |(i : ℚ)| ≤ pow2 1023 := by
  rw [← Int.cast_abs]
  calc ((|i| : ℤ) : ℚ) ≤ ((2 ^ 53 : ℤ) : ℚ) := by exact_mod_cast h
    _ = pow2 (53 : ℕ) := by rw [pow2_natCast]; norm_cast
    _ ≤ pow2 1023 := pow2_le (by norm_num)

/-- integers up to 2^53 in magnitude are exact doubles -/
theorem lit_int {i : ℤ} (h : |i| ≤ 2 ^ 53) : isFin (lit (i : ℚ) : F64) ∧ toQ (lit (i : ℚ) : F64) = i := by
  have ho : noOverflow (i : ℚ) := noOverflow_of_le (abs_int_le h)
  exact ⟨ofRat_isFin.mpr ho, by
    show toQ (ofRat false _) = _
    rw [toQ_ofRat ho, rq_rep (rep_int h)]⟩

theorem fin_ofRat {z : Bool} {q : ℚ} (h : |q| ≤ pow2 1023) : isFin (ofRat z q) ∧ toQ (ofRat z q) = rq q :=
  ⟨ofRat_isFin.mpr (noOverflow_of_le h), toQ_ofRat (noOverflow_of_le h)⟩

theorem add_fin' {x y : F64} (hx : isFin x) (hy : isFin y) (h : |toQ x + toQ y| ≤ pow2 1023) :
    isFin (add x y) ∧ toQ (add x y) = rq (toQ x + toQ y) := by
  obtain ⟨z, hz⟩ := add_fin hx hy; rw [hz]; exact fin_ofRat h

theorem sub_fin' {x y : F64} (hx : isFin x) (hy : isFin y) (h : |toQ x - toQ y| ≤ pow2 1023) :
    isFin (sub x y) ∧ toQ (sub x y) = rq (toQ x - toQ y) := by
  obtain ⟨z, hz⟩ := sub_fin hx hy; rw [hz]; exact fin_ofRat h

theorem mul_fin' {x y : F64} (hx : isFin x) (hy : isFin y) (h : |toQ x * toQ y| ≤ pow2 1023) :
    isFin (mul x y) ∧ toQ (mul x y) = rq (toQ x * toQ y) := by
  obtain ⟨z, hz⟩ := mul_fin hx hy; rw [hz]; exact fin_ofRat h

theorem div_fin' {x y : F64} (hx : isFin x) (hy : isFin y) (h0 : toQ y ≠ 0) (h : |toQ x / toQ y| ≤ pow2 1023) :
    isFin (div x y) ∧ toQ (div x y) = rq (toQ x / toQ y) := by
  obtain ⟨z, hz⟩ := div_fin hx hy h0; rw [hz]; exact fin_ofRat h

/-- exact integer addition -/
theorem add_int {x y : F64} {i j : ℤ} (hx : isFin x) (hy : isFin y) (hi : toQ x = i) (hj : toQ y = j)
    (h : |i + j| ≤ 2 ^ 53) : isFin (add x y) ∧ toQ (add x y) = ((i + j : ℤ) : ℚ) := by
  have e : toQ x + toQ y = ((i + j : ℤ) : ℚ) := by rw [hi, hj]; push_cast; rfl
  have := add_fin' hx hy (by rw [e]; exact abs_int_le h)
  rw [e, rq_rep (rep_int h)] at this
  exact this

theorem sub_int {x y : F64} {i j : ℤ} (hx : isFin x) (hy : isFin y) (hi : toQ x = i) (hj : toQ y = j)
    (h : |i - j| ≤ 2 ^ 53) : isFin (sub x y) ∧ toQ (sub x y) = ((i - j : ℤ) : ℚ) := by
  have e : toQ x - toQ y = ((i - j : ℤ) : ℚ) := by rw [hi, hj]; push_cast; rfl
  have := sub_fin' hx hy (by rw [e]; exact abs_int_le h)
  rw [e, rq_rep (rep_int h)] at this
  exact this

/-- a double in [1/2, 2] is a multiple of 2^-53 -/
theorem mag_half_multiple {k : ℕ} (h1 : 1 / 2 ≤ mag k) : ∃ n : ℕ, mag k = n * pow2 (-53) := by
  have hk : 4602678819172646912 ≤ k := by
    rw [← mag_le_iff]
    have : mag 4602678819172646912 = 1 / 2 := by decide +kernel
    rw [this]; exact h1
  unfold mag
  rw [if_neg]
  · have hq : 1022 ≤ k / 2 ^ 52 := by
      rw [Nat.le_div_iff_mul_le (by norm_num)]; norm_num; omega
    refine ⟨(2 ^ 52 + k % 2 ^ 52) * 2 ^ (k / 2 ^ 52 - 1022), ?_⟩
    have : ((k / 2 ^ 52 : ℕ) : ℤ) - 1075 = ((k / 2 ^ 52 - 1022 : ℕ) : ℤ) + (-53) := by omega
    rw [this, pow2_add, pow2_natCast]; push_cast; ring
  · intro h
    have : 2 ^ 52 < 4602678819172646912 := by norm_num
    omega

/-- `1 - x` is exact for doubles in [1/2, 1] -/
theorem one_sub_exact {x : F64} (hx : isFin x) (h1 : 1 / 2 ≤ toQ x) (h2 : toQ x ≤ 1) :
    isFin (sub (lit 1) x) ∧ toQ (sub (lit 1) x) = 1 - toQ x := by
  have l1 := lit_int (i := 1) (by norm_num)
  have hq1 : toQ (lit 1 : F64) = 1 := by simpa using l1.2
  have hf1 : isFin (lit 1 : F64) := by simpa using l1.1
  have hle : |1 - toQ x| ≤ pow2 1023 := by
    rw [abs_of_nonneg (by linarith)]
    have := pow2_le (show (0 : ℤ) ≤ 1023 by norm_num)
    rw [pow2_zero] at this; linarith
  have := sub_fin' hf1 hx (by rw [hq1]; exact hle)
  rw [hq1] at this
  refine ⟨this.1, ?_⟩
  rw [this.2]
  apply rq_rep
  rcases x with _ | _ | ⟨s, k⟩
  · simp [isFin] at hx
  · simp [isFin] at hx
  · cases s
    · simp only [toQ] at h1 h2 ⊢
      obtain ⟨n, hn⟩ := mag_half_multiple h1
      have hn53 : (n : ℚ) ≤ 2 ^ 53 := by
        by_contra h
        have : (2 : ℚ) ^ 53 * pow2 (-53) < n * pow2 (-53) := mul_lt_mul_of_pos_right (not_le.mp h) (pow2_pos _)
        rw [show (2 : ℚ) ^ 53 = pow2 53 by rw [show (53 : ℤ) = ((53 : ℕ) : ℤ) by rfl, pow2_natCast]; push_cast; rfl,
          pow2_mul_neg] at this
        linarith
      have hn' : n ≤ 2 ^ 53 := by exact_mod_cast hn53
      clear this hle
      refine ⟨2 ^ 53 - n, -53, by omega, by omega, ?_⟩
      rw [abs_of_nonneg (by linarith), hn, Nat.cast_sub hn', sub_mul]
      congr 1
      rw [show ((2 ^ 53 : ℕ) : ℚ) = pow2 53 by rw [show (53 : ℤ) = ((53 : ℕ) : ℤ) by rfl, pow2_natCast], pow2_mul_neg]
    · simp only [toQ] at h1
      have := mag_nonneg k
      linarith

end F64
end Verif

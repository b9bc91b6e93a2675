/-
C145: the accuracy of the logarithm that benchmark/log_cf_accuracy.c measures.
-/
import Verif.Proofs.BenchLogErr

namespace Verif
open F64

namespace BenchLog

/-- the mantissa of a positive double, in `[1, 2)` -/
theorem mantissa (m : ℕ) (hm : m < 2 ^ 52) : ∃ x : F64, isFin x ∧ toQ x = ((2 ^ 52 + m : ℕ) : ℚ) / 2 ^ 52 ∧ 1 ≤ toQ x ∧ toQ x < 2 ∧
    ∃ h : 1023 * 2 ^ 52 + m < finCodes, x = fin false ⟨1023 * 2 ^ 52 + m, h⟩ := by
  have hf : finCodes = 2047 * 2 ^ 52 := by decide
  have h : 1023 * 2 ^ 52 + m < finCodes := by omega
  have e : toQ (fin false ⟨1023 * 2 ^ 52 + m, h⟩) = ((2 ^ 52 + m : ℕ) : ℚ) / 2 ^ 52 := by
    rw [toQ_fin, if_neg (by simp)]
    dsimp only
    rw [mag_normal (by norm_num) hm, pow2_eq]
    norm_num
    ring
  refine ⟨fin false ⟨1023 * 2 ^ 52 + m, h⟩, trivial, e, ?_, ?_, h, rfl⟩
  · rw [e, le_div_iff₀ (by norm_num)]; push_cast; linarith [(Nat.cast_nonneg m : (0 : ℚ) ≤ m)]
  · have : (m : ℚ) < 2 ^ 52 := by exact_mod_cast hm
    rw [e, div_lt_iff₀ (by norm_num)]; push_cast; linarith

/-- every double of `[1/2, 2)` is given to the fraction -/
theorem log_octave (cf : F64 → F64) {x : F64} (hx : isFin x) (h0 : 1 / 2 ≤ toQ x) (h1 : toQ x < 2) : Bench.log cf x = cf x := by
  rcases x with _ | _ | ⟨s, k⟩
  · exact absurd hx id
  · exact absurd hx id
  cases s with
  | true => rw [toQ_fin, if_pos rfl] at h0; have := mag_nonneg k.val; linarith
  | false =>
  rw [toQ_fin, if_neg (by simp)] at h0 h1
  unfold Bench.log
  refine if_pos ?_
  rw [← UInt64.toNat_inj, ← UInt64.toNat_inj, show (1022 : UInt64).toNat = 1022 from rfl, show (1023 : UInt64).toNat = 1023 from rfl]
  unfold Bench.exponentBits
  rw [expField]
  rcases lt_or_ge (mag k.val) 1 with h | h
  · have hc := BenchMath.code_of_binade (e := -1) (k := k.val) (by norm_num) (by rw [pow2_eq]; norm_num; linarith) (by rw [pow2_eq]; norm_num; linarith)
    have hc : k.val / 2 ^ 52 = 1022 := hc
    exact .inl hc
  · have hc := BenchMath.code_of_binade (e := 0) (k := k.val) (by norm_num) (by rw [pow2_eq]; norm_num; linarith) (by rw [pow2_eq]; norm_num; linarith)
    have hc : k.val / 2 ^ 52 = 1023 := hc
    exact .inr hc

/-- the bound of the fraction is small from depth 2 on -/
theorem trunc_le (d : ℕ) (hd : 2 ≤ d) : 61 / 1000 * (d : ℝ) * (295 / 10000) ^ (d - 1) ≤ 1 / 100 := by
  induction d, hd using Nat.le_induction with
  | base => norm_num
  | succ d hd ih =>
    obtain ⟨d, rfl⟩ : ∃ c, d = c + 1 := ⟨d - 1, by omega⟩
    simp only [Nat.add_sub_cancel] at ih ⊢
    rw [pow_succ]
    have hp : (0 : ℝ) < (295 / 10000) ^ d := by positivity
    push_cast at ih ⊢
    have hd0 : (0 : ℝ) ≤ d := Nat.cast_nonneg d
    nlinarith [mul_nonneg hd0 hp.le]

/-- the multiple of `LOG2` -/
theorem mul_LOG2 {e : ℤ} (h : |e| ≤ 1024) (h0 : 1 ≤ |e|) : Rel (lit (e : ℚ) *. LOG2 : F64) (e * Real.log 2) (2 / 10 ^ 16) := by
  obtain ⟨a, b⟩ := LN2_err
  obtain ⟨c, d⟩ := log_two_bounds
  have le : Rel (lit (e : ℚ) : F64) e 0 := by
    have := App.lit_int (i := e) (h.trans (by norm_num))
    exact ⟨this.1, by have := this.2; simpa using this⟩
  have lL : Rel (LOG2 : F64) (Real.log 2) (4 / 10 ^ 17) := by
    refine ⟨LOG2_fin.1, ?_⟩
    have : toR (LOG2 : F64) = LN2 := by unfold toR LN2; rw [LOG2_fin.2]; norm_num
    rw [this, abs_sub_comm, abs_of_nonneg a, abs_of_pos (by linarith)]
    linarith
  have h1 : (1 : ℝ) ≤ |(e : ℝ)| := by exact_mod_cast h0
  have h2 : |(e : ℝ)| ≤ 1024 := by exact_mod_cast h
  refine mul le lL le_rfl (by norm_num) (by norm_num) (by norm_num) ⟨.inr ?_, ?_⟩ (by norm_num)
  · rw [abs_mul, abs_of_pos (by linarith : 0 < Real.log 2)]; nlinarith
  · rw [abs_mul, abs_of_pos (by linarith : 0 < Real.log 2)]; nlinarith

/-- the reduction on the bits of the exponent adds at most 1e-15 to the relative error of the fraction on `[1/2, 2)` -/
theorem log_rel (cf : F64 → F64) {ρ : ℝ} (hρ : 0 ≤ ρ) (hρ1 : ρ ≤ 2 / 100) (hcf : ∀ w : F64, isFin w → 1 / 2 ≤ toQ w → toQ w < 2 → Rel (cf w) (Real.log (toR w)) ρ)
    (x : F64) (hx : isFin x) (h0 : 2 ^ (-1022 : ℤ) ≤ toQ x) : Rel (Bench.log cf x) (Real.log (toR x)) (ρ + 1 / 10 ^ 15) := by
  by_cases ho : 1 / 2 ≤ toQ x ∧ toQ x < 2
  · rw [log_octave _ hx ho.1 ho.2]
    obtain ⟨a, b⟩ := hcf x hx ho.1 ho.2
    exact ⟨a, b.trans (mul_le_mul_of_nonneg_right (by linarith) (abs_nonneg _))⟩
  rcases x with _ | _ | ⟨s, k⟩
  · exact absurd hx id
  · exact absurd hx id
  have p0 : (0 : ℚ) < 2 ^ (-1022 : ℤ) := by positivity
  cases s with
  | true => exfalso; rw [toQ_fin, if_pos rfl] at h0; have := mag_nonneg k.val; linarith
  | false =>
  have hk : toQ (fin false k) = mag k.val := by rw [toQ_fin, if_neg (by simp)]
  have hf : finCodes = 2047 * 2 ^ 52 := by decide
  have hlt := k.isLt
  have hm : k.val % 2 ^ 52 < 2 ^ 52 := Nat.mod_lt _ (by norm_num)
  have hv1 : 1 ≤ k.val / 2 ^ 52 := by
    have : mag (1 * 2 ^ 52) ≤ mag k.val := by
      rw [mag_pow (by norm_num), ← hk, pow2_eq]
      exact h0
    have := mag_le_iff.mp this
    omega
  obtain ⟨w, w1, w2, w3, w4, -⟩ := mantissa (k.val % 2 ^ 52) hm
  set e : ℤ := (k.val / 2 ^ 52 : ℕ) - 1023 with he
  have hx2 : toQ (fin false k) = 2 ^ e * toQ w := by
    rw [hk, w2]
    conv_lhs => rw [show k.val = k.val / 2 ^ 52 * 2 ^ 52 + k.val % 2 ^ 52 by omega, mag_normal hv1 hm, pow2_eq]
    rw [show ((k.val / 2 ^ 52 : ℕ) : ℤ) - 1075 = e - 52 by omega, zpow_sub₀ (by norm_num)]
    rw [show (2 : ℚ) ^ (52 : ℤ) = 2 ^ 52 from zpow_natCast 2 52]
    ring
  have he0 : e ≠ 0 := by
    intro h
    rw [h, zpow_zero, _root_.one_mul] at hx2
    exact ho ⟨by rw [hx2]; linarith, by rw [hx2]; exact w4⟩
  have he1 : e ≠ -1 := by
    intro h
    rw [h, zpow_neg, zpow_one] at hx2
    exact ho ⟨by rw [hx2]; linarith, by rw [hx2]; linarith⟩
  rw [C131_binade cf w (fin false k) w1 trivial w3 w4 e (by omega) he0 he1 hx2, log_octave _ w1 (by linarith) w4]
  have r := hcf w w1 (by linarith) w4
  have hl := mul_LOG2 (e := e) (by rw [abs_le]; omega) (Int.one_le_abs he0)
  have hW1 : 1 ≤ toR w := by unfold toR; exact_mod_cast w3
  have hW2 : toR w ≤ 2 := by unfold toR; exact_mod_cast w4.le
  have g0 : 0 ≤ Real.log (toR w) := Real.log_nonneg hW1
  have g1 : Real.log (toR w) ≤ Real.log 2 := Real.log_le_log (by linarith) hW2
  have hlog : Real.log (toR (fin false k)) = Real.log (toR w) + e * Real.log 2 := by
    have : toR (fin false k) = 2 ^ e * toR w := by
      unfold toR; rw [hx2]; push_cast; rfl
    rw [this, Real.log_mul (by positivity) (by linarith), Real.log_zpow]; ring
  rw [hlog]
  obtain ⟨c1, c2⟩ := log_two_bounds
  have hEb : |(e : ℝ)| ≤ 1024 := by exact_mod_cast (by rw [abs_le]; omega : |e| ≤ 1024)
  have key : ρ * |Real.log (toR w)| + 2 / 10 ^ 16 * |e * Real.log 2| ≤ (ρ + 4 / 10 ^ 16) * |Real.log (toR w) + e * Real.log 2| ∧
      69 / 100 ≤ |Real.log (toR w) + e * Real.log 2| := by
    rw [abs_of_nonneg g0, abs_mul, abs_of_pos (by linarith : 0 < Real.log 2)]
    rcases lt_or_ge e 0 with h | h
    · have h2 : (e : ℝ) ≤ -2 := by exact_mod_cast (by omega : e ≤ -2)
      rw [abs_of_neg (by linarith : (e : ℝ) < 0), abs_of_nonpos (by nlinarith : Real.log (toR w) + e * Real.log 2 ≤ 0)]
      have n : Real.log 2 ≤ -(Real.log (toR w) + e * Real.log 2) := by nlinarith
      have n2 : -(e : ℝ) * Real.log 2 ≤ 2 * -(Real.log (toR w) + e * Real.log 2) := by nlinarith
      have n3 : ρ * Real.log (toR w) ≤ ρ * -(Real.log (toR w) + e * Real.log 2) :=
        mul_le_mul_of_nonneg_left (by linarith) hρ
      constructor
      · linarith
      · linarith
    · have h2 : (1 : ℝ) ≤ e := by exact_mod_cast (by omega : 1 ≤ e)
      have hp : 0 ≤ (e : ℝ) * Real.log 2 := by nlinarith
      rw [abs_of_pos (by linarith : (0 : ℝ) < e), abs_of_nonneg (by linarith : 0 ≤ Real.log (toR w) + e * Real.log 2)]
      have n3 : 0 ≤ ρ * (e * Real.log 2) := by positivity
      constructor
      · nlinarith
      · nlinarith
  refine add r hl key.1 (by linarith) ⟨.inr (by linarith [key.2, show (1 : ℝ) / 10 ^ 50 ≤ 69 / 100 by norm_num]), ?_⟩ (by linarith)
  refine (abs_add_le _ _).trans ?_
  rw [abs_of_nonneg g0, abs_mul, abs_of_pos (by linarith : 0 < Real.log 2)]
  nlinarith

end BenchLog

/-- **C145** (first part). For every positive normal double and every depth `d` from 2 on, the logarithm computed by the program, the fraction of depth `d` after the
reduction on the bits of the exponent, has a relative error of at most `0.061 d 0.0295^(d-1) + 5e-15`. -/
theorem C145 (d : UInt32) (hd : 2 ≤ d.toNat) (hd2 : d.toNat < 2 ^ 31) (x : F64) (hx : isFin x) (h0 : 2 ^ (-1022 : ℤ) ≤ toQ x) :
    isFin (Bench.log (Bench.log_cf · d) x) ∧
      |toR (Bench.log (Bench.log_cf · d) x) - Real.log (toR x)| ≤ (61 / 1000 * d.toNat * (295 / 10000) ^ (d.toNat - 1) + 5 / 10 ^ 15) * |Real.log (toR x)| := by
  have t1 := BenchLog.trunc_le d.toNat hd
  have t0 : 0 ≤ 61 / 1000 * (d.toNat : ℝ) * (295 / 10000) ^ (d.toNat - 1) := by positivity
  obtain ⟨a, b⟩ := BenchLog.log_rel (Bench.log_cf · d) (by linarith) (by linarith) (fun w w1 w2 w3 => BenchLog.log_cf_log w1 w2 w3 d (by omega) hd2) x hx h0
  exact ⟨a, b.trans (mul_le_mul_of_nonneg_right (by linarith) (abs_nonneg _))⟩

/-- **C145** (second part). The mantissa of a subnormal double is not normalised: whatever the depth, the result for a positive zero or a positive subnormal double is
a finite number between -709.1 and -708. -/
theorem C145_subnormal (d : UInt32) (hd : 2 ≤ d.toNat) (hd2 : d.toNat < 2 ^ 31) (k : Fin finCodes) (hk : toQ (fin false k) < 2 ^ (-1022 : ℤ)) :
    isFin (Bench.log (Bench.log_cf · d) (fin false k)) ∧ -(7091 / 10) ≤ toR (Bench.log (Bench.log_cf · d) (fin false k)) ∧
      toR (Bench.log (Bench.log_cf · d) (fin false k)) ≤ -708 := by
  have hk1 : k.val < 2 ^ 52 := by
    rw [toQ_fin, if_neg (by simp)] at hk
    have : mag k.val < mag (1 * 2 ^ 52) := by
      rw [mag_pow (by norm_num), pow2_eq]
      exact hk
    have := mag_lt_iff.mp this
    omega
  have hmod : k.val % 2 ^ 52 = k.val := Nat.mod_eq_of_lt hk1
  have hdiv : k.val / 2 ^ 52 = 0 := Nat.div_eq_of_lt hk1
  obtain ⟨w, w1, w2, w3, w4, hw, rfl⟩ := BenchLog.mantissa k.val hk1
  obtain ⟨hlt, es⟩ := BenchMath.setExponent_fin false k (e := 1023) (v := 1023) rfl (by norm_num)
  have b : (Bench.exponentBits (fin false k)).toNat = 0 := by unfold Bench.exponentBits; rw [expField, hdiv]
  have hl : Bench.log (Bench.log_cf · d) (fin false k) = Bench.log_cf (fin false ⟨1023 * 2 ^ 52 + k.val, hw⟩) d +. (lit (0 : ℕ) -. lit 1023) *. LOG2 := by
    unfold Bench.log
    rw [if_neg (by rw [← UInt64.toNat_inj, ← UInt64.toNat_inj, b, show (1022 : UInt64).toNat = 1022 from rfl, show (1023 : UInt64).toNat = 1023 from rfl]; omega), es, b]
    dsimp only
    simp only [hmod]
  rw [hl]
  generalize (fin false ⟨1023 * 2 ^ 52 + k.val, hw⟩ : F64) = w at *
  obtain ⟨r1, r2⟩ := BenchLog.log_cf_log w1 (by linarith) w4 d (by omega) hd2
  have t1 := BenchLog.trunc_le d.toNat hd
  have hW1 : 1 ≤ toR w := by unfold toR; exact_mod_cast w3
  have hW2 : toR w ≤ 2 := by unfold toR; exact_mod_cast w4.le
  have g0 : 0 ≤ Real.log (toR w) := Real.log_nonneg hW1
  have g1 : Real.log (toR w) ≤ Real.log 2 := Real.log_le_log (by linarith) hW2
  obtain ⟨c1, c2⟩ := log_two_bounds
  rw [abs_of_nonneg g0] at r2
  have r3 : |toR (Bench.log_cf w d) - Real.log (toR w)| ≤ 2 / 100 * Real.log (toR w) := r2.trans (mul_le_mul_of_nonneg_right (by linarith) g0)
  obtain ⟨r4, r5⟩ := abs_le.mp r3
  have hA : App (Bench.log_cf w d) (toR (Bench.log_cf w d)) 0 := App.self r1
  have hc : isFin ((lit (0 : ℕ) -. lit 1023) *. LOG2 : F64) ∧ -70909 / 100 ≤ toQ ((lit (0 : ℕ) -. lit 1023) *. LOG2 : F64) ∧
      toQ ((lit (0 : ℕ) -. lit 1023) *. LOG2 : F64) ≤ -70908 / 100 := by decide +kernel
  have hB := App.self hc.1
  have i1 : (-70909 / 100 : ℝ) ≤ toR ((lit (0 : ℕ) -. lit 1023) *. LOG2 : F64) := by
    have : ((-70909 / 100 : ℚ) : ℝ) ≤ _ := Rat.cast_le.mpr hc.2.1
    push_cast at this
    exact this
  have i2 : toR ((lit (0 : ℕ) -. lit 1023) *. LOG2 : F64) ≤ (-70908 / 100 : ℝ) := by
    have : _ ≤ ((-70908 / 100 : ℚ) : ℝ) := Rat.cast_le.mpr hc.2.2
    push_cast at this
    exact this
  generalize ((lit (0 : ℕ) -. lit 1023) *. LOG2 : F64) = c at *
  have hS := App.add hA hB (B := 710) (e := 1 / 10 ^ 6) (by rw [add_zero, add_zero, abs_le]; constructor <;> linarith) (by norm_num) (by norm_num) (by unfold ru; norm_num)
  obtain ⟨s1, s2⟩ := hS
  obtain ⟨s3, s4⟩ := abs_le.mp s2
  exact ⟨s1, by linarith, by linarith⟩

/-- at depth 11 the bound is 6e-15; 2^-1022 and the greatest double meet the hypotheses of the first part, the smallest subnormal those of the second; its logarithm is below -744 -/
example : (61 / 1000 * ((11 : UInt32).toNat : ℝ) * (295 / 10000) ^ ((11 : UInt32).toNat - 1) + 5 / 10 ^ 15) ≤ 6 / 10 ^ 15 ∧
    2 ^ (-1022 : ℤ) ≤ toQ (ofBits 0x0010000000000000) ∧ isFin (ofBits 0x7FEFFFFFFFFFFFFF) ∧ toQ (fin false ⟨1, by decide⟩) < 2 ^ (-1022 : ℤ) := by
  refine ⟨?_, by decide +kernel, by decide +kernel, by decide +kernel⟩
  show (61 / 1000 * ((11 : ℕ) : ℝ) * (295 / 10000) ^ (11 - 1) + 5 / 10 ^ 15) ≤ 6 / 10 ^ 15
  norm_num

end Verif

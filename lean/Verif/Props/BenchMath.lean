/-
C131-C133: the functions that the benchmark programs measure against those of the library, and the mantissa error that they report.
-/
import Verif.Model.BenchMath
import Verif.Proofs.ExpStep
import Verif.Proofs.XmathXR
import Verif.F64.Pair
import Mathlib.Analysis.Complex.ExponentialBounds

namespace Verif
open F64

namespace BenchMath

/-- the code of a double in the binade `[2^e, 2^(e+1))` -/
theorem code_of_binade {k : ℕ} {e : ℤ} (he : -1022 ≤ e) (h0 : pow2 e ≤ mag k) (h1 : mag k < pow2 (e + 1)) : k / 2 ^ 52 = (e + 1023).toNat := by
  obtain ⟨v, hv, rfl⟩ : ∃ v : ℕ, 1 ≤ v ∧ e = v - 1023 := ⟨(e + 1023).toNat, by omega, by omega⟩
  rw [← mag_pow hv, mag_le_iff] at h0
  rw [show (v : ℤ) - 1023 + 1 = ((v + 1 : ℕ) : ℤ) - 1023 by push_cast; ring, ← mag_pow (by omega), mag_lt_iff] at h1
  omega

theorem setExponent_fin (s : Bool) (k : Fin finCodes) {e : UInt64} {v : ℕ} (he : e.toNat = v) (hv : v ≤ 2046) :
    ∃ h : v * 2 ^ 52 + k.val % 2 ^ 52 < finCodes, Bench.setExponent (fin s k) e = fin s ⟨v * 2 ^ 52 + k.val % 2 ^ 52, h⟩ := by
  have hm : k.val % 2 ^ 52 < 2 ^ 52 := Nat.mod_lt _ (by norm_num)
  have hf : finCodes = 2047 * 2 ^ 52 := by decide
  have hk := k.isLt
  refine ⟨by omega, ?_⟩
  unfold Bench.setExponent
  apply ofBits_val
  rw [UInt64.toNat_or, UInt64.toNat_and, toBits_fin]
  have m : (0x800fffffffffffff : UInt64).toNat = 2 ^ 63 ||| (2 ^ 52 - 1) := by decide
  have n : ((e &&& (0x7ff : UInt64)) <<< (52 : UInt64)).toNat = v * 2 ^ 52 := by
    rw [UInt64.toNat_shiftLeft, UInt64.toNat_and, show (0x7ff : UInt64).toNat = 2 ^ 11 - 1 from rfl, Nat.and_two_pow_sub_one_eq_mod,
      show (52 : UInt64).toNat % 64 = 52 from rfl, Nat.shiftLeft_eq, he]
    omega
  rw [m, n, Nat.and_or_distrib_left, Nat.and_two_pow_sub_one_eq_mod]
  have a1 : (sb s * 2 ^ 63 + k.val) &&& 2 ^ 63 = sb s * 2 ^ 63 := by
    rw [Nat.and_two_pow]
    have : (sb s * 2 ^ 63 + k.val).testBit 63 = s := by
      rw [Nat.testBit_eq_decide_div_mod_eq]
      cases s <;> simp only [sb, if_true, if_false, Bool.false_eq_true, decide_eq_true_eq, decide_eq_false_iff_not] <;> omega
    rw [this]; cases s <;> rfl
  have a2 : (sb s * 2 ^ 63 + k.val) % 2 ^ 52 = k.val % 2 ^ 52 := by
    cases s <;> simp only [sb, if_true, if_false, Bool.false_eq_true] <;> omega
  rw [a1, a2, Nat.or_assoc]
  have a3 : k.val % 2 ^ 52 ||| v * 2 ^ 52 = v * 2 ^ 52 + k.val % 2 ^ 52 := by
    rw [Nat.or_comm, Nat.mul_comm]
    exact (Nat.two_pow_add_eq_or_of_lt hm v).symm
  rw [a3, or_sign]
  omega

/-- adding `k` to the exponent field is `ldexp` as long as the result is a normal double -/
theorem addExponent {w : F64} (hw : isFin w) {e : ℤ} (he : -1022 ≤ e) (h0 : 2 ^ e ≤ toQ w) (h1 : toQ w < 2 ^ (e + 1)) {k : UInt64} (hk : e + k.toNat ≤ 1023) :
    Bench.setExponent w (Bench.exponentBits w + k) = Spec.scaleB w k.toNat := by
  rcases w with _ | _ | ⟨s, c⟩
  · exact absurd hw id
  · exact absurd hw id
  have hp : (0 : ℚ) < 2 ^ e := by positivity
  cases s with
  | true =>
    rw [toQ_fin, if_pos rfl] at h0
    have := mag_nonneg c.val
    linarith
  | false =>
  rw [toQ_fin, if_neg (by simp)] at h0 h1
  have hc := code_of_binade he (by rwa [pow2_eq]) (by rwa [pow2_eq])
  set v := (e + 1023).toNat with hv
  have hm : c.val % 2 ^ 52 < 2 ^ 52 := Nat.mod_lt _ (by norm_num)
  have hs : (Bench.exponentBits (fin false c) + k).toNat = v + k.toNat := by
    rw [UInt64.toNat_add]
    unfold Bench.exponentBits
    rw [expField, hc]
    omega
  obtain ⟨hlt, e1⟩ := setExponent_fin false c hs (by omega)
  rw [e1]
  show _ = ofRat false (toQ (fin false c) * 2 ^ ((k.toNat : ℕ) : ℤ))
  have e2 : toQ (fin false c) * 2 ^ ((k.toNat : ℕ) : ℤ) = toQ (fin false ⟨(v + k.toNat) * 2 ^ 52 + c.val % 2 ^ 52, hlt⟩) := by
    rw [toQ_fin, toQ_fin, if_neg (by simp), if_neg (by simp)]
    dsimp only
    have hcv : c.val = v * 2 ^ 52 + c.val % 2 ^ 52 := by omega
    rw [mag_normal (by omega) hm]
    conv_lhs => rw [hcv]
    rw [mag_normal (by omega) hm, mul_assoc, ← pow2_eq, ← pow2_add]
    congr 2
    push_cast
    ring
  rw [e2]
  refine (ofRat_toQ (x := fin false _) false trivial ?_).symm
  rw [toQ_fin, if_neg (by simp)]
  exact (mag_pos (by dsimp only; omega)).ne'

theorem toULL_ok {t : F64} (ht : isFin t) (h0 : 0 ≤ toQ t) (h : toQ t < 2 ^ 64) : Bench.toULL t = .ok (UInt64.ofNat ⌊toQ t⌋.toNat) := by
  unfold Bench.toULL
  rw [trunc_pos ht h0]
  have a : 0 ≤ ⌊toQ t⌋ := Int.floor_nonneg.mpr h0
  have b : ⌊toQ t⌋ < 2 ^ 64 := by
    rw [Int.floor_lt]; exact_mod_cast h
  simp only [if_pos (And.intro a b)]

theorem expNonneg_eq {x : F64} (hx : isFin x) (h1 : toQ x ≤ 709) : Bench.expNonneg exp_cf_6 x = xexpNonneg muslFU x := by
  rcases le_or_gt (toQ x) (toQ (LOG2 : F64)) with hs | hs
  · rw [xexp_small hx hs]
    unfold Bench.expNonneg
    rw [if_neg]
    intro hgt
    have := (F64.lt_iff _ _).mp hgt
    rw [val_fin LOG2_fin.1, val_fin hx, ratCast_lt_EReal] at this
    linarith [this.2.2]
  · obtain ⟨la, lb⟩ := LOG2_small
    obtain ⟨e1, r1, r2, r3, -⟩ := xexp_red hx hs (by linarith)
    obtain ⟨i1, i2, i3⟩ := expIdx_pos hx hs (by linarith)
    obtain ⟨d1, d2⟩ := div_LOG2 hx (by linarith) (by linarith)
    rw [e1]
    unfold Bench.expNonneg
    rw [if_pos (by
      apply (F64.lt_iff _ _).mpr
      rw [val_fin LOG2_fin.1, val_fin hx, ratCast_lt_EReal]
      exact ⟨isFin.notNaN LOG2_fin.1, isFin.notNaN hx, hs⟩)]
    have hd0 : 0 ≤ toQ (x /. LOG2) := by rw [d2]; exact rq_nonneg (div_nonneg (by linarith) (by linarith))
    have hd1 : toQ (x /. LOG2) ≤ ((16366 : ℤ) : ℚ) / 16 := by
      have : rq (toQ x / toQ (LOG2 : F64)) ≤ rq (((16366 : ℤ) : ℚ) / 16) := by
        apply rq_mono
        rw [div_le_iff₀ (by linarith), LOG2_fin.2]
        refine h1.trans ?_
        norm_num
      rw [rq_rep (rep_16 (by norm_num))] at this
      rw [d2]; exact this
    have hi : expIdx x ≤ 1022 := by
      have a := (Int.floor_le (toQ (x /. LOG2))).trans hd1
      have b : (⌊toQ (x /. LOG2)⌋ : ℚ) < ((1023 : ℤ) : ℚ) := lt_of_le_of_lt a (by norm_num)
      have c : ⌊toQ (x /. LOG2)⌋ < 1023 := by exact_mod_cast b
      omega
    rw [toULL_ok d1 hd0 (lt_of_le_of_lt hd1 (by norm_num)), ← i1]
    have hn : (UInt64.ofNat (expIdx x)).toNat = expIdx x := by rw [UInt64.toNat_ofNat']; omega
    show Except.ok (Bench.setExponent (exp_cf_6 (x -. LOG2 *. lit ((UInt64.ofNat (expIdx x)).toNat : ℚ)))
      (Bench.exponentBits (exp_cf_6 (x -. LOG2 *. lit ((UInt64.ofNat (expIdx x)).toNat : ℚ))) + UInt64.ofNat (expIdx x))) = _
    rw [hn]
    obtain ⟨f, g⟩ := exp_cf_rel r1 r2 r3
    set r := x -. LOG2 *. lit (expIdx x : ℚ) with hr
    have g := abs_le.mp g
    have lo : 99 / 100 ≤ Real.exp (toR r) := by
      have := Real.add_one_le_exp (toR r); linarith
    have hi' : Real.exp (toR r) ≤ 2.7182818286 := (Real.exp_le_exp.mpr (by linarith : toR r ≤ 1)).trans Real.exp_one_lt_d9.le
    have w0 : ((1 / 2 : ℚ) : ℝ) ≤ ((toQ (exp_cf_6 r) : ℚ) : ℝ) := by
      change _ ≤ toR _; push_cast; nlinarith
    have w1 : ((toQ (exp_cf_6 r) : ℚ) : ℝ) < ((4 : ℚ) : ℝ) := by
      change toR _ < _; push_cast; nlinarith
    have w0 : 1 / 2 ≤ toQ (exp_cf_6 r) := by exact_mod_cast w0
    have w1 : toQ (exp_cf_6 r) < 4 := by exact_mod_cast w1
    congr 1
    obtain ⟨e, he, e0, e1, e2⟩ : ∃ e : ℤ, -1022 ≤ e ∧ e ≤ 1 ∧ 2 ^ e ≤ toQ (exp_cf_6 r) ∧ toQ (exp_cf_6 r) < 2 ^ (e + 1) := by
      rcases lt_or_ge (toQ (exp_cf_6 r)) 1 with a | a
      · exact ⟨-1, by norm_num, by norm_num, by norm_num at w0 ⊢; exact w0, by norm_num; exact a⟩
      rcases lt_or_ge (toQ (exp_cf_6 r)) 2 with b | b
      · exact ⟨0, by norm_num, by norm_num, by norm_num; exact a, by norm_num; exact b⟩
      · exact ⟨1, by norm_num, by norm_num, by norm_num; exact b, by norm_num; exact w1⟩
    have := addExponent f he e1 e2 (k := UInt64.ofNat (expIdx x)) (by rw [hn]; omega)
    rw [hn] at this
    exact this

end BenchMath

/-! ### C131: the logarithm -/

/-- **C131** (partial). On doubles: for every argument of `[1/2, 1)` the `_log` of the benchmark programs returns the double that `xlog` returns. Missing: the
other positive doubles (`C131_false`). -/
theorem C131_partial (x : F64) (hx : isFin x) (h0 : 1 / 2 ≤ toQ x) (h1 : toQ x < 1) : Bench.log log_cf_11 x = xlog muslFU x := by
  rcases x with _ | _ | ⟨s, k⟩
  · exact absurd hx id
  · exact absurd hx id
  cases s with
  | true =>
    rw [toQ_fin, if_pos rfl] at h0
    have := mag_nonneg k.val
    linarith
  | false =>
  rw [toQ_fin, if_neg (by simp)] at h0 h1
  have hk := BenchMath.code_of_binade (e := -1) (k := k.val) (by norm_num) (by rw [pow2_eq]; norm_num at h0 ⊢; exact h0) (by rw [pow2_eq]; norm_num; exact h1)
  have hk : k.val / 2 ^ 52 = 1022 := hk
  have hf := expField false k
  rw [hk] at hf
  have he : (toBits (fin false k) >>> 52) &&& 0x7ff = 1022 := by rw [← UInt64.toNat_inj, hf]; rfl
  have l0 : (fin false k <. lit 0) = false := by
    rw [Bool.eq_false_iff]
    intro h
    have := ((F64.lt_iff _ _).mp h).2.2
    rw [val_fin (x := fin false k) trivial, val_fin (show isFin (lit 0 : F64) by decide +kernel), ratCast_lt_EReal, show toQ (lit 0 : F64) = 0 by decide +kernel, toQ_fin, if_neg (by simp)] at this
    linarith
  have e0 : (fin false k ==. lit 0) = false := by
    rw [Bool.eq_false_iff]
    intro h
    have := ((F64.eq_iff _ _).mp h).2.2
    rw [val_fin (x := fin false k) trivial, val_fin (show isFin (lit 0 : F64) by decide +kernel), show toQ (lit 0 : F64) = 0 by decide +kernel, toQ_fin, if_neg (by simp)] at this
    have : mag k.val = 0 := by exact_mod_cast this
    linarith
  have hm : (musl_frexp (fin false k) 0).2 = 0 := by
    unfold musl_frexp frexpNormal
    dsimp only
    rw [he]
    rfl
  have hb : Bench.log log_cf_11 (fin false k) = log_cf_11 (fin false k) := by
    unfold Bench.log
    exact if_pos (Or.inl he)
  have hm : (muslFU.frexp (fin false k) 0).2 = 0 := hm
  rw [hb]
  unfold xlog
  rw [l0, (F64.is_nan_false _).mpr (by simp [notNaN]), if_neg (by simp), e0, if_neg (by simp)]
  dsimp only
  rw [hm, if_pos (Or.inl rfl)]

/-- the double 3/4 meets the hypotheses of `C131_partial` -/
example : Bench.log log_cf_11 (lit (3 / 4)) = xlog muslFU (lit (3 / 4)) ∧ toQ (xlog muslFU (lit (3 / 4) : F64)) < -28 / 100 :=
  ⟨C131_partial _ (by decide +kernel) (by decide +kernel) (by decide +kernel), by decide +kernel⟩

/-- the difference of two integers is exact -/
theorem BenchMath.sub_lit {a b : ℤ} (ha : |a| ≤ 2 ^ 53) (hb : |b| ≤ 2 ^ 53) (hab : a - b ≠ 0) : (lit (a : ℚ) -. lit (b : ℚ) : F64) = lit ((a - b : ℤ) : ℚ) := by
  obtain ⟨f, e⟩ := lit_int ha
  obtain ⟨g, d⟩ := lit_int hb
  have h0 : ((a - b : ℤ) : ℚ) ≠ 0 := by exact_mod_cast hab
  show F64.add (lit (a : ℚ)) (F64.neg (lit (b : ℚ))) = ofRat false _
  have hn : toQ (F64.neg (lit (b : ℚ))) = -(b : ℚ) := by rw [toQ_neg, d]
  have gn : isFin (F64.neg (lit (b : ℚ))) := isFin_neg.mpr g
  generalize F64.neg (lit (b : ℚ)) = y at *
  generalize (lit (a : ℚ) : F64) = x at *
  rcases x with _ | _ | ⟨s, k⟩
  · exact absurd f id
  · exact absurd f id
  rcases y with _ | _ | ⟨s', k'⟩
  · exact absurd gn id
  · exact absurd gn id
  show ofRat _ (toQ (fin s k) + toQ (fin s' k')) = _
  rw [e, hn]
  push_cast at h0 ⊢
  rw [← sub_eq_add_neg]
  unfold ofRat
  rw [if_neg h0, if_neg h0]

/-- The reduction of the benchmark's `_log`, with any function in the place of the fraction: the logarithm of `2^e x`, for `x` of `[1, 2)`, is that of `x` plus `e` times the constant `LOG2`, both
operations rounded, for every exponent of a normal double but 0 and -1. -/
theorem C131_binade (cf : F64 → F64) (x y : F64) (hx : isFin x) (hy : isFin y) (h0 : 1 ≤ toQ x) (h1 : toQ x < 2) (e : ℤ) (he : -1022 ≤ e) (he' : e ≠ 0) (he1 : e ≠ -1)
    (h : toQ y = 2 ^ e * toQ x) : Bench.log cf y = Bench.log cf x +. lit (e : ℚ) *. LOG2 := by
  rcases x with _ | _ | ⟨s, k⟩
  · exact absurd hx id
  · exact absurd hx id
  rcases y with _ | _ | ⟨s', k'⟩
  · exact absurd hy id
  · exact absurd hy id
  have hp : (0 : ℚ) < 2 ^ e := by positivity
  have y0 : 0 < toQ (fin s' k') := by rw [h]; positivity
  cases s with
  | true => rw [toQ_fin, if_pos rfl] at h0; have := mag_nonneg k.val; linarith
  | false =>
  cases s' with
  | true => rw [toQ_fin, if_pos rfl] at y0; have := mag_nonneg k'.val; linarith
  | false =>
  rw [toQ_fin, if_neg (by simp)] at h0 h1 h
  rw [toQ_fin, if_neg (by simp)] at h
  have hf : finCodes = 2047 * 2 ^ 52 := by decide
  have hk := BenchMath.code_of_binade (e := 0) (k := k.val) (by norm_num) (by rw [pow2_eq]; norm_num; exact h0) (by rw [pow2_eq]; norm_num; exact h1)
  have hk' := BenchMath.code_of_binade (e := e) (k := k'.val) he (by rw [pow2_eq, h]; nlinarith) (by rw [pow2_eq, h, zpow_add₀ (by norm_num), zpow_one]; nlinarith)
  have hk : k.val / 2 ^ 52 = 1023 := hk
  obtain ⟨v, hv, rfl⟩ : ∃ v : ℕ, 1 ≤ v ∧ e = v - 1023 := ⟨(e + 1023).toNat, by omega, by omega⟩
  have hk' : k'.val / 2 ^ 52 = v := by rw [hk']; omega
  have hv' : v < 2047 := by have := k'.isLt; omega
  have m1 : k.val % 2 ^ 52 < 2 ^ 52 := Nat.mod_lt _ (by norm_num)
  have m2 : k'.val % 2 ^ 52 < 2 ^ 52 := Nat.mod_lt _ (by norm_num)
  -- the same mantissa
  have hm : k'.val % 2 ^ 52 = k.val % 2 ^ 52 := by
    have a1 : k'.val = v * 2 ^ 52 + k'.val % 2 ^ 52 := by omega
    have a2 : k.val = 1023 * 2 ^ 52 + k.val % 2 ^ 52 := by omega
    rw [a1, a2, mag_normal (by omega) m2, mag_normal (by omega) m1] at h
    rw [← pow2_eq, mul_left_comm, ← pow2_add] at h
    have : pow2 ((v : ℤ) - 1023 + (((1023 : ℕ) : ℤ) - 1075)) = pow2 ((v : ℤ) - 1075) := by congr 1; push_cast; ring
    rw [this] at h
    have := mul_right_cancel₀ (pow2_pos _).ne' h
    have : 2 ^ 52 + k'.val % 2 ^ 52 = 2 ^ 52 + k.val % 2 ^ 52 := by exact_mod_cast this
    omega
  obtain ⟨hlt, es⟩ := BenchMath.setExponent_fin false k' (e := 1023) (v := 1023) rfl (by norm_num)
  have ex : Bench.setExponent (fin false k') 1023 = fin false k := by
    rw [es]
    congr 1
    ext
    dsimp only
    omega
  have b1 : (Bench.exponentBits (fin false k)).toNat = 1023 := by unfold Bench.exponentBits; rw [expField, hk]
  have b2 : (Bench.exponentBits (fin false k')).toNat = v := by unfold Bench.exponentBits; rw [expField, hk']
  have c1 : Bench.log cf (fin false k) = cf (fin false k) := by
    unfold Bench.log
    exact if_pos (.inr (by rw [← UInt64.toNat_inj, b1]; rfl))
  have c2 : ¬ (Bench.exponentBits (fin false k') = 1022 ∨ Bench.exponentBits (fin false k') = 1023) := by
    rw [← UInt64.toNat_inj, ← UInt64.toNat_inj, b2, show (1022 : UInt64).toNat = 1022 from rfl, show (1023 : UInt64).toNat = 1023 from rfl]
    omega
  have l := BenchMath.sub_lit (a := v) (b := 1023) (by rw [abs_of_nonneg (by omega)]; omega) (by norm_num) (by omega)
  rw [c1]
  unfold Bench.log
  rw [if_neg c2, ex, b2]
  push_cast at l
  rw [l]
  push_cast
  rfl

/-- 3/8 and 3/2 meet the hypotheses of `C131_binade` -/
example : Bench.log log_cf_11 (lit (3 / 8)) = Bench.log log_cf_11 (lit (3 / 2)) +. lit (-2) *. LOG2 :=
  C131_binade log_cf_11 (lit (3 / 2)) (lit (3 / 8)) (by decide +kernel) (by decide +kernel) (by decide +kernel) (by decide +kernel) (-2) (by norm_num) (by norm_num) (by norm_num)
    (by have : toQ (lit (3 / 8) : F64) = 1 / 4 * toQ (lit (3 / 2) : F64) := by decide +kernel
        rw [this]; norm_num)

/-- **C131** (negation). At the first double after 1 the logarithm of the benchmark programs is 2^-52 and that of the library 2^-53, half of it; at 3/8 they are
different too. At -3 the benchmark's is a number where the library's is NaN, and at 0 it is a finite number where the library's is -inf. -/
theorem C131_false : ∃ x : F64, toQ x = 1 + 1 / 2 ^ 52 ∧ Bench.log log_cf_11 x = lit (1 / 2 ^ 52) ∧ xlog muslFU x = lit (1 / 2 ^ 53) ∧
    Bench.log log_cf_11 (lit (3 / 8)) ≠ xlog muslFU (lit (3 / 8)) ∧
    isFin (Bench.log log_cf_11 (lit (-3))) ∧ xlog muslFU (lit (-3) : F64) = nan ∧ isFin (Bench.log log_cf_11 (lit 0)) ∧ xlog muslFU (lit 0 : F64) = inf true := by
  refine ⟨lit (1 + 1 / 2 ^ 52), ?_⟩
  decide +kernel

/-! ### C132: the exponential and the power -/

/-- **C132** (partial). On doubles: for every argument between -709 and 709, and for NaN, the `_exp` of benchmark/pow_accuracy_speed.c returns the double that `xexp`
returns. Missing: the other doubles (`C132_false`). -/
theorem C132_partial (x : F64) (hx : x = nan ∨ isFin x ∧ |toQ x| ≤ 709) : Bench.exp exp_cf_6 x = xexp muslFU x := by
  rcases hx with rfl | ⟨hx, h⟩
  · decide +kernel
  obtain ⟨ha, hb⟩ := abs_le.mp h
  unfold Bench.exp xexp
  rw [(F64.is_nan_false _).mpr (isFin.notNaN hx)]
  simp only [Bool.false_eq_true, if_false]
  rw [BenchMath.expNonneg_eq (x := x) hx hb, BenchMath.expNonneg_eq (x := -. x) (isFin_neg.mpr hx) (by
    show toQ (F64.neg x) ≤ 709
    rw [toQ_neg]; linarith)]

example : Bench.exp exp_cf_6 (lit (-3)) = xexp muslFU (lit (-3)) := C132_partial _ (.inr (by decide +kernel))

/-- The power of the benchmark is that of the library for a base of `[1/2, 1)`, when the computed exponent of `e` is at most 709. -/
theorem C132_pow (x alpha : F64) (hx : isFin x) (h0 : 1 / 2 ≤ toQ x) (h1 : toQ x < 1) (h : isFin (alpha *. xlog muslFU x) ∧ |toQ (alpha *. xlog muslFU x)| ≤ 709) :
    Bench.pow x alpha = xpow (codeMath muslFU) x alpha := by
  unfold Bench.pow xpow
  rw [C131_partial x hx h0 h1, C132_partial _ (.inr h)]
  rfl

example : Bench.pow (lit (3 / 4)) (lit 100) = xpow (codeMath muslFU) (lit (3 / 4)) (lit 100) :=
  C132_pow _ _ (by decide +kernel) (by decide +kernel) (by decide +kernel) (by decide +kernel)

/-- In exact arithmetic the fraction that benchmark/exp_cf_speed.c measures is that of the library, for every real number. -/
theorem C132_fraction (z : ℝ) : Bench.exp_cf_6' (XR.fin z) = exp_cf_6 (XR.fin z) := by
  have h : ((XR.fin z *. XR.fin z) *. (XR.fin z *. XR.fin z +. lit 396) /. (lit 6 *. (XR.fin z *. XR.fin z +. lit 154)) +. lit 60 : XR) =
      lit 60 *. (XR.fin z *. XR.fin z) /. (lit 140 *. (XR.fin z *. XR.fin z) /. (lit 7 *. (XR.fin z *. XR.fin z) /. lit 11 +. lit 252) +. lit 140) +. lit 60 := by
    have hz : 0 ≤ z * z := mul_self_nonneg z
    simp only [XR.lit_fin, XR.mul_ff, XR.add_ff]
    push_cast
    have a1 : 7 * (z * z) / 11 + 252 ≠ 0 := by positivity
    have a2 : 140 * (z * z) / (7 * (z * z) / 11 + 252) + 140 ≠ 0 := by positivity
    have a3 : 6 * (z * z + 154) ≠ 0 := by positivity
    rw [XR.div_ff a3, XR.div_ff (by norm_num : (11 : ℝ) ≠ 0), XR.add_ff, XR.add_ff, XR.div_ff a1, XR.add_ff, XR.div_ff a2, XR.add_ff]
    congr 1
    have a4 : z * z + 154 ≠ 0 := by positivity
    have a5 : 7 * (z * z) + 252 * 11 ≠ 0 := by positivity
    have a6 : 140 * (z * z) * 11 + 140 * (7 * (z * z) + 252 * 11) ≠ 0 := by positivity
    field_simp
    ring
  unfold Bench.exp_cf_6' exp_cf_6
  dsimp only
  rw [h]

/-- **C132** (negation). At 710 the `_exp` of the benchmark is NaN and `xexp` is +inf; at 720 the `_exp` of the benchmark is less than 2^-1000: the addition to the exponent
field wraps around. -/
theorem C132_false : Bench.exp exp_cf_6 (lit 710) = .ok nan ∧ xexp muslFU (lit 710 : F64) = .ok (inf false) ∧
    ∃ y, Bench.exp exp_cf_6 (lit 720) = .ok y ∧ isFin y ∧ 0 < toQ y ∧ toQ y < 1 / 2 ^ 1000 := by
  refine ⟨by decide +kernel, by decide +kernel, ?_⟩
  have a : (match Bench.exp exp_cf_6 (lit 720) with | .ok y => decide (isFin y) && decide (0 < toQ y ∧ toQ y < 1 / 2 ^ 1000) | .error _ => false) = true := by decide +kernel
  cases h : Bench.exp exp_cf_6 (lit 720) with
  | error e => rw [h] at a; cases a
  | ok y =>
    rw [h] at a
    simp only [Bool.and_eq_true, decide_eq_true_eq] at a
    exact ⟨y, rfl, a.1, a.2.1, a.2.2⟩

/-! ### C133: the mantissa error -/

namespace BenchMath

theorem significand_fin (s : Bool) (k : Fin finCodes) : (Bench.significandBits (fin s k)).toNat = k.val % 2 ^ 52 := by
  unfold Bench.significandBits
  rw [UInt64.toNat_and, toBits_fin, show (0xfffffffffffff : UInt64).toNat = 2 ^ 52 - 1 from rfl, Nat.and_two_pow_sub_one_eq_mod]
  cases s <;> simp only [sb, if_true, if_false, Bool.false_eq_true] <;> omega

/-- the error of one point: lines 170-176 of benchmark/pow_accuracy_speed.c -/
def err (a b : F64) : UInt64 :=
  if Bench.significandBits a ≥ Bench.significandBits b then Bench.significandBits a - Bench.significandBits b
  else Bench.significandBits b - Bench.significandBits a

theorem err_nat (s t : Bool) (j k : Fin finCodes) : ((err (fin s j) (fin t k)).toNat : ℚ) = |((j.val % 2 ^ 52 : ℕ) : ℚ) - ((k.val % 2 ^ 52 : ℕ) : ℚ)| := by
  have e1 := significand_fin s j
  have e2 := significand_fin t k
  unfold err
  split
  · rename_i h
    have h : (Bench.significandBits (fin t k)).toNat ≤ (Bench.significandBits (fin s j)).toNat := h
    rw [UInt64.toNat_sub_of_le _ _ h, e1, e2]
    rw [e1, e2] at h
    rw [Nat.cast_sub h, abs_of_nonneg]
    have : ((k.val % 2 ^ 52 : ℕ) : ℚ) ≤ ((j.val % 2 ^ 52 : ℕ) : ℚ) := by exact_mod_cast h
    linarith
  · rename_i h
    have h : (Bench.significandBits (fin s j)).toNat ≤ (Bench.significandBits (fin t k)).toNat := le_of_not_ge h
    rw [UInt64.toNat_sub_of_le _ _ h, e1, e2]
    rw [e1, e2] at h
    rw [Nat.cast_sub h, abs_sub_comm, abs_of_nonneg]
    have : ((j.val % 2 ^ 52 : ℕ) : ℚ) ≤ ((k.val % 2 ^ 52 : ℕ) : ℚ) := by exact_mod_cast h
    linarith

/-- in one binade the error is the distance in units in the last place -/
theorem err_ulp {a b : F64} {e : ℤ} (ha : isFin a) (hb : isFin b) (he : -1022 ≤ e) (hs : 0 < toQ a * toQ b) (a0 : 2 ^ e ≤ |toQ a|) (a1 : |toQ a| < 2 ^ (e + 1))
    (b0 : 2 ^ e ≤ |toQ b|) (b1 : |toQ b| < 2 ^ (e + 1)) : |toQ a - toQ b| = (err a b).toNat * 2 ^ (e - 52) := by
  rcases a with _ | _ | ⟨s, j⟩
  · exact absurd ha id
  · exact absurd ha id
  rcases b with _ | _ | ⟨t, k⟩
  · exact absurd hb id
  · exact absurd hb id
  have hj := mag_nonneg j.val
  have hk := mag_nonneg k.val
  have hst : s = t := by
    cases s <;> cases t <;> simp only [toQ_fin] at hs ⊢ <;> simp at hs
    · nlinarith
    · nlinarith
  subst hst
  have m1 : |toQ (fin s j)| = mag j.val := by rw [toQ_fin]; cases s <;> simp [abs_of_nonneg hj]
  have m2 : |toQ (fin s k)| = mag k.val := by rw [toQ_fin]; cases s <;> simp [abs_of_nonneg hk]
  have m3 : |toQ (fin s j) - toQ (fin s k)| = |mag j.val - mag k.val| := by
    rw [toQ_fin, toQ_fin]
    cases s
    · simp
    · simp only [if_true]
      rw [← abs_neg]
      congr 1
      ring
  rw [m1] at a0 a1
  rw [m2] at b0 b1
  have cj := code_of_binade he (by rwa [pow2_eq]) (by rwa [pow2_eq] : mag j.val < _)
  have ck := code_of_binade he (by rwa [pow2_eq]) (by rwa [pow2_eq] : mag k.val < _)
  rw [m3, err_nat]
  have form : ∀ {c : ℕ}, c / 2 ^ 52 = (e + 1023).toNat → mag c = ((2 ^ 52 + c % 2 ^ 52 : ℕ) : ℚ) * 2 ^ (e - 52) := by
    intro c hc
    have h : c = (e + 1023).toNat * 2 ^ 52 + c % 2 ^ 52 := by omega
    conv_lhs => rw [h]
    rw [mag_normal (by omega) (Nat.mod_lt _ (by norm_num)), pow2_eq]
    congr 2
    omega
  rw [form cj, form ck, ← sub_mul, abs_mul, abs_of_pos (show (0 : ℚ) < 2 ^ (e - 52) by positivity)]
  congr 2
  push_cast
  ring

theorem fold_max (f : F64 → UInt64) (xs : List F64) (r : UInt64) :
    r ≤ xs.foldl (fun r x => if f x > r then f x else r) r ∧ (∀ x ∈ xs, f x ≤ xs.foldl (fun r x => if f x > r then f x else r) r) ∧
    (xs.foldl (fun r x => if f x > r then f x else r) r = r ∨ ∃ x ∈ xs, xs.foldl (fun r x => if f x > r then f x else r) r = f x) := by
  induction xs generalizing r with
  | nil => exact ⟨UInt64.le_refl _, by simp, .inl rfl⟩
  | cons y ys ih =>
    obtain ⟨i1, i2, i3⟩ := ih (if f y > r then f y else r)
    rw [List.foldl_cons]
    have h1 : r ≤ if f y > r then f y else r := by split <;> rename_i h <;> [exact UInt64.le_of_lt h; exact UInt64.le_refl _]
    have h2 : f y ≤ if f y > r then f y else r := by split <;> rename_i h <;> [exact UInt64.le_refl _; exact UInt64.not_lt.mp h]
    refine ⟨UInt64.le_trans h1 i1, ?_, ?_⟩
    · intro x hx
      rcases List.mem_cons.mp hx with rfl | hx
      · exact UInt64.le_trans h2 i1
      · exact i2 x hx
    · rcases i3 with e | ⟨x, hx, e⟩
      · rw [e]
        split
        · exact .inr ⟨y, by simp, rfl⟩
        · exact .inl rfl
      · exact .inr ⟨x, by simp [hx], e⟩

theorem significand_eq (exact approx : F64 → F64) (xs : List F64) :
    Bench.significand exact approx xs = xs.foldl (fun r x => if err (exact x) (approx x) > r then err (exact x) (approx x) else r) 0 := rfl

end BenchMath

/-- **C133** (partial). On doubles: the mantissa error that the accuracy programs report for a list of points, if at each point `x` the two values are normal doubles of the same sign
in one binade `[2^e, 2^(e+1))`. It is the greatest distance of the two values in units `2^(e-52)` in the last place, or 0. Missing: values in different binades (`C133_false`). -/
theorem C133_partial (exact approx : F64 → F64) (xs : List F64) (e : F64 → ℤ)
    (h : ∀ x ∈ xs, isFin (exact x) ∧ isFin (approx x) ∧ -1022 ≤ e x ∧ 0 < toQ (exact x) * toQ (approx x) ∧
      (2 ^ e x ≤ |toQ (exact x)| ∧ |toQ (exact x)| < 2 ^ (e x + 1)) ∧ 2 ^ e x ≤ |toQ (approx x)| ∧ |toQ (approx x)| < 2 ^ (e x + 1)) :
    (∀ x ∈ xs, |toQ (exact x) - toQ (approx x)| ≤ (Bench.significand exact approx xs).toNat * 2 ^ (e x - 52)) ∧
    (Bench.significand exact approx xs = 0 ∨
      ∃ x ∈ xs, |toQ (exact x) - toQ (approx x)| = (Bench.significand exact approx xs).toNat * 2 ^ (e x - 52)) := by
  obtain ⟨-, f2, f3⟩ := BenchMath.fold_max (fun x => BenchMath.err (exact x) (approx x)) xs 0
  rw [BenchMath.significand_eq]
  refine ⟨fun x hx => ?_, ?_⟩
  · obtain ⟨h1, h2, h3, h4, ⟨h5, h6⟩, h7, h8⟩ := h x hx
    rw [BenchMath.err_ulp h1 h2 h3 h4 h5 h6 h7 h8]
    refine mul_le_mul_of_nonneg_right ?_ (by positivity)
    exact_mod_cast f2 x hx
  · rcases f3 with e | ⟨x, hx, e⟩
    · exact .inl e
    · refine .inr ⟨x, hx, ?_⟩
      obtain ⟨h1, h2, h3, h4, ⟨h5, h6⟩, h7, h8⟩ := h x hx
      rw [BenchMath.err_ulp h1 h2 h3 h4 h5 h6 h7 h8, e]

/-- the hypotheses of `C133_partial` can be met: the approximation is `x + 2^-51`, the exact function the identity and the points are 1 and 5/4, where the error is two units -/
example : Bench.significand id (fun x => x +. lit (1 / 2 ^ 51)) [lit 1, lit (5 / 4)] = 2 ∧
    ∀ x ∈ [(lit 1 : F64), lit (5 / 4)], |toQ (id x) - toQ (x +. lit (1 / 2 ^ 51))| ≤ 2 * 2 ^ ((0 : ℤ) - 52) := by
  have e : Bench.significand id (fun x => x +. lit (1 / 2 ^ 51)) [lit 1, lit (5 / 4)] = 2 := by decide +kernel
  have := (C133_partial id (fun x => x +. lit (1 / 2 ^ 51)) [lit 1, lit (5 / 4)] (fun _ => 0) (by
    intro x hx
    simp only [List.mem_cons, List.not_mem_nil, or_false] at hx
    rcases hx with rfl | rfl <;> decide +kernel)).1
  rw [e] at this
  exact ⟨e, this⟩

/-- **C133** (negation). For the value 2 and the approximation by the double before 2, one unit in the last place away, the reported mantissa error is 2^52 - 1; for the value 1 and the
approximation 2 it is 0. -/
theorem C133_false : ∃ b : F64, toQ b = 2 - 1 / 2 ^ 52 ∧ Bench.significand (fun _ => lit 2) (fun _ => b) [lit 0] = 2 ^ 52 - 1 ∧
    Bench.significand (fun _ => lit 1) (fun _ => lit 2) [lit 0] = 0 := by
  refine ⟨lit (2 - 1 / 2 ^ 52), ?_⟩
  decide +kernel

end Verif

/-
C54, C55, C67: the exponential.
-/
import Verif.Proofs.XexpF64
import Verif.Proofs.XmathXR

namespace Verif
open F64

/-! ### C54: exact arithmetic -/

/-- **C54** (first part). In exact arithmetic the fraction of `xexp` is within the relative error `1e-14` of the exponential on
`[0, log 2]`. -/
theorem C54_fraction (z : ℝ) (h0 : 0 ≤ z) (h1 : z ≤ Real.log 2) :
    ∃ r : ℝ, exp_cf_6 (.fin z : XR) = .fin r ∧ |r - Real.exp z| ≤ 1 / 10 ^ 14 * Real.exp z := by
  have h2 : z ≤ 7 / 10 := by have := log_two_bounds.2; linarith [(by norm_num : (6931471805599453094173 / 10 ^ 22 : ℝ) ≤ 7 / 10)]
  refine ⟨_, exp_cf_X (by linarith), ?_⟩
  have r := ExpCF.rel_err (z := z) (by rw [abs_of_nonneg h0]; linarith)
  refine r.trans (mul_le_mul_of_nonneg_right ?_ (Real.exp_pos z).le)
  rw [abs_of_nonneg h0]
  have hp : z ^ 13 ≤ (7 / 10) ^ 13 := pow_le_pow_left₀ h0 h2 13
  exact (div_le_div_of_nonneg_right hp (by norm_num)).trans (by norm_num)

/-- `xexp` on a non-negative real, with an exact `ldexp` -/
theorem xexpNonneg_X (fu : FloatUtils XR) (hl : ∀ (a : ℝ) (n : ℤ), fu.ldexp (.fin a) n = .fin (a * 2 ^ n)) (x : ℝ) (h0 : 0 ≤ x)
    (h1 : x < LN2 * 2 ^ 31) : ∃ a : ℝ, 0 < a ∧ xexpNonneg fu (.fin x) = .ok (.fin a) := by
  have hL : (LOG2 : XR) = .fin LN2 := by unfold LOG2 LN2; rw [XR.lit_fin]; norm_num
  obtain ⟨b1, b2⟩ := LN2_bounds
  have hLp : 0 < LN2 := by linarith
  have pos : ∀ z : ℝ, -2 < z → z < 2 → 0 < ExpCF.expCF z := fun z hz hz' => by
    rw [ExpCF.expCF_eq hz']; exact div_pos (ExpCF.P_pos hz) (ExpCF.P_pos (by linarith))
  unfold xexpNonneg
  rw [hL]
  by_cases h : LN2 < x
  · rw [if_pos (by rw [XR.lt_ff]; exact decide_eq_true h), XR.div_ff hLp.ne']
    have hq : 0 ≤ x / LN2 := by positivity
    have hf0 : 0 ≤ ⌊x / LN2⌋ := Int.floor_nonneg.mpr hq
    have hf : ⌊x / LN2⌋ < 2 ^ 31 := by
      rw [Int.floor_lt, div_lt_iff₀ hLp]; push_cast; linarith
    have ht : toUInt32 (XR.fin (x / LN2)) = .ok ⌊x / LN2⌋.toNat := by
      unfold toUInt32
      have : CDouble.trunc (XR.fin (x / LN2)) = some ⌊x / LN2⌋ := by
        show some (if 0 ≤ x / LN2 then _ else _) = _
        rw [if_pos hq]
      rw [this]
      dsimp only
      rw [if_pos ⟨hf0, by omega⟩]
    rw [ht]
    obtain ⟨k, hk⟩ : ∃ k : ℕ, ⌊x / LN2⌋ = k := ⟨_, (Int.toNat_of_nonneg hf0).symm⟩
    rw [hk]
    have k1 : (k : ℝ) * LN2 ≤ x := by
      have := Int.floor_le (x / LN2); rw [hk] at this
      rw [le_div_iff₀ hLp] at this; exact_mod_cast this
    have k2 : x < (k + 1) * LN2 := by
      have := Int.lt_floor_add_one (x / LN2); rw [hk] at this
      rw [div_lt_iff₀ hLp] at this; exact_mod_cast this
    show ∃ a : ℝ, 0 < a ∧ Except.ok (fu.ldexp (exp_cf_6 _) _) = _
    rw [XR.lit_fin, XR.mul_ff, XR.sub_ff]
    have e : x - LN2 * (((k : ℤ).toNat : ℚ) : ℝ) = x - LN2 * k := by simp
    rw [e, exp_cf_X (by linarith), hl]
    refine ⟨_, ?_, rfl⟩
    have := pos (x - LN2 * k) (by linarith) (by linarith)
    positivity
  · rw [if_neg (by rw [XR.lt_ff, decide_eq_true_eq]; exact h), exp_cf_X (by linarith)]
    exact ⟨_, pos x (by linarith) (by linarith), rfl⟩

/-- **C54** (second part). `xexp` is 1 at 0. -/
theorem C54_zero (fu : FloatUtils XR) : xexp fu (.fin 0) = .ok (.fin 1) := by
  have hL : (LOG2 : XR) = .fin LN2 := by unfold LOG2 LN2; rw [XR.lit_fin]; norm_num
  obtain ⟨b1, b2⟩ := LN2_bounds
  unfold xexp
  rw [XR.nan_f, if_neg (by simp), if_neg (by rw [XR.lit_fin, XR.lt_ff]; norm_num)]
  unfold xexpNonneg
  rw [hL, if_neg (by rw [XR.lt_ff, decide_eq_true_eq]; linarith), exp_cf_X (by norm_num)]
  unfold ExpCF.expCF; norm_num

/-- **C54** (third part). `xexp(-x) * xexp(x) = 1` in exact arithmetic, over the whole range where the exponent fits an `int`. -/
theorem C54_inverse (fu : FloatUtils XR) (hl : ∀ (a : ℝ) (n : ℤ), fu.ldexp (.fin a) n = .fin (a * 2 ^ n)) (x : ℝ)
    (h : |x| < LN2 * 2 ^ 31) :
    ∃ a b : ℝ, xexp fu (.fin x) = .ok (.fin a) ∧ xexp fu (.fin (-x)) = .ok (.fin b) ∧ a * b = 1 ∧ 0 < a := by
  have key : ∀ x : ℝ, 0 < x → x < LN2 * 2 ^ 31 →
      ∃ a b : ℝ, xexp fu (.fin x) = .ok (.fin a) ∧ xexp fu (.fin (-x)) = .ok (.fin b) ∧ a * b = 1 ∧ 0 < a := by
    intro x h0 h1
    obtain ⟨a, ha, e⟩ := xexpNonneg_X fu hl x h0.le h1
    refine ⟨a, 1 / a, ?_, ?_, by field_simp, ha⟩
    · unfold xexp
      rw [XR.nan_f, if_neg (by simp), if_neg (by rw [XR.lit_fin, XR.lt_ff, decide_eq_true_eq]; push_cast; linarith), e]
    · unfold xexp
      rw [XR.nan_f, if_neg (by simp), if_pos (by rw [XR.lit_fin, XR.lt_ff, decide_eq_true_eq]; push_cast; linarith), XR.neg_f, _root_.neg_neg, e]
      show Except.ok (lit 1 /. XR.fin a) = _
      rw [XR.lit_fin, XR.div_ff ha.ne']; norm_num
  rcases lt_trichotomy x 0 with hx | hx | hx
  · rw [abs_of_neg hx] at h
    obtain ⟨a, b, h1, h2, h3, h4⟩ := key (-x) (by linarith) h
    rw [_root_.neg_neg] at h2
    have hb : 0 < b := by
      by_contra hb
      have := mul_nonneg h4.le (neg_nonneg.mpr (not_lt.mp hb))
      linarith
    exact ⟨b, a, h2, h1, by rw [mul_comm]; exact h3, hb⟩
  · subst hx
    rw [neg_zero, C54_zero]
    exact ⟨1, 1, rfl, rfl, by norm_num, by norm_num⟩
  · rw [abs_of_pos hx] at h
    exact key x hx h

/-- the hypotheses of `C54_inverse` can be met -/
example : ∃ a b : ℝ, xexp (⟨fun x n => x *. .fin (2 ^ n), fun x _ => (x, 0)⟩ : FloatUtils XR) (.fin 100) = .ok (.fin a) ∧
    xexp (⟨fun x n => x *. .fin (2 ^ n), fun x _ => (x, 0)⟩ : FloatUtils XR) (.fin (-100)) = .ok (.fin b) ∧ a * b = 1 ∧ 0 < a :=
  C54_inverse _ (fun _ _ => rfl) 100 (by have := LN2_bounds.1; rw [abs_of_pos (by norm_num)]; linarith)

/-! ### C67: accuracy in binary64 -/

theorem xexpNonneg_small {x : F64} (hx : isFin x) (h0 : 0 ≤ toR x) (h1 : toR x ≤ LN2) :
    xexpNonneg muslFU x = .ok (exp_cf_6 x) ∧ isFin (exp_cf_6 x) ∧
      |toR (exp_cf_6 x) - Real.exp (toR x)| ≤ 27 / 10 ^ 16 * Real.exp (toR x) := by
  obtain ⟨b1, b2⟩ := LN2_bounds
  have lR : toR (LOG2 : F64) = LN2 := by unfold toR LN2; rw [LOG2_fin.2]; norm_num
  refine ⟨?_, exp_cf_rel hx (by linarith) (by linarith)⟩
  unfold xexpNonneg
  rw [if_neg]
  intro h
  obtain ⟨-, -, h⟩ := (F64.lt_iff _ _).mp h
  rw [val_fin LOG2_fin.1, val_fin hx, ratCast_lt_EReal] at h
  have : toR (LOG2 : F64) < toR x := Rat.cast_lt.mpr h
  linarith

theorem exp_709 : Real.exp 709 * (1001 / 1000) < 2 ^ 1023 := by
  have h := log_two_bounds.1
  have h2 : (2 : ℝ) ^ 1023 = Real.exp (1023 * Real.log 2) := by
    have := Real.exp_log (show (0 : ℝ) < 2 ^ 1023 by positivity)
    rw [Real.log_pow] at this
    rw [← this]; norm_num
  have h3 : (1001 / 1000 : ℝ) ≤ Real.exp (1 / 1000) := by have := Real.add_one_le_exp (1 / 1000 : ℝ); linarith
  calc Real.exp 709 * (1001 / 1000) ≤ Real.exp 709 * Real.exp (1 / 1000) := mul_le_mul_of_nonneg_left h3 (Real.exp_pos _).le
    _ = Real.exp (709 + 1 / 1000) := (Real.exp_add _ _).symm
    _ < Real.exp (1023 * Real.log 2) := by
      apply Real.exp_lt_exp.mpr
      have : (709 + 1 / 1000 : ℝ) < 1023 * (6931471805599453094172 / 10 ^ 22) := by norm_num
      linarith
    _ = _ := h2.symm

theorem xexp_nonneg_acc {x : F64} (hx : isFin x) (h0 : 0 ≤ toR x) (h1 : toR x ≤ 709) :
    ∃ y, xexpNonneg muslFU x = .ok y ∧ isFin y ∧
      |toR y - Real.exp (toR x)| ≤ (3 / 10 ^ 15 + 2 / 10 ^ 16 * toR x) * Real.exp (toR x) := by
  rcases le_or_gt (toR x) LN2 with h | h
  · obtain ⟨a, b, c⟩ := xexpNonneg_small hx h0 h
    exact ⟨_, a, b, c.trans (mul_le_mul_of_nonneg_right (by linarith) (Real.exp_pos _).le)⟩
  · obtain ⟨k, y, -, e, y1, y2, y3⟩ := xexp_core hx h (by linarith)
    have hlt : toR y * 2 ^ k < 2 ^ 1023 := by
      have h2 := (abs_le.mp y3).2
      have h3 : Real.exp (toR x) ≤ Real.exp 709 := Real.exp_le_exp.mpr h1
      have h4 : (3 / 10 ^ 15 + 2 / 10 ^ 16 * toR x) * Real.exp (toR x) ≤ 1 / 1000 * Real.exp (toR x) :=
        mul_le_mul_of_nonneg_right (by linarith) (Real.exp_pos _).le
      exact lt_of_le_of_lt (by linarith) exp_709
    obtain ⟨s1, s2⟩ := (scale_up y1 y2 k).1 hlt
    exact ⟨_, e, s1, by rw [s2]; exact y3⟩

theorem exp_m708 : 13 / 10 * ((pow2 (-1022) : ℚ) : ℝ) ≤ Real.exp (-708) := by
  have h := log_two_bounds.1
  have h2 : ((pow2 (-1022) : ℚ) : ℝ) = Real.exp (-(1022 * Real.log 2)) := by
    rw [pow2_eq, Rat.cast_zpow, Rat.cast_ofNat]
    have := Real.exp_log (show (0 : ℝ) < 2 ^ (-1022 : ℤ) by positivity)
    rw [Real.log_zpow] at this
    rw [← this]; congr 1; push_cast; ring
  have h3 : (13 / 10 : ℝ) ≤ Real.exp (3 / 10) := by have := Real.add_one_le_exp (3 / 10 : ℝ); linarith
  rw [h2]
  calc 13 / 10 * Real.exp (-(1022 * Real.log 2)) ≤ Real.exp (3 / 10) * Real.exp (-(1022 * Real.log 2)) :=
        mul_le_mul_of_nonneg_right h3 (Real.exp_pos _).le
    _ = Real.exp (3 / 10 + -(1022 * Real.log 2)) := (Real.exp_add _ _).symm
    _ ≤ Real.exp (-708) := by
      apply Real.exp_le_exp.mpr
      have : (708 + 3 / 10 : ℝ) ≤ 1022 * (6931471805599453094172 / 10 ^ 22) := by norm_num
      linarith

/-- reciprocal of an approximation, in the reals -/
theorem recip_err {y E ε : ℝ} (hE : 0 < E) (h : |y - E| ≤ ε * E) (hε : ε ≤ 1 / 10 ^ 12) :
    0 < y ∧ |1 / y - 1 / E| ≤ (ε + 1 / 10 ^ 20) * (1 / E) := by
  obtain ⟨h1, h2⟩ := abs_le.mp h
  have hε0 : 0 ≤ ε := by
    by_contra hc
    have := (abs_nonneg _).trans h
    have := mul_neg_of_neg_of_pos (not_le.mp hc) hE
    linarith
  have hy : (1 - 1 / 10 ^ 12) * E ≤ y := by
    have := mul_le_mul_of_nonneg_right hε hE.le
    linarith
  have hy0 : 0 < y := by
    refine lt_of_lt_of_le (mul_pos (by norm_num) hE) hy
  refine ⟨hy0, ?_⟩
  have e : 1 / y - 1 / E = (E - y) / (y * E) := by field_simp
  rw [e, abs_div, abs_of_pos (mul_pos hy0 hE), div_le_iff₀ (mul_pos hy0 hE), abs_sub_comm]
  refine h.trans ?_
  have e2 : (ε + 1 / 10 ^ 20) * (1 / E) * (y * E) = (ε + 1 / 10 ^ 20) * y := by field_simp
  rw [e2]
  have h3 : (ε + 1 / 10 ^ 20) * ((1 - 1 / 10 ^ 12) * E) ≤ (ε + 1 / 10 ^ 20) * y :=
    mul_le_mul_of_nonneg_left hy (by positivity)
  refine le_trans ?_ h3
  have h4 : ε ≤ (ε + 1 / 10 ^ 20) * (1 - 1 / 10 ^ 12) := by
    have : ε / 10 ^ 12 ≤ 1 / 10 ^ 24 := by
      rw [div_le_iff₀ (by positivity)]; exact hε.trans (by norm_num)
    have : (1 : ℝ) / 10 ^ 24 + 1 / 10 ^ 32 ≤ 1 / 10 ^ 20 := by norm_num
    nlinarith
  nlinarith

/-- **C67**. With the rounding of the machine: for every double in `[-708, 709]`, where the exponential is a normal double, `xexp`
has no undefined behaviour and returns a finite number within the relative error `4e-15 + 2e-16 * |x|` of the exponential. -/
theorem C67_accuracy (x : F64) (hx : isFin x) (h0 : -708 ≤ toR x) (h1 : toR x ≤ 709) :
    ∃ y, xexp muslFU x = .ok y ∧ isFin y ∧
      |toR y - Real.exp (toR x)| ≤ (4 / 10 ^ 15 + 2 / 10 ^ 16 * |toR x|) * Real.exp (toR x) := by
  have z0 : isFin (lit 0 : F64) ∧ toQ (lit 0 : F64) = 0 := by decide +kernel
  have hlt : (x <. lit 0) = true ↔ toR x < 0 := by
    refine (F64.lt_iff _ _).trans ?_
    rw [val_fin hx, val_fin z0.1, z0.2, ratCast_lt_EReal]
    unfold toR
    constructor
    · intro h; exact_mod_cast h.2.2
    · intro h; exact ⟨hx.notNaN, z0.1.notNaN, by exact_mod_cast h⟩
  have hnan : is_nan x = false := (F64.is_nan_false _).mpr hx.notNaN
  unfold xexp
  rw [hnan, if_neg (by simp)]
  rcases lt_or_ge (toR x) 0 with h | h
  · rw [if_pos (hlt.mpr h)]
    have hn : isFin (-. x) := isFin_neg.mpr hx
    have hnR : toR (-. x) = - toR x := by
      unfold toR; rw [show toQ (-. x) = - toQ x from toQ_neg x]; push_cast; rfl
    obtain ⟨y, e, y1, y2⟩ := xexp_nonneg_acc hn (by rw [hnR]; linarith) (by rw [hnR]; linarith)
    rw [e]
    refine ⟨lit 1 /. y, rfl, ?_⟩
    rw [hnR] at y2
    have hE := Real.exp_pos (- toR x)
    obtain ⟨r1, r2⟩ := recip_err hE y2 (by linarith)
    have hinv : 1 / Real.exp (- toR x) = Real.exp (toR x) := by rw [Real.exp_neg]; field_simp
    rw [hinv] at r2
    have hE' := Real.exp_pos (toR x)
    have one : isFin (lit 1 : F64) ∧ toQ (lit 1 : F64) = 1 := by decide +kernel
    have hyq : 0 < toQ y := by unfold toR at r1; exact_mod_cast r1
    have hcast : ((toQ (lit 1 : F64) / toQ y : ℚ) : ℝ) = 1 / toR y := by rw [one.2]; unfold toR; push_cast; rfl
    have hlo : (99 / 100) * Real.exp (toR x) ≤ 1 / toR y := by
      have h3 := (abs_le.mp r2).1
      have h4 : (3 / 10 ^ 15 + 2 / 10 ^ 16 * -toR x + 1 / 10 ^ 20) * Real.exp (toR x) ≤ 1 / 100 * Real.exp (toR x) :=
        mul_le_mul_of_nonneg_right (by linarith) hE'.le
      linarith
    have hpos : (0 : ℚ) < toQ (lit 1 : F64) / toQ y := by rw [one.2]; positivity
    have htiny : pow2 (-1022) ≤ |toQ (lit 1 : F64) / toQ y| := by
      rw [abs_of_pos hpos]
      have : ((pow2 (-1022) : ℚ) : ℝ) ≤ ((toQ (lit 1 : F64) / toQ y : ℚ) : ℝ) := by
        rw [hcast]
        have h5 := exp_m708
        have h6 : Real.exp (-708) ≤ Real.exp (toR x) := Real.exp_le_exp.mpr h0
        have h7 : (0 : ℝ) < ((pow2 (-1022) : ℚ) : ℝ) := by exact_mod_cast pow2_pos _
        linarith
      exact_mod_cast this
    have hbig : |toQ (lit 1 : F64) / toQ y| ≤ pow2 1023 := by
      rw [abs_of_pos hpos]
      refine le_trans ?_ pow2_big
      have : ((toQ (lit 1 : F64) / toQ y : ℚ) : ℝ) ≤ ((10 ^ 60 : ℚ) : ℝ) := by
        rw [hcast]
        have h3 := (abs_le.mp r2).2
        have h4 : (3 / 10 ^ 15 + 2 / 10 ^ 16 * -toR x + 1 / 10 ^ 20) * Real.exp (toR x) ≤ 1 / 100 * Real.exp (toR x) :=
          mul_le_mul_of_nonneg_right (by linarith) hE'.le
        have h5 : Real.exp (toR x) ≤ 1 := Real.exp_le_one_iff.mpr h.le
        push_cast
        linarith
      exact_mod_cast this
    obtain ⟨d1, d2⟩ := div_fin' one.1 y1 hyq.ne' hbig
    refine ⟨d1, ?_⟩
    have d3 := rq_rel_real htiny
    have d4 : toR (lit 1 /. y) = ((rq (toQ (lit 1 : F64) / toQ y) : ℚ) : ℝ) := by unfold toR; rw [← d2]; rfl
    rw [d4, abs_of_neg h]
    rw [hcast, abs_of_pos (lt_of_lt_of_le (by positivity) hlo)] at d3
    have h3 := (abs_le.mp r2).2
    have h4 : (3 / 10 ^ 15 + 2 / 10 ^ 16 * -toR x + 1 / 10 ^ 20) * Real.exp (toR x) ≤ 1 / 100 * Real.exp (toR x) :=
      mul_le_mul_of_nonneg_right (by linarith) hE'.le
    have tri := abs_sub_le ((rq (toQ (lit 1 : F64) / toQ y) : ℚ) : ℝ) (1 / toR y) (Real.exp (toR x))
    have h5 : (3 / 10 ^ 15 + 2 / 10 ^ 16 * -toR x + 1 / 10 ^ 20 + 2 / 10 ^ 16) * Real.exp (toR x) ≤
        (4 / 10 ^ 15 + 2 / 10 ^ 16 * -toR x) * Real.exp (toR x) := mul_le_mul_of_nonneg_right (by linarith) hE'.le
    linarith
  · rw [if_neg (by rw [hlt]; linarith)]
    obtain ⟨y, e, y1, y2⟩ := xexp_nonneg_acc hx h h1
    refine ⟨y, e, y1, y2.trans ?_⟩
    rw [abs_of_nonneg h]
    exact mul_le_mul_of_nonneg_right (by linarith) (Real.exp_pos _).le

/-- a double of each sign in the range -/
example : (isFin (lit (-1 / 3) : F64) ∧ toQ (lit (-1 / 3) : F64) < 0 ∧ -708 ≤ toQ (lit (-1 / 3) : F64)) ∧
    isFin (lit (1234 / 10) : F64) ∧ 123 < toQ (lit (1234 / 10) : F64) ∧ toQ (lit (1234 / 10) : F64) ≤ 709 := by decide +kernel

/-! ### C55: the extremes -/

/-- **C55** is false of the code: the conversion to `unsigned int` is undefined for infinite arguments and from `2^32 * LOG2` on;
from `2^31 * LOG2` on the exponent is taken as a negative one, so that `xexp(2e9)` is 0, `xexp(-2e9)` is infinite and
`xexp(2977044471)` is between 0 and 1. -/
theorem C55_false :
    xexp muslFU (inf false) = .error .floatConv ∧ xexp muslFU (inf true) = .error .floatConv ∧
    xexp muslFU (lit 3000000000) = .error .floatConv ∧ xexp muslFU (lit (-3000000000)) = .error .floatConv ∧
    xexp muslFU (lit 2000000000) = .ok (lit 0) ∧ xexp muslFU (lit (-2000000000)) = .ok (inf false) ∧
    (∃ y, xexp muslFU (lit 2977044471) = .ok y ∧ isFin y ∧ 0 < toQ y ∧ toQ y < 1) := by
  refine ⟨by decide +kernel, by decide +kernel, by decide +kernel, by decide +kernel, by decide +kernel, by decide +kernel, ?_⟩
  exact ⟨ofBits 4601609128038159496, by decide +kernel, by decide +kernel, by decide +kernel, by decide +kernel⟩

theorem exp_710 : (2 : ℝ) ^ 1024 ≤ Real.exp 710 * (999 / 1000) := by
  have h := log_two_bounds.2
  have h2 : (2 : ℝ) ^ 1024 = Real.exp (1024 * Real.log 2) := by
    have := Real.exp_log (show (0 : ℝ) < 2 ^ 1024 by positivity)
    rw [Real.log_pow] at this
    rw [← this]; norm_num
  have h3 : (1000 / 999 : ℝ) ≤ Real.exp (1 / 10) := by have := Real.add_one_le_exp (1 / 10 : ℝ); linarith
  have h4 : Real.exp (1024 * Real.log 2) * (1000 / 999) ≤ Real.exp 710 := by
    calc Real.exp (1024 * Real.log 2) * (1000 / 999) ≤ Real.exp (1024 * Real.log 2) * Real.exp (1 / 10) :=
          mul_le_mul_of_nonneg_left h3 (Real.exp_pos _).le
      _ = Real.exp (1024 * Real.log 2 + 1 / 10) := (Real.exp_add _ _).symm
      _ ≤ Real.exp 710 := by
        apply Real.exp_le_exp.mpr
        have : 1024 * (6931471805599453094173 / 10 ^ 22) + 1 / 10 ≤ (710 : ℝ) := by norm_num
        linarith
  rw [h2]
  linarith

theorem xexpNonneg_over {x : F64} (hx : isFin x) (h0 : 710 ≤ toR x) (h1 : toQ x < toQ (LOG2 : F64) * 2 ^ 31) :
    xexpNonneg muslFU x = .ok (inf false) := by
  obtain ⟨b1, b2⟩ := LN2_bounds
  rcases le_or_gt (toR x) 1000 with h | h
  · obtain ⟨k, y, -, e, y1, y2, y3⟩ := xexp_core hx (by linarith) h
    rw [e, (scale_up y1 y2 k).2]
    have h2 := (abs_le.mp y3).1
    have h3 : Real.exp 710 ≤ Real.exp (toR x) := Real.exp_le_exp.mpr h0
    have h4 : (3 / 10 ^ 15 + 2 / 10 ^ 16 * toR x) * Real.exp (toR x) ≤ 1 / 1000 * Real.exp (toR x) :=
      mul_le_mul_of_nonneg_right (by linarith) (Real.exp_pos _).le
    refine exp_710.trans ?_
    linarith
  · have lp : 0 < toQ (LOG2 : F64) := by rw [LOG2_fin.2]; norm_num
    have h32 : toQ x < toQ (LOG2 : F64) * 2 ^ 32 := by linarith
    obtain ⟨k, -, k1, k2, k3, r1, r2, r3, r4, k4, k5⟩ := reduction hx (by linarith) h32
    have k31 := k2.mp h1
    have hu : uintToInt k = k := by unfold uintToInt; rw [if_pos k31]
    rw [hu] at k3
    obtain ⟨y1, y2⟩ := exp_cf_rel r1 r2 r3
    have hy : 1 / 2 ≤ toR (exp_cf_6 (x -. LOG2 *. lit (k : ℚ))) := by
      have h5 := Real.add_one_le_exp (toR (x -. LOG2 *. lit (k : ℚ)))
      have := (abs_le.mp y2).1
      linarith
    rw [k3, (scale_up y1 (by linarith) k).2]
    have hk : 1025 ≤ k := by
      by_contra hc
      have : (k : ℝ) + 1 ≤ 1025 := by
        have : k + 1 ≤ 1025 := by omega
        exact_mod_cast this
      have h6 : ((k : ℝ) + 1) * LN2 ≤ 1025 * LN2 := mul_le_mul_of_nonneg_right this (by linarith)
      linarith
    have hp : (2 : ℝ) ^ 1025 ≤ 2 ^ k := pow_le_pow_right₀ (by norm_num) hk
    have e : (2 : ℝ) ^ 1024 = 1 / 2 * 2 ^ 1025 := by rw [pow_succ (2 : ℝ) 1024, mul_comm (_ ^ _), ← mul_assoc]; norm_num
    rw [e]
    exact mul_le_mul hy hp (by positivity) (by linarith)

theorem xexpNonneg_dom {x : F64} (hx : notNaN x) (h0 : 0 ≤ val x) :
    (∃ y, xexpNonneg muslFU x = .ok y) ↔ isFin x ∧ toQ x < toQ (LOG2 : F64) * 2 ^ 32 := by
  obtain ⟨b1, b2⟩ := LN2_bounds
  have lR : toR (LOG2 : F64) = LN2 := by unfold toR LN2; rw [LOG2_fin.2]; norm_num
  rcases hx' : x with _ | s | ⟨s, c⟩
  · exact absurd hx' hx
  · have hs : s = false := by
      cases s
      · rfl
      · rw [hx'] at h0; exact absurd h0 (by simp [val])
    subst hs
    have : xexpNonneg muslFU (inf false) = .error .floatConv := by decide +kernel
    rw [this]
    exact ⟨fun ⟨y, hy⟩ => (nomatch hy), fun h => absurd h.1 id⟩
  · rw [← hx']
    have hf : isFin x := by rw [hx']; trivial
    have h0q : 0 ≤ toQ x := by
      rw [val_fin hf] at h0; exact_mod_cast h0
    refine ⟨fun ⟨y, hy⟩ => ⟨hf, ?_⟩, fun ⟨_, h⟩ => ?_⟩
    · by_contra hc
      have hc := not_lt.mp hc
      have lp : 0 < toQ (LOG2 : F64) := by rw [LOG2_fin.2]; norm_num
      have hgt : (x >. LOG2) = true := by
        refine (F64.lt_iff _ _).mpr ⟨LOG2_fin.1.notNaN, hx, ?_⟩
        rw [val_fin LOG2_fin.1, val_fin hf, ratCast_lt_EReal]
        linarith
      unfold xexpNonneg at hy
      rw [if_pos hgt, toUInt32_err ((quot_range hf (by linarith) (.inr rfl)).2 hc)] at hy
      exact nomatch hy
    · have h0R : 0 ≤ toR x := by unfold toR; exact_mod_cast h0q
      rcases le_or_gt (toR x) LN2 with h2 | h2
      · exact ⟨_, (xexpNonneg_small hf h0R h2).1⟩
      · obtain ⟨k, -, -, -, h3, -⟩ := reduction hf h2 h
        exact ⟨_, h3⟩

/-- **C55**, what holds. `xexp` has no undefined behaviour exactly for NaN and the doubles of magnitude less than `2^32 * LOG2`
(about 2.98e9); it returns NaN for NaN, `+inf` from 710 up to `2^31 * LOG2` (about 1.49e9) and 0 for the opposite arguments.
Missing (false): the infinities and the larger magnitudes. -/
theorem C55_partial (x : F64) :
    xexp muslFU nan = .ok nan ∧
    ((∃ y, xexp muslFU x = .ok y) ↔ x = nan ∨ (isFin x ∧ |toQ x| < toQ (LOG2 : F64) * 2 ^ 32)) ∧
    (isFin x → 710 ≤ toR x → toQ x < toQ (LOG2 : F64) * 2 ^ 31 → xexp muslFU x = .ok (inf false)) ∧
    (isFin x → toR x ≤ -710 → -toQ x < toQ (LOG2 : F64) * 2 ^ 31 → xexp muslFU x = .ok (lit 0)) := by
  have z0 : isFin (lit 0 : F64) ∧ toQ (lit 0 : F64) = 0 := by decide +kernel
  have v0 : val (lit 0 : F64) = 0 := by rw [val_fin z0.1, z0.2]; simp
  have hN : xexp muslFU nan = .ok nan := by decide +kernel
  have hlt : (x <. lit 0) = true ↔ notNaN x ∧ val x < 0 := by
    refine (F64.lt_iff _ _).trans ?_
    rw [v0]
    exact ⟨fun h => ⟨h.1, h.2.2⟩, fun h => ⟨h.1, z0.1.notNaN, h.2⟩⟩
  have hvR : isFin x → val x = ((toR x : ℝ) : EReal) := fun h => val_fin h
  refine ⟨hN, ?_, ?_, ?_⟩
  · by_cases hx : x = nan
    · subst hx; rw [hN]; exact ⟨fun _ => .inl rfl, fun _ => ⟨_, rfl⟩⟩
    · have hnan : is_nan x = false := (F64.is_nan_false _).mpr hx
      rw [or_iff_right hx]
      unfold xexp
      rw [hnan, if_neg (by simp)]
      by_cases h : (x <. lit 0) = true
      · rw [if_pos h]
        have hv := (hlt.mp h).2
        have hd := xexpNonneg_dom (x := -. x) (notNaN_neg.mpr hx)
          (by rw [show val (-. x) = - val x from val_neg x]; exact EReal.neg_nonneg.mpr hv.le)
        have e1 : isFin (-. x) ↔ isFin x := isFin_neg
        have e2 : toQ (-. x) = - toQ x := toQ_neg x
        rw [e1, e2] at hd
        have hab : isFin x → |toQ x| = - toQ x := fun hf => by
          rw [val_fin hf] at hv
          have : toQ x < 0 := by exact_mod_cast hv
          exact abs_of_neg this
        constructor
        · rintro ⟨y, hy⟩
          cases hr : xexpNonneg muslFU (-. x) with
          | error u => rw [hr] at hy; exact nomatch hy
          | ok r =>
            have := hd.mp ⟨r, hr⟩
            exact ⟨this.1, by rw [hab this.1]; exact this.2⟩
        · rintro ⟨hf, h2⟩
          rw [hab hf] at h2
          obtain ⟨r, hr⟩ := hd.mpr ⟨hf, h2⟩
          rw [hr]; exact ⟨_, rfl⟩
      · rw [if_neg h]
        have hv : 0 ≤ val x := by
          by_contra hc; exact h (hlt.mpr ⟨hx, not_le.mp hc⟩)
        rw [xexpNonneg_dom hx hv]
        constructor
        · rintro ⟨hf, h2⟩
          refine ⟨hf, ?_⟩
          rw [abs_of_nonneg]
          · exact h2
          · rw [val_fin hf] at hv; exact_mod_cast hv
        · rintro ⟨hf, h2⟩
          exact ⟨hf, lt_of_le_of_lt (le_abs_self _) h2⟩
  · intro hf h1 h2
    unfold xexp
    rw [(F64.is_nan_false _).mpr hf.notNaN, if_neg (by simp), if_neg, xexpNonneg_over hf h1 h2]
    rw [hlt, hvR hf]
    rintro ⟨-, h⟩
    have : toR x < 0 := by exact_mod_cast h
    linarith
  · intro hf h1 h2
    unfold xexp
    rw [(F64.is_nan_false _).mpr hf.notNaN, if_neg (by simp), if_pos]
    · have e2 : toQ (-. x) = - toQ x := toQ_neg x
      rw [xexpNonneg_over (x := -. x) (isFin_neg.mpr hf) _ (by rw [e2]; exact h2)]
      · show Except.ok (lit 1 /. inf false) = _
        decide +kernel
      · unfold toR; rw [e2]; push_cast
        have : ((toQ x : ℚ) : ℝ) ≤ -710 := h1
        linarith
    · rw [hlt, hvR hf]
      refine ⟨hf.notNaN, ?_⟩
      have : toR x < 0 := by linarith
      exact_mod_cast this

/-- arguments in each of the ranges -/
example : (isFin (lit 1000 : F64) ∧ toQ (lit 1000 : F64) = 1000) ∧ toQ (lit (-1000000000) : F64) = -1000000000 ∧
    (1000000000 : ℚ) < toQ (LOG2 : F64) * 2 ^ 31 ∧ toQ (LOG2 : F64) * 2 ^ 31 < 1500000000 ∧
    toQ (LOG2 : F64) * 2 ^ 32 < 3000000000 := by decide +kernel

end Verif

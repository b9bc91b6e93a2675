/-
The logarithm (C52, C53, C66).
-/
import Verif.Proofs.XlogF64
import Verif.Proofs.XmathXR

namespace Verif
open F64

/-! ### C52 -/

/-- False of the code at one double: the logarithm of +infinity is NaN. -/
theorem C52_false : xlog muslFU (inf false) = nan := by decide +kernel

/-- Everywhere else: NaN for NaN and negative arguments (-infinity included), -infinity for both zeros, a finite number for
every positive finite double. -/
theorem C52_partial (x : F64) :
    (x = nan → xlog muslFU x = nan) ∧ ((x <. lit 0) = true → xlog muslFU x = nan) ∧
    ((x ==. lit 0) = true → xlog muslFU x = inf true) ∧ (isFin x → 0 < toQ x → isFin (xlog muslFU x)) := by
  refine ⟨?_, ?_, ?_, fun h1 h2 => (xlog_exponent h1 h2).1⟩
  · rintro rfl; decide +kernel
  · intro h; unfold xlog; rw [h]; rfl
  · intro h
    have hx : x = zero false ∨ x = zero true := by
      rw [show (x ==. lit 0) = F64.eq x (lit 0) from rfl, F64.eq_iff] at h
      obtain ⟨hn, -, hv⟩ := h
      rw [lit_def, lit_zero, val_zero] at hv
      rcases x with _ | (_ | _) | ⟨s, k⟩
      · exact absurd rfl hn
      · simp [val] at hv
      · simp [val] at hv
      · rw [val_fin (x := fin s k) trivial] at hv
        have h0 : toQ (fin s k) = 0 := by exact_mod_cast hv
        have hk := toQ_eq_zero.mp h0
        have : k = ⟨0, by decide⟩ := Fin.ext hk
        rw [this]
        cases s
        · exact .inl rfl
        · exact .inr rfl
    rcases hx with rfl | rfl <;> decide +kernel

/-- each case occurs; the last one is the smallest positive double -/
example : ((lit (-3) : F64) <. lit 0) = true ∧ (zero true ==. lit 0) = true ∧ isFin (lit 7 : F64) ∧ 0 < toQ (lit 7 : F64) ∧
    0 < toQ (fin false ⟨1, by decide⟩) := by decide +kernel

/-! ### C53 -/

theorem log_quarter : Real.log (1 / 4) = -(2 * Real.log 2) := by
  rw [show (1 / 4 : ℝ) = ((2 : ℝ) ^ 2)⁻¹ by norm_num, Real.log_inv, Real.log_pow]; norm_num

/-- False of the code: `xlog` applies the fraction to 1/4 as it is, where its relative error is above 4e-11. -/
theorem C53_false (fu : FloatUtils XR) (hf : fu.frexp (.fin (1 / 4)) 0 = (.fin (1 / 2), -1)) :
    ∃ r : ℝ, xlog fu (.fin (1 / 4)) = .fin r ∧ 4 / 10 ^ 11 * |Real.log (1 / 4)| < |r - Real.log (1 / 4)| := by
  refine ⟨LogCF.logCF (1 / 4), ?_, ?_⟩
  · unfold xlog
    have h1 : ¬ ((XR.fin (1 / 4) : XR) <. lit 0 || is_nan (XR.fin (1 / 4) : XR)) = true := by
      rw [XR.lit_fin, XR.lt_ff, XR.nan_f]; norm_num
    have h2 : ¬ ((XR.fin (1 / 4) : XR) ==. lit 0) = true := by
      rw [XR.lit_fin, XR.eq_ff]; norm_num
    rw [if_neg h1, if_neg h2]
    dsimp only
    rw [hf]
    dsimp only
    rw [if_pos (.inr rfl), log_cf_X (by norm_num)]
  · rw [log_quarter]
    obtain ⟨a, b⟩ := log_two_bounds
    have h : (13862943610549 : ℝ) / 10 ^ 13 < -LogCF.logCF (1 / 4) ∧ -LogCF.logCF (1 / 4) < 13862943610550 / 10 ^ 13 := by
      rw [LogCF.logCF_eq (by norm_num)]; unfold LogCF.N1 LogCF.N2; norm_num
    have n1 : (0 : ℝ) < 6931471805599453094172 / 10 ^ 22 := by norm_num
    rw [abs_neg, abs_of_pos (by linarith), lt_abs]
    left
    have n2 : (6931471805599453094173 / 10 ^ 22 : ℝ) ≤ 6931471805600 / 10 ^ 13 := by norm_num
    have n3 : (6931471805599 / 10 ^ 13 : ℝ) ≤ 6931471805599453094172 / 10 ^ 22 := by norm_num
    linarith

example : ∃ fu : FloatUtils XR, fu.frexp (.fin (1 / 4)) 0 = (.fin (1 / 2), -1) :=
  ⟨⟨fun x _ => x, fun _ _ => (.fin (1 / 2), -1)⟩, rfl⟩

/-- The documented accuracy holds on `[1/2, 1]`; on `[1/4, 1/2)` only 1e-9. -/
theorem C53_partial (z : ℝ) (h1 : z ≤ 1) :
    (1 / 2 ≤ z → ∃ r : ℝ, log_cf_11 (.fin z : XR) = .fin r ∧ |r - Real.log z| ≤ 5 / 10 ^ 16 * |Real.log z|) ∧
    (1 / 4 ≤ z → ∃ r : ℝ, log_cf_11 (.fin z : XR) = .fin r ∧ |r - Real.log z| ≤ 1 / 10 ^ 9 * |Real.log z|) := by
  have key : ∀ a K : ℝ, 0 < a → a ≤ z → (39916800 * (1 - a) ^ 11 / LogCF.N1 a) ^ 2 ≤ K →
      ∃ r : ℝ, log_cf_11 (.fin z : XR) = .fin r ∧ |r - Real.log z| ≤ K * |Real.log z| := by
    intro a K ha haz hK
    refine ⟨_, log_cf_X (by linarith), ?_⟩
    obtain ⟨b1, b2⟩ := LogCF.err_bound ha haz h1 hK
    rw [abs_of_nonneg (by linarith), abs_of_nonpos (Real.log_nonpos (by linarith) h1)]
    exact b2
  exact ⟨fun h => key _ _ (by norm_num) h LogCF.bound_half, fun h => key _ _ (by norm_num) h LogCF.bound_quarter⟩

example : (1 / 2 : ℝ) ≤ 3 / 5 ∧ (3 / 5 : ℝ) ≤ 1 := by norm_num

/-! ### C66 -/

/-- False of the code just above 1 (half of the value is lost) and at 1/4 (only ten digits are right). -/
theorem C66_false :
    (∃ x : F64, isFin x ∧ 1 < toQ x ∧ isFin (xlog muslFU x) ∧
      2 / 5 * |Real.log (toR x)| < |toR (xlog muslFU x) - Real.log (toR x)|) ∧
    ∃ x : F64, isFin x ∧ 0 < toQ x ∧ toQ x < 1 ∧ isFin (xlog muslFU x) ∧
      4 / 10 ^ 11 * |Real.log (toR x)| < |toR (xlog muslFU x) - Real.log (toR x)| := by
  constructor
  · refine ⟨lit (1 + 1 / 2 ^ 52), by decide +kernel, by decide +kernel, by decide +kernel, ?_⟩
    have e1 : toQ (lit (1 + 1 / 2 ^ 52) : F64) = 1 + 1 / 2 ^ 52 := by decide +kernel
    have e2 : toQ (xlog muslFU (lit (1 + 1 / 2 ^ 52))) = 1 / 2 ^ 53 := by decide +kernel
    unfold toR
    rw [e1, e2]
    push_cast
    have hlo : (1 : ℝ) - (1 + 1 / 2 ^ 52)⁻¹ ≤ Real.log (1 + 1 / 2 ^ 52) := Real.one_sub_inv_le_log_of_pos (by norm_num)
    have h2 : (99 : ℝ) / 100 * (1 / 2 ^ 52) ≤ 1 - (1 + 1 / 2 ^ 52)⁻¹ := by norm_num
    have h3 : (1 : ℝ) / 2 ^ 53 = 1 / 2 * (1 / 2 ^ 52) := by norm_num
    have h4 : (0 : ℝ) < 1 / 2 ^ 52 := by norm_num
    rw [abs_of_pos (by linarith), h3, lt_abs]
    right
    linarith
  · refine ⟨lit (1 / 4), by decide +kernel, by decide +kernel, by decide +kernel, by decide +kernel, ?_⟩
    have e1 : toQ (lit (1 / 4) : F64) = 1 / 4 := by decide +kernel
    have e2 : -(13862943610550 / 10 ^ 13) < toQ (xlog muslFU (lit (1 / 4))) ∧
        toQ (xlog muslFU (lit (1 / 4))) < -(13862943610549 / 10 ^ 13) := by decide +kernel
    have e3 : -(13862943610550 / 10 ^ 13 : ℝ) < toR (xlog muslFU (lit (1 / 4))) ∧
        toR (xlog muslFU (lit (1 / 4))) < -(13862943610549 / 10 ^ 13) := by
      unfold toR
      constructor
      · have : ((-(13862943610550 / 10 ^ 13) : ℚ) : ℝ) < (toQ (xlog muslFU (lit (1 / 4))) : ℝ) := Rat.cast_lt.mpr e2.1
        push_cast at this; exact this
      · have : (toQ (xlog muslFU (lit (1 / 4))) : ℝ) < ((-(13862943610549 / 10 ^ 13) : ℚ) : ℝ) := Rat.cast_lt.mpr e2.2
        push_cast at this; exact this
    have e4 : toR (lit (1 / 4)) = 1 / 4 := by unfold toR; rw [e1]; norm_num
    rw [e4, log_quarter]
    obtain ⟨a, b⟩ := log_two_bounds
    have n1 : (0 : ℝ) < 6931471805599453094172 / 10 ^ 22 := by norm_num
    rw [abs_neg, abs_of_pos (by linarith), lt_abs]
    left
    have n2 : (6931471805599453094173 / 10 ^ 22 : ℝ) ≤ 6931471805600 / 10 ^ 13 := by norm_num
    have n3 : (6931471805599 / 10 ^ 13 : ℝ) ≤ 6931471805599453094172 / 10 ^ 22 := by norm_num
    linarith

/-- The exponent of frexp from the range of the argument. -/
theorem exponent_of_range {x : F64} (hx : isFin x) (h0 : 0 < toQ x) {a : ℤ} (h1 : (2 : ℝ) ^ a ≤ toR x) (h2 : toR x < 2 ^ (a + 1)) :
    (musl_frexp x 0).2 = a + 1 := by
  obtain ⟨-, m2, m3, m4, -, -⟩ := frexp_pos hx h0
  generalize (musl_frexp x 0).1 = m at *
  generalize (musl_frexp x 0).2 = e at *
  have hp : (0 : ℝ) < 2 ^ e := zpow_pos (by norm_num) _
  have l1 : (2 : ℝ) ^ a < 2 ^ e := by
    refine lt_of_le_of_lt h1 ?_
    rw [m4]; nlinarith
  have l2 : (2 : ℝ) ^ (e - 1) < 2 ^ (a + 1) := by
    refine lt_of_le_of_lt ?_ h2
    rw [m4, zpow_sub_one₀ (by norm_num)]; nlinarith
  rw [zpow_lt_zpow_iff_right₀ (by norm_num)] at l1 l2
  omega

/-- In binary64, rounding errors included: relative accuracy 3e-15 for every positive double outside of [1/4, 1/2) and [1, 2);
1.1e-9 on the former and an absolute error of 2e-15 on the latter. -/
theorem C66_partial (x : F64) (hx : isFin x) (h0 : 0 < toQ x) :
    isFin (xlog muslFU x) ∧
    (toR x < 1 / 4 ∨ (1 / 2 ≤ toR x ∧ toR x < 1) ∨ 2 ≤ toR x →
      |toR (xlog muslFU x) - Real.log (toR x)| ≤ 3 / 10 ^ 15 * |Real.log (toR x)|) ∧
    (1 / 4 ≤ toR x → toR x < 1 / 2 → |toR (xlog muslFU x) - Real.log (toR x)| ≤ 11 / 10 ^ 10 * |Real.log (toR x)|) ∧
    (1 ≤ toR x → toR x < 2 → |toR (xlog muslFU x) - Real.log (toR x)| ≤ 2 / 10 ^ 15) := by
  obtain ⟨g1, g2, g3, g4⟩ := xlog_exponent hx h0
  have E1 : 1 / 2 ≤ toR x → toR x < 1 → (musl_frexp x 0).2 = 0 := fun a b =>
    exponent_of_range hx h0 (a := -1) (by norm_num; linarith) (by norm_num; linarith) |>.trans (by norm_num)
  have E2 : 1 / 4 ≤ toR x → toR x < 1 / 2 → (musl_frexp x 0).2 = -1 := fun a b =>
    exponent_of_range hx h0 (a := -2) (by norm_num; linarith) (by norm_num; linarith) |>.trans (by norm_num)
  have E3 : 1 ≤ toR x → toR x < 2 → (musl_frexp x 0).2 = 1 := fun a b =>
    exponent_of_range hx h0 (a := 0) (by norm_num; linarith) (by norm_num; linarith) |>.trans (by norm_num)
  refine ⟨g1, ?_, fun a b => g3 (E2 a b), fun a b => ?_⟩
  · intro h
    by_cases hh : 1 / 2 ≤ toR x ∧ toR x < 1
    · refine (g2 (E1 hh.1 hh.2)).trans ?_
      exact mul_le_mul_of_nonneg_right (by norm_num) (abs_nonneg _)
    · have h' : toR x < 1 / 4 ∨ 2 ≤ toR x := by tauto
      obtain ⟨-, m2, m3, m4, -, -⟩ := frexp_pos hx h0
      have l2 := log_two_bounds.1
      have l2' : (69 / 100 : ℝ) ≤ Real.log 2 := le_trans (by norm_num) l2
      have hxr : 0 < toR x := by unfold toR; exact_mod_cast h0
      have hlog : Real.log (toR x) = Real.log (toR (musl_frexp x 0).1) + (musl_frexp x 0).2 * Real.log 2 := by
        rw [m4, Real.log_mul (by linarith) (zpow_ne_zero _ (by norm_num)), Real.log_zpow]
      have hm0 : Real.log (toR (musl_frexp x 0).1) ≤ 0 := Real.log_nonpos (by linarith) m3.le
      have hm1 : -Real.log 2 ≤ Real.log (toR (musl_frexp x 0).1) := by
        have := Real.log_le_log (by norm_num) m2
        rwa [one_div, Real.log_inv] at this
      have he : (musl_frexp x 0).2 ≤ -2 ∨ 2 ≤ (musl_frexp x 0).2 := by
        generalize (musl_frexp x 0).1 = m at *
        generalize (musl_frexp x 0).2 = e at *
        have hp : (0 : ℝ) < 2 ^ e := zpow_pos (by norm_num) _
        rcases h' with h' | h'
        · left
          have : (2 : ℝ) ^ e < 2 ^ (-1 : ℤ) := by
            norm_num; rw [m4] at h'; nlinarith
          rw [zpow_lt_zpow_iff_right₀ (by norm_num)] at this
          omega
        · right
          have : (2 : ℝ) ^ (1 : ℤ) < 2 ^ e := by
            norm_num; rw [m4] at h'; nlinarith
          rw [zpow_lt_zpow_iff_right₀ (by norm_num)] at this
          omega
      have g := g4 (by omega) (by omega)
      generalize (musl_frexp x 0).2 = e at *
      refine g.trans ?_
      rcases he with he | he
      · have her : (e : ℝ) ≤ -2 := by exact_mod_cast he
        rw [abs_of_nonpos (by linarith), abs_of_nonpos (by rw [hlog]; nlinarith), hlog]
        nlinarith
      · have her : (2 : ℝ) ≤ e := by exact_mod_cast he
        rw [abs_of_nonneg (by linarith), abs_of_nonneg (by rw [hlog]; nlinarith), hlog]
        nlinarith
  · have e := E3 a b
    refine (g4 (by omega) (by omega)).trans ?_
    rw [e]; norm_num

/-- cases of each kind -/
example : isFin (lit (1 / 1000) : F64) ∧ 0 < toQ (lit (1 / 1000) : F64) ∧ toQ (lit (1 / 1000) : F64) < 1 / 4 ∧
    toQ (lit (3 / 4) : F64) = 3 / 4 ∧ toQ (lit (10 ^ 300) : F64) ≥ 2 ∧ toQ (lit (1 / 3) : F64) < 1 / 2 ∧ toQ (lit (1 / 3) : F64) > 1 / 4 := by
  decide +kernel

end Verif

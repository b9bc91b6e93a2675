/-
`log_cf_11` and `exp_cf_6` in exact arithmetic.
-/
import Verif.Proofs.LogCF
import Verif.Proofs.ExpCF
import Verif.Model.Xmath
import Verif.XR.Simp

namespace Verif
open XR

theorem log_cf_X {z : ℝ} (hz : 0 ≤ z) : log_cf_11 (fin z : XR) = fin (LogCF.logCF z) := by
  have h11 := (LogCF.d11_pos hz).ne'
  have h10 := (LogCF.d10_pos hz).ne'
  have h9 := (LogCF.d9_pos hz).ne'
  have h8 := (LogCF.d8_pos hz).ne'
  have h7 := (LogCF.d7_pos hz).ne'
  have h6 := (LogCF.d6_pos hz).ne'
  have h5 := (LogCF.d5_pos hz).ne'
  have h4 := (LogCF.d4_pos hz).ne'
  have h3 := (LogCF.d3_pos hz).ne'
  have h2 := (LogCF.d2_pos hz).ne'
  have h1 := (LogCF.d1_pos hz).ne'
  unfold log_cf_11
  dsimp only
  simp only [lit_fin, sub_ff, add_ff, mul_ff, neg_f]
  have step : ∀ {c a d e : ℝ}, d ≠ 0 → c / d + a = e → fin c /. fin d +. fin a = fin e := by
    intro c a d e hd h; rw [div_ff hd, add_ff, h]
  have mk : ∀ {d d' : ℝ}, d' = d → d ≠ 0 → d' ≠ 0 := fun h h' => h ▸ h'
  have e11 : z - (1 : ℚ) + (2 : ℚ) + (z - (1 : ℚ) + (2 : ℚ) + (z - (1 : ℚ) + (2 : ℚ))) +
      (z - (1 : ℚ) + (2 : ℚ) + (z - (1 : ℚ) + (2 : ℚ))) + (z - (1 : ℚ) + (2 : ℚ) + (z - (1 : ℚ) + (2 : ℚ))) +
      (z - (1 : ℚ) + (2 : ℚ) + (z - (1 : ℚ) + (2 : ℚ))) + (z - (1 : ℚ) + (2 : ℚ) + (z - (1 : ℚ) + (2 : ℚ))) +
      (z - (1 : ℚ) + (2 : ℚ) + (z - (1 : ℚ) + (2 : ℚ))) + (z - (1 : ℚ) + (2 : ℚ) + (z - (1 : ℚ) + (2 : ℚ))) +
      (z - (1 : ℚ) + (2 : ℚ) + (z - (1 : ℚ) + (2 : ℚ))) + (z - (1 : ℚ) + (2 : ℚ) + (z - (1 : ℚ) + (2 : ℚ))) +
      (z - (1 : ℚ) + (2 : ℚ) + (z - (1 : ℚ) + (2 : ℚ))) = LogCF.d11 z := by
    unfold LogCF.d11; push_cast; ring
  rw [e11]
  rw [step (e := LogCF.d10 z) h11 (by unfold LogCF.d10; push_cast; ring),
    step (e := LogCF.d9 z) h10 (by unfold LogCF.d9; push_cast; ring),
    step (e := LogCF.d8 z) h9 (by unfold LogCF.d8; push_cast; ring),
    step (e := LogCF.d7 z) h8 (by unfold LogCF.d7; push_cast; ring),
    step (e := LogCF.d6 z) h7 (by unfold LogCF.d6; push_cast; ring),
    step (e := LogCF.d5 z) h6 (by unfold LogCF.d5; push_cast; ring),
    step (e := LogCF.d4 z) h5 (by unfold LogCF.d4; push_cast; ring),
    step (e := LogCF.d3 z) h4 (by unfold LogCF.d3; push_cast; ring),
    step (e := LogCF.d2 z) h3 (by unfold LogCF.d2; push_cast; ring),
    step (e := LogCF.d1 z) h2 (by unfold LogCF.d1; push_cast; ring), div_ff h1]
  unfold LogCF.logCF; push_cast; rfl

theorem exp_cf_X {z : ℝ} (hz : z < 2) : exp_cf_6 (fin z : XR) = fin (ExpCF.expCF z) := by
  have h5 := (ExpCF.w5_pos z).ne'
  have h4 := (ExpCF.w4_pos z).ne'
  have h3 := (ExpCF.w3_pos z).ne'
  have h2 := (ExpCF.w2_pos z).ne'
  have h1 := (ExpCF.w1_pos hz).ne'
  have step : ∀ {c a d e : ℝ}, d ≠ 0 → c / d + a = e → fin c /. fin d +. fin a = fin e := by
    intro c a d e hd h; rw [div_ff hd, add_ff, h]
  unfold exp_cf_6
  dsimp only
  simp only [lit_fin, mul_ff]
  rw [step (e := ExpCF.w5 z) (by norm_num) (by unfold ExpCF.w5; push_cast; ring),
    step (e := ExpCF.w4 z) h5 (by unfold ExpCF.w4; push_cast; ring),
    step (e := ExpCF.w3 z) h4 (by unfold ExpCF.w3; push_cast; ring),
    step (e := ExpCF.w2 z) h3 (by unfold ExpCF.w2; push_cast; ring), div_ff h2, sub_ff, add_ff]
  rw [show ((2 : ℚ) : ℝ) * (z * z) / ExpCF.w2 z - z + (2 : ℚ) = ExpCF.w1 z by unfold ExpCF.w1; push_cast; ring,
    step (e := ExpCF.expCF z) h1 (by unfold ExpCF.expCF; push_cast; ring)]

end Verif

/-
Rounding errors: a double as an approximation of a real number.
-/
import Verif.F64.Exact
import Verif.Laws
import Mathlib.Data.Real.Basic
import Mathlib.Tactic.GCongr

namespace Verif
namespace F64

/-- the real value of a finite double -/
noncomputable def toR (x : F64) : ℝ := (toQ x : ℝ)

theorem rq_err (q : ℚ) : |rq q - q| ≤ pow2 (-53) * |q| + pow2 (-1075) := by
  have h1 : ∀ q : ℚ, 0 ≤ q → |rq q - q| ≤ pow2 (-53) * |q| + pow2 (-1075) := by
    intro q hq
    rw [rq_of_nonneg hq, abs_of_nonneg hq]
    have p1 := (pow2_pos (-53)).le
    have p2 := (pow2_pos (-1075)).le
    rcases le_total (pow2 (-1022)) q with h | h
    · exact (rnd_rel h).trans (by linarith)
    · refine (rnd_abs_sub hq h).trans ?_
      have := mul_nonneg p1 hq
      linarith
  rcases le_total 0 q with h | h
  · exact h1 q h
  · have := h1 (-q) (by linarith)
    rw [rq_neg, abs_neg] at this
    rwa [show -rq q - -q = -(rq q - q) by ring, abs_neg] at this

theorem rq_rel {q : ℚ} (h : q = 0 ∨ pow2 (-1022) ≤ |q|) : |rq q - q| ≤ pow2 (-53) * |q| := by
  rcases h with h | h
  · rw [h, rq_zero]; simp
  rcases le_total 0 q with h0 | h0
  · rw [abs_of_nonneg h0] at h ⊢; rw [rq_of_nonneg h0]; exact rnd_rel h
  · rw [abs_of_nonpos h0] at h ⊢
    have := rnd_rel h
    rw [← rq_of_nonneg (by linarith), rq_neg] at this
    rwa [show -rq q - -q = -(rq q - q) by ring, abs_neg] at this

theorem pow2_m53 : pow2 (-53) = 1 / 9007199254740992 := by rw [pow2_eq]; norm_num

theorem pow2_big : (10 : ℚ) ^ 60 ≤ pow2 1023 := by
  have : (10 : ℚ) ^ 60 ≤ (2 : ℚ) ^ 240 := by norm_num
  have h2 : pow2 240 = (2 : ℚ) ^ 240 := by rw [pow2_eq]; exact zpow_natCast 2 240
  rw [← h2] at this
  exact this.trans (pow2_le (by norm_num))

theorem pow2_small : pow2 (-1075) ≤ 1 / 10 ^ 70 := by
  have h2 : pow2 (-240) = 1 / (2 : ℚ) ^ 240 := by
    rw [pow2_eq, zpow_neg, one_div]; exact congrArg _ (zpow_natCast 2 240)
  have : pow2 (-240) ≤ 1 / 10 ^ 70 := by
    rw [h2]; exact one_div_le_one_div_of_le (by positivity) (by norm_num)
  exact (pow2_le (by norm_num)).trans this

/-- an upper bound of the relative rounding error that also covers the absolute error of underflow for numbers that are not tiny -/
noncomputable def ru : ℝ := 1 / 9000000000000000

/-- rounding a number of magnitude at most `B` -/
theorem rq_err_le {q : ℚ} {B : ℝ} (h : |(q : ℝ)| ≤ B) (hB : 1 / 10 ^ 50 ≤ B) : |((rq q : ℚ) : ℝ) - q| ≤ ru * B := by
  have h1 := rq_err q
  have h2 : ((|rq q - q| : ℚ) : ℝ) ≤ ((1 / 9007199254740992 * |q| + 1 / 10 ^ 70 : ℚ) : ℝ) := by
    have := pow2_small
    have := pow2_m53
    rw [this] at h1
    exact_mod_cast h1.trans (by linarith)
  push_cast at h2
  unfold ru
  have h3 : (1 : ℝ) / 10 ^ 70 ≤ 1 / 10 ^ 20 * (1 / 10 ^ 50) := by norm_num
  have h4 : (1 : ℝ) / 10 ^ 70 ≤ 1 / 10 ^ 20 * B := h3.trans (mul_le_mul_of_nonneg_left hB (by norm_num))
  calc |((rq q : ℚ) : ℝ) - q| ≤ 1 / 9007199254740992 * |(q : ℝ)| + 1 / 10 ^ 70 := h2
    _ ≤ 1 / 9007199254740992 * B + 1 / 10 ^ 20 * B := by gcongr
    _ = (1 / 9007199254740992 + 1 / 10 ^ 20) * B := by ring
    _ ≤ 1 / 9000000000000000 * B := by
      refine mul_le_mul_of_nonneg_right (by norm_num) (le_trans (by positivity) hB)

/-- `x` is a finite double within `ε` of the real number `v` -/
def App (x : F64) (v ε : ℝ) : Prop := isFin x ∧ |toR x - v| ≤ ε

theorem App.mono {x : F64} {v ε ε' : ℝ} (h : App x v ε) (h' : ε ≤ ε') : App x v ε' := ⟨h.1, h.2.trans h'⟩

theorem App.self {x : F64} (h : isFin x) : App x (toR x) 0 := ⟨h, by simp⟩

theorem App.lit_int {i : ℤ} (h : |i| ≤ 2 ^ 53) : App (lit (i : ℚ)) i 0 := by
  obtain ⟨h1, h2⟩ := F64.lit_int h
  exact ⟨h1, by unfold toR; rw [h2]; simp⟩

theorem App.bound {x : F64} {v ε B : ℝ} (h : App x v ε) (hv : |v| + ε ≤ B) : |toR x| ≤ B := by
  have h1 : |toR x| ≤ |toR x - v| + |v| := by
    have := abs_add_le (toR x - v) v; simpa using this
  linarith [h.2]

theorem no_overflow {q : ℚ} {B : ℝ} (h : |(q : ℝ)| ≤ B) (hB : B ≤ 10 ^ 60) : |q| ≤ pow2 1023 := by
  have h1 : ((|q| : ℚ) : ℝ) ≤ ((10 ^ 60 : ℚ) : ℝ) := by push_cast; exact h.trans hB
  exact (by exact_mod_cast h1 : |q| ≤ 10 ^ 60).trans pow2_big

theorem App.add {x y : F64} {v w e1 e2 e B : ℝ} (hx : App x v e1) (hy : App y w e2) (hB : |v + w| + (e1 + e2) ≤ B)
    (hb : 1 / 10 ^ 50 ≤ B) (hb' : B ≤ 10 ^ 60) (he : e1 + e2 + ru * B ≤ e) : App (x +. y) (v + w) e := by
  have h1 : |(toR x + toR y) - (v + w)| ≤ e1 + e2 := by
    have := abs_add_le (toR x - v) (toR y - w)
    rw [show toR x + toR y - (v + w) = (toR x - v) + (toR y - w) by ring]
    linarith [hx.2, hy.2]
  have h2 : |((toQ x + toQ y : ℚ) : ℝ)| ≤ B := by
    push_cast
    have := abs_add_le ((toR x + toR y) - (v + w)) (v + w)
    rw [sub_add_cancel] at this
    exact this.trans (by linarith)
  obtain ⟨f1, f2⟩ := add_fin' hx.1 hy.1 (no_overflow h2 hb')
  refine ⟨f1, ?_⟩
  show |((toQ (F64.add x y) : ℚ) : ℝ) - (v + w)| ≤ e
  rw [f2]
  have h3 := rq_err_le h2 hb
  have h4 := abs_add_le (((rq (toQ x + toQ y) : ℚ) : ℝ) - ((toQ x + toQ y : ℚ) : ℝ)) ((toR x + toR y) - (v + w))
  have h5 : (((rq (toQ x + toQ y) : ℚ) : ℝ) - ((toQ x + toQ y : ℚ) : ℝ)) + ((toR x + toR y) - (v + w)) =
      ((rq (toQ x + toQ y) : ℚ) : ℝ) - (v + w) := by unfold toR; push_cast; ring
  rw [h5] at h4
  linarith

theorem App.neg {x : F64} {v e : ℝ} (hx : App x v e) : App (-. x) (-v) e := by
  refine ⟨isFin_neg.mpr hx.1, ?_⟩
  show |((toQ (F64.neg x) : ℚ) : ℝ) - -v| ≤ e
  rw [toQ_neg]
  push_cast
  rw [show -((toQ x : ℚ) : ℝ) - -v = -(toR x - v) by unfold toR; ring, abs_neg]
  exact hx.2

theorem App.sub {x y : F64} {v w e1 e2 e B : ℝ} (hx : App x v e1) (hy : App y w e2) (hB : |v - w| + (e1 + e2) ≤ B)
    (hb : 1 / 10 ^ 50 ≤ B) (hb' : B ≤ 10 ^ 60) (he : e1 + e2 + ru * B ≤ e) : App (x -. y) (v - w) e := by
  have := App.add hx hy.neg (by rw [← sub_eq_add_neg]; exact hB) hb hb' he
  rw [← sub_eq_add_neg] at this
  exact this

theorem App.mul {x y : F64} {v w e1 e2 e V W B : ℝ} (hx : App x v e1) (hy : App y w e2) (hV : |v| ≤ V) (hW : |w| ≤ W)
    (hB : (V + e1) * (W + e2) ≤ B) (hb : 1 / 10 ^ 50 ≤ B) (hb' : B ≤ 10 ^ 60)
    (he : V * e2 + W * e1 + e1 * e2 + ru * B ≤ e) : App (x *. y) (v * w) e := by
  have e1' : 0 ≤ e1 := (abs_nonneg _).trans hx.2
  have e2' : 0 ≤ e2 := (abs_nonneg _).trans hy.2
  have h1 : |toR x * toR y - v * w| ≤ V * e2 + W * e1 + e1 * e2 := by
    rw [show toR x * toR y - v * w = v * (toR y - w) + w * (toR x - v) + (toR x - v) * (toR y - w) by ring]
    refine (abs_add_three _ _ _).trans ?_
    rw [abs_mul, abs_mul, abs_mul]
    have hx2 := hx.2
    have hy2 := hy.2
    have hv0 := abs_nonneg v
    have hv0' := hv0.trans hV
    have hw0 := abs_nonneg w
    have hw0' := hw0.trans hW
    gcongr
  have h2 : |((toQ x * toQ y : ℚ) : ℝ)| ≤ B := by
    push_cast
    rw [abs_mul]
    have hxb := hx.bound (B := V + e1) (by linarith)
    have hyb := hy.bound (B := W + e2) (by linarith)
    refine le_trans ?_ hB
    exact mul_le_mul hxb hyb (abs_nonneg _) ((abs_nonneg _).trans hxb)
  obtain ⟨f1, f2⟩ := mul_fin' hx.1 hy.1 (no_overflow h2 hb')
  refine ⟨f1, ?_⟩
  show |((toQ (F64.mul x y) : ℚ) : ℝ) - v * w| ≤ e
  rw [f2]
  have h3 := rq_err_le h2 hb
  have h4 := abs_add_le (((rq (toQ x * toQ y) : ℚ) : ℝ) - ((toQ x * toQ y : ℚ) : ℝ)) (toR x * toR y - v * w)
  have h5 : (((rq (toQ x * toQ y) : ℚ) : ℝ) - ((toQ x * toQ y : ℚ) : ℝ)) + (toR x * toR y - v * w) =
      ((rq (toQ x * toQ y) : ℚ) : ℝ) - v * w := by unfold toR; push_cast; ring
  rw [h5] at h4
  linarith

/-- Quotient by a number at least `L`; `R` bounds the exact quotient. -/
theorem App.div {x y : F64} {v w e1 e2 e L R B E : ℝ} (hx : App x v e1) (hy : App y w e2) (hL : L ≤ w) (hL2 : e2 < L)
    (hR : |v| ≤ R * w) (hE : e1 + R * e2 ≤ E * (L - e2)) (hB : R + E ≤ B) (hb : 1 / 10 ^ 50 ≤ B) (hb' : B ≤ 10 ^ 60)
    (he : E + ru * B ≤ e) : App (x /. y) (v / w) e := by
  have e1' : 0 ≤ e1 := (abs_nonneg _).trans hx.2
  have e2' : 0 ≤ e2 := (abs_nonneg _).trans hy.2
  have hw : 0 < w := by linarith
  have hy2 := abs_le.mp hy.2
  have hyL : L - e2 ≤ toR y := by linarith [hy2.1]
  have hy0 : 0 < toR y := by linarith
  have hR' : |v / w| ≤ R := by rw [abs_div, abs_of_pos hw, div_le_iff₀ hw]; exact hR
  have hR0 : 0 ≤ R := (abs_nonneg _).trans hR'
  have hE0 : 0 ≤ E := by
    by_contra hc
    push Not at hc
    have : E * (L - e2) < 0 := mul_neg_of_neg_of_pos hc (by linarith)
    have : 0 ≤ e1 + R * e2 := by positivity
    linarith
  have h1 : |toR x / toR y - v / w| ≤ E := by
    have : toR x / toR y - v / w = ((toR x - v) - (v / w) * (toR y - w)) / toR y := by
      field_simp; ring
    rw [this, abs_div, abs_of_pos hy0, div_le_iff₀ hy0]
    calc |toR x - v - v / w * (toR y - w)| ≤ |toR x - v| + |v / w * (toR y - w)| := abs_sub _ _
      _ ≤ e1 + R * e2 := by
        rw [abs_mul]
        have hx2 := hx.2
        have hy2' := hy.2
        gcongr
      _ ≤ E * (L - e2) := hE
      _ ≤ E * toR y := mul_le_mul_of_nonneg_left hyL hE0
  have hyq : toQ y ≠ 0 := by
    intro h; rw [toR, h] at hy0; simp at hy0
  have h2 : |((toQ x / toQ y : ℚ) : ℝ)| ≤ B := by
    push_cast
    have := abs_add_le (toR x / toR y - v / w) (v / w)
    rw [sub_add_cancel] at this
    exact this.trans (by linarith)
  have hd : isFin (F64.div x y) ∧ toQ (F64.div x y) = rq (toQ x / toQ y) := by
    obtain ⟨z, hz⟩ := div_fin hx.1 hy.1 hyq
    rw [hz]; exact fin_ofRat (no_overflow h2 hb')
  refine ⟨hd.1, ?_⟩
  show |((toQ (F64.div x y) : ℚ) : ℝ) - v / w| ≤ e
  rw [hd.2]
  have h3 := rq_err_le h2 hb
  have h4 := abs_add_le (((rq (toQ x / toQ y) : ℚ) : ℝ) - ((toQ x / toQ y : ℚ) : ℝ)) (toR x / toR y - v / w)
  have h5 : (((rq (toQ x / toQ y) : ℚ) : ℝ) - ((toQ x / toQ y : ℚ) : ℝ)) + (toR x / toR y - v / w) =
      ((rq (toQ x / toQ y) : ℚ) : ℝ) - v / w := by unfold toR; push_cast; ring
  rw [h5] at h4
  linarith

end F64
end Verif

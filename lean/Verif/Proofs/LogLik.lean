/-
Rounding errors of the log-likelihood.
-/
import Verif.Proofs.Accuracy
import Verif.Proofs.Estim

namespace Verif
open F64

/-- A sum accumulated by rounded additions: `f v` is computed for `T v` with an error of at most `δ v`. -/
theorem acc_fold {f : F64 → F64} {T δ : F64 → ℝ} {W : ℝ} (hW : W ≤ 10 ^ 249) (l : List F64)
    (hf : ∀ v ∈ l, isFin (f v) ∧ |toR (f v) - T v| ≤ δ v) (r : F64) (R d : ℝ) (hr : isFin r) (h0 : |toR r - R| ≤ d)
    (hS : |R| + (l.map fun v => |T v|).sum ≤ W) (hD : d + (l.map δ).sum + l.length * (2 * ru * W + tiny) ≤ W) :
    isFin (l.foldl (fun r v => r +. f v) r) ∧
      |toR (l.foldl (fun r v => r +. f v) r) - (R + (l.map T).sum)| ≤ d + (l.map δ).sum + l.length * (2 * ru * W + tiny) := by
  have ru0 : 0 < ru := by unfold ru; norm_num
  induction l generalizing r R d with
  | nil => simpa using ⟨hr, h0⟩
  | cons v l ih =>
    simp only [List.foldl_cons, List.map_cons, List.sum_cons, List.length_cons, Nat.cast_succ] at hS hD ⊢
    obtain ⟨f1, f2⟩ := hf v (by simp)
    have t0 := tiny_pos
    have d0 : 0 ≤ d := (abs_nonneg _).trans h0
    have W0 : 0 ≤ W := by
      have : 0 ≤ (l.map fun v => |T v|).sum := List.sum_nonneg (by simp)
      have := abs_nonneg R
      have := abs_nonneg (T v)
      linarith
    have δ0 : 0 ≤ δ v := (abs_nonneg _).trans f2
    have δs : 0 ≤ (l.map δ).sum := by
      refine List.sum_nonneg ?_
      intro x hx
      obtain ⟨w, hw, rfl⟩ := List.mem_map.mp hx
      exact (abs_nonneg _).trans (hf w (by simp [hw])).2
    have Ts : 0 ≤ (l.map fun v => |T v|).sum := List.sum_nonneg (by simp)
    have u0 : 0 ≤ 2 * ru * W + tiny := by positivity
    have ul : 0 ≤ (l.length : ℝ) * (2 * ru * W + tiny) := by positivity
    have hRT : |R + T v| ≤ W := (abs_add_le _ _).trans (by linarith)
    have hdist : |toR r + toR (f v) - (R + T v)| ≤ d + δ v := by
      have := abs_add_le (toR r - R) (toR (f v) - T v)
      rw [show toR r - R + (toR (f v) - T v) = toR r + toR (f v) - (R + T v) by ring] at this
      linarith
    have hmag : |toR r + toR (f v)| ≤ 2 * W := by
      have := abs_add_le (toR r + toR (f v) - (R + T v)) (R + T v)
      rw [sub_add_cancel] at this
      have e : ((l.length : ℝ) + 1) * (2 * ru * W + tiny) = l.length * (2 * ru * W + tiny) + (2 * ru * W + tiny) := by ring
      rw [e] at hD
      linarith
    obtain ⟨a1, a2⟩ := acc_add hr f1 (hmag.trans (by
      have : (2 : ℝ) * 10 ^ 249 ≤ 10 ^ 250 := by norm_num
      linarith))
    have a3 : |toR (r +. f v) - (R + T v)| ≤ d + δ v + (2 * ru * W + tiny) := by
      have := abs_add_le (toR (r +. f v) - (toR r + toR (f v))) (toR r + toR (f v) - (R + T v))
      rw [sub_add_sub_cancel] at this
      have : ru * |toR r + toR (f v)| ≤ ru * (2 * W) := mul_le_mul_of_nonneg_left hmag ru0.le
      linarith
    have e : ((l.length : ℝ) + 1) * (2 * ru * W + tiny) = l.length * (2 * ru * W + tiny) + (2 * ru * W + tiny) := by ring
    obtain ⟨b1, b2⟩ := ih (fun w hw => hf w (by simp [hw])) (r +. f v) (R + T v) (d + δ v + (2 * ru * W + tiny)) a1 a3
      (by have := abs_add_le R (T v); linarith) (by rw [e] at hD; linarith)
    refine ⟨b1, ?_⟩
    rw [show R + (T v + (l.map T).sum) = R + T v + (l.map T).sum by ring, e]
    linarith

/-- one rounded product of two computed factors -/
theorem acc_prod {x y : F64} (hx : isFin x) (hy : isFin y) {X Y A m κ : ℝ} (hX : |toR x - X| ≤ 4 / 10 ^ 16 * A) (hXA : |X| ≤ A)
    (hA : 1 ≤ A) (hA1 : A ≤ 10 ^ 30) (hY : |toR y - Y| ≤ κ) (hm : |Y| = m) (hm1 : m ≤ 10 ^ 6) (hκ : 1 / 10 ^ 15 ≤ κ) (hκm : 2 / 10 ^ 15 * m ≤ κ)
    (hκ1 : κ ≤ 1) : isFin (x *. y) ∧ |toR (x *. y) - X * Y| ≤ A * (13 / 10 * κ) := by
  have m0 : 0 ≤ m := hm ▸ abs_nonneg Y
  have hya : |toR y| ≤ m + κ := by
    have := abs_add_le (toR y - Y) Y
    rw [sub_add_cancel] at this
    linarith
  have hxa : |toR x| ≤ 101 / 100 * A := by
    have := abs_add_le (toR x - X) X
    rw [sub_add_cancel] at this
    linarith
  have hp : |toR x * toR y| ≤ 101 / 100 * A * (m + κ) := by
    rw [abs_mul]; exact mul_le_mul hxa hya (abs_nonneg _) (by linarith)
  have hA2 : A * (m + κ) ≤ 10 ^ 30 * (2 * 10 ^ 6) := mul_le_mul hA1 (by linarith) (by linarith) (by norm_num)
  obtain ⟨f, g⟩ := acc_mul hx hy (hp.trans (by
    have : (101 : ℝ) / 100 * (10 ^ 30 * (2 * 10 ^ 6)) ≤ 10 ^ 250 := by norm_num
    linarith))
  refine ⟨f, ?_⟩
  have hru : ru ≤ 112 / 10 ^ 18 := by unfold ru; norm_num
  have g1 : ru * |toR x * toR y| ≤ 112 / 10 ^ 18 * (101 / 100 * A * (m + κ)) := mul_le_mul hru hp (abs_nonneg _) (by norm_num)
  have ht : tiny ≤ A * (1 / 100 * κ) := by
    have : (1 : ℝ) * (1 / 100 * (1 / 10 ^ 15)) ≤ A * (1 / 100 * κ) := mul_le_mul hA (by linarith) (by norm_num) (by linarith)
    have : tiny ≤ 1 * (1 / 100 * (1 / 10 ^ 15)) := by unfold tiny; norm_num
    linarith
  have h1 : |toR x * toR y - X * Y| ≤ 101 / 100 * A * κ + 4 / 10 ^ 16 * A * m := by
    rw [show toR x * toR y - X * Y = toR x * (toR y - Y) + (toR x - X) * Y by ring]
    refine (abs_add_le _ _).trans (add_le_add ?_ ?_)
    · rw [abs_mul]; exact mul_le_mul hxa hY (abs_nonneg _) (by linarith)
    · rw [abs_mul, hm]; exact mul_le_mul_of_nonneg_right hX m0
  have t := abs_add_le (toR (x *. y) - toR x * toR y) (toR x * toR y - X * Y)
  rw [sub_add_sub_cancel] at t
  have hAm : A * (2 / 10 ^ 15 * m) ≤ A * κ := mul_le_mul_of_nonneg_left hκm (by linarith)
  have hAκ : 0 ≤ A * κ := by positivity
  have hAm0 : 0 ≤ A * m := by positivity
  have e1 : 112 / 10 ^ 18 * (101 / 100 * A * (m + κ)) = 112 / 10 ^ 18 * (101 / 100) * (A * m) + 112 / 10 ^ 18 * (101 / 100) * (A * κ) := by ring
  have e2 : 101 / 100 * A * κ + 4 / 10 ^ 16 * A * m = 101 / 100 * (A * κ) + 4 / 10 ^ 16 * (A * m) := by ring
  have e3 : A * (2 / 10 ^ 15 * m) = 2 / 10 ^ 15 * (A * m) := by ring
  have e4 : A * (1 / 100 * κ) = 1 / 100 * (A * κ) := by ring
  have e5 : A * (13 / 10 * κ) = 13 / 10 * (A * κ) := by ring
  rw [e5]; rw [e1] at g1; rw [e2] at h1; rw [e3] at hAm; rw [e4] at ht
  linarith

theorem abs_log_1000 {x : ℝ} (h0 : 1 / 10 ^ 100 ≤ x) (h1 : x ≤ 10 ^ 100) : |Real.log x| ≤ 10 ^ 3 := by
  have x0 : 0 < x := lt_of_lt_of_le (by norm_num) h0
  have l10 : Real.log (10 ^ 100) ≤ 10 ^ 3 := by
    rw [Real.log_pow]
    have := Real.log_le_sub_one_of_pos (show (0 : ℝ) < 10 by norm_num)
    push_cast
    linarith
  have a := Real.log_le_log x0 h1
  have b := Real.log_le_log (by norm_num) h0
  rw [one_div, Real.log_inv] at b
  rw [abs_le]; constructor <;> linarith

theorem lit_one : isFin (lit 1 : F64) ∧ toR (lit 1 : F64) = 1 := by
  refine ⟨by decide +kernel, ?_⟩
  unfold toR; rw [show toQ (lit 1 : F64) = 1 by decide +kernel]; norm_num

/-- the coefficient `1 + 1 / γ` -/
theorem acc_coef {γ : F64} (hγ : isFin γ) (γ0 : 1 / 2 ^ 20 ≤ |toR γ|) :
    isFin (lit 1 +. lit 1 /. γ : F64) ∧
      |toR (lit 1 +. lit 1 /. γ : F64) - (1 + 1 / toR γ)| ≤ 4 / 10 ^ 16 * (1 + 1 / |toR γ|) ∧
      1 + 1 / |toR γ| ≤ 2 * 2 ^ 20 ∧ |1 + 1 / toR γ| ≤ 1 + 1 / |toR γ| := by
  obtain ⟨l1, l2⟩ := lit_one
  have γp : 0 < |toR γ| := lt_of_lt_of_le (by norm_num) γ0
  have hg : 1 / |toR γ| ≤ 2 ^ 20 := by
    rw [div_le_iff₀ γp]; linarith
  have hg0 : 0 < 1 / |toR γ| := by positivity
  have ha : |1 / toR γ| = 1 / |toR γ| := by rw [abs_div, abs_one]
  obtain ⟨d1, d2⟩ := acc_div l1 hγ (abs_pos.mp γp) (by rw [l2, ha]; linarith)
  rw [l2, ha] at d2
  have t0 := tiny_pos
  have ht : tiny ≤ 1 / 10 ^ 30 := by unfold tiny; norm_num
  have hru : ru ≤ 112 / 10 ^ 18 := by unfold ru; norm_num
  have d3 : |toR (lit 1 /. γ : F64) - 1 / toR γ| ≤ 112 / 10 ^ 18 * (1 / |toR γ|) + 1 / 10 ^ 30 := by
    have : ru * (1 / |toR γ|) ≤ 112 / 10 ^ 18 * (1 / |toR γ|) := mul_le_mul_of_nonneg_right hru hg0.le
    linarith
  have d4 : |1 + toR (lit 1 /. γ : F64)| ≤ 101 / 100 * (1 + 1 / |toR γ|) := by
    have h1 := abs_add_le (toR (lit 1 /. γ : F64) - 1 / toR γ) (1 + 1 / toR γ)
    have h2 := abs_add_le 1 (1 / toR γ)
    rw [abs_one, ha] at h2
    rw [show toR (lit 1 /. γ : F64) - 1 / toR γ + (1 + 1 / toR γ) = 1 + toR (lit 1 /. γ : F64) by ring] at h1
    linarith
  obtain ⟨s1, s2⟩ := acc_add l1 d1 (by rw [l2]; refine d4.trans ?_; have : (101 : ℝ) / 100 * (1 + 2 ^ 20) ≤ 10 ^ 250 := by norm_num
                                       linarith)
  rw [l2] at s2
  refine ⟨s1, ?_, by linarith, ?_⟩
  · have h1 := abs_add_le (toR (lit 1 +. lit 1 /. γ : F64) - (1 + toR (lit 1 /. γ : F64))) (toR (lit 1 /. γ : F64) - 1 / toR γ)
    rw [show toR (lit 1 +. lit 1 /. γ : F64) - (1 + toR (lit 1 /. γ : F64)) + (toR (lit 1 /. γ : F64) - 1 / toR γ) =
      toR (lit 1 +. lit 1 /. γ : F64) - (1 + 1 / toR γ) by ring] at h1
    have : ru * |1 + toR (lit 1 /. γ : F64)| ≤ 112 / 10 ^ 18 * (101 / 100 * (1 + 1 / |toR γ|)) :=
      mul_le_mul hru d4 (abs_nonneg _) (by norm_num)
    linarith
  · have h2 := abs_add_le 1 (1 / toR γ)
    rwa [abs_one, ha] at h2

/-- error of one logarithm -/
noncomputable def termErr (a : ℝ) : ℝ := Spec.logErr a * |Real.log a| + (1 + 1 / a) / (2 * 10 ^ 14)

/-- one term of the sum -/
theorem acc_term {γ σ v : F64} (hγ : isFin γ) (hσ : isFin σ) (hv : isFin v) (γ0 : 1 / 2 ^ 20 ≤ |toR γ|) (γ1 : |toR γ| ≤ 2 ^ 20)
    (σ0 : 1 / 10 ^ 100 ≤ toR σ) (σ1 : toR σ ≤ 10 ^ 100) {a : ℝ} (ha : a = 1 + toR γ * toR v / toR σ) (a0 : 1 / 10 ^ 5 ≤ a)
    (a1 : a ≤ 10 ^ 100) :
    isFin ((-. (lit 1 +. lit 1 /. γ)) *. xlog muslFU (lit 1 +. γ /. σ *. v)) ∧
      |toR ((-. (lit 1 +. lit 1 /. γ)) *. xlog muslFU (lit 1 +. γ /. σ *. v)) - -(1 + 1 / toR γ) * Real.log a| ≤
        (1 + 1 / |toR γ|) * (13 / 10 * termErr a) := by
  obtain ⟨l1, l2⟩ := lit_one
  obtain ⟨c1, c2, c3, c4⟩ := acc_coef hγ γ0
  have σp : 0 < toR σ := lt_of_lt_of_le (by norm_num) σ0
  have γp : 0 < |toR γ| := lt_of_lt_of_le (by norm_num) γ0
  set U := toR γ * toR v / toR σ with hU
  have ap : 0 < a := lt_of_lt_of_le (by norm_num) a0
  have hKa : |toR γ / toR σ| ≤ 10 ^ 107 := by
    rw [abs_div, abs_of_pos σp, div_le_iff₀ σp]
    have : (10 : ℝ) ^ 107 * (1 / 10 ^ 100) ≤ 10 ^ 107 * toR σ := mul_le_mul_of_nonneg_left σ0 (by norm_num)
    have : (2 : ℝ) ^ 20 ≤ 10 ^ 107 * (1 / 10 ^ 100) := by norm_num
    linarith
  obtain ⟨k1, k2⟩ := acc_div hγ hσ σp.ne' (hKa.trans (by norm_num))
  have t0 := tiny_pos
  have ru0 : 0 < ru := by unfold ru; norm_num
  have z : ∀ x : ℝ, |x - x| ≤ ru * |x| + tiny := fun x => by rw [sub_self, abs_zero]; positivity
  have B1 := (acc_base_aux (d := toR v) (D := toR v) σ0 σ1 γ0 γ1 hU (z _) k2 (z _) (z _)).1
  rw [_root_.mul_comm (toR v)] at B1
  have hUa : |U| ≤ 10 ^ 100 := by
    rw [show U = a - 1 by rw [ha]; ring, abs_le]
    constructor
    · have : (1 : ℝ) ≤ 10 ^ 100 := by norm_num
      linarith
    · linarith
  have hkv : |toR (γ /. σ) * toR v| ≤ 2 * 10 ^ 100 := by
    have := abs_add_le (toR (γ /. σ) * toR v - U) U
    rw [sub_add_cancel] at this
    have : (1 : ℝ) / 10 ^ 120 ≤ 1 := by norm_num
    have : (1 : ℝ) ≤ 1 / 2 * 10 ^ 100 := by norm_num
    linarith
  obtain ⟨r1, r2⟩ := acc_mul k1 hv (hkv.trans (by norm_num))
  have r3 : |toR (γ /. σ *. v)| ≤ 10 ^ 101 := by
    have := abs_add_le (toR (γ /. σ *. v) - toR (γ /. σ) * toR v) (toR (γ /. σ) * toR v)
    rw [sub_add_cancel] at this
    have h1 : ru * |toR (γ /. σ) * toR v| ≤ 1 * |toR (γ /. σ) * toR v| :=
      mul_le_mul_of_nonneg_right (by unfold ru; norm_num) (abs_nonneg _)
    have h2 : tiny ≤ 1 * 10 ^ 100 := by unfold tiny; norm_num
    have h3 : (5 : ℝ) * 10 ^ 100 ≤ 10 ^ 101 := by norm_num
    linarith
  obtain ⟨w1, w2⟩ := acc_add l1 r1 (by
    rw [l2]
    have := abs_add_le 1 (toR (γ /. σ *. v))
    rw [abs_one] at this
    have : (1 : ℝ) + 10 ^ 101 ≤ 10 ^ 250 := by norm_num
    linarith)
  rw [l2] at w2
  rw [_root_.mul_comm (toR (γ /. σ)) (toR v)] at r2
  have B2 := (acc_base_aux (d := toR v) (D := toR v) σ0 σ1 γ0 γ1 hU (z _) k2 r2 w2).2
  rw [← ha] at B2
  have hq : (1 + |U|) ≤ (1 + 2 / a) * a := by
    rw [add_mul, div_mul_cancel₀ _ ap.ne', _root_.one_mul]
    rcases abs_cases U with ⟨e, -⟩ | ⟨e, -⟩ <;> rw [e] <;> linarith
  have B3 : |toR (lit 1 +. γ /. σ *. v) - a| ≤ 5 / 10 ^ 16 * (1 + 2 / a) * a := by
    have := mul_le_mul_of_nonneg_left hq (show (0 : ℝ) ≤ 5 / 10 ^ 16 by norm_num)
    linarith
  have ia : 1 / a ≤ 10 ^ 5 := by rw [div_le_iff₀ ap]; linarith
  have ia0 : 0 < 1 / a := by positivity
  have e2 : 2 / a = 2 * (1 / a) := by ring
  obtain ⟨x1, x2⟩ := acc_xlog w1 ap B3 (by rw [e2]; linarith)
  have hm := abs_log_1000 (le_trans (by norm_num) a0) a1
  obtain ⟨g1, g2⟩ := logErr_bounds a
  have m0 := abs_nonneg (Real.log a)
  have hlm : Spec.logErr a * |Real.log a| ≤ 11 / 10 ^ 10 * 10 ^ 3 := mul_le_mul g2 hm m0 (by norm_num)
  have hlm0 : 3 / 10 ^ 15 * |Real.log a| ≤ Spec.logErr a * |Real.log a| := mul_le_mul_of_nonneg_right g1 m0
  have P := acc_prod (x := -. (lit 1 +. lit 1 /. γ)) (X := -(1 + 1 / toR γ)) (A := 1 + 1 / |toR γ|) (κ := termErr a)
    (isFin_neg.mpr c1) x1
    (by rw [toR_neg', ← abs_neg]; convert c2 using 2; ring) (by rw [abs_neg]; exact c4)
    (by have : 0 < 1 / |toR γ| := by positivity
        linarith) (c3.trans (by norm_num)) (x2.trans (by unfold termErr; rw [e2]; linarith)) rfl (hm.trans (by norm_num))
    (by unfold termErr; linarith) (by unfold termErr; linarith) (by unfold termErr; linarith)
  exact P

theorem lit_size {n : ℕ} (hn : n ≤ 2 ^ 24) : isFin (lit (n : ℚ) : F64) ∧ toR (lit (n : ℚ) : F64) = n := by
  obtain ⟨h1, h2⟩ := lit_nat (hn.trans (by norm_num))
  refine ⟨h1, ?_⟩
  unfold toR; rw [h2]; push_cast; rfl

/-- the term in the scale -/
theorem acc_first {σ : F64} (hσ : isFin σ) (σ0 : 1 / 10 ^ 100 ≤ toR σ) (σ1 : toR σ ≤ 10 ^ 100) {n : ℕ} (n1 : 1 ≤ n) (hn : n ≤ 2 ^ 24) :
    isFin ((-. lit (n : ℚ)) *. xlog muslFU σ) ∧
      |toR ((-. lit (n : ℚ)) *. xlog muslFU σ) - -(n : ℝ) * Real.log (toR σ)| ≤
        n * (13 / 10 * (Spec.logErr (toR σ) * |Real.log (toR σ)| + 1 / (2 * 10 ^ 14))) := by
  obtain ⟨l1, l2⟩ := lit_size hn
  have σp : 0 < toR σ := lt_of_lt_of_le (by norm_num) σ0
  obtain ⟨x1, x2⟩ := acc_xlog (e := 0) hσ σp (by simp) (by norm_num)
  have hm := abs_log_1000 σ0 σ1
  obtain ⟨g1, g2⟩ := logErr_bounds (toR σ)
  have m0 := abs_nonneg (Real.log (toR σ))
  have hlm : Spec.logErr (toR σ) * |Real.log (toR σ)| ≤ 11 / 10 ^ 10 * 10 ^ 3 := mul_le_mul g2 hm m0 (by norm_num)
  have hlm0 : 3 / 10 ^ 15 * |Real.log (toR σ)| ≤ Spec.logErr (toR σ) * |Real.log (toR σ)| := mul_le_mul_of_nonneg_right g1 m0
  have n1' : (1 : ℝ) ≤ n := by exact_mod_cast n1
  have hn' : (n : ℝ) ≤ 2 ^ 24 := by exact_mod_cast hn
  exact acc_prod (x := -. lit (n : ℚ)) (X := -(n : ℝ)) (A := n) (κ := Spec.logErr (toR σ) * |Real.log (toR σ)| + 1 / (2 * 10 ^ 14))
    (isFin_neg.mpr l1) x1 (by rw [toR_neg', l2, sub_self, abs_zero]; positivity) (by rw [abs_neg, Nat.abs_cast]) n1' (hn'.trans (by norm_num))
    (x2.trans (by linarith)) rfl (hm.trans (by norm_num)) (by linarith) (by linarith) (by linarith)

theorem sum_map_le {l : List F64} {f : F64 → ℝ} {c : ℝ} (h : ∀ v ∈ l, f v ≤ c) : (l.map f).sum ≤ l.length * c := by
  have := List.sum_le_card_nsmul (l.map f) c (by
    intro x hx
    obtain ⟨v, hv, rfl⟩ := List.mem_map.mp hx
    exact h v hv)
  simpa using this

/-- error of the computed log-likelihood for a shape that is not 0 -/
theorem logLikL_acc {γ σ : F64} (e : F64) {l : List F64} (hγ : isFin γ) (hσ : isFin σ) (γ0 : 1 / 2 ^ 20 ≤ |toR γ|) (γ1 : |toR γ| ≤ 2 ^ 20)
    (σ0 : 1 / 10 ^ 100 ≤ toR σ) (σ1 : toR σ ≤ 10 ^ 100) (n1 : 1 ≤ l.length) (hn : l.length ≤ 2 ^ 24)
    (hl : ∀ v ∈ l, isFin v ∧ 1 / 10 ^ 5 ≤ 1 + toR γ * toR v / toR σ ∧ 1 + toR γ * toR v / toR σ ≤ 10 ^ 100) :
    isFin (logLikL (codeMath muslFU) e l γ σ) ∧
      |toR (logLikL (codeMath muslFU) e l γ σ) -
        (-(l.length : ℝ) * Real.log (toR σ) + (l.map fun v => -(1 + 1 / toR γ) * Real.log (1 + toR γ * toR v / toR σ)).sum)| ≤
      3 / 2 * (l.length * (Spec.logErr (toR σ) * |Real.log (toR σ)| + 1 / (2 * 10 ^ 14)) +
        (l.map fun v => (1 + 1 / |toR γ|) * termErr (1 + toR γ * toR v / toR σ)).sum) +
      l.length / 10 ^ 15 * (l.length * |Real.log (toR σ)| +
        (l.map fun v => (1 + 1 / |toR γ|) * |Real.log (1 + toR γ * toR v / toR σ)|).sum) := by
  have γp : 0 < |toR γ| := lt_of_lt_of_le (by norm_num) γ0
  obtain ⟨c1, c2, c3, c4⟩ := acc_coef hγ γ0
  obtain ⟨f1, f2⟩ := acc_first hσ σ0 σ1 n1 hn
  set A := 1 + 1 / |toR γ| with hA
  have hA1 : 1 ≤ A := by
    have : 0 < 1 / |toR γ| := by positivity
    linarith
  set X0 := Spec.logErr (toR σ) * |Real.log (toR σ)| + 1 / (2 * 10 ^ 14) with hX0
  set X1 := (l.map fun v => A * termErr (1 + toR γ * toR v / toR σ)).sum with hX1
  set S1 := (l.map fun v => A * |Real.log (1 + toR γ * toR v / toR σ)|).sum with hS1
  have n1' : (1 : ℝ) ≤ l.length := by exact_mod_cast n1
  have hn' : (l.length : ℝ) ≤ 2 ^ 24 := by exact_mod_cast hn
  have hlog : ∀ v ∈ l, |Real.log (1 + toR γ * toR v / toR σ)| ≤ 10 ^ 3 := fun v hv =>
    abs_log_1000 (le_trans (by norm_num) (hl v hv).2.1) (hl v hv).2.2
  have herr : ∀ v ∈ l, 0 ≤ termErr (1 + toR γ * toR v / toR σ) ∧ termErr (1 + toR γ * toR v / toR σ) ≤ 1 := by
    intro v hv
    obtain ⟨-, a0, -⟩ := hl v hv
    have ap : 0 < 1 + toR γ * toR v / toR σ := lt_of_lt_of_le (by norm_num) a0
    have ia : 1 / (1 + toR γ * toR v / toR σ) ≤ 10 ^ 5 := by rw [div_le_iff₀ ap]; linarith
    obtain ⟨g1, g2⟩ := logErr_bounds (1 + toR γ * toR v / toR σ)
    have := mul_le_mul g2 (hlog v hv) (abs_nonneg _) (by norm_num)
    have := mul_nonneg (le_trans (by norm_num) g1) (abs_nonneg (Real.log (1 + toR γ * toR v / toR σ)))
    have : 0 < 1 / (1 + toR γ * toR v / toR σ) := by positivity
    unfold termErr
    constructor <;> linarith
  have hX1a : 0 ≤ X1 := List.sum_nonneg (by
    intro x hx; obtain ⟨v, hv, rfl⟩ := List.mem_map.mp hx; exact mul_nonneg (by linarith) (herr v hv).1)
  have hX1b : X1 ≤ l.length * (2 * 2 ^ 20 * 1) := sum_map_le fun v hv => mul_le_mul c3 (herr v hv).2 (herr v hv).1 (by norm_num)
  have hS1a : 0 ≤ S1 := List.sum_nonneg (by
    intro x hx; obtain ⟨v, hv, rfl⟩ := List.mem_map.mp hx; positivity)
  have hS1b : S1 ≤ l.length * (2 * 2 ^ 20 * 10 ^ 3) := sum_map_le fun v hv => mul_le_mul c3 (hlog v hv) (abs_nonneg _) (by norm_num)
  have hm := abs_log_1000 σ0 σ1
  obtain ⟨g1, g2⟩ := logErr_bounds (toR σ)
  have hX0a : 1 / (2 * 10 ^ 14) ≤ X0 := by
    have := mul_nonneg (le_trans (by norm_num) g1) (abs_nonneg (Real.log (toR σ)))
    linarith
  have hX0b : X0 ≤ 1 := by
    have := mul_le_mul g2 hm (abs_nonneg _) (by norm_num)
    linarith
  have hTsum : (l.map fun v => |-(1 + 1 / toR γ) * Real.log (1 + toR γ * toR v / toR σ)|).sum ≤ S1 := by
    refine List.sum_le_sum fun v _ => ?_
    rw [abs_mul, abs_neg]
    exact mul_le_mul_of_nonneg_right c4 (abs_nonneg _)
  have hδ : (l.map fun v => A * (13 / 10 * termErr (1 + toR γ * toR v / toR σ))).sum = 13 / 10 * X1 := by
    rw [hX1, ← List.sum_map_mul_left]
    congr 1
    refine List.map_congr_left fun v _ => ?_
    ring
  set n : ℝ := (l.length : ℝ) with hnR
  set S := n * |Real.log (toR σ)| + S1 with hS
  set D := n * (13 / 10 * X0) + 13 / 10 * X1 with hD
  have hnX : n * (1 / (2 * 10 ^ 14)) ≤ n * X0 := mul_le_mul_of_nonneg_left hX0a (by linarith)
  have hnX2 : n * X0 ≤ 2 ^ 24 * 1 := mul_le_mul hn' hX0b (by linarith) (by norm_num)
  have hDe : D = 13 / 10 * (n * X0 + X1) := by rw [hD]; ring
  have hnl0 : 0 ≤ n * |Real.log (toR σ)| := by positivity
  have hnl : n * |Real.log (toR σ)| ≤ 2 ^ 24 * 10 ^ 3 := mul_le_mul hn' hm (abs_nonneg _) (by norm_num)
  have t0 := tiny_pos
  have ht : tiny ≤ 1 / 10 ^ 30 := by unfold tiny; norm_num
  have hnt : n * tiny ≤ n * (1 / 10 ^ 30) := mul_le_mul_of_nonneg_left ht (by linarith)
  have hru : ru ≤ 112 / 10 ^ 18 := by unfold ru; norm_num
  have ru0 : 0 < ru := by unfold ru; norm_num
  have hnr : n * ru ≤ 2 ^ 24 * (112 / 10 ^ 18) := mul_le_mul hn' hru ru0.le (by norm_num)
  have hS0 : 0 ≤ S := by linarith
  have hD0 : 0 ≤ D := by rw [hDe]; linarith
  have hnrS : n * ru * S ≤ n * (112 / 10 ^ 18) * S := mul_le_mul_of_nonneg_right (mul_le_mul_of_nonneg_left hru (by linarith)) hS0
  have hnrS' : n * ru * S ≤ 2 ^ 24 * (112 / 10 ^ 18) * S := mul_le_mul_of_nonneg_right hnr hS0
  have hnrD : n * ru * D ≤ 2 ^ 24 * (112 / 10 ^ 18) * D := mul_le_mul_of_nonneg_right hnr hD0
  have eW : n * (2 * ru * (S + 2 * D) + tiny) = 2 * (n * ru * S) + 4 * (n * ru * D) + n * tiny := by ring
  have hne : (γ ==. (lit 0 : F64)) = false := by
    rw [Bool.eq_false_iff]
    intro h
    have z := toQ_of_lit0
    have := (F64.eq_iff _ _).mp h
    rw [val_fin hγ, val_fin z.1] at this
    have : toQ γ = toQ (lit 0 : F64) := by exact_mod_cast this.2.2
    rw [z.2] at this
    unfold toR at γp
    rw [this] at γp
    simp at γp
  have K := acc_fold (f := fun v => (-. (lit 1 +. lit 1 /. γ)) *. xlog muslFU (lit 1 +. γ /. σ *. v))
    (T := fun v => -(1 + 1 / toR γ) * Real.log (1 + toR γ * toR v / toR σ))
    (δ := fun v => A * (13 / 10 * termErr (1 + toR γ * toR v / toR σ))) (W := S + 2 * D)
    (by
      have : (2 : ℝ) ^ 24 * (2 * 2 ^ 20 * 10 ^ 3) * 100 ≤ 10 ^ 249 := by norm_num
      have h1 : n * (2 * 2 ^ 20 * 1) ≤ 2 ^ 24 * (2 * 2 ^ 20 * 1) := mul_le_mul_of_nonneg_right hn' (by norm_num)
      have h2 : n * (2 * 2 ^ 20 * 10 ^ 3) ≤ 2 ^ 24 * (2 * 2 ^ 20 * 10 ^ 3) := mul_le_mul_of_nonneg_right hn' (by norm_num)
      rw [hDe]
      linarith) l
    (fun v hv => acc_term hγ hσ (hl v hv).1 γ0 γ1 σ0 σ1 rfl (hl v hv).2.1 (hl v hv).2.2)
    ((-. lit (l.length : ℚ)) *. xlog muslFU σ) (-n * Real.log (toR σ)) (n * (13 / 10 * X0)) f1 f2
    (by rw [abs_mul, abs_neg, Nat.abs_cast]; linarith) (by rw [hδ, eW]; linarith)
  rw [hδ, eW] at K
  unfold logLikL
  rw [hne, if_neg (by simp)]
  refine ⟨K.1, K.2.trans ?_⟩
  have e3 : n / 10 ^ 15 * S = 1 / 10 ^ 15 * (n * S) := by ring
  have e4 : n * (112 / 10 ^ 18) * S = 112 / 10 ^ 18 * (n * S) := by ring
  have hnS : 0 ≤ n * S := by positivity
  rw [e3]
  rw [e4] at hnrS
  linarith

/-- error of the computed log-likelihood for a shape of 0, for a tracked sum `e` of the values whose exact sum is `E` -/
theorem logLikL_acc0 {γ σ e : F64} {l : List F64} {E : ℝ} (hγ : isFin γ) (γ0 : toR γ = 0) (hσ : isFin σ)
    (σ0 : 1 / 10 ^ 100 ≤ toR σ) (σ1 : toR σ ≤ 10 ^ 100) (n1 : 1 ≤ l.length) (hn : l.length ≤ 2 ^ 24) (he : isFin e) (E0 : 0 ≤ E)
    (hE : E ≤ 10 ^ 100) (hd : |toR e - E| ≤ 10 ^ 100) :
    isFin (logLikL (codeMath muslFU) e l γ σ) ∧
      |toR (logLikL (codeMath muslFU) e l γ σ) - (-(l.length : ℝ) * Real.log (toR σ) - E / toR σ)| ≤
      3 / 2 * (l.length * (Spec.logErr (toR σ) * |Real.log (toR σ)| + 1 / (2 * 10 ^ 14)) + |toR e - E| / toR σ) +
      1 / 10 ^ 15 * (l.length * |Real.log (toR σ)| + E / toR σ) := by
  have σp : 0 < toR σ := lt_of_lt_of_le (by norm_num) σ0
  obtain ⟨f1, f2⟩ := acc_first hσ σ0 σ1 n1 hn
  set X0 := Spec.logErr (toR σ) * |Real.log (toR σ)| + 1 / (2 * 10 ^ 14) with hX0
  set n : ℝ := (l.length : ℝ) with hnR
  have n1' : (1 : ℝ) ≤ n := by rw [hnR]; exact_mod_cast n1
  have hn' : n ≤ 2 ^ 24 := by rw [hnR]; exact_mod_cast hn
  have hm := abs_log_1000 σ0 σ1
  obtain ⟨g1, g2⟩ := logErr_bounds (toR σ)
  have hX0a : 1 / (2 * 10 ^ 14) ≤ X0 := by
    have := mul_nonneg (le_trans (by norm_num) g1) (abs_nonneg (Real.log (toR σ)))
    linarith
  have hX0b : X0 ≤ 1 := by
    have := mul_le_mul g2 hm (abs_nonneg _) (by norm_num)
    linarith
  have hnX : 1 * (1 / (2 * 10 ^ 14)) ≤ n * X0 := mul_le_mul n1' hX0a (by norm_num) (by linarith)
  have hnX2 : n * X0 ≤ 2 ^ 24 * 1 := mul_le_mul hn' hX0b (by linarith) (by norm_num)
  have hnl0 : 0 ≤ n * |Real.log (toR σ)| := by positivity
  have hnl : n * |Real.log (toR σ)| ≤ 2 ^ 24 * 10 ^ 3 := mul_le_mul hn' hm (abs_nonneg _) (by norm_num)
  have iσ : 1 / toR σ ≤ 10 ^ 100 := by
    rw [div_le_iff₀ σp]
    have : (10 : ℝ) ^ 100 * (1 / 10 ^ 100) ≤ 10 ^ 100 * toR σ := mul_le_mul_of_nonneg_left σ0 (by norm_num)
    linarith
  have iσ0 : 0 < 1 / toR σ := by positivity
  set F := E / toR σ with hF
  set G := |toR e - E| / toR σ with hG
  have F0 : 0 ≤ F := by positivity
  have G0 : 0 ≤ G := by positivity
  have F1 : F ≤ 10 ^ 200 := by
    have := mul_le_mul hE iσ iσ0.le (by norm_num)
    rw [hF, show E / toR σ = E * (1 / toR σ) by ring]
    linarith
  have G1 : G ≤ 10 ^ 200 := by
    have := mul_le_mul hd iσ iσ0.le (by norm_num)
    rw [hG, show |toR e - E| / toR σ = |toR e - E| * (1 / toR σ) by ring]
    linarith
  have q1 : |toR e / toR σ - F| ≤ G := by
    rw [hF, hG, ← sub_div, abs_div, abs_of_pos σp]
  have q2 : |toR e / toR σ| ≤ F + G := by
    have := abs_add_le (toR e / toR σ - F) F
    rw [sub_add_cancel, abs_of_nonneg F0] at this
    linarith
  obtain ⟨d1, d2⟩ := acc_div he hσ σp.ne' (q2.trans (by
    have : (2 : ℝ) * 10 ^ 200 ≤ 10 ^ 250 := by norm_num
    linarith))
  have t0 := tiny_pos
  have ht : tiny ≤ 1 / 10 ^ 30 := by unfold tiny; norm_num
  have hru : ru ≤ 112 / 10 ^ 18 := by unfold ru; norm_num
  have r1 : ru * |toR e / toR σ| ≤ 112 / 10 ^ 18 * (F + G) := mul_le_mul hru q2 (abs_nonneg _) (by norm_num)
  have d3 : |toR (e /. σ) - F| ≤ G + 112 / 10 ^ 18 * (F + G) + 1 / 10 ^ 30 := by
    have := abs_add_le (toR (e /. σ) - toR e / toR σ) (toR e / toR σ - F)
    rw [sub_add_sub_cancel] at this
    linarith
  set A := toR ((-. lit (l.length : ℚ)) *. xlog muslFU σ) with hA
  have a1 : |A - toR (e /. σ) - (-n * Real.log (toR σ) - F)| ≤ 13 / 10 * (n * X0) + (G + 112 / 10 ^ 18 * (F + G) + 1 / 10 ^ 30) := by
    have := abs_sub (A - -n * Real.log (toR σ)) (toR (e /. σ) - F)
    rw [show A - -n * Real.log (toR σ) - (toR (e /. σ) - F) = A - toR (e /. σ) - (-n * Real.log (toR σ) - F) by ring] at this
    have e1 : n * (13 / 10 * X0) = 13 / 10 * (n * X0) := by ring
    rw [e1] at f2
    linarith
  have a2 : |-n * Real.log (toR σ) - F| ≤ n * |Real.log (toR σ)| + F := by
    have := abs_sub (-n * Real.log (toR σ)) F
    rw [abs_mul, abs_neg, Nat.abs_cast, abs_of_nonneg F0] at this
    exact this
  have a3 : |A - toR (e /. σ)| ≤ 2 * (n * X0) + 2 * G + (n * |Real.log (toR σ)| + F) + F := by
    have := abs_add_le (A - toR (e /. σ) - (-n * Real.log (toR σ) - F)) (-n * Real.log (toR σ) - F)
    rw [sub_add_cancel] at this
    linarith
  obtain ⟨s1, s2⟩ := acc_sub f1 d1 (by
    refine a3.trans ?_
    have : (2 : ℝ) ^ 24 * 10 ^ 3 * 10 + 10 * 10 ^ 200 ≤ 10 ^ 250 := by norm_num
    linarith)
  have hz : (γ ==. (lit 0 : F64)) = true := by
    have z := toQ_of_lit0
    refine (F64.eq_iff _ _).mpr ⟨hγ.notNaN, z.1.notNaN, ?_⟩
    rw [val_fin hγ, val_fin z.1, z.2]
    unfold toR at γ0
    have : toQ γ = 0 := by exact_mod_cast γ0
    rw [this]
  unfold logLikL
  rw [hz, if_pos rfl]
  refine ⟨s1, ?_⟩
  have r2 : ru * |A - toR (e /. σ)| ≤ 112 / 10 ^ 18 * (2 * (n * X0) + 2 * G + (n * |Real.log (toR σ)| + F) + F) :=
    mul_le_mul hru a3 (abs_nonneg _) (by norm_num)
  have := abs_add_le (toR ((-. lit (l.length : ℚ)) *. xlog muslFU σ -. e /. σ) - (A - toR (e /. σ)))
    (A - toR (e /. σ) - (-n * Real.log (toR σ) - F))
  rw [sub_add_sub_cancel] at this
  refine this.trans ?_
  have s2' : |toR ((-. lit (l.length : ℚ)) *. xlog muslFU σ -. e /. σ) - (A - toR (e /. σ))| ≤ ru * |A - toR (e /. σ)| + tiny := s2
  linarith

end Verif

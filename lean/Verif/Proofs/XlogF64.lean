/-
Accuracy of `xlog` in binary64.
-/
import Verif.Proofs.LogF64
import Verif.Props.Xmath

namespace Verif
open F64 LogCF

/-! ### the constant LOG2 -/

theorem log_pt {z : ℝ} (h0 : 0 < z) (h1 : z ≤ 1) {K L : ℝ} (hK : (39916800 * (1 - z) ^ 11 / N1 z) ^ 2 ≤ K) (hL : logCF z = L) :
    Real.log z ≤ L ∧ L ≤ (1 - K) * Real.log z := by
  obtain ⟨a, b⟩ := err_bound h0 le_rfl h1 hK
  rw [hL] at a b
  exact ⟨a, by linarith⟩

theorem log_two_eq : Real.log 2 = -(7 * Real.log (15 / 16) + 5 * Real.log (24 / 25) + 3 * Real.log (80 / 81)) := by
  have h : (2 : ℝ)⁻¹ = (15 / 16) ^ 7 * (24 / 25) ^ 5 * (80 / 81) ^ 3 := by norm_num
  have h2 := congrArg Real.log h
  rw [Real.log_inv, Real.log_mul (by norm_num) (by norm_num), Real.log_mul (by norm_num) (by norm_num), Real.log_pow, Real.log_pow,
    Real.log_pow] at h2
  push_cast at h2
  linarith

theorem log_two_bounds : (6931471805599453094172 / 10 ^ 22 : ℝ) ≤ Real.log 2 ∧ Real.log 2 ≤ 6931471805599453094173 / 10 ^ 22 := by
  have k1 : (39916800 * (1 - (15 / 16 : ℝ)) ^ 11 / N1 (15 / 16)) ^ 2 ≤ 1 / 10 ^ 30 := by unfold N1; norm_num
  have k2 : (39916800 * (1 - (24 / 25 : ℝ)) ^ 11 / N1 (24 / 25)) ^ 2 ≤ 1 / 10 ^ 30 := by unfold N1; norm_num
  have k3 : (39916800 * (1 - (80 / 81 : ℝ)) ^ 11 / N1 (80 / 81)) ^ 2 ≤ 1 / 10 ^ 30 := by unfold N1; norm_num
  obtain ⟨a1, b1⟩ := log_pt (by norm_num) (by norm_num) k1 rfl
  obtain ⟨a2, b2⟩ := log_pt (by norm_num) (by norm_num) k2 rfl
  obtain ⟨a3, b3⟩ := log_pt (by norm_num) (by norm_num) k3 rfl
  rw [logCF_eq (by norm_num)] at a1 b1 a2 b2 a3 b3
  unfold N1 N2 at a1 b1 a2 b2 a3 b3
  norm_num at a1 b1 a2 b2 a3 b3
  rw [log_two_eq]
  constructor
  · linarith
  · linarith

/-- the literal of src/xmath.c:12 -/
noncomputable def LN2 : ℝ := 6243314768165359 / 9007199254740992

theorem LOG2_fin : isFin (LOG2 : F64) ∧ toQ (LOG2 : F64) = 6243314768165359 / 9007199254740992 := by
  constructor <;> decide +kernel

theorem LOG2_app : App (LOG2 : F64) LN2 0 := by
  refine ⟨LOG2_fin.1, ?_⟩
  unfold toR LN2; rw [LOG2_fin.2]; norm_num

theorem LN2_err : 0 ≤ Real.log 2 - LN2 ∧ Real.log 2 - LN2 ≤ 24 / 10 ^ 18 := by
  obtain ⟨a, b⟩ := log_two_bounds
  unfold LN2
  constructor
  · have : (6243314768165359 / 9007199254740992 : ℝ) ≤ 6931471805599453094172 / 10 ^ 22 := by norm_num
    linarith
  · have : (6931471805599453094173 / 10 ^ 22 : ℝ) ≤ 6243314768165359 / 9007199254740992 + 24 / 10 ^ 18 := by norm_num
    linarith

/-! ### relative errors -/

/-- `x` is a finite double with relative error at most `θ` -/
def Rel (x : F64) (v θ : ℝ) : Prop := isFin x ∧ |toR x - v| ≤ θ * |v|

theorem rq_rel_real {q : ℚ} (h : pow2 (-1022) ≤ |q|) : |((rq q : ℚ) : ℝ) - q| ≤ 1 / 9007199254740992 * |(q : ℝ)| := by
  have h1 := rq_rel (.inr h)
  rw [pow2_m53] at h1
  have h2 : ((|rq q - q| : ℚ) : ℝ) ≤ ((1 / 9007199254740992 * |q| : ℚ) : ℝ) := Rat.cast_le.mpr h1
  push_cast at h2
  exact h2

theorem tiny_le : pow2 (-1022) ≤ 1 / 10 ^ 60 := by
  have h2 : pow2 (-240) = 1 / (2 : ℚ) ^ 240 := by
    rw [pow2_eq, zpow_neg, one_div]; exact congrArg _ (zpow_natCast 2 240)
  have : pow2 (-240) ≤ 1 / 10 ^ 60 := by
    rw [h2]; exact one_div_le_one_div_of_le (by positivity) (by norm_num)
  exact (pow2_le (by norm_num)).trans this

/-- relative errors through a rounded operation -/
theorem rel_round {r : F64} {q : ℚ} {v θ θ' : ℝ} (hr : isFin r ∧ toQ r = rq q) (hq : |(q : ℝ) - v| ≤ θ * |v|)
    (hlo : 1 / 10 ^ 60 ≤ |(q : ℝ)|) (hθ : θ + 1 / 9007199254740992 * (1 + θ) ≤ θ') : Rel r v θ' := by
  refine ⟨hr.1, ?_⟩
  unfold toR
  rw [hr.2]
  have hlo' : pow2 (-1022) ≤ |q| := by
    refine tiny_le.trans ?_
    have : ((1 / 10 ^ 60 : ℚ) : ℝ) ≤ ((|q| : ℚ) : ℝ) := by push_cast; exact hlo
    exact_mod_cast this
  have h1 := rq_rel_real hlo'
  have h2 := abs_add_le (((rq q : ℚ) : ℝ) - q) (q - v)
  rw [show ((rq q : ℚ) : ℝ) - q + (q - v) = ((rq q : ℚ) : ℝ) - v by ring] at h2
  have h3 : |(q : ℝ)| ≤ (1 + θ) * |v| := by
    have := abs_add_le ((q : ℝ) - v) v
    rw [sub_add_cancel] at this
    linarith
  calc |((rq q : ℚ) : ℝ) - v| ≤ 1 / 9007199254740992 * |(q : ℝ)| + θ * |v| := by linarith
    _ ≤ 1 / 9007199254740992 * ((1 + θ) * |v|) + θ * |v| := by gcongr
    _ = (θ + 1 / 9007199254740992 * (1 + θ)) * |v| := by ring
    _ ≤ θ' * |v| := mul_le_mul_of_nonneg_right hθ (abs_nonneg _)

/-- a double below 1 is at most 1 - 2^-53 -/
theorem below_one {z : F64} (hz : isFin z) (h0 : 0 < toQ z) (h1 : toQ z < 1) : toQ z ≤ 1 - 1 / 9007199254740992 := by
  rcases z with _ | _ | ⟨s, k⟩
  · exact absurd hz id
  · exact absurd hz id
  have hk : toQ (fin s k) = mag k.val := by
    rw [toQ_fin] at h0 ⊢
    cases s
    · rfl
    · simp only [if_true] at h0
      have := mag_nonneg k.val
      linarith
  rw [hk] at h1 ⊢
  rw [← mag_one, mag_lt_iff] at h1
  have h2 : mag 4607182418800017407 = 1 - 1 / 9007199254740992 := by decide +kernel
  rw [← h2]
  exact mag_le_iff.mpr (by omega)

/-- the quotient: pure algebra -/
theorem quot_aux {Z d X Y : ℝ} (hZ : 1 / 9007199254740992 ≤ 1 - Z) (habs2 : |2 * (Z - 1)| = 2 * (1 - Z))
    (dlo : 1081 / 1000 ≤ d) (hD2 : -(4951 / 6250000000000000000) ≤ Y - d ∧ Y - d ≤ 4951 / 6250000000000000000)
    (hX2 : |X - 2 * (Z - 1)| ≤ 23 / 10 ^ 17 * (2 * (1 - Z))) :
    |X / Y - 2 * (Z - 1) / d| ≤ 97 / 10 ^ 17 * |2 * (Z - 1) / d| := by
  have hY0 : 1 < Y := by linarith
  have hd0 : d ≠ 0 := by linarith
  have hYd : 0 < Y * d := by positivity
  have e1 : X / Y - 2 * (Z - 1) / d = ((X - 2 * (Z - 1)) * d - 2 * (Z - 1) * (Y - d)) / (Y * d) := by
    have : Y ≠ 0 := by linarith
    field_simp; ring
  have e2 : |2 * (Z - 1) / d| = 2 * (1 - Z) / d := by rw [abs_div, habs2, abs_of_pos (by linarith)]
  rw [e1, e2, abs_div, abs_of_pos hYd, div_le_iff₀ hYd]
  have e3 : 97 / 10 ^ 17 * (2 * (1 - Z) / d) * (Y * d) = 97 / 10 ^ 17 * (2 * (1 - Z)) * Y := by
    field_simp
  rw [e3]
  have t1 : |(X - 2 * (Z - 1)) * d| ≤ 23 / 10 ^ 17 * (2 * (1 - Z)) * d := by
    rw [abs_mul, abs_of_pos (by linarith : 0 < d)]; exact mul_le_mul_of_nonneg_right hX2 (by linarith)
  have t2 : |2 * (Z - 1) * (Y - d)| ≤ 2 * (1 - Z) * (73301 / 10 ^ 20 * d) := by
    rw [abs_mul, habs2]
    refine mul_le_mul_of_nonneg_left ?_ (by linarith)
    rw [abs_le]
    constructor <;> linarith
  have t3 : (96301 / 10 ^ 20) * d ≤ 97 / 10 ^ 17 * Y := by linarith
  have t4 := abs_sub ((X - 2 * (Z - 1)) * d) (2 * (Z - 1) * (Y - d))
  have t5 : 2 * (1 - Z) * ((96301 / 10 ^ 20) * d) ≤ 2 * (1 - Z) * (97 / 10 ^ 17 * Y) :=
    mul_le_mul_of_nonneg_left t3 (by linarith)
  linarith

/-- `log_cf_11` in binary64 has a relative error of a few units in the last place with respect to the exact fraction. -/
theorem log_cf_rel {z : F64} (hz : isFin z) (h : 1 / 4 ≤ toR z) (h1 : toR z < 1) :
    Rel (log_cf_11 z) (logCF (toR z)) (11 / 10 ^ 16) := by
  have hZ : 1 / 9007199254740992 ≤ 1 - toR z := by
    have a0 : 0 < toQ z := by
      have : (0 : ℝ) < toR z := by linarith
      unfold toR at this; exact_mod_cast this
    have a1 : toQ z < 1 := by unfold toR at h1; exact_mod_cast h1
    have := below_one hz a0 a1
    have h' : ((toQ z : ℚ) : ℝ) ≤ ((1 - 1 / 9007199254740992 : ℚ) : ℝ) := by exact_mod_cast this
    push_cast at h'
    unfold toR; linarith
  set Z := toR z with hZdef
  have one : isFin (lit 1 : F64) ∧ toQ (lit 1 : F64) = 1 := by
    have := F64.lit_int (i := 1) (by norm_num); simpa using this
  have two : isFin (lit 2 : F64) ∧ toQ (lit 2 : F64) = 2 := by
    have := F64.lit_int (i := 2) (by norm_num); simpa using this
  have habs : |Z - 1| = 1 - Z := by rw [abs_sub_comm]; exact abs_of_nonneg (by linarith)
  -- x = z - 1
  have x : Rel (z -. lit 1) (Z - 1) (1 / 9007199254740992) := by
    have hq : ((toQ z - toQ (lit 1 : F64) : ℚ) : ℝ) = Z - 1 := by rw [one.2]; push_cast; rfl
    refine rel_round (q := toQ z - toQ (lit 1 : F64)) (θ := 0) (sub_fin' hz one.1 (no_overflow (B := 1) ?_ (by norm_num))) ?_ ?_ (by norm_num)
    · rw [hq, habs]; linarith
    · rw [hq]; simp
    · rw [hq, habs]
      exact le_trans (by norm_num) hZ
  -- 2 * x
  have x2 : Rel (lit 2 *. (z -. lit 1)) (2 * (Z - 1)) (23 / 10 ^ 17) := by
    have hx := x.2
    rw [habs] at hx
    have hx' := abs_le.mp hx
    have hq : ((toQ (lit 2 : F64) * toQ (z -. lit 1) : ℚ) : ℝ) = 2 * toR (z -. lit 1) := by rw [two.2]; push_cast; rfl
    have hneg : toR (z -. lit 1) ≤ -(1 / 2) * (1 - Z) := by nlinarith
    have hlow : -2 * (1 - Z) ≤ toR (z -. lit 1) := by nlinarith
    have hab : |2 * toR (z -. lit 1)| = -(2 * toR (z -. lit 1)) := abs_of_nonpos (by linarith)
    refine rel_round (q := toQ (lit 2 : F64) * toQ (z -. lit 1)) (θ := 1 / 9007199254740992)
      (mul_fin' two.1 x.1 (no_overflow (B := 4) ?_ (by norm_num))) ?_ ?_ (by norm_num)
    · rw [hq, hab]; linarith
    · rw [hq, show 2 * toR (z -. lit 1) - 2 * (Z - 1) = 2 * (toR (z -. lit 1) - (Z - 1)) by ring, abs_mul, abs_mul, habs]
      have : |(2 : ℝ)| = 2 := abs_of_pos (by norm_num)
      rw [this]; linarith
    · rw [hq, hab]
      have : (1 : ℝ) / 10 ^ 60 ≤ 1 / 9007199254740992 := by norm_num
      linarith
  -- the quotient
  have D := logDen_app hz h h1.le
  have dlo := d1_lo h h1.le
  have dhi := d1_hi h h1.le
  rw [log_cf_eq]
  unfold logCF
  set d := d1 Z with hd
  have hD2 := abs_le.mp D.2
  norm_num only at hD2
  have hX2 := x2.2
  have habs2 : |2 * (Z - 1)| = 2 * (1 - Z) := by
    rw [abs_mul, habs, abs_of_pos (by norm_num : (0 : ℝ) < 2)]
  rw [habs2] at hX2
  have hX2' := abs_le.mp hX2
  set X := toR (lit 2 *. (z -. lit 1)) with hX
  set Y := toR (logDen z) with hY
  have hY0 : 1 < Y := by linarith
  have hYq : toQ (logDen z) ≠ 0 := by
    intro hc; rw [hY, toR, hc] at hY0; norm_num at hY0
  have hq : ((toQ (lit 2 *. (z -. lit 1)) / toQ (logDen z) : ℚ) : ℝ) = X / Y := by push_cast; rfl
  have hXn : X ≤ -(1 - Z) := by nlinarith
  have hXl : -4 * (1 - Z) ≤ X := by nlinarith
  have hXY : |X / Y| = -X / Y := by rw [abs_div, abs_of_nonpos (by linarith), abs_of_pos (by linarith)]
  obtain ⟨zz, hzz⟩ := div_fin x2.1 D.1 hYq
  have hrd : isFin (F64.div (lit 2 *. (z -. lit 1)) (logDen z)) ∧
      toQ (F64.div (lit 2 *. (z -. lit 1)) (logDen z)) = rq (toQ (lit 2 *. (z -. lit 1)) / toQ (logDen z)) := by
    rw [hzz]
    refine fin_ofRat (no_overflow (B := 4) ?_ (by norm_num))
    rw [hq, hXY, div_le_iff₀ (by linarith)]
    nlinarith
  refine rel_round (θ := 97 / 10 ^ 17) hrd ?_ ?_ (by norm_num)
  · rw [hq]
    exact quot_aux hZ habs2 dlo hD2 hX2
  · rw [hq, hXY, le_div_iff₀ (by linarith)]
    have : (1 : ℝ) / 10 ^ 60 * 4 ≤ 1 / 9007199254740992 := by norm_num
    nlinarith

theorem log_cf_log {z : F64} (hz : isFin z) {a K : ℝ} (ha : 1 / 4 ≤ a) (h : a ≤ toR z) (h1 : toR z < 1)
    (hK : (39916800 * (1 - a) ^ 11 / N1 a) ^ 2 ≤ K) :
    isFin (log_cf_11 z) ∧ |toR (log_cf_11 z) - Real.log (toR z)| ≤ (11 / 10 ^ 16 + K) * |Real.log (toR z)| := by
  obtain ⟨f1, f2⟩ := log_cf_rel hz (by linarith) h1
  obtain ⟨b1, b2⟩ := err_bound (by linarith) h h1.le hK
  refine ⟨f1, ?_⟩
  have hl : Real.log (toR z) ≤ 0 := Real.log_nonpos (by linarith) h1.le
  have hc : logCF (toR z) ≤ 0 := by
    unfold logCF
    exact div_nonpos_of_nonpos_of_nonneg (by linarith) (d1_pos (by linarith)).le
  rw [abs_of_nonpos hc] at f2
  rw [abs_of_nonpos hl]
  have f3 := abs_le.mp f2
  rw [abs_le]
  constructor <;> nlinarith

/-- the decomposition of a positive double -/
theorem frexp_pos {x : F64} (hx : isFin x) (h0 : 0 < toQ x) :
    isFin (musl_frexp x 0).1 ∧ 1 / 2 ≤ toR (musl_frexp x 0).1 ∧ toR (musl_frexp x 0).1 < 1 ∧
      toR x = toR (musl_frexp x 0).1 * 2 ^ (musl_frexp x 0).2 ∧ -1073 ≤ (musl_frexp x 0).2 ∧ (musl_frexp x 0).2 ≤ 1024 := by
  obtain ⟨h1, h2, h3, h4⟩ := C50_frexp x 0 hx h0.ne'
  obtain ⟨h5, h6⟩ := C50_exponent x 0 hx h0.ne'
  have hm : 0 < toQ (musl_frexp x 0).1 := by
    have hp : (0 : ℚ) < 2 ^ (musl_frexp x 0).2 := zpow_pos (by norm_num) _
    rw [h4] at h0
    exact (pos_iff_pos_of_mul_pos h0).mpr hp
  rw [abs_of_pos hm] at h2 h3
  refine ⟨h1, ?_, ?_, ?_, h5, h6⟩
  · have : ((1 / 2 : ℚ) : ℝ) ≤ toR (musl_frexp x 0).1 := Rat.cast_le.mpr h2
    push_cast at this; exact this
  · have : toR (musl_frexp x 0).1 < ((1 : ℚ) : ℝ) := Rat.cast_lt.mpr h3
    push_cast at this; exact this
  · have := congrArg (fun q : ℚ => (q : ℝ)) h4
    push_cast at this; exact this

theorem xlog_pos {x : F64} (hx : isFin x) (h0 : 0 < toQ x) : xlog muslFU x =
    (if (musl_frexp x 0).2 = 0 ∨ (musl_frexp x 0).2 = -1 then log_cf_11 x
      else log_cf_11 (musl_frexp x 0).1 +. LOG2 *. lit (musl_frexp x 0).2) := by
  have hz : isFin (lit 0 : F64) ∧ toQ (lit 0 : F64) = 0 := by decide +kernel
  have v0 : val (lit 0 : F64) = 0 := by rw [val_fin hz.1, hz.2]; simp
  have vx : (0 : EReal) < val x := by
    rw [val_fin hx]; exact_mod_cast h0
  have n : is_nan x = false := (F64.is_nan_false x).mpr (by cases x <;> simp_all [isFin, notNaN])
  unfold xlog
  have c1 : ¬ (x <. lit 0 || is_nan x) = true := by
    rw [n, Bool.or_false, show (x <. lit 0) = F64.lt x (lit 0) from rfl, F64.lt_iff]
    rintro ⟨-, -, h⟩
    rw [v0] at h
    exact absurd h (not_lt.mpr vx.le)
  have c2 : ¬ (x ==. lit 0) = true := by
    rw [show (x ==. lit 0) = F64.eq x (lit 0) from rfl, F64.eq_iff]
    rintro ⟨-, -, h⟩
    rw [v0] at h
    exact vx.ne' h
  rw [if_neg c1, if_neg c2]; rfl

/-- Accuracy of `xlog` according to the binary exponent of its argument. -/
theorem xlog_exponent {x : F64} (hx : isFin x) (h0 : 0 < toQ x) :
    isFin (xlog muslFU x) ∧
    ((musl_frexp x 0).2 = 0 → |toR (xlog muslFU x) - Real.log (toR x)| ≤ 16 / 10 ^ 16 * |Real.log (toR x)|) ∧
    ((musl_frexp x 0).2 = -1 → |toR (xlog muslFU x) - Real.log (toR x)| ≤ 11 / 10 ^ 10 * |Real.log (toR x)|) ∧
    ((musl_frexp x 0).2 ≠ 0 → (musl_frexp x 0).2 ≠ -1 →
      |toR (xlog muslFU x) - Real.log (toR x)| ≤ 2 / 10 ^ 16 * |((musl_frexp x 0).2 : ℝ)| + 13 / 10 ^ 16) := by
  obtain ⟨m1, m2, m3, m4, m5, m6⟩ := frexp_pos hx h0
  rw [xlog_pos hx h0]
  generalize (musl_frexp x 0).1 = m at *
  generalize (musl_frexp x 0).2 = e at *
  have half := log_cf_log (z := m) m1 (by norm_num) m2 m3 bound_half
  by_cases he : e = 0 ∨ e = -1
  · rw [if_pos he]
    rcases he with he | he
    · have hxm : toR x = toR m := by rw [m4, he]; simp
      have := log_cf_log (z := x) hx (a := 1 / 2) (by norm_num) (by rw [hxm]; exact m2) (by rw [hxm]; exact m3) bound_half
      refine ⟨this.1, fun _ => this.2.trans (le_of_eq (by norm_num)), fun hc => by omega, fun hc => absurd he hc⟩
    · have hxm : toR x = toR m / 2 := by rw [m4, he]; norm_num; ring
      have := log_cf_log (z := x) hx (a := 1 / 4) (by norm_num) (by rw [hxm]; linarith) (by rw [hxm]; linarith) bound_quarter
      refine ⟨this.1, fun hc => by omega, fun _ => this.2.trans ?_, fun _ hc => absurd he hc⟩
      exact mul_le_mul_of_nonneg_right (by norm_num) (abs_nonneg _)
  · rw [if_neg he]
    push Not at he
    have hE : |(e : ℝ)| ≤ 1100 := by
      rw [abs_le]; constructor
      · have : ((-1073 : ℤ) : ℝ) ≤ e := by exact_mod_cast m5
        push_cast at this; linarith
      · have : (e : ℝ) ≤ ((1024 : ℤ) : ℝ) := by exact_mod_cast m6
        push_cast at this; linarith
    have hE1 : 1 ≤ |(e : ℝ)| := by
      have : (1 : ℤ) ≤ |e| := Int.one_le_abs he.1
      have h2 : ((1 : ℤ) : ℝ) ≤ ((|e| : ℤ) : ℝ) := by exact_mod_cast this
      push_cast at h2; exact h2
    have hLN : LN2 ≤ 7 / 10 := by unfold LN2; norm_num
    have hLN0 : 0 ≤ LN2 := by unfold LN2; norm_num
    have T : App (LOG2 *. lit (e : ℚ)) (LN2 * e) (ru * (7 / 10 * |(e : ℝ)|)) := by
      refine App.mul LOG2_app (App.lit_int (i := e) ?_) (V := 7 / 10) (W := |(e : ℝ)|) (by rw [abs_of_nonneg hLN0]; exact hLN) le_rfl
        (by rw [add_zero, add_zero]) ?_ ?_ (by simp)
      · rw [abs_le]; constructor <;> norm_num <;> omega
      · refine le_trans (by norm_num) (mul_le_mul_of_nonneg_left hE1 (by norm_num))
      · refine le_trans (mul_le_mul_of_nonneg_left hE (by norm_num)) (by norm_num)
    -- the logarithm of the mantissa
    have hl0 : Real.log (toR m) ≤ 0 := Real.log_nonpos (by linarith) m3.le
    have hl1 : -(7 / 10) ≤ Real.log (toR m) := by
      have := Real.log_le_log (by norm_num) m2
      rw [one_div, Real.log_inv] at this
      have := log_two_bounds.2
      have : (6931471805599453094173 / 10 ^ 22 : ℝ) ≤ 7 / 10 := by norm_num
      linarith
    have L : App (log_cf_11 m) (Real.log (toR m)) (112 / 10 ^ 17) := by
      refine ⟨half.1, half.2.trans ?_⟩
      rw [abs_of_nonpos hl0]
      have : (11 / 10 ^ 16 + 5 / 10 ^ 16 : ℝ) * -Real.log (toR m) ≤ (11 / 10 ^ 16 + 5 / 10 ^ 16) * (7 / 10) :=
        mul_le_mul_of_nonneg_left (by linarith) (by norm_num)
      refine this.trans (by norm_num)
    have hru : ru * (7 / 10 * |(e : ℝ)|) ≤ 1 := by
      have : ru * (7 / 10 * |(e : ℝ)|) ≤ ru * (7 / 10 * 1100) := by
        have : 0 ≤ ru := by unfold ru; norm_num
        gcongr
      refine this.trans (by unfold ru; norm_num)
    have hsum : |Real.log (toR m) + LN2 * e| ≤ 7 / 10 + 7 / 10 * |(e : ℝ)| := by
      refine (abs_add_le _ _).trans ?_
      rw [abs_of_nonpos hl0, abs_mul, abs_of_nonneg hLN0]
      have := mul_le_mul_of_nonneg_right hLN (abs_nonneg (e : ℝ))
      linarith
    have S : App (log_cf_11 m +. LOG2 *. lit (e : ℚ)) (Real.log (toR m) + LN2 * e)
        (112 / 10 ^ 17 + ru * (7 / 10 * |(e : ℝ)|) + ru * (7 / 10 + 7 / 10 * |(e : ℝ)| + (112 / 10 ^ 17 + ru * (7 / 10 * |(e : ℝ)|)))) := by
      refine App.add L T (B := 7 / 10 + 7 / 10 * |(e : ℝ)| + (112 / 10 ^ 17 + ru * (7 / 10 * |(e : ℝ)|))) (by linarith) ?_ ?_ le_rfl
      · have : 0 ≤ ru * (7 / 10 * |(e : ℝ)|) := by unfold ru; positivity
        refine le_trans (b := 7 / 10) (by norm_num) (by linarith [(by norm_num : (0 : ℝ) ≤ 112 / 10 ^ 17)])
      · refine le_trans (b := 1000) (by linarith [(by norm_num : (112 / 10 ^ 17 : ℝ) ≤ 1)]) (by norm_num)
    refine ⟨S.1, fun hc => absurd hc he.1, fun hc => absurd hc he.2, fun _ _ => ?_⟩
    have hlog : Real.log (toR x) = Real.log (toR m) + e * Real.log 2 := by
      rw [m4, Real.log_mul (by linarith) (zpow_ne_zero _ (by norm_num)), Real.log_zpow]
    have hd : |(Real.log (toR m) + LN2 * e) - Real.log (toR x)| ≤ 24 / 10 ^ 18 * |(e : ℝ)| := by
      rw [hlog, show Real.log (toR m) + LN2 * e - (Real.log (toR m) + e * Real.log 2) = -((Real.log 2 - LN2) * e) by ring, abs_neg,
        abs_mul, abs_of_nonneg LN2_err.1]
      exact mul_le_mul_of_nonneg_right LN2_err.2 (abs_nonneg _)
    have h3 := abs_add_le (toR (log_cf_11 m +. LOG2 *. lit (e : ℚ)) - (Real.log (toR m) + LN2 * e))
      ((Real.log (toR m) + LN2 * e) - Real.log (toR x))
    rw [sub_add_sub_cancel] at h3
    have h4 := S.2
    unfold ru at h4
    refine h3.trans ((add_le_add h4 hd).trans ?_)
    have : (1 : ℝ) / 9000000000000000 * (1 / 9000000000000000 * (7 / 10 * |(e : ℝ)|)) ≤ 1 / 10 ^ 30 * |(e : ℝ)| := by
      have h0 := abs_nonneg (e : ℝ)
      rw [← mul_assoc, ← mul_assoc]
      exact mul_le_mul_of_nonneg_right (by norm_num) h0
    nlinarith

end Verif

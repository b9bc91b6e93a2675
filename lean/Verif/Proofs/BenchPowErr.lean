/-
The rounding error of the unrolled fraction of benchmark/pow_accuracy_speed.c (`_log_cf_11`) on [1/2, 2).
-/
import Verif.Proofs.BenchLogErr

namespace Verif
open F64

namespace BenchLog

/-- the denominators of the fraction -/
noncomputable def W (Z : ℝ) (n m : ℕ) : ℝ := Spec.logK Z n m + (2 * m - 1) * (2 + Z)

theorem W_range {Z : ℝ} (h0 : -(1 / 2) ≤ Z) (h1 : Z ≤ 1) (n m : ℕ) (hm : 1 ≤ m) :
    (3 * m / 2 - 1) * (2 + Z) ≤ W Z n m ∧ W Z n m ≤ (2 * m - 1) * (2 + Z) := by
  obtain ⟨a, b⟩ := logK_range h0 h1 n m hm
  unfold W
  constructor <;> linarith

/-- one of the odd multiples -/
theorem odd_rel {p xx2 : F64} {X a A : ℝ} (hp : Rel p (A * X) a) (h2 : Rel xx2 (2 * X) (24 / 10 ^ 17)) (ha : 24 / 10 ^ 17 ≤ a) (ha1 : a ≤ 1 / 10 ^ 10)
    (hA : 1 ≤ A) (hA2 : A ≤ 30) (hX : 1 ≤ X) (hX2 : X ≤ 4) : Rel (p +. xx2) ((A + 2) * X) (a + 12 / 10 ^ 17) := by
  have hAX : 1 ≤ A * X := by nlinarith
  have hAX2 : A * X ≤ 120 := by nlinarith
  rw [show (A + 2) * X = A * X + 2 * X by ring]
  refine add (E := a) hp h2 ?_ (by linarith) (sized_pos (by linarith) (by linarith)) le_rfl
  rw [abs_of_pos (by linarith : 0 < A * X), abs_of_pos (by linarith : 0 < 2 * X), abs_of_pos (by linarith : 0 < A * X + 2 * X)]
  nlinarith

/-- one level -/
theorem level {N D p : F64} {Z a b e : ℝ} {n m : ℕ} (h0 : -(1 / 2) ≤ Z) (h1 : Z ≤ 1) (hn : Z = 0 ∨ 1 / 10 ^ 16 ≤ |Z|) (hm : 1 ≤ m) (hm2 : m ≤ 100)
    (hN : Rel N (-(m * m) * (Z * Z)) (25 / 10 ^ 17)) (hD : Rel D (W Z n (m + 1)) b) (hp : Rel p ((2 * m - 1) * (2 + Z)) a)
    (ha : 0 ≤ a) (ha1 : a ≤ 1 / 10 ^ 10) (hb : 0 ≤ b) (hb1 : b ≤ 1 / 10 ^ 10)
    (he : (a * (4 * m - 2) + ((25 / 10 ^ 17 + b) * (102 / 100) + 12 / 10 ^ 17) * m) / (3 * m - 2) + 12 / 10 ^ 17 ≤ e) :
    Rel (N /. D +. p) (W Z (n + 1) m) e := by
  obtain ⟨d0, d1⟩ := W_range h0 h1 n (m + 1) (by omega)
  obtain ⟨w0, w1⟩ := W_range h0 h1 (n + 1) m hm
  obtain ⟨k0, k1⟩ := logK_range h0 h1 (n + 1) m hm
  have hv : Spec.logK Z (n + 1) m = -(m * m) * (Z * Z) / W Z n (m + 1) := by
    unfold W
    rw [Spec.logK]
    congr 1
    · ring
    · push_cast; ring
  have hmR : (1 : ℝ) ≤ m := by exact_mod_cast hm
  have hm2R : (m : ℝ) ≤ 100 := by exact_mod_cast hm2
  push_cast at d0 d1
  have e1 : W Z (n + 1) m = Spec.logK Z (n + 1) m + (2 * m - 1) * (2 + Z) := rfl
  rw [e1] at w0 w1 ⊢
  rw [hv] at k0 k1 w0 w1 ⊢
  generalize W Z n (m + 1) = Dv at *
  generalize (m : ℝ) = M at *
  have hX : 3 / 2 ≤ 2 + Z := by linarith
  have hDv : 1 ≤ Dv := by nlinarith
  have hDv2 : Dv ≤ 1000 := by nlinarith
  have hZZ : Z = 0 ∨ 1 / 10 ^ 32 ≤ Z * Z := by
    refine hn.imp_right fun h => ?_
    rw [← abs_mul_abs_self]
    have := mul_le_mul h h (by norm_num) (abs_nonneg _)
    refine le_trans ?_ this
    norm_num
  have hZ1 : Z * Z ≤ 1 := by nlinarith
  have hZ0 : 0 ≤ Z * Z := mul_self_nonneg Z
  have sN : |-(M * M) * (Z * Z)| = M * M * (Z * Z) := by rw [neg_mul, abs_neg, abs_of_nonneg (by positivity)]
  have hMM : 1 ≤ M * M := by nlinarith
  have hMM2 : M * M ≤ 10000 := by nlinarith
  have hq : Rel (N /. D) (-(M * M) * (Z * Z) / Dv) ((25 / 10 ^ 17 + b) * (102 / 100) + 12 / 10 ^ 17) := by
    refine div hN hD (by norm_num) (by norm_num) hb (by linarith) (by linarith) (sized_of (c := 1 / 10 ^ 40) ?_ (by norm_num) ?_) le_rfl
    · refine hZZ.imp (fun h => by rw [h]; simp) fun h => ?_
      rw [abs_div, sN, abs_of_pos (by linarith : 0 < Dv), le_div_iff₀ (by linarith)]
      nlinarith
    · rw [abs_div, sN, abs_of_pos (by linarith : 0 < Dv), div_le_iff₀ (by linarith)]
      nlinarith
  generalize -(M * M) * (Z * Z) / Dv = V at *
  have hP : 0 < (2 * M - 1) * (2 + Z) := by nlinarith
  have hS : 3 / 4 ≤ V + (2 * M - 1) * (2 + Z) := by nlinarith
  refine add (E := (a * (4 * M - 2) + ((25 / 10 ^ 17 + b) * (102 / 100) + 12 / 10 ^ 17) * M) / (3 * M - 2)) hq hp ?_ ?_ (sized_pos (by linarith) ?_) he
  · rw [abs_of_nonpos k0, abs_of_pos hP, abs_of_pos (by linarith : 0 < V + (2 * M - 1) * (2 + Z))]
    set q := (25 / 10 ^ 17 + b) * (102 / 100) + 12 / 10 ^ 17 with hqd
    have hq0 : 0 ≤ q := by positivity
    have h3 : 0 < 3 * M - 2 := by linarith
    rw [div_mul_eq_mul_div, le_div_iff₀ h3]
    have t : 0 ≤ V + M * (2 + Z) / 2 := by linarith
    have u : 0 ≤ (q + a) * (4 * M - 2) * (V + M * (2 + Z) / 2) := mul_nonneg (mul_nonneg (by linarith) (by linarith)) t
    have key : (a * (4 * M - 2) + q * M) * (V + (2 * M - 1) * (2 + Z)) - (q * -V + a * ((2 * M - 1) * (2 + Z))) * (3 * M - 2) =
      (q + a) * (4 * M - 2) * (V + M * (2 + Z) / 2) := by ring
    linarith
  · rw [div_le_iff₀ (by linarith)]
    nlinarith
  · nlinarith

/-- the unrolled fraction is the fraction of depth 11, with rounding errors -/
theorem log_cf_11_rel {x : F64} (hx : isFin x) (h0 : 1 / 2 ≤ toQ x) (h1 : toQ x < 2) : Rel (log_cf_11 x) (Spec.logCF (toR x) 11) (3 / 10 ^ 15) := by
  obtain ⟨hz, hn⟩ := sub_one hx h0 h1
  have z0 : -(1 / 2) ≤ toR x - 1 := by
    have : ((1 / 2 : ℚ) : ℝ) ≤ ((toQ x : ℚ) : ℝ) := Rat.cast_le.mpr h0
    push_cast at this
    unfold toR; linarith
  have z1 : toR x - 1 ≤ 1 := by
    have : ((toQ x : ℚ) : ℝ) < ((2 : ℚ) : ℝ) := Rat.cast_lt.mpr h1
    push_cast at this
    unfold toR; linarith
  have hS : Spec.logCF (toR x) 11 = 2 * (toR x - 1) / W (toR x - 1) 10 1 := by
    unfold Spec.logCF W
    congr 1
    norm_num
    ring
  rw [hS]
  unfold log_cf_11
  dsimp only
  generalize (x -. lit 1 : F64) = z at *
  generalize toR x - 1 = Z at *
  have l2 : Rel (lit 2 : F64) 2 0 := by simpa using nat (n := 2) (by norm_num)
  have hZa : |Z| ≤ 1 := by rw [abs_le]; constructor <;> linarith
  have hZZ : Z = 0 ∨ 1 / 10 ^ 32 ≤ Z * Z := by
    refine hn.imp_right fun h => ?_
    rw [← abs_mul_abs_self]
    have := mul_le_mul h h (by norm_num) (abs_nonneg _)
    refine le_trans ?_ this
    norm_num
  have hZ1 : Z * Z ≤ 1 := by nlinarith
  have hZ0 : 0 ≤ Z * Z := mul_self_nonneg Z
  have s1 : |2 * Z| = 2 * |Z| := by rw [abs_mul, abs_two]
  have t1 : Rel (lit 2 *. z) (2 * Z) (12 / 10 ^ 17) := mul l2 hz le_rfl (by norm_num) le_rfl (by norm_num)
    (sized_of (c := 1 / 10 ^ 16) (hn.imp (fun h => by rw [h, mul_zero]) fun h => by rw [s1]; linarith) (by norm_num) (by rw [s1]; linarith)) (by norm_num)
  have x1 : Rel (z +. lit 2) (2 + Z) (12 / 10 ^ 17) := by
    rw [add_comm]
    exact add (E := 0) hz l2 (by simp) (by norm_num) (sized_pos (by linarith) (by linarith)) (by norm_num)
  have xx2 : Rel (z +. lit 2 +. (z +. lit 2)) (2 * (2 + Z)) (24 / 10 ^ 17) := by
    rw [two_mul]
    refine add (E := 12 / 10 ^ 17) x1 x1 ?_ (by norm_num) (sized_pos (by linarith) (by linarith)) (by norm_num)
    rw [abs_of_pos (by linarith : 0 < 2 + Z), abs_of_pos (by linarith : 0 < 2 + Z + (2 + Z))]
    linarith
  have q2 : Rel (z *. z) (Z * Z) (12 / 10 ^ 17) := mul hz hz le_rfl (by norm_num) le_rfl (by norm_num)
    (sized_of (c := 1 / 10 ^ 32) (hZZ.imp (fun h => by rw [h, mul_zero]) fun h => by rw [abs_of_nonneg hZ0]; exact h) (by norm_num) (by rw [abs_of_nonneg hZ0]; linarith))
    (by norm_num)
  generalize (z *. z : F64) = zz at *
  have num : ∀ m : ℕ, 2 ≤ m → m ≤ 10 → ∀ c : F64, Rel c (-(m * m)) 0 → Rel (c *. zz) (-(m * m : ℝ) * (Z * Z)) (25 / 10 ^ 17) := fun m hm hm2 c hc => by
    have a : (2 : ℝ) ≤ m := by exact_mod_cast hm
    have b : (m : ℝ) ≤ 10 := by exact_mod_cast hm2
    have c0 : 1 ≤ (m * m : ℝ) := by nlinarith
    have c1 : (m * m : ℝ) ≤ 100 := by nlinarith
    have sN : |-(m * m : ℝ) * (Z * Z)| = m * m * (Z * Z) := by rw [neg_mul, abs_neg, abs_of_nonneg (by positivity)]
    refine mul hc q2 le_rfl (by norm_num) (by norm_num) (by norm_num) (sized_of (c := 1 / 10 ^ 32) ?_ (by norm_num) ?_) (by norm_num)
    · refine hZZ.imp (fun h => by rw [h]; simp) fun h => ?_
      rw [sN]; nlinarith
    · rw [sN]; nlinarith
  have lc : ∀ i : ℤ, |i| ≤ 100 → Rel (lit (i : ℚ) : F64) i 0 := fun i hi => by
    have := App.lit_int (i := i) (hi.trans (by norm_num))
    exact ⟨this.1, by have := this.2; simpa using this⟩
  have n1 : Rel (-. zz) (-((1 : ℕ) * (1 : ℕ) : ℝ) * (Z * Z)) (25 / 10 ^ 17) := by
    have := neg q2
    refine ⟨this.1, ?_⟩
    have h := this.2
    rw [show -((1 : ℕ) * (1 : ℕ) : ℝ) * (Z * Z) = -(Z * Z) by push_cast; ring]
    refine h.trans (mul_le_mul_of_nonneg_right (by norm_num) (abs_nonneg _))
  have n2 := num 2 (by norm_num) (by norm_num) (lit (-4)) (by have := lc (-4) (by norm_num); norm_num at this ⊢; exact this)
  have n3 := num 3 (by norm_num) (by norm_num) (lit (-9)) (by have := lc (-9) (by norm_num); norm_num at this ⊢; exact this)
  have n4 := num 4 (by norm_num) (by norm_num) (lit (-16)) (by have := lc (-16) (by norm_num); norm_num at this ⊢; exact this)
  have n5 := num 5 (by norm_num) (by norm_num) (lit (-25)) (by have := lc (-25) (by norm_num); norm_num at this ⊢; exact this)
  have n6 := num 6 (by norm_num) (by norm_num) (lit (-36)) (by have := lc (-36) (by norm_num); norm_num at this ⊢; exact this)
  have n7 := num 7 (by norm_num) (by norm_num) (lit (-49)) (by have := lc (-49) (by norm_num); norm_num at this ⊢; exact this)
  have n8 := num 8 (by norm_num) (by norm_num) (lit (-64)) (by have := lc (-64) (by norm_num); norm_num at this ⊢; exact this)
  have n9 := num 9 (by norm_num) (by norm_num) (lit (-81)) (by have := lc (-81) (by norm_num); norm_num at this ⊢; exact this)
  have n10 := num 10 (by norm_num) (by norm_num) (lit (-100)) (by have := lc (-100) (by norm_num); norm_num at this ⊢; exact this)
  have hX : 1 ≤ 2 + Z := by linarith
  have hX2 : 2 + Z ≤ 4 := by linarith
  generalize (z +. lit 2 : F64) = xx at *
  have x3 : Rel (xx +. (xx +. xx)) (3 * (2 + Z)) (36 / 10 ^ 17) := by
    rw [show 3 * (2 + Z) = (2 + Z) + 2 * (2 + Z) by ring]
    refine add (E := 24 / 10 ^ 17) x1 xx2 ?_ (by norm_num) (sized_pos (by linarith) (by linarith)) (by norm_num)
    rw [abs_of_pos (by linarith : 0 < 2 + Z), abs_of_pos (by linarith : 0 < 2 * (2 + Z)), abs_of_pos (by linarith : 0 < 2 + Z + 2 * (2 + Z))]
    linarith
  generalize (xx +. xx : F64) = x2 at *
  generalize (xx +. x2 : F64) = p3 at *
  have x5 := odd_rel x3 xx2 (by norm_num) (by norm_num) (by norm_num) (by norm_num) hX hX2
  generalize (p3 +. x2 : F64) = p5 at *
  have x7 := odd_rel x5 xx2 (by norm_num) (by norm_num) (by norm_num) (by norm_num) hX hX2
  generalize (p5 +. x2 : F64) = p7 at *
  have x9 := odd_rel x7 xx2 (by norm_num) (by norm_num) (by norm_num) (by norm_num) hX hX2
  generalize (p7 +. x2 : F64) = p9 at *
  have x11 := odd_rel x9 xx2 (by norm_num) (by norm_num) (by norm_num) (by norm_num) hX hX2
  generalize (p9 +. x2 : F64) = p11 at *
  have x13 := odd_rel x11 xx2 (by norm_num) (by norm_num) (by norm_num) (by norm_num) hX hX2
  generalize (p11 +. x2 : F64) = p13 at *
  have x15 := odd_rel x13 xx2 (by norm_num) (by norm_num) (by norm_num) (by norm_num) hX hX2
  generalize (p13 +. x2 : F64) = p15 at *
  have x17 := odd_rel x15 xx2 (by norm_num) (by norm_num) (by norm_num) (by norm_num) hX hX2
  generalize (p15 +. x2 : F64) = p17 at *
  have x19 := odd_rel x17 xx2 (by norm_num) (by norm_num) (by norm_num) (by norm_num) hX hX2
  generalize (p17 +. x2 : F64) = p19 at *
  have x21 := odd_rel x19 xx2 (by norm_num) (by norm_num) (by norm_num) (by norm_num) hX hX2
  generalize (p19 +. x2 : F64) = p21 at *
  have w11 : Rel p21 (W Z 0 (10 + 1)) (144 / 10 ^ 17) := by
    have : W Z 0 (10 + 1) = 21 * (2 + Z) := by unfold W; simp only [Spec.logK]; push_cast; ring
    rw [this]
    norm_num at x21 ⊢
    exact x21
  have w10 := level (e := 259 / 10 ^ 17) z0 z1 hn (by norm_num) (by norm_num) n10 w11 (p := p19) (a := 132 / 10 ^ 17) (by norm_num at x19 ⊢; exact x19)
    (by norm_num) (by norm_num) (by norm_num) (by norm_num) (by norm_num)
  have w9 := level (m := 9) (e := 286 / 10 ^ 17) z0 z1 hn (by norm_num) (by norm_num) n9 w10 (p := p17) (a := 120 / 10 ^ 17) (by norm_num at x17 ⊢; exact x17)
    (by norm_num) (by norm_num) (by norm_num) (by norm_num) (by norm_num)
  have w8 := level (m := 8) (e := 283 / 10 ^ 17) z0 z1 hn (by norm_num) (by norm_num) n8 w9 (p := p15) (a := 108 / 10 ^ 17) (by norm_num at x15 ⊢; exact x15)
    (by norm_num) (by norm_num) (by norm_num) (by norm_num) (by norm_num)
  have w7 := level (m := 7) (e := 267 / 10 ^ 17) z0 z1 hn (by norm_num) (by norm_num) n7 w8 (p := p13) (a := 96 / 10 ^ 17) (by norm_num at x13 ⊢; exact x13)
    (by norm_num) (by norm_num) (by norm_num) (by norm_num) (by norm_num)
  have w6 := level (m := 6) (e := 248 / 10 ^ 17) z0 z1 hn (by norm_num) (by norm_num) n6 w7 (p := p11) (a := 84 / 10 ^ 17) (by norm_num at x11 ⊢; exact x11)
    (by norm_num) (by norm_num) (by norm_num) (by norm_num) (by norm_num)
  have w5 := level (m := 5) (e := 228 / 10 ^ 17) z0 z1 hn (by norm_num) (by norm_num) n5 w6 (p := p9) (a := 72 / 10 ^ 17) (by norm_num at x9 ⊢; exact x9)
    (by norm_num) (by norm_num) (by norm_num) (by norm_num) (by norm_num)
  have w4 := level (m := 4) (e := 208 / 10 ^ 17) z0 z1 hn (by norm_num) (by norm_num) n4 w5 (p := p7) (a := 60 / 10 ^ 17) (by norm_num at x7 ⊢; exact x7)
    (by norm_num) (by norm_num) (by norm_num) (by norm_num) (by norm_num)
  have w3 := level (m := 3) (e := 192 / 10 ^ 17) z0 z1 hn (by norm_num) (by norm_num) n3 w4 (p := p5) (a := 48 / 10 ^ 17) (by norm_num at x5 ⊢; exact x5)
    (by norm_num) (by norm_num) (by norm_num) (by norm_num) (by norm_num)
  have w2 := level (m := 2) (e := 186 / 10 ^ 17) z0 z1 hn (by norm_num) (by norm_num) n2 w3 (p := p3) (a := 36 / 10 ^ 17) (by norm_num at x3 ⊢; exact x3)
    (by norm_num) (by norm_num) (by norm_num) (by norm_num) (by norm_num)
  have w1 := level (m := 1) (e := 270 / 10 ^ 17) z0 z1 hn (by norm_num) (by norm_num) n1 w2 (p := xx) (a := 12 / 10 ^ 17) (by norm_num at x1 ⊢; exact x1)
    (by norm_num) (by norm_num) (by norm_num) (by norm_num) (by norm_num)
  obtain ⟨r0, r1⟩ := W_range z0 z1 10 1 le_rfl
  push_cast at r0 r1
  generalize W Z 10 1 = V at *
  refine div t1 w1 (by norm_num) (by norm_num) (by norm_num) (by norm_num) (by linarith) (sized_of (c := 1 / 10 ^ 20) ?_ (by norm_num) ?_) (by norm_num)
  · refine hn.imp (fun h => by rw [h, mul_zero, zero_div]) fun h => ?_
    rw [abs_div, s1, abs_of_pos (by linarith : 0 < V), le_div_iff₀ (by linarith)]
    linarith
  · rw [abs_div, s1, abs_of_pos (by linarith : 0 < V), div_le_iff₀ (by linarith)]
    linarith

/-- the error of the unrolled fraction with respect to the logarithm -/
theorem log_cf_11_log {x : F64} (hx : isFin x) (h0 : 1 / 2 ≤ toQ x) (h1 : toQ x < 2) : Rel (log_cf_11 x) (Real.log (toR x)) (35 / 10 ^ 16) := by
  have r := log_cf_11_rel hx h0 h1
  refine ⟨r.1, ?_⟩
  have z0 : 1 / 2 ≤ toR x := by
    have : ((1 / 2 : ℚ) : ℝ) ≤ ((toQ x : ℚ) : ℝ) := Rat.cast_le.mpr h0
    push_cast at this
    exact this
  have z1 : toR x ≤ 2 := by
    have : ((toQ x : ℚ) : ℝ) ≤ ((2 : ℚ) : ℝ) := Rat.cast_le.mpr h1.le
    push_cast at this
    exact this
  have t := C120_octave (toR x) z0 z1
  have := abs_add_le (toR (log_cf_11 x) - Spec.logCF (toR x) 11) (Spec.logCF (toR x) 11 - Real.log (toR x))
  rw [sub_add_sub_cancel] at this
  have v := abs_add_le (Spec.logCF (toR x) 11 - Real.log (toR x)) (Real.log (toR x))
  rw [sub_add_cancel] at v
  have r2 := r.2
  have hl := abs_nonneg (Real.log (toR x))
  norm_num at t
  nlinarith

end BenchLog
end Verif

/-
The error of the recursive exponential of benchmark/exp_cf_accuracy.c, level by level.
-/
import Verif.Proofs.BenchExp

namespace Verif
open F64

namespace BenchExp

/-- the error of a reduction followed by a change of the exponent -/
theorem step_err {W Y X R η D δ u : ℝ} {k : ℕ} (hη : 0 ≤ η) (hη1 : η ≤ 1 / 100) (hD : D ≤ 1 / 10 ^ 10) (hu : 0 ≤ u) (hu1 : u ≤ 1 / 10 ^ 10)
    (hW : |W - Real.exp R| ≤ η * Real.exp R) (hY : |Y - W * 2 ^ k| ≤ u * |W * 2 ^ k|) (hR : R = X - k * Real.log 2 + δ) (hδ : |δ| ≤ D) :
    |Y - Real.exp X| ≤ (η + 3 * D + 2 * u) * Real.exp X := by
  have hD0 : 0 ≤ D := (abs_nonneg _).trans hδ
  have hE := Real.exp_pos X
  have hA : Real.exp R * 2 ^ k = Real.exp X * Real.exp δ := by
    have h2 : (2 : ℝ) ^ k = Real.exp (k * Real.log 2) := by
      rw [mul_comm, Real.exp_mul, Real.exp_log (by norm_num), Real.rpow_natCast]
    rw [h2, ← Real.exp_add, ← Real.exp_add, hR]; congr 1; ring
  have hd : |Real.exp δ - 1| ≤ 2 * D :=
    (Real.abs_exp_sub_one_le (hδ.trans (hD.trans (by norm_num)))).trans (by linarith)
  set A := Real.exp R * 2 ^ k with hAd
  have hA0 : 0 < A := by positivity
  have a1 : |A - Real.exp X| ≤ 2 * D * Real.exp X := by
    rw [hA, show Real.exp X * Real.exp δ - Real.exp X = (Real.exp δ - 1) * Real.exp X by ring, abs_mul, abs_of_pos hE]
    exact mul_le_mul_of_nonneg_right hd hE.le
  have a2 : |W * 2 ^ k - A| ≤ η * A := by
    rw [hAd, ← sub_mul, abs_mul, abs_of_pos (by positivity : (0 : ℝ) < 2 ^ k), ← mul_assoc]
    exact mul_le_mul_of_nonneg_right hW (by positivity)
  obtain ⟨b1, b2⟩ := abs_le.mp a1
  obtain ⟨b3, b4⟩ := abs_le.mp a2
  have a3 : |W * 2 ^ k| ≤ 2 * A := by rw [abs_le]; constructor <;> nlinarith
  have a4 : |Y - W * 2 ^ k| ≤ u * ((1 + η) * A) := by
    refine hY.trans (mul_le_mul_of_nonneg_left ?_ hu)
    rw [abs_le]; constructor <;> nlinarith
  obtain ⟨b5, b6⟩ := abs_le.mp a4
  have hA2 : A ≤ (1 + 2 * D) * Real.exp X := by linarith
  have c1 : η * A + u * ((1 + η) * A) ≤ (η + u * (1 + η)) * ((1 + 2 * D) * Real.exp X) := by
    rw [← mul_assoc u, ← add_mul]
    exact mul_le_mul_of_nonneg_left hA2 (by positivity)
  have c2 : (η + u * (1 + η)) * (1 + 2 * D) + 2 * D ≤ η + 3 * D + 2 * u := by
    have d1 : D * η ≤ D * (1 / 100) := mul_le_mul_of_nonneg_left hη1 hD0
    have d2 : u * η ≤ u * (1 / 100) := mul_le_mul_of_nonneg_left hη1 hu
    have d3 : D * u ≤ D * (1 / 10 ^ 10) := mul_le_mul_of_nonneg_left hu1 hD0
    have d4 : D * (u * η) ≤ D * (1 / 100) := mul_le_mul_of_nonneg_left (by linarith) hD0
    linarith
  have c3 := mul_le_mul_of_nonneg_right c2 hE.le
  rw [abs_le]
  constructor <;> nlinarith

/-- the error of an inverse -/
theorem inv_err {W Y X η u : ℝ} (hη : 0 ≤ η) (hη1 : η ≤ 1 / 900) (hu : 0 ≤ u) (hu1 : u ≤ 1 / 10 ^ 10)
    (hW : |W - Real.exp (-X)| ≤ η * Real.exp (-X)) (hY : |Y - 1 / W| ≤ u * |1 / W|) : |Y - Real.exp X| ≤ (1002 / 1000 * η + 2 * u) * Real.exp X := by
  have hE := Real.exp_pos X
  have hF := Real.exp_pos (-X)
  have hEF : Real.exp X * Real.exp (-X) = 1 := by rw [← Real.exp_add]; simp
  generalize Real.exp X = E at *
  generalize Real.exp (-X) = F at *
  obtain ⟨a1, a2⟩ := abs_le.mp hW
  have hW0 : (1 - η) * F ≤ W := by linarith
  have hWp : 0 < W := lt_of_lt_of_le (by nlinarith) hW0
  have i1 : 1 / W ≤ (1 + 1002 / 1000 * η) * E := by
    rw [div_le_iff₀ hWp]
    have h1 : (1 + 1002 / 1000 * η) * E * ((1 - η) * F) ≤ (1 + 1002 / 1000 * η) * E * W := mul_le_mul_of_nonneg_left hW0 (by positivity)
    have h2 : (1 + 1002 / 1000 * η) * E * ((1 - η) * F) = (1 + 1002 / 1000 * η) * (1 - η) * (E * F) := by ring
    rw [h2, hEF] at h1
    nlinarith
  have i2 : (1 - η) * E ≤ 1 / W := by
    rw [le_div_iff₀ hWp]
    have h1 : (1 - η) * E * W ≤ (1 - η) * E * ((1 + η) * F) := mul_le_mul_of_nonneg_left (by linarith) (by have : 0 ≤ 1 - η := by linarith
                                                                                                           positivity)
    have h2 : (1 - η) * E * ((1 + η) * F) = (1 - η) * (1 + η) * (E * F) := by ring
    rw [h2, hEF] at h1
    nlinarith
  have i0 : 0 < 1 / W := by positivity
  rw [abs_of_pos i0] at hY
  obtain ⟨b1, b2⟩ := abs_le.mp hY
  have c : u * (1 / W) ≤ u * (2 * E) := mul_le_mul_of_nonneg_left (i1.trans (by nlinarith)) hu
  rw [abs_le]
  constructor <;> nlinarith

/-- the change of the exponent -/
theorem scale {w : F64} (hw : isFin w) (h0 : 1 / 2 ≤ toR w) (h1 : toR w < 4) {k : UInt64} (hk : k.toNat ≤ 1021) :
    isFin (Bench.setExponent w (Bench.exponentBits w + k)) ∧
      |toR (Bench.setExponent w (Bench.exponentBits w + k)) - toR w * 2 ^ k.toNat| ≤ 1 / 2 ^ 53 * |toR w * 2 ^ k.toNat| := by
  have q0 : 1 / 2 ≤ toQ w := by
    have : ((1 / 2 : ℚ) : ℝ) ≤ ((toQ w : ℚ) : ℝ) := by push_cast; exact h0
    exact_mod_cast this
  have q1 : toQ w < 4 := by unfold toR at h1; exact_mod_cast h1
  have hs : Bench.setExponent w (Bench.exponentBits w + k) = Spec.scaleB w k.toNat := by
    rcases lt_or_ge (toQ w) 1 with h | h
    · exact BenchMath.addExponent hw (e := -1) (by norm_num) (by norm_num; linarith) (by norm_num; linarith) (by omega)
    rcases lt_or_ge (toQ w) 2 with h' | h'
    · exact BenchMath.addExponent hw (e := 0) (by norm_num) (by norm_num; linarith) (by norm_num; linarith) (by omega)
    · exact BenchMath.addExponent hw (e := 1) (by norm_num) (by norm_num; linarith) (by norm_num; linarith) (by omega)
  rw [hs]
  rcases w with _ | _ | ⟨s, c⟩
  · exact absurd hw id
  · exact absurd hw id
  unfold Spec.scaleB
  dsimp only
  generalize (fin s c : F64) = w at *
  rw [zpow_natCast]
  have p0 : (1 : ℚ) ≤ 2 ^ k.toNat := one_le_pow₀ (by norm_num)
  have p1 : (2 : ℚ) ^ k.toNat ≤ pow2 1021 := by
    rw [pow2_eq, show (2 : ℚ) ^ (1021 : ℤ) = 2 ^ 1021 from zpow_natCast 2 1021]; exact pow_le_pow_right₀ (by norm_num) hk
  have hq0 : 1 / 2 ≤ toQ w * 2 ^ k.toNat := by nlinarith
  have hq1 : toQ w * 2 ^ k.toNat ≤ pow2 1023 := by
    have : pow2 1023 = 4 * pow2 1021 := by
      rw [show (1023 : ℤ) = 2 + 1021 by norm_num, pow2_add, show pow2 2 = 4 by rw [pow2_eq]; norm_num]
    rw [this]
    exact mul_le_mul q1.le p1 (by positivity) (by norm_num)
  obtain ⟨f1, f2⟩ := fin_ofRat (z := s) (q := toQ w * 2 ^ k.toNat) (by rw [abs_of_nonneg (by linarith)]; exact hq1)
  refine ⟨f1, ?_⟩
  have hlow : pow2 (-1022) ≤ |toQ w * 2 ^ k.toNat| := by
    rw [abs_of_nonneg (by linarith)]
    have := tiny_le
    linarith
  have := rq_rel_real hlow
  rw [← f2] at this
  unfold toR
  push_cast at this
  norm_num at this ⊢
  exact this

/-- the inverse -/
theorem inverse {w : F64} (hw : isFin w) (h0 : 1 / 2 ≤ toR w) (h1 : toR w ≤ 2 ^ 1022) :
    isFin (lit 1 /. w) ∧ |toR (lit 1 /. w) - 1 / toR w| ≤ 1 / 2 ^ 53 * |1 / toR w| := by
  have q0 : 1 / 2 ≤ toQ w := by
    have : ((1 / 2 : ℚ) : ℝ) ≤ ((toQ w : ℚ) : ℝ) := by push_cast; exact h0
    exact_mod_cast this
  have q1 : toQ w ≤ 2 ^ 1022 := by unfold toR at h1; exact_mod_cast h1
  have l1 : isFin (lit 1 : F64) ∧ toQ (lit 1 : F64) = 1 := by decide +kernel
  have i0 : 0 < 1 / toQ w := by positivity
  obtain ⟨f1, f2⟩ := div_fin' l1.1 hw (by linarith) (by
    rw [l1.2, abs_of_pos i0]
    refine small_lt (le_trans ?_ (by norm_num : (2 : ℚ) ≤ 10 ^ 60))
    rw [div_le_iff₀ (by linarith)]; linarith)
  rw [l1.2] at f2
  refine ⟨f1, ?_⟩
  have hlow : pow2 (-1022) ≤ |1 / toQ w| := by
    rw [abs_of_pos i0, pow2_eq, show ((2 : ℚ) ^ (-1022 : ℤ)) = 1 / 2 ^ 1022 by rw [zpow_neg, one_div]; exact congrArg _ (zpow_natCast 2 1022)]
    exact one_div_le_one_div_of_le (by linarith) q1
  have := rq_rel_real hlow
  rw [← f2] at this
  unfold toR
  push_cast at this
  norm_num at this ⊢
  exact this

/-- the calls end with a value of relative error `η` -/
def Good (cf : F64 → F64) (n : ℕ) (x : F64) (η : ℝ) : Prop :=
  ∃ y, Bench.expDeep cf n x = some (.ok y) ∧ isFin y ∧ |toR y - Real.exp (toR x)| ≤ η * Real.exp (toR x)

theorem Good.mono {cf : F64 → F64} {n : ℕ} {x : F64} {η η' : ℝ} (h : Good cf n x η) (he : η ≤ η') : Good cf n x η' := by
  obtain ⟨y, a, b, c⟩ := h
  exact ⟨y, a, b, c.trans (mul_le_mul_of_nonneg_right he (Real.exp_pos _).le)⟩

variable {cf : F64 → F64}

theorem L_real : ((L : ℚ) : ℝ) = LN2 := by unfold L LN2; norm_num

/-- the reduction of an argument up to 708 -/
theorem reduce708 {x : F64} (hx : isFin x) (h0 : L < toQ x) (h1 : toQ x ≤ 708) :
    ∃ k : UInt64, Bench.toULL (x /. LOG2) = .ok k ∧ k.toNat ≤ 1021 ∧ isFin (x -. LOG2 *. lit k.toNat) ∧
      |toQ (x -. LOG2 *. lit k.toNat)| ≤ L + 1 / 2 ^ 30 ∧ (toQ x ≤ L + 1 / 2 ^ 30 → 0 ≤ toQ (x -. LOG2 *. lit k.toNat) ∧ toQ (x -. LOG2 *. lit k.toNat) ≤ L) ∧
      -1 / 100 ≤ toR (x -. LOG2 *. lit k.toNat) ∧ toR (x -. LOG2 *. lit k.toNat) ≤ 7 / 10 ∧
      |toR (x -. LOG2 *. lit k.toNat) - (toR x - k.toNat * Real.log 2)| ≤ 160 / 10 ^ 18 * toR x + 1 / 10 ^ 16 := by
  have hX0 : LN2 < toR x := by rw [← L_real]; unfold toR; exact_mod_cast h0
  have hX1 : toR x ≤ 708 := by unfold toR; exact_mod_cast h1
  obtain ⟨k, hk, -, -, -, r1, r2, r3, r4, r5, -⟩ := reduction hx hX0 (by rw [L_eq]; norm_num [L]; linarith)
  obtain ⟨K, hK, g1, g2⟩ := reduce hx h0 (by norm_num [L]; linarith)
  have e : K.toNat = k := by
    obtain ⟨t1, t2, t3⟩ := (quot_range64 hx (lt_trans (by norm_num [L]) h0)).1 (by norm_num [L]; linarith)
    have t0 : 0 ≤ toQ (x /. LOG2) := by
      rw [t2]; exact rq_nonneg (div_nonneg (by have : (0 : ℚ) < L := by norm_num [L]
                                               linarith) (by norm_num [L]))
    rw [BenchMath.toULL_ok t1 t0 t3] at hK
    have hK := Except.ok.inj hK
    rw [← hK, ← hk, UInt64.toNat_ofNat']
    have : ⌊toQ (x /. LOG2)⌋ < 2 ^ 64 := by rw [Int.floor_lt]; exact_mod_cast t3
    have a : 0 ≤ ⌊toQ (x /. LOG2)⌋ := Int.floor_nonneg.mpr t0
    omega
  obtain ⟨b1, b2⟩ := LN2_bounds
  have hk0 : (0 : ℝ) ≤ k := Nat.cast_nonneg k
  have hk1 : k ≤ 1021 := by
    have : (k : ℝ) < 1022 := by nlinarith
    have : k < 1022 := by exact_mod_cast this
    omega
  refine ⟨K, hK, by omega, g1, g2.trans (by linarith), ?_, ?_⟩
  · intro h
    obtain ⟨K', hK', l1, l2, l3⟩ := reduce_last hx h0 h
    rw [hK] at hK'
    rw [Except.ok.inj hK']
    exact ⟨l2, l3⟩
  rw [e]
  refine ⟨r2, r3, ?_⟩
  obtain ⟨d1, d2⟩ := LN2_err
  have hkX : (k : ℝ) ≤ 3 / 2 * toR x := by nlinarith
  have s : |(k : ℝ) * (Real.log 2 - LN2)| ≤ 36 / 10 ^ 18 * toR x := by
    rw [abs_of_nonneg (mul_nonneg hk0 d1)]
    calc (k : ℝ) * (Real.log 2 - LN2) ≤ (3 / 2 * toR x) * (24 / 10 ^ 18) := mul_le_mul hkX d2 d1 (by linarith)
      _ = _ := by ring
  have := abs_add_le (toR (x -. LOG2 *. lit k) - (toR x - LN2 * k)) ((k : ℝ) * (Real.log 2 - LN2))
  rw [show toR (x -. LOG2 *. lit k) - (toR x - LN2 * k) + (k : ℝ) * (Real.log 2 - LN2) = toR (x -. LOG2 *. lit k) - (toR x - k * Real.log 2) by ring] at this
  linarith

theorem exp_range {R : ℝ} (h0 : -1 / 100 ≤ R) (h1 : R ≤ 7 / 10) : 9 / 10 ≤ Real.exp R ∧ Real.exp R ≤ 5 / 2 := by
  constructor
  · have := Real.add_one_le_exp R
    linarith
  · have h2 : Real.exp R ≤ Real.exp (7 / 10) := Real.exp_le_exp.mpr h1
    have h3 : Real.exp (7 / 10) ≤ 5 / 2 := by
      have a := Real.add_one_le_exp (-(7 / 10) : ℝ)
      have hb := Real.exp_one_lt_d9
      have : Real.exp (7 / 10) ^ 10 ≤ (5 / 2 : ℝ) ^ 10 := by
        rw [← Real.exp_nat_mul]
        have : ((10 : ℕ) : ℝ) * (7 / 10) = ((7 : ℕ) : ℝ) * 1 := by norm_num
        rw [this, Real.exp_nat_mul]
        calc Real.exp 1 ^ 7 ≤ (2.7182818286 : ℝ) ^ 7 := pow_le_pow_left₀ (Real.exp_pos _).le hb.le 7
          _ ≤ _ := by norm_num
      exact le_of_pow_le_pow_left₀ (by norm_num) (by norm_num) this
    linarith

theorem good_step {n : ℕ} {x : F64} {η D : ℝ} (hη : 0 ≤ η) (hη1 : η ≤ 1 / 100) (hx : isFin x) (h0 : L < toQ x) {k : UInt64} (hk : Bench.toULL (x /. LOG2) = .ok k)
    (hk1 : k.toNat ≤ 1021) (r0 : -1 / 100 ≤ toR (x -. LOG2 *. lit k.toNat)) (r1 : toR (x -. LOG2 *. lit k.toNat) ≤ 7 / 10)
    (hD : D ≤ 1 / 10 ^ 10) (hr : |toR (x -. LOG2 *. lit k.toNat) - (toR x - k.toNat * Real.log 2)| ≤ D)
    (h : Good cf n (x -. LOG2 *. lit k.toNat) η) : Good cf (n + 1) x (η + 3 * D + 3 / 10 ^ 16) := by
  have lp : (0 : ℚ) < L := by norm_num [L]
  obtain ⟨w, hw, f, e⟩ := h
  obtain ⟨x0, x1⟩ := exp_range r0 r1
  obtain ⟨e1, e2⟩ := abs_le.mp e
  obtain ⟨s1, s2⟩ := scale f (by nlinarith) (by nlinarith) hk1
  refine ⟨Bench.setExponent w (Bench.exponentBits w + k), ?_, s1, ?_⟩
  · unfold Bench.expDeep
    rw [if_neg (by rw [neg_iff hx]; linarith), if_pos (by rw [gt_iff hx]; exact h0), hk]
    simp only [hw]
    rfl
  · refine (step_err (u := 1 / 2 ^ 53) hη hη1 hD (by norm_num) (by norm_num) e s2
      (δ := toR (x -. LOG2 *. lit k.toNat) - (toR x - k.toNat * Real.log 2)) (by ring) hr).trans ?_
    refine mul_le_mul_of_nonneg_right ?_ (Real.exp_pos _).le
    have : (2 : ℝ) * (1 / 2 ^ 53) ≤ 3 / 10 ^ 16 := by norm_num
    linarith

theorem exp708 {X : ℝ} (h : X ≤ 708) : Real.exp X * (101 / 100) ≤ 2 ^ 1022 := by
  have h2 : (2 : ℝ) ^ 1022 = Real.exp (1022 * Real.log 2) := by
    rw [mul_comm, Real.exp_mul, Real.exp_log (by norm_num)]; exact (Real.rpow_natCast 2 1022).symm
  rw [h2]
  have l := Real.log_two_gt_d9
  have h3 : Real.exp X * (101 / 100) ≤ Real.exp X * Real.exp (1 / 100) := by
    refine mul_le_mul_of_nonneg_left ?_ (Real.exp_pos _).le
    have := Real.add_one_le_exp (1 / 100 : ℝ)
    linarith
  refine h3.trans ?_
  rw [← Real.exp_add]
  exact Real.exp_le_exp.mpr (by linarith)

/-- an argument of either sign -/
theorem good_sign {n : ℕ} {B : ℚ} {η : ℝ} (hB : B ≤ 708) (hη : 0 ≤ η) (hη1 : η ≤ 1 / 900) (h : ∀ n ≥ n₀, ∀ x : F64, isFin x → 0 ≤ toQ x → toQ x ≤ B → Good cf n x η)
    (hn : n₀ ≤ n) {x : F64} (hx : isFin x) (hb : |toQ x| ≤ B) : Good cf (n + 1) x (1002 / 1000 * η + 3 / 10 ^ 16) := by
  rcases lt_or_ge (toQ x) 0 with h0 | h0
  · rw [abs_of_neg h0] at hb
    have hn' : isFin (-. x) := isFin_neg.mpr hx
    have hq : toQ (-. x) = -toQ x := toQ_neg x
    have hqR : toR (-. x) = -toR x := by unfold toR; rw [hq]; push_cast; rfl
    obtain ⟨w, hw, f, e⟩ := h n hn (-. x) hn' (by rw [hq]; linarith) (by rw [hq]; exact hb)
    have hp : 0 ≤ -toR x := by unfold toR; rw [← Rat.cast_neg]; exact_mod_cast (by linarith : (0 : ℚ) ≤ -toQ x)
    have hp' : -toR x ≤ 708 := by unfold toR; rw [← Rat.cast_neg]; exact_mod_cast (by linarith : -toQ x ≤ (708 : ℚ))
    rw [hqR] at e
    have e0 : 1 ≤ Real.exp (-toR x) := Real.one_le_exp hp
    have e9 := exp708 hp'
    obtain ⟨e1, e2⟩ := abs_le.mp e
    have e3 : η * Real.exp (-toR x) ≤ 1 / 100 * Real.exp (-toR x) := mul_le_mul_of_nonneg_right (by linarith) (by linarith)
    obtain ⟨s1, s2⟩ := inverse f (by linarith) (le_trans (by linarith) e9)
    refine ⟨lit 1 /. w, ?_, s1, ?_⟩
    · unfold Bench.expDeep
      rw [if_pos ((neg_iff hx).mpr h0), hw]
      rfl
    · refine (inv_err (u := 1 / 2 ^ 53) hη hη1 (by norm_num) (by norm_num) e s2).trans ?_
      refine mul_le_mul_of_nonneg_right ?_ (Real.exp_pos _).le
      have : (2 : ℝ) * (1 / 2 ^ 53) ≤ 3 / 10 ^ 16 := by norm_num
      linarith
  · rw [abs_of_nonneg h0] at hb
    refine (h (n + 1) (by omega) x hx h0 hb).mono ?_
    have : (0 : ℝ) < 3 / 10 ^ 16 := by norm_num
    linarith

variable {ε : ℝ} (hε : 0 ≤ ε) (hε1 : ε ≤ 1 / 1000)
  (hcf : ∀ z : F64, isFin z → 0 ≤ toQ z → toQ z ≤ toQ (LOG2 : F64) → isFin (cf z) ∧ |toR (cf z) - Real.exp (toR z)| ≤ ε * Real.exp (toR z))
include hcf

theorem good_small {n : ℕ} (hn : 1 ≤ n) {x : F64} (hx : isFin x) (h0 : 0 ≤ toQ x) (h1 : toQ x ≤ L) : Good cf n x ε := by
  obtain ⟨n, rfl⟩ : ∃ m, n = m + 1 := ⟨n - 1, by omega⟩
  obtain ⟨a, b⟩ := hcf x hx h0 (by rw [L_eq]; exact h1)
  refine ⟨cf x, ?_, a, b⟩
  unfold Bench.expDeep
  rw [if_neg (by rw [neg_iff hx]; linarith), if_neg (by rw [gt_iff hx]; linarith)]

include hε hε1

theorem good_level1 : ∀ n ≥ 2, ∀ x : F64, isFin x → 0 ≤ toQ x → toQ x ≤ L + 1 / 2 ^ 30 → Good cf n x (ε + 2 / 10 ^ 15) := by
  intro n hn x hx h0 h1
  obtain ⟨n, rfl⟩ : ∃ m, n = m + 1 := ⟨n - 1, by omega⟩
  rcases le_or_gt (toQ x) L with h | h
  · exact (good_small hcf (by omega) hx h0 h).mono (by linarith [show (0 : ℝ) < 2 / 10 ^ 15 by norm_num])
  have hL : L < 7 / 10 := by norm_num [L]
  have hx1 : toQ x ≤ 1 := by linarith
  have hX1 : toR x ≤ 1 := by unfold toR; exact_mod_cast hx1
  obtain ⟨k, hk, k1, r1, -, r2, r3, r4, r5⟩ := reduce708 hx h (by linarith)
  obtain ⟨a, b⟩ := r2 h1
  refine (good_step (D := 3 / 10 ^ 16) hε (by linarith) hx h hk k1 r3 r4 (by norm_num) (r5.trans (by linarith))
    (good_small hcf (by omega) r1 a b)).mono ?_
  linarith

theorem good_level2 : ∀ n ≥ 4, ∀ x : F64, isFin x → 0 ≤ toQ x → toQ x ≤ 708 → Good cf n x (1002 / 1000 * ε + 4 / 10 ^ 13) := by
  intro n hn x hx h0 h1
  obtain ⟨n, rfl⟩ : ∃ m, n = m + 2 := ⟨n - 2, by omega⟩
  rcases le_or_gt (toQ x) L with h | h
  · exact (good_small hcf (by omega) hx h0 h).mono (by linarith [show (0 : ℝ) < 4 / 10 ^ 13 by norm_num])
  have hX1 : toR x ≤ 708 := by unfold toR; exact_mod_cast h1
  obtain ⟨k, hk, k1, r1, r2, -, r3, r4, r5⟩ := reduce708 hx h h1
  have g := good_sign (n₀ := 2) (n := n) (η := ε + 2 / 10 ^ 15) (B := L + 1 / 2 ^ 30) (by norm_num [L]) (by positivity) (by linarith) (good_level1 hε hε1 hcf)
    (by omega) r1 r2
  refine (good_step (D := 12 / 10 ^ 14) (by positivity) (by linarith) hx h hk k1 r3 r4 (by norm_num) (r5.trans (by linarith)) g).mono ?_
  linarith

theorem good {n : ℕ} (hn : 5 ≤ n) {x : F64} (hx : isFin x) (h : |toQ x| ≤ 708) : Good cf n x (101 / 100 * ε + 5 / 10 ^ 13) := by
  obtain ⟨n, rfl⟩ : ∃ m, n = m + 1 := ⟨n - 1, by omega⟩
  refine (good_sign (n₀ := 4) (n := n) (η := 1002 / 1000 * ε + 4 / 10 ^ 13) le_rfl (by positivity) (by linarith) (good_level2 hε hε1 hcf) (by omega) hx h).mono ?_
  linarith

end BenchExp
end Verif

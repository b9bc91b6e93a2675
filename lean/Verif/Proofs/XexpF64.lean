/-
`xexp` in binary64: argument reduction, scaling and rounding error.
-/
import Verif.Proofs.ExpF64
import Verif.Proofs.XlogF64
import Verif.Props.Xmath

namespace Verif
open F64 ExpCF

theorem exp_cf_rel {z : F64} (hz : isFin z) (h0 : -1 / 100 ≤ toR z) (h1 : toR z ≤ 7 / 10) :
    isFin (exp_cf_6 z) ∧ |toR (exp_cf_6 z) - Real.exp (toR z)| ≤ 27 / 10 ^ 16 * Real.exp (toR z) := by
  obtain ⟨f, e⟩ := (exp_cf_app hz h0 h1).2
  refine ⟨f, ?_⟩
  have ha : |toR z| ≤ 7 / 10 := abs_le.mpr ⟨by linarith, h1⟩
  have r := rel_err (z := toR z) (by linarith)
  have hp : |toR z| ^ 13 ≤ (7 / 10) ^ 13 := pow_le_pow_left₀ (abs_nonneg _) ha 13
  have hx : 99 / 100 ≤ Real.exp (toR z) := by
    have := Real.add_one_le_exp (toR z); linarith
  have h3 : |toR z| ^ 13 / (13 * 420000000000) ≤ 18 / 10 ^ 16 := by
    refine (div_le_div_of_nonneg_right hp (by norm_num)).trans (by norm_num)
  have h4 : |expCF (toR z) - Real.exp (toR z)| ≤ 18 / 10 ^ 16 * Real.exp (toR z) :=
    r.trans (mul_le_mul_of_nonneg_right h3 (by positivity))
  have h5 : |toR (exp_cf_6 z) - Real.exp (toR z)| ≤ |toR (exp_cf_6 z) - expCF (toR z)| + |expCF (toR z) - Real.exp (toR z)| :=
    abs_sub_le _ _ _
  have h6 : |toR (exp_cf_6 z) - expCF (toR z)| ≤ 8 / 10 ^ 16 := e.trans (by norm_num)
  linarith

theorem LN2_bounds : 6931471805 / 10 ^ 10 ≤ LN2 ∧ LN2 ≤ 6931471806 / 10 ^ 10 := by unfold LN2; constructor <;> norm_num

theorem trunc_pos {t : F64} (ht : isFin t) (h0 : 0 ≤ toQ t) : CDouble.trunc t = some ⌊toQ t⌋ := by
  rcases t with _ | _ | ⟨s, k⟩
  · exact absurd ht id
  · exact absurd ht id
  · cases s
    · rfl
    · have h : k.val = 0 := by
        rw [toQ_fin] at h0
        have : mag k.val ≤ 0 := by simpa using h0
        exact mag_eq_zero.mp (le_antisymm this (mag_nonneg _))
      have hz : toQ (fin true k) = 0 := toQ_eq_zero.mpr h
      rw [hz]
      show some (-(mag k.val).floor) = _
      rw [h, mag_zero]
      rfl

/-- where the quotient by `LOG2` reaches `2^m` -/
theorem quot_range {x : F64} (hx : isFin x) (h0 : 0 < toQ x) {m : ℕ} (hm : m = 31 ∨ m = 32) :
    (toQ x < toQ (LOG2 : F64) * 2 ^ m → isFin (x /. LOG2) ∧ toQ (x /. LOG2) < 2 ^ m) ∧
      (toQ (LOG2 : F64) * 2 ^ m ≤ toQ x → ((2 ^ m : ℚ) : ℝ) ≤ val (x /. LOG2)) := by
  obtain ⟨l1, l2⟩ := LOG2_fin
  have l0 : toQ (LOG2 : F64) ≠ 0 := by rw [l2]; norm_num
  have lp : 0 < toQ (LOG2 : F64) := by rw [l2]; norm_num
  obtain ⟨z, hz⟩ := div_fin hx l1 l0
  change x /. LOG2 = _ at hz
  have big : (2 : ℚ) ^ m ≤ pow2 1023 := by
    refine le_trans ?_ pow2_big
    rcases hm with rfl | rfl <;> norm_num
  have lm : isFin (lit (2 ^ m) : F64) ∧ toQ (lit (2 ^ m) : F64) = 2 ^ m := by
    rcases hm with rfl | rfl <;> decide +kernel
  constructor
  · intro h
    obtain ⟨k, hk⟩ : ∃ k : Fin finCodes, toQ x = mag k.val := by
      rcases x with _ | _ | ⟨s, k⟩
      · exact absurd hx id
      · exact absurd hx id
      · refine ⟨k, ?_⟩
        rw [← abs_toQ_fin s k, abs_of_pos h0]
    obtain ⟨K, c, hK1, hK2, hc⟩ : ∃ K c : ℕ, mag K = toQ (LOG2 : F64) * 2 ^ m ∧ mag (K - 1) / toQ (LOG2 : F64) ≤ mag c ∧ mag c < 2 ^ m := by
      rcases hm with rfl | rfl
      · refine ⟨0x3FE62E42FEFA39EF + 31 * 2 ^ 52, (0x3FF + 31) * 2 ^ 52 - 1, ?_, ?_, ?_⟩ <;> decide +kernel
      · refine ⟨0x3FE62E42FEFA39EF + 32 * 2 ^ 52, (0x3FF + 32) * 2 ^ 52 - 1, ?_, ?_, ?_⟩ <;> decide +kernel
    have hkK : mag k.val ≤ mag (K - 1) := by
      rw [hk, ← hK1] at h
      have := mag_lt_iff.mp h
      exact mag_le_iff.mpr (by omega)
    have hq : toQ x / toQ (LOG2 : F64) ≤ mag c := by
      refine le_trans ?_ hK2
      rw [hk]; exact div_le_div_of_nonneg_right hkK lp.le
    have hq0 : 0 ≤ toQ x / toQ (LOG2 : F64) := by positivity
    have hf : |toQ x / toQ (LOG2 : F64)| ≤ pow2 1023 := by rw [abs_of_nonneg hq0]; linarith
    obtain ⟨f1, f2⟩ := fin_ofRat (z := z) hf
    rw [hz]
    refine ⟨f1, ?_⟩
    rw [f2]
    calc rq _ ≤ rq (mag c) := rq_mono hq
      _ = mag c := rq_mag c
      _ < _ := hc
  · intro h
    rw [hz]
    have : val (lit (2 ^ m) : F64) ≤ val (ofRat z (toQ x / toQ (LOG2 : F64))) := by
      apply le_ofRat lm.1
      rw [lm.2, le_div_iff₀ lp]; linarith
    rwa [val_fin lm.1, lm.2] at this

theorem toUInt32_ok {t : F64} (ht : isFin t) (h0 : 0 ≤ toQ t) (h : toQ t < 2 ^ 32) : toUInt32 t = .ok ⌊toQ t⌋.toNat := by
  unfold toUInt32
  rw [trunc_pos ht h0]
  dsimp only
  rw [if_pos]
  exact ⟨Int.floor_nonneg.mpr h0, by rw [Int.floor_lt]; exact_mod_cast h⟩

theorem toUInt32_err {t : F64} (h : ((2 ^ 32 : ℚ) : ℝ) ≤ val t) : toUInt32 t = .error .floatConv := by
  unfold toUInt32
  rcases t with _ | s | ⟨s, k⟩
  · rfl
  · rfl
  · rw [val_fin (show isFin (fin s k) from trivial), ratCast_le_EReal] at h
    have h0 : 0 ≤ toQ (fin s k) := le_trans (by norm_num) h
    rw [trunc_pos (show isFin (fin s k) from trivial) h0]
    dsimp only
    rw [if_neg]
    intro hc
    have := hc.2
    rw [Int.floor_lt] at this
    push_cast at this
    linarith

/-- everything about the argument reduction -/
theorem reduction {x : F64} (hx : isFin x) (h0 : LN2 < toR x) (h1 : toQ x < toQ (LOG2 : F64) * 2 ^ 32) :
    ∃ k : ℕ, k = ⌊toQ (x /. LOG2)⌋.toNat ∧ k < 2 ^ 32 ∧ (toQ x < toQ (LOG2 : F64) * 2 ^ 31 ↔ k < 2 ^ 31) ∧
      xexpNonneg muslFU x = .ok (Spec.scaleB (exp_cf_6 (x -. LOG2 *. lit k)) (uintToInt k)) ∧
      isFin (x -. LOG2 *. lit k) ∧ -1 / 100 ≤ toR (x -. LOG2 *. lit k) ∧ toR (x -. LOG2 *. lit k) ≤ 7 / 10 ∧
      |toR (x -. LOG2 *. lit k) - (toR x - LN2 * k)| ≤ 113 / 10 ^ 18 * toR x + 1 / 10 ^ 16 ∧
      (k : ℝ) * LN2 ≤ toR x * (1 + 2 / 10 ^ 16) ∧ toR x * (1 - 2 / 10 ^ 16) ≤ (k + 1) * LN2 := by
  obtain ⟨l1, l2⟩ := LOG2_fin
  have lR : toR (LOG2 : F64) = LN2 := by unfold toR LN2; rw [l2]; norm_num
  obtain ⟨b1, b2⟩ := LN2_bounds
  have hLp : 0 < LN2 := by linarith
  have h0q : 0 < toQ x := by
    have : 0 < toR x := by linarith
    unfold toR at this; exact_mod_cast this
  obtain ⟨q1, -⟩ := quot_range hx h0q (.inr rfl)
  obtain ⟨q3, q4⟩ := quot_range hx h0q (.inl rfl)
  obtain ⟨t1, t2⟩ := q1 h1
  have l0 : toQ (LOG2 : F64) ≠ 0 := by rw [l2]; norm_num
  obtain ⟨z, hz⟩ := div_fin hx l1 l0
  change x /. LOG2 = _ at hz
  have hno : noOverflow (toQ x / toQ (LOG2 : F64)) := by
    rw [hz] at t1; exact ofRat_isFin.mp t1
  have tq : toQ (x /. LOG2) = rq (toQ x / toQ (LOG2 : F64)) := by rw [hz]; exact toQ_ofRat hno
  set X := toR x with hX
  have hqR : ((toQ x / toQ (LOG2 : F64) : ℚ) : ℝ) = X / LN2 := by rw [hX, ← lR]; unfold toR; push_cast; rfl
  have hq1 : 1 ≤ X / LN2 := by rw [le_div_iff₀ hLp]; linarith
  have hXm : X ≤ 3 * 10 ^ 9 := by
    have : X < LN2 * 2 ^ 32 := by
      rw [hX, ← lR]; unfold toR; exact_mod_cast h1
    nlinarith
  have terr : |toR (x /. LOG2) - X / LN2| ≤ 1 / 9007199254740992 * (X / LN2) := by
    have hlow : pow2 (-1022) ≤ |toQ x / toQ (LOG2 : F64)| := by
      have h2 : (1 : ℚ) ≤ toQ x / toQ (LOG2 : F64) := by
        have : ((1 : ℚ) : ℝ) ≤ ((toQ x / toQ (LOG2 : F64) : ℚ) : ℝ) := by rw [hqR]; exact_mod_cast hq1
        exact_mod_cast this
      have h3 := tiny_le
      have h4 : (1 : ℚ) / 10 ^ 60 ≤ 1 := by norm_num
      exact (h3.trans h4).trans (h2.trans (le_abs_self _))
    have := rq_rel_real hlow
    rw [hqR, ← tq] at this
    rw [abs_of_pos (by linarith : 0 < X / LN2)] at this
    exact this
  have tn : 0 ≤ toQ (x /. LOG2) := by
    rw [tq]; apply rq_nonneg
    have : (0 : ℝ) ≤ ((toQ x / toQ (LOG2 : F64) : ℚ) : ℝ) := by rw [hqR]; linarith
    exact_mod_cast this
  obtain ⟨te1, te2⟩ := abs_le.mp terr
  set T := toR (x /. LOG2) with hT
  have hTq : T = ((toQ (x /. LOG2) : ℚ) : ℝ) := rfl
  obtain ⟨k, hk⟩ : ∃ k : ℕ, ⌊toQ (x /. LOG2)⌋ = k := ⟨_, (Int.toNat_of_nonneg (Int.floor_nonneg.mpr tn)).symm⟩
  have k1 : (k : ℚ) ≤ toQ (x /. LOG2) := by
    have := Int.floor_le (toQ (x /. LOG2)); rw [hk] at this; exact_mod_cast this
  have k2 : toQ (x /. LOG2) < k + 1 := by
    have := Int.lt_floor_add_one (toQ (x /. LOG2)); rw [hk] at this; exact_mod_cast this
  have k1r : (k : ℝ) ≤ T := by rw [hTq]; exact_mod_cast k1
  have k2r : T < k + 1 := by rw [hTq]; exact_mod_cast k2
  have k3 : k < 2 ^ 32 := by
    have : (k : ℚ) < 2 ^ 32 := lt_of_le_of_lt k1 t2
    exact_mod_cast this
  have kl : (k : ℝ) * LN2 ≤ X + 1 / 9007199254740992 * X := by
    have : (k : ℝ) * LN2 ≤ (X / LN2 + 1 / 9007199254740992 * (X / LN2)) * LN2 := by
      apply mul_le_mul_of_nonneg_right _ hLp.le; linarith
    refine this.trans (le_of_eq ?_); field_simp
  have ku : X - 1 / 9007199254740992 * X ≤ (k + 1) * LN2 := by
    have : (X / LN2 - 1 / 9007199254740992 * (X / LN2)) * LN2 ≤ (k + 1) * LN2 := by
      apply mul_le_mul_of_nonneg_right _ hLp.le; linarith
    refine le_trans (le_of_eq ?_) this; field_simp
  have hX0 : 0 < X := by linarith
  have lk : App (lit (k : ℚ)) k 0 := by
    have := App.lit_int (i := (k : ℤ)) (by rw [abs_of_nonneg (by positivity)]; exact_mod_cast (k3.le.trans (by norm_num)))
    simpa using this
  have hk0 : (0 : ℝ) ≤ k := by positivity
  have pr : App (LOG2 *. lit (k : ℚ)) (LN2 * k) (ru * (X * (1 + 2 / 10 ^ 16))) := by
    have hB : LN2 * k ≤ X * (1 + 2 / 10 ^ 16) := by linarith
    refine App.mul LOG2_app lk (V := LN2) (W := k) (by rw [abs_of_pos hLp]) (by rw [abs_of_nonneg hk0]) (B := X * (1 + 2 / 10 ^ 16)) ?_ ?_ ?_ ?_
    · linarith
    · have : (1 : ℝ) / 10 ^ 50 ≤ 1 / 2 := by norm_num
      nlinarith
    · have : (3 * 10 ^ 9 * (1 + 2 / 10 ^ 16) : ℝ) ≤ 10 ^ 60 := by norm_num
      nlinarith
    · linarith
  have hru : ru ≤ 112 / 10 ^ 18 := by unfold ru; norm_num
  have hru0 : 0 < ru := by unfold ru; norm_num
  have hd : |X - LN2 * k| ≤ 7 / 10 := by
    rw [abs_le]; constructor <;> nlinarith
  have pe : ru * (X * (1 + 2 / 10 ^ 16)) ≤ 1121 / 10 ^ 19 * X := by nlinarith
  have rr : App (x -. LOG2 *. lit (k : ℚ)) (X - LN2 * k) (113 / 10 ^ 18 * X + 1 / 10 ^ 16) := by
    refine App.sub (App.self hx) pr (B := 3 / 4) ?_ (by norm_num) (by norm_num) ?_
    · have : 1121 / 10 ^ 19 * X ≤ 1 / 100 := by linarith
      linarith
    · linarith
  obtain ⟨r1, r2⟩ := rr
  obtain ⟨r3, r4⟩ := abs_le.mp r2
  refine ⟨k, by rw [hk]; simp, k3, ?_, ?_, r1, ?_, ?_, r2, by linarith, by linarith⟩
  · constructor
    · intro h
      have := (q3 h).2
      have : (k : ℚ) < 2 ^ 31 := lt_of_le_of_lt k1 this
      exact_mod_cast this
    · intro h
      by_contra hc
      have := q4 (not_lt.mp hc)
      rw [val_fin t1, ratCast_le_EReal] at this
      have h5 : (2 : ℚ) ^ 31 < k + 1 := lt_of_le_of_lt this k2
      have h6 : (2 : ℕ) ^ 31 < k + 1 := by exact_mod_cast h5
      omega
  · unfold xexpNonneg
    have hgt : (x >. LOG2) = true := by
      refine (F64.lt_iff _ _).mpr ?_
      refine ⟨l1.notNaN, hx.notNaN, ?_⟩
      rw [val_fin l1, val_fin hx]
      rw [ratCast_lt_EReal]
      have h7 : toR (LOG2 : F64) < toR x := by rw [lR]; exact h0
      unfold toR at h7
      exact Rat.cast_lt.mp h7
    rw [if_pos hgt, toUInt32_ok t1 tn t2, hk]
    show (Except.ok (musl_ldexp _ _) : C F64) = _
    rw [musl_ldexp_eq]
    rfl
  · linarith
  · linarith

/-- scaling a double near 1 up -/
theorem scale_up {y : F64} (hy : isFin y) (h0 : 0 < toR y) (k : ℕ) :
    (toR y * 2 ^ k < 2 ^ 1023 → isFin (Spec.scaleB y k) ∧ toR (Spec.scaleB y k) = toR y * 2 ^ k) ∧
    (2 ^ 1024 ≤ toR y * 2 ^ k → Spec.scaleB y k = inf false) := by
  rcases y with _ | _ | ⟨s, c⟩
  · exact absurd hy id
  · exact absurd hy id
  have hq : 0 < toQ (fin s c) := by unfold toR at h0; exact_mod_cast h0
  have e : Spec.scaleB (fin s c) k = ofRat s (toQ (fin s c) * pow2 k) := by
    unfold Spec.scaleB; rw [pow2_eq]
  have hcast : ((toQ (fin s c) * pow2 k : ℚ) : ℝ) = toR (fin s c) * 2 ^ k := by
    rw [pow2_eq, zpow_natCast]; unfold toR; push_cast; rfl
  have hp := pow2_pos k
  have hpos : 0 < toQ (fin s c) * pow2 k := mul_pos hq hp
  rw [e]
  constructor
  · intro h
    have hle : |toQ (fin s c) * pow2 k| ≤ pow2 1023 := by
      rw [abs_of_pos hpos]
      have : ((toQ (fin s c) * pow2 k : ℚ) : ℝ) ≤ ((pow2 1023 : ℚ) : ℝ) := by
        rw [hcast, pow2_eq, Rat.cast_zpow, Rat.cast_ofNat]
        exact h.le.trans (le_of_eq (zpow_natCast (2 : ℝ) 1023).symm)
      exact_mod_cast this
    obtain ⟨f1, f2⟩ := fin_ofRat (z := s) hle
    refine ⟨f1, ?_⟩
    unfold toR
    rw [f2, rq_rep, hcast]
    · rfl
    · obtain ⟨n, i, h1, h2, h3⟩ := toQ_rep s c
      refine ⟨n, i + k, h1, by omega, ?_⟩
      rw [abs_scale, h3, mul_assoc, ← pow2_add]
  · intro h
    have hno : ¬ noOverflow (toQ (fin s c) * pow2 k) := by
      unfold noOverflow
      rw [abs_of_pos hpos, not_lt]
      have hm : mag (2047 * 2 ^ 52) = pow2 1024 := mag_pow (v := 2047) (by norm_num)
      have hf : finCodes = 2047 * 2 ^ 52 := by decide
      rw [hf]
      apply le_rnd
      rw [hm]
      have : ((pow2 1024 : ℚ) : ℝ) ≤ ((toQ (fin s c) * pow2 k : ℚ) : ℝ) := by
        rw [hcast, pow2_eq, Rat.cast_zpow, Rat.cast_ofNat]
        exact le_trans (le_of_eq (zpow_natCast (2 : ℝ) 1024)) h
      exact_mod_cast this
    rw [ofRat_overflow hno, decide_eq_false (not_lt.mpr hpos.le)]

/-- the value before scaling, against the true exponential -/
theorem xexp_core {x : F64} (hx : isFin x) (h0 : LN2 < toR x) (h1 : toR x ≤ 1000) :
    ∃ (k : ℕ) (y : F64), k < 2 ^ 31 ∧ xexpNonneg muslFU x = .ok (Spec.scaleB y k) ∧ isFin y ∧ 0 < toR y ∧
      |toR y * 2 ^ k - Real.exp (toR x)| ≤ (3 / 10 ^ 15 + 2 / 10 ^ 16 * toR x) * Real.exp (toR x) := by
  obtain ⟨b1, b2⟩ := LN2_bounds
  have lR : toR (LOG2 : F64) = LN2 := by unfold toR LN2; rw [LOG2_fin.2]; norm_num
  have hX31 : toQ x < toQ (LOG2 : F64) * 2 ^ 31 := by
    have : toR x < toR (LOG2 : F64) * 2 ^ 31 := by rw [lR]; linarith
    unfold toR at this; exact_mod_cast this
  have hX32 : toQ x < toQ (LOG2 : F64) * 2 ^ 32 := by
    have : toR x < toR (LOG2 : F64) * 2 ^ 32 := by rw [lR]; linarith
    unfold toR at this; exact_mod_cast this
  obtain ⟨k, -, k1, k2, k3, r1, r2, r3, r4, k4, k5⟩ := reduction hx h0 hX32
  have k31 := k2.mp hX31
  have hu : uintToInt k = k := by unfold uintToInt; rw [if_pos k31]
  rw [hu] at k3
  obtain ⟨y1, y2⟩ := exp_cf_rel r1 r2 r3
  refine ⟨k, _, k31, k3, y1, ?_, ?_⟩
  · have := Real.exp_pos (toR (x -. LOG2 *. lit (k : ℚ)))
    have := (abs_le.mp y2).1
    linarith
  · set R := toR (x -. LOG2 *. lit (k : ℚ))
    set Y := toR (exp_cf_6 (x -. LOG2 *. lit (k : ℚ)))
    set X := toR x
    obtain ⟨e1, e2⟩ := LN2_err
    have hk0 : (0 : ℝ) ≤ k := by positivity
    have hkX : (k : ℝ) ≤ 1443 / 1000 * X := by nlinarith
    obtain ⟨δ, hδ⟩ : ∃ δ, δ = R - (X - k * Real.log 2) := ⟨_, rfl⟩
    have hX0 : 0 < X := by linarith
    have d1 : |δ| ≤ 148 / 10 ^ 18 * X + 1 / 10 ^ 16 := by
      have : δ = (R - (X - LN2 * k)) + k * (Real.log 2 - LN2) := by rw [hδ]; ring
      rw [this]
      refine (abs_add_le _ _).trans ?_
      have h2 : |(k : ℝ) * (Real.log 2 - LN2)| ≤ 35 / 10 ^ 18 * X := by
        rw [abs_of_nonneg (mul_nonneg hk0 e1)]
        calc (k : ℝ) * (Real.log 2 - LN2) ≤ (1443 / 1000 * X) * (24 / 10 ^ 18) := by gcongr
          _ ≤ _ := by nlinarith
      linarith
    have d2 : |δ| ≤ 2 / 10 ^ 13 := by linarith
    have hexp : Real.exp R * 2 ^ k = Real.exp X * Real.exp δ := by
      have : (2 : ℝ) ^ k = Real.exp (k * Real.log 2) := by
        rw [← Real.log_pow, Real.exp_log (by positivity)]
      rw [this, ← Real.exp_add, ← Real.exp_add]
      congr 1; rw [hδ]; ring
    have d3 : |Real.exp δ - 1| ≤ 1001 / 1000 * |δ| := by
      have h2 := Real.abs_exp_sub_one_sub_id_le (x := δ) (by linarith)
      have h3 : |Real.exp δ - 1| ≤ |Real.exp δ - 1 - δ| + |δ| := by
        have := abs_add_le (Real.exp δ - 1 - δ) δ
        rwa [sub_add_cancel] at this
      have h4 : δ ^ 2 ≤ 1 / 1000 * |δ| := by
        rw [← sq_abs, sq]; apply mul_le_mul_of_nonneg_right _ (abs_nonneg _); linarith
      linarith
    have hEX := Real.exp_pos X
    have hp : (0 : ℝ) < 2 ^ k := by positivity
    have A : |Y * 2 ^ k - Real.exp R * 2 ^ k| ≤ 27 / 10 ^ 16 * (Real.exp X * Real.exp δ) := by
      rw [← sub_mul, abs_mul, abs_of_pos hp, ← hexp, ← mul_assoc]
      exact mul_le_mul_of_nonneg_right y2 hp.le
    have B : |Real.exp R * 2 ^ k - Real.exp X| ≤ 1001 / 1000 * |δ| * Real.exp X := by
      rw [hexp, show Real.exp X * Real.exp δ - Real.exp X = (Real.exp δ - 1) * Real.exp X by ring, abs_mul, abs_of_pos hEX]
      exact mul_le_mul_of_nonneg_right d3 hEX.le
    have hδ1 : Real.exp δ ≤ 1001 / 1000 := by
      have := (abs_le.mp d3).2; linarith
    have A' : 27 / 10 ^ 16 * (Real.exp X * Real.exp δ) ≤ 28 / 10 ^ 16 * Real.exp X := by
      have : Real.exp X * Real.exp δ ≤ Real.exp X * (1001 / 1000) := mul_le_mul_of_nonneg_left hδ1 hEX.le
      linarith
    have B' : 1001 / 1000 * |δ| * Real.exp X ≤ (15 / 10 ^ 17 * X + 2 / 10 ^ 16) * Real.exp X := by
      apply mul_le_mul_of_nonneg_right _ hEX.le; linarith
    have C' := abs_sub_le (Y * 2 ^ k) (Real.exp R * 2 ^ k) (Real.exp X)
    have D : |Y * 2 ^ k - Real.exp X| ≤ (28 / 10 ^ 16 + (15 / 10 ^ 17 * X + 2 / 10 ^ 16)) * Real.exp X := by
      rw [add_mul]; linarith
    refine D.trans (mul_le_mul_of_nonneg_right ?_ hEX.le)
    linarith

end Verif

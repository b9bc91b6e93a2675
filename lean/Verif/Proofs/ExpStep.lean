/-
`xexp` in binary64 is non-decreasing on the non-negative doubles.
-/
import Verif.Proofs.ExpMono
import Verif.Proofs.ExpBoundary
import Verif.Props.Xexp

namespace Verif
open F64 ExpCF

/-! ### The reduced argument is exact and a multiple of 2^-53 -/

theorem grid_of_half {x : F64} (hx : isFin x) (h : 1 / 2 ≤ toQ x) : ∃ n : ℕ, toQ x = n * pow2 (-53) := by
  rcases x with _ | _ | ⟨s, k⟩
  · exact absurd hx id
  · exact absurd hx id
  have e : toQ (fin s k) = mag k.val := by rw [← abs_toQ_fin s k, abs_of_nonneg (by linarith)]
  rw [e] at h ⊢
  exact mag_half_multiple h

theorem lit_nat {k : ℕ} (h : k ≤ 2 ^ 53) : isFin (lit (k : ℚ) : F64) ∧ toQ (lit (k : ℚ) : F64) = k := by
  have := F64.lit_int (i := (k : ℤ)) (by rw [abs_of_nonneg (by positivity)]; exact_mod_cast h)
  simpa using this

theorem LOG2_small : 69 / 100 ≤ toQ (LOG2 : F64) ∧ toQ (LOG2 : F64) ≤ 70 / 100 := by
  rw [LOG2_fin.2]; constructor <;> norm_num

theorem toR_LOG2 : toR (LOG2 : F64) = LN2 := by unfold toR LN2; rw [LOG2_fin.2]; norm_num

theorem mul_LOG2 {k : ℕ} (hk : k ≤ 10 ^ 4) :
    isFin (LOG2 *. lit (k : ℚ) : F64) ∧ toQ (LOG2 *. lit (k : ℚ) : F64) = rq (toQ (LOG2 : F64) * k) := by
  obtain ⟨l1, -⟩ := LOG2_fin
  obtain ⟨a, b⟩ := LOG2_small
  obtain ⟨k1, k2⟩ := lit_nat (k := k) (by omega)
  have kq' : (k : ℚ) ≤ 10 ^ 4 := by exact_mod_cast hk
  have p := mul_fin' l1 k1 (by
    rw [k2, abs_of_nonneg (by positivity)]
    refine le_trans ?_ pow2_big
    have : toQ (LOG2 : F64) * k ≤ 70 / 100 * 10 ^ 4 := mul_le_mul b kq' (by positivity) (by norm_num)
    refine this.trans (by norm_num))
  rw [k2] at p
  exact p

theorem red_exact {x : F64} {k : ℕ} (hx : isFin x) (hx1 : 1 / 2 ≤ toQ x) (hx2 : toQ x ≤ 1000) (hk : 1 ≤ k) (hk' : k ≤ 10 ^ 4)
    (r2 : -1 / 100 ≤ toR (x -. LOG2 *. lit (k : ℚ))) (r3 : toR (x -. LOG2 *. lit (k : ℚ)) ≤ 7 / 10) :
    toQ (x -. LOG2 *. lit (k : ℚ)) = toQ x - toQ (LOG2 *. lit (k : ℚ) : F64) ∧
    ∃ n : ℤ, toQ (x -. LOG2 *. lit (k : ℚ)) = n * pow2 (-53) := by
  obtain ⟨la, lb⟩ := LOG2_small
  have kq : (1 : ℚ) ≤ k := by exact_mod_cast hk
  have kq' : (k : ℚ) ≤ 10 ^ 4 := by exact_mod_cast hk'
  have p := mul_LOG2 hk'
  have hP : 1 / 2 ≤ toQ (LOG2 *. lit (k : ℚ) : F64) := by
    rw [p.2]
    have : rq (1 / 2) ≤ rq (toQ (LOG2 : F64) * k) := rq_mono (by nlinarith)
    have e : rq (1 / 2) = 1 / 2 := by
      refine rq_rep ⟨1, -1, by norm_num, by norm_num, ?_⟩
      rw [pow2_eq]; norm_num
    rwa [e] at this
  have hP2 : toQ (LOG2 *. lit (k : ℚ) : F64) ≤ 10 ^ 4 := by
    rw [p.2]
    have : rq (toQ (LOG2 : F64) * k) ≤ rq ((10 ^ 4 : ℤ) : ℚ) := rq_mono (by push_cast; nlinarith)
    rw [rq_rep (rep_int (by norm_num))] at this
    exact_mod_cast this
  obtain ⟨a, ha⟩ := grid_of_half hx hx1
  obtain ⟨b, hb⟩ := grid_of_half p.1 hP
  set P := toQ (LOG2 *. lit (k : ℚ) : F64) with hPdef
  have hd : toQ x - P = ((a - b : ℤ) : ℚ) * pow2 (-53) := by rw [ha, hb]; push_cast; ring
  have s := sub_fin' hx p.1 (by
    refine le_trans ?_ pow2_big
    have : |toQ x - P| ≤ 10 ^ 4 := by rw [abs_le]; constructor <;> linarith
    exact this.trans (by norm_num))
  change isFin (x -. LOG2 *. lit (k : ℚ)) ∧ toQ (x -. LOG2 *. lit (k : ℚ)) = rq (toQ x - P) at s
  have b1 : toQ x - P ≤ 1 := by
    by_contra hn
    have : rq 1 ≤ rq (toQ x - P) := rq_mono (le_of_not_ge hn)
    rw [rq_one', ← s.2] at this
    have : (1 : ℝ) ≤ toR (x -. LOG2 *. lit (k : ℚ)) := by unfold toR; exact_mod_cast this
    linarith
  have b2 : -1 ≤ toQ x - P := by
    by_contra hn
    have : rq (toQ x - P) ≤ rq (-1) := rq_mono (le_of_not_ge hn)
    rw [rq_neg, rq_one', ← s.2] at this
    have : toR (x -. LOG2 *. lit (k : ℚ)) ≤ -1 := by unfold toR; exact_mod_cast this
    linarith
  have hab : |(a - b : ℤ)| ≤ 2 ^ 53 := by
    have : |((a - b : ℤ) : ℚ) * pow2 (-53)| ≤ 1 := by rw [← hd]; exact abs_le.mpr ⟨b2, b1⟩
    rw [abs_mul, abs_of_pos (pow2_pos _), pow2_m53] at this
    have : |((a - b : ℤ) : ℚ)| ≤ 2 ^ 53 := by norm_num; norm_num at this; linarith
    exact_mod_cast this
  have ex : rq (toQ x - P) = toQ x - P := by
    rw [hd]
    refine rq_rep ⟨(a - b : ℤ).natAbs, -53, ?_, by norm_num, ?_⟩
    · rw [Int.abs_eq_natAbs] at hab; omega
    · rw [abs_mul, abs_of_pos (pow2_pos _), Nat.cast_natAbs, Int.cast_abs]
  rw [s.2, ex]
  exact ⟨rfl, _, hd⟩

/-! ### Order of the fraction at two reduced arguments -/

theorem exp_cf_mono_grid {r r' : F64} (hr : isFin r) (hr' : isFin r') (h0 : -1 / 100 ≤ toR r) (h : toQ r ≤ toQ r') (h1 : toR r' ≤ 7 / 10)
    (g : ∃ n : ℤ, toQ r = n * pow2 (-53)) (g' : ∃ n : ℤ, toQ r' = n * pow2 (-53)) : toQ (exp_cf_6 r) ≤ toQ (exp_cf_6 r') := by
  have hR : toR r ≤ toR r' := by unfold toR; exact_mod_cast h
  rcases le_or_gt 0 (toR r) with p | p
  · exact exp_cf_mono_pos hr hr' p hR h1
  rcases le_or_gt 0 (toR r') with p' | p'
  · exact ((exp_cf_sign hr h0 (by linarith)).2 p.le).trans ((exp_cf_sign hr' (by linarith) h1).1 p')
  have q0 : toQ r < 0 := by unfold toR at p; exact_mod_cast p
  have q0' : toQ r' < 0 := by unfold toR at p'; exact_mod_cast p'
  rcases h.eq_or_lt with he | hl
  · have : r = r' := by
      rw [← ofRat_toQ false hr q0.ne, ← ofRat_toQ false hr' q0'.ne, he]
    rw [this]
  obtain ⟨n, hn⟩ := g
  obtain ⟨n', hn'⟩ := g'
  have hp := pow2_pos (-53)
  have a1 : n < n' := by
    rw [hn, hn'] at hl
    have := lt_of_mul_lt_mul_right hl hp.le
    exact_mod_cast this
  have a2 : n' < 0 := by
    rw [hn'] at q0'
    have := neg_of_mul_neg_left q0' hp.le
    exact_mod_cast this
  have b1 : (n : ℚ) + 1 ≤ n' := by exact_mod_cast a1
  have b2 : (n' : ℚ) ≤ -1 := by exact_mod_cast (by omega : n' ≤ -1)
  have c1 : pow2 (-53) ≤ toQ r' - toQ r := by rw [hn, hn']; nlinarith
  have c2 : toQ r' ≤ -pow2 (-53) := by rw [hn']; nlinarith
  rw [pow2_m53] at c1 c2
  refine exp_cf_mono_neg hr hr' h0 ?_ ?_
  · have : ((1 / 9007199254740992 : ℚ) : ℝ) ≤ ((toQ r' - toQ r : ℚ) : ℝ) := Rat.cast_le.mpr c1
    push_cast at this; exact this
  · have : ((toQ r' : ℚ) : ℝ) ≤ ((-(1 / 9007199254740992) : ℚ) : ℝ) := Rat.cast_le.mpr c2
    push_cast at this; unfold toR; linarith

/-- across one change of exponent -/
theorem exp_cf_double {r r' : F64} (hr : isFin r) (hr' : isFin r') (h0 : -1 / 100 ≤ toR r) (h1 : toR r ≤ 7 / 10) (h0' : -1 / 100 ≤ toR r')
    (h1' : toR r' ≤ 1 / 100) (h : toR r - toR r' ≤ LN2 - 35 / 10 ^ 16) : toQ (exp_cf_6 r) ≤ 2 * toQ (exp_cf_6 r') := by
  obtain ⟨-, a⟩ := (exp_cf_app hr h0 h1).2
  obtain ⟨-, b⟩ := (exp_cf_app hr' h0' (by linarith)).2
  have ha : |toR r| ≤ 7 / 10 := abs_le.mpr ⟨by linarith, h1⟩
  have hb : |toR r'| ≤ 1 / 100 := abs_le.mpr ⟨by linarith, h1'⟩
  have ra := rel_err (z := toR r) (by linarith)
  have rb := rel_err (z := toR r') (by linarith)
  set R := toR r with hR
  set R' := toR r' with hR'
  have hl := LN2_err.1
  have e0 := Real.exp_pos R'
  have e1 : Real.exp R ≤ 2 * Real.exp R' * Real.exp (-(35 / 10 ^ 16)) := by
    calc Real.exp R ≤ Real.exp (Real.log 2 + R' + -(35 / 10 ^ 16)) := Real.exp_le_exp.mpr (by linarith)
      _ = _ := by rw [Real.exp_add, Real.exp_add, Real.exp_log (by norm_num)]
  have e2 : Real.exp (-(35 / 10 ^ 16 : ℝ)) ≤ 1 - 349 / 10 ^ 17 := by
    have := Real.abs_exp_sub_one_sub_id_le (x := -(35 / 10 ^ 16 : ℝ)) (by rw [abs_neg]; norm_num)
    have := (abs_le.mp this).2
    norm_num at this ⊢
    linarith
  have e3 : 99 / 100 ≤ Real.exp R' := by have := Real.add_one_le_exp R'; linarith
  have e4 : Real.exp R' ≤ 102 / 100 := by
    have := Real.abs_exp_sub_one_sub_id_le (x := R') (by linarith)
    have h2 := (abs_le.mp this).2
    have : R' ^ 2 ≤ 1 / 100 := by nlinarith
    nlinarith
  have p1 : |R| ^ 13 / (13 * 420000000000) ≤ 18 / 10 ^ 16 :=
    (div_le_div_of_nonneg_right (pow_le_pow_left₀ (abs_nonneg _) ha 13) (by norm_num)).trans (by norm_num)
  have p2 : |R'| ^ 13 / (13 * 420000000000) ≤ 1 / 10 ^ 30 :=
    (div_le_div_of_nonneg_right (pow_le_pow_left₀ (abs_nonneg _) hb 13) (by norm_num)).trans (by norm_num)
  have q1 : |expCF R - Real.exp R| ≤ 18 / 10 ^ 16 * Real.exp R := ra.trans (mul_le_mul_of_nonneg_right p1 (Real.exp_pos _).le)
  have q2 : |expCF R' - Real.exp R'| ≤ 1 / 10 ^ 30 * Real.exp R' := rb.trans (mul_le_mul_of_nonneg_right p2 e0.le)
  have e5 : Real.exp R ≤ 2 * Real.exp R' * (1 - 349 / 10 ^ 17) := e1.trans (mul_le_mul_of_nonneg_left e2 (by positivity))
  have f1 := (abs_le.mp a).2
  have f2 := (abs_le.mp b).1
  have f3 := (abs_le.mp q1).2
  have f4 := (abs_le.mp q2).1
  have main : toR (exp_cf_6 r) ≤ 2 * toR (exp_cf_6 r') := by
    norm_num at *
    linarith
  have : ((toQ (exp_cf_6 r) : ℚ) : ℝ) ≤ ((2 * toQ (exp_cf_6 r') : ℚ) : ℝ) := by push_cast; exact main
  exact_mod_cast this

/-! ### The values of `xexp` -/

/-- `xexp` is defined at both arguments and the values are in order (neither is NaN) -/
def LeX (x y : F64) : Prop := ∃ u v, xexpNonneg muslFU x = .ok u ∧ xexpNonneg muslFU y = .ok v ∧ F64.le u v = true

theorem LeX.trans {x y z : F64} (h : LeX x y) (g : LeX y z) : LeX x z := by
  obtain ⟨u, v, h1, h2, h3⟩ := h
  obtain ⟨v', w, g1, g2, g3⟩ := g
  rw [h2] at g1
  injection g1 with g1
  subst g1
  rw [F64.le_iff] at h3 g3
  exact ⟨u, w, h1, g2, (F64.le_iff _ _).mpr ⟨h3.1, g3.2.1, h3.2.2.trans g3.2.2⟩⟩

theorem LeX.of_okLe {x y : F64} (h : okLe (xexpNonneg muslFU x) (xexpNonneg muslFU y) = true) : LeX x y := by
  revert h
  rcases hu : xexpNonneg muslFU x with _ | u <;> rcases hv : xexpNonneg muslFU y with _ | v <;> intro h
  · exact absurd h (by simp [okLe])
  · exact absurd h (by simp [okLe])
  · exact absurd h (by simp [okLe])
  · exact ⟨u, v, hu, hv, h⟩

theorem scaleB_le {y y' : F64} {k k' : ℤ} (hy : isFin y) (hy' : isFin y') (h : toQ y * 2 ^ k ≤ toQ y' * 2 ^ k') :
    F64.le (Spec.scaleB y k) (Spec.scaleB y' k') = true := by
  rcases y with _ | _ | ⟨s, c⟩
  · exact absurd hy id
  · exact absurd hy id
  rcases y' with _ | _ | ⟨s', c'⟩
  · exact absurd hy' id
  · exact absurd hy' id
  exact (F64.le_iff _ _).mpr ⟨ofRat_notNaN _ _, ofRat_notNaN _ _, ofRat_mono h⟩

theorem xexp_small {x : F64} (hx : isFin x) (h : toQ x ≤ toQ (LOG2 : F64)) : xexpNonneg muslFU x = .ok (exp_cf_6 x) := by
  unfold xexpNonneg
  rw [if_neg]
  intro hgt
  have := (F64.lt_iff _ _).mp hgt
  rw [val_fin LOG2_fin.1, val_fin hx, ratCast_lt_EReal] at this
  linarith [this.2.2]

theorem expIdx_small {x : F64} (h : toQ x ≤ toQ (LOG2 : F64)) : expIdx x = 0 := if_neg (not_lt.mpr h)

theorem div_LOG2 {x : F64} (hx : isFin x) (h0 : 0 ≤ toQ x) (h1 : toQ x ≤ 1000) :
    isFin (x /. LOG2) ∧ toQ (x /. LOG2) = rq (toQ x / toQ (LOG2 : F64)) := by
  obtain ⟨la, lb⟩ := LOG2_small
  refine div_fin' hx LOG2_fin.1 (by linarith) ?_
  refine le_trans ?_ pow2_big
  rw [abs_of_nonneg (by positivity), div_le_iff₀ (by linarith)]
  have : (10 ^ 60 * (69 / 100) : ℚ) ≤ 10 ^ 60 * toQ (LOG2 : F64) := mul_le_mul_of_nonneg_left la (by norm_num)
  refine h1.trans (le_trans (by norm_num) this)

theorem expIdx_pos {x : F64} (hx : isFin x) (h : toQ (LOG2 : F64) < toQ x) (h1 : toQ x ≤ 1000) :
    expIdx x = ⌊toQ (x /. LOG2)⌋.toNat ∧ 1 ≤ expIdx x ∧ expIdx x ≤ 1500 := by
  obtain ⟨la, lb⟩ := LOG2_small
  have e : expIdx x = ⌊toQ (x /. LOG2)⌋.toNat := if_pos h
  obtain ⟨-, q⟩ := div_LOG2 hx (by linarith) h1
  have a : 1 ≤ toQ (x /. LOG2) := by
    rw [q, ← rq_one']; apply rq_mono; rw [one_le_div (by linarith)]; exact h.le
  have b : toQ (x /. LOG2) ≤ 1500 := by
    have : rq (toQ x / toQ (LOG2 : F64)) ≤ rq ((1500 : ℤ) : ℚ) := by
      apply rq_mono; rw [div_le_iff₀ (by linarith)]; push_cast; linarith
    rw [rq_rep (rep_int (by norm_num))] at this
    rw [q]; exact_mod_cast this
  have a' : 1 ≤ ⌊toQ (x /. LOG2)⌋ := Int.le_floor.mpr (by exact_mod_cast a)
  have b' : ⌊toQ (x /. LOG2)⌋ ≤ 1500 := by
    have := Int.floor_le (toQ (x /. LOG2))
    have : (⌊toQ (x /. LOG2)⌋ : ℚ) ≤ 1500 := this.trans b
    exact_mod_cast this
  refine ⟨e, ?_, ?_⟩ <;> omega

theorem expIdx_mono {x y : F64} (hx : isFin x) (hy : isFin y) (h : toQ x ≤ toQ y) (h1 : toQ y ≤ 1000) : expIdx x ≤ expIdx y := by
  obtain ⟨la, lb⟩ := LOG2_small
  rcases le_or_gt (toQ x) (toQ (LOG2 : F64)) with hs | hs
  · rw [expIdx_small hs]; exact Nat.zero_le _
  · rw [(expIdx_pos hx hs (h.trans h1)).1, (expIdx_pos hy (hs.trans_le h) h1).1]
    rw [(div_LOG2 hx (by linarith) (h.trans h1)).2, (div_LOG2 hy (by linarith) h1).2]
    apply Int.toNat_le_toNat
    apply Int.floor_le_floor
    apply rq_mono
    exact div_le_div_of_nonneg_right h (by linarith)

/-- the reduction, with its exponent named -/
theorem xexp_red {x : F64} (hx : isFin x) (h : toQ (LOG2 : F64) < toQ x) (h1 : toQ x ≤ 1000) :
    xexpNonneg muslFU x = .ok (Spec.scaleB (exp_cf_6 (x -. LOG2 *. lit (expIdx x : ℚ))) (expIdx x)) ∧
    isFin (x -. LOG2 *. lit (expIdx x : ℚ)) ∧ -1 / 100 ≤ toR (x -. LOG2 *. lit (expIdx x : ℚ)) ∧
    toR (x -. LOG2 *. lit (expIdx x : ℚ)) ≤ 7 / 10 ∧
    toQ (x -. LOG2 *. lit (expIdx x : ℚ)) = toQ x - toQ (LOG2 *. lit (expIdx x : ℚ) : F64) ∧
    ∃ n : ℤ, toQ (x -. LOG2 *. lit (expIdx x : ℚ)) = n * pow2 (-53) := by
  obtain ⟨la, lb⟩ := LOG2_small
  obtain ⟨i1, i2, i3⟩ := expIdx_pos hx h h1
  obtain ⟨k, hk, -, -, k3, r1, r2, r3, -⟩ := reduction hx (by
    rw [← toR_LOG2]; unfold toR; exact_mod_cast h) (by
    have : (69 / 100 * 2 ^ 32 : ℚ) ≤ toQ (LOG2 : F64) * 2 ^ 32 := mul_le_mul_of_nonneg_right la (by norm_num)
    refine lt_of_lt_of_le ?_ this
    refine lt_of_le_of_lt h1 (by norm_num))
  rw [← hk] at i1
  rw [← i1] at k3 r1 r2 r3
  have hu : uintToInt (expIdx x) = expIdx x := by unfold uintToInt; rw [if_pos (by omega)]
  rw [hu] at k3
  have ex := red_exact hx (by linarith) h1 i2 (by omega) r2 r3
  exact ⟨k3, r1, r2, r3, ex.1, ex.2⟩

/-- two arguments with the same exponent -/
theorem xexp_same {x y : F64} (hx : isFin x) (hy : isFin y) (h0 : 0 ≤ toQ x) (h : toQ x ≤ toQ y) (h1 : toQ y ≤ 1000)
    (hi : expIdx x = expIdx y) : LeX x y := by
  obtain ⟨la, lb⟩ := LOG2_small
  have lbR : toR (LOG2 : F64) ≤ 7 / 10 := by
    have : ((toQ (LOG2 : F64) : ℚ) : ℝ) ≤ ((70 / 100 : ℚ) : ℝ) := Rat.cast_le.mpr lb
    unfold toR; push_cast at this; linarith
  rcases le_or_gt (toQ x) (toQ (LOG2 : F64)) with hs | hs
  · have hys : toQ y ≤ toQ (LOG2 : F64) := by
      by_contra hn
      have := (expIdx_pos hy (lt_of_not_ge hn) h1).2.1
      rw [← hi, expIdx_small hs] at this
      omega
    have hR : toR y ≤ toR (LOG2 : F64) := by unfold toR; exact_mod_cast hys
    have hxy : toR x ≤ toR y := by unfold toR; exact_mod_cast h
    have h0R : 0 ≤ toR x := by unfold toR; exact_mod_cast h0
    have m := exp_cf_mono_pos hx hy h0R hxy (by linarith)
    have fx := (expQ_fin hx (by linarith) (by linarith)).2.1
    have fy := (expQ_fin hy (by linarith) (by linarith)).2.1
    refine ⟨_, _, xexp_small hx hs, xexp_small hy hys, (F64.le_iff _ _).mpr ⟨fx.notNaN, fy.notNaN, ?_⟩⟩
    rw [val_fin fx, val_fin fy, ratCast_le_EReal]; exact m
  · obtain ⟨x1, x2, x3, x4, x5, x6⟩ := xexp_red hx hs (h.trans h1)
    obtain ⟨y1, y2, y3, y4, y5, y6⟩ := xexp_red hy (hs.trans_le h) h1
    have m := exp_cf_mono_grid x2 y2 x3 (by rw [x5, y5, hi]; linarith) y4 x6 y6
    refine ⟨_, _, x1, y1, scaleB_le (expQ_fin x2 x3 x4).2.1 (expQ_fin y2 y3 y4).2.1 ?_⟩
    rw [hi] at m ⊢
    exact mul_le_mul_of_nonneg_right m (by positivity)

theorem codeF_spec {c : ℕ} (h : c ≤ 0x408F400000000000) : isFin (codeF c) ∧ toQ (codeF c) = mag c ∧ toQ (codeF c) ≤ 1000 := by
  have hc : c < finCodes := lt_of_le_of_lt h (by decide +kernel)
  have : codeF c = fin false ⟨c, hc⟩ := dif_pos hc
  have e : toQ (codeF c) = mag c := by rw [this, toQ_fin]; simp
  refine ⟨by rw [this]; trivial, e, ?_⟩
  rw [e]
  have m : mag 0x408F400000000000 = 1000 := by decide +kernel
  rw [← m]
  exact mag_le_iff.mpr h

theorem idx_large {x : F64} (h : 1 ≤ expIdx x) : toQ (LOG2 : F64) < toQ x := by
  by_contra hn
  rw [expIdx_small (le_of_not_gt hn)] at h
  omega

/-- the step between two exponents -/
theorem xexp_step {K : ℕ} (h : K < 1024) : IsBnd K (bndCode K) ∧ LeX (codeF (bndCode K - 1)) (codeF (bndCode K)) := by
  rcases Nat.lt_or_ge K 46 with hk | hk
  · have := expHard_spec hk
    exact ⟨this.1, LeX.of_okLe this.2⟩
  obtain ⟨B, e1, e2⟩ := expEasy_spec hk h
  refine ⟨B, ?_⟩
  obtain ⟨c1, c2, c3, c4⟩ := B
  obtain ⟨f, q, l⟩ := codeF_spec c2
  obtain ⟨f', q', l'⟩ := codeF_spec (c := bndCode K - 1) (by omega)
  obtain ⟨x1, x2, x3, x4, x5, x6⟩ := xexp_red f' (idx_large (by omega)) l'
  obtain ⟨y1, y2, y3, y4, y5, y6⟩ := xexp_red f (idx_large (by omega)) l
  rw [c3] at x1 x2 x3 x4 x5
  rw [c4] at y1 y2 y3 y4 y5
  rw [← q, ← y5] at e1 e2
  rw [← q', ← x5] at e2
  have m := exp_cf_double x2 y2 x3 x4 y3 (by
    have : ((toQ (codeF (bndCode K) -. LOG2 *. lit ((K + 1 : ℕ) : ℚ)) : ℚ) : ℝ) ≤ ((1 / 100 : ℚ) : ℝ) := Rat.cast_le.mpr e1
    push_cast at this ⊢
    exact this) (by
    have : ((_ : ℚ) : ℝ) ≤ ((_ : ℚ) : ℝ) := Rat.cast_le.mpr e2
    rw [← toR_LOG2]
    push_cast at this ⊢
    exact this)
  refine ⟨_, _, x1, y1, scaleB_le (expQ_fin x2 x3 x4).2.1 (expQ_fin y2 y3 y4).2.1 ?_⟩
  rw [show ((K + 1 : ℕ) : ℤ) = (K : ℤ) + 1 by push_cast; ring, zpow_add_one₀ (by norm_num)]
  have hp : (0 : ℚ) < 2 ^ (K : ℤ) := by positivity
  have := mul_le_mul_of_nonneg_right m hp.le
  refine this.trans (le_of_eq ?_)
  push_cast
  ring

/-- arguments up to 710 -/
theorem xexp_chain (d : ℕ) : ∀ {x y : F64}, isFin x → isFin y → 0 ≤ toQ x → toQ x ≤ toQ y → toQ y ≤ 1000 → expIdx y ≤ 1024 →
    expIdx y = expIdx x + d → LeX x y := by
  induction d with
  | zero => intro x y hx hy h0 h h1 _ hi; exact xexp_same hx hy h0 h h1 (by omega)
  | succ d ih =>
    intro x y hx hy h0 h h1 h2 hi
    obtain ⟨⟨c1, c2, c3, c4⟩, st⟩ := xexp_step (K := expIdx x) (by omega)
    set c := bndCode (expIdx x) with hc
    obtain ⟨f, q, l⟩ := codeF_spec c2
    obtain ⟨f', q', l'⟩ := codeF_spec (c := c - 1) (by omega)
    have below : ∀ {w : F64}, isFin w → 0 ≤ toQ w → toQ w < toQ (codeF c) → toQ w ≤ toQ (codeF (c - 1)) := by
      intro w hw w0 hlt
      rcases w with _ | _ | ⟨s, k⟩
      · exact absurd hw id
      · exact absurd hw id
      have e : toQ (fin s k) = mag k.val := by rw [← abs_toQ_fin s k, abs_of_nonneg w0]
      rw [e, q] at hlt
      rw [e, q']
      have := mag_lt_iff.mp hlt
      exact mag_le_iff.mpr (by omega)
    have hxb : toQ x < toQ (codeF c) := by
      by_contra hn
      have := expIdx_mono f hx (le_of_not_gt hn) (h.trans h1)
      omega
    have hyb : toQ (codeF c) ≤ toQ y := by
      by_contra hn
      have := below hy (h0.trans h) (lt_of_not_ge hn)
      have := expIdx_mono hy f' this l'
      omega
    have a := xexp_same hx f' h0 (below hx h0 hxb) l' c3.symm
    have b := ih f hy (by rw [q]; exact mag_nonneg _) hyb h1 h2 (by omega)
    exact (a.trans st).trans b

/-- up to 710 -/
theorem xexp_mono_710 {x y : F64} (hx : isFin x) (hy : isFin y) (h0 : 0 ≤ toQ x) (h : toQ x ≤ toQ y) (h1 : toQ y < 710) : LeX x y := by
  have hi := expIdx_mono hx hy h (by linarith)
  have h2 : expIdx y ≤ 1024 := by
    rcases le_or_gt (toQ y) (toQ (LOG2 : F64)) with hs | hs
    · rw [expIdx_small hs]; omega
    · rw [(expIdx_pos hy hs (by linarith)).1]
      have q := (div_LOG2 hy (h0.trans h) (by linarith)).2
      have : toQ (y /. LOG2) ≤ 20490 / 20 := by
        have e : rq (20490 / 20) = 20490 / 20 := by
          refine rq_rep ⟨2049, -1, by norm_num, by norm_num, ?_⟩
          rw [pow2_eq, abs_of_pos (by norm_num)]; norm_num
        rw [q, ← e]; apply rq_mono
        rw [LOG2_fin.2, div_le_iff₀ (by norm_num)]
        refine h1.le.trans (by norm_num)
      have : ⌊toQ (y /. LOG2)⌋ < 1025 := by
        rw [Int.floor_lt]; refine this.trans_lt (by norm_num)
      omega
  exact xexp_chain (expIdx y - expIdx x) hx hy h0 h (by linarith) h2 (by omega)

/-! ### The whole domain -/

theorem val_one_le {u : F64} (h : F64.le (lit 1) u = true) : (isFin u ∧ 1 ≤ toQ u) ∨ u = inf false := by
  obtain ⟨-, h2, h3⟩ := (F64.le_iff _ _).mp h
  rw [val_fin lit1.1, lit1.2] at h3
  rcases u with _ | (_ | _) | ⟨s, k⟩
  · exact absurd rfl h2
  · exact .inr rfl
  · exact absurd h (by decide +kernel)
  · left
    have hf : isFin (fin s k) := trivial
    rw [val_fin hf, ratCast_le_EReal] at h3
    exact ⟨hf, h3⟩

theorem LeX.one {x : F64} (hx : isFin x) (h0 : 0 ≤ toQ x) (h1 : toQ x < 710) :
    ∃ u, xexpNonneg muslFU x = .ok u ∧ F64.le (lit 1) u = true := by
  have z : isFin (lit 0 : F64) ∧ toQ (lit 0 : F64) = 0 ∧ xexpNonneg muslFU (lit 0 : F64) = .ok (lit 1) := by decide +kernel
  obtain ⟨u, v, a, b, c⟩ := xexp_mono_710 z.1 hx (by rw [z.2.1]) (by rw [z.2.1]; exact h0) h1
  rw [z.2.2] at a
  injection a with a
  subst a
  exact ⟨v, b, c⟩

theorem le_inf {u : F64} (h : F64.le (lit 1) u = true) : F64.le u (inf false) = true := by
  have := (F64.le_iff _ _).mp h
  refine (F64.le_iff _ _).mpr ⟨this.2.1, by simp [notNaN], ?_⟩
  simp [val]

theorem xexp_of_nonneg {x : F64} (hx : isFin x) (h0 : 0 ≤ toQ x) : xexp muslFU x = xexpNonneg muslFU x := by
  unfold xexp
  rw [if_neg (by rw [(is_nan_false x).mpr hx.notNaN]; simp), if_neg]
  intro h
  have z : isFin (lit 0 : F64) ∧ toQ (lit 0 : F64) = 0 := by decide +kernel
  have := ((F64.lt_iff _ _).mp h).2.2
  rw [val_fin hx, val_fin z.1, ratCast_lt_EReal, z.2] at this
  linarith

theorem xexp_of_neg {x : F64} (hx : isFin x) (h0 : toQ x < 0) :
    xexp muslFU x = (xexpNonneg muslFU (-. x) >>= fun r => .ok (lit 1 /. r)) := by
  unfold xexp
  rw [if_neg (by rw [(is_nan_false x).mpr hx.notNaN]; simp), if_pos]
  have z : isFin (lit 0 : F64) ∧ toQ (lit 0 : F64) = 0 := by decide +kernel
  refine (F64.lt_iff _ _).mpr ⟨hx.notNaN, z.1.notNaN, ?_⟩
  rw [val_fin hx, val_fin z.1, ratCast_lt_EReal, z.2]
  exact h0

/-- the non-negative half of the domain -/
theorem xexp_mono_nonneg {x y : F64} (hx : isFin x) (hy : isFin y) (h0 : 0 ≤ toQ x) (h : toQ x ≤ toQ y)
    (h1 : toQ y < toQ (LOG2 : F64) * 2 ^ 31) :
    ∃ u v, xexpNonneg muslFU x = .ok u ∧ xexpNonneg muslFU y = .ok v ∧ F64.le (lit 1) u = true ∧ F64.le u v = true := by
  have big : ∀ {w : F64}, isFin w → 710 ≤ toQ w → toQ w < toQ (LOG2 : F64) * 2 ^ 31 → xexpNonneg muslFU w = .ok (inf false) := by
    intro w hw a b
    rw [← xexp_of_nonneg hw (by linarith)]
    exact (C55_partial w).2.2.1 hw (by unfold toR; exact_mod_cast a) b
  have l1 : F64.le (lit 1) (inf false) = true := by decide +kernel
  rcases lt_or_ge (toQ y) 710 with hy7 | hy7
  · obtain ⟨u, v, a, b, c⟩ := xexp_mono_710 hx hy h0 h hy7
    obtain ⟨u', a', d⟩ := LeX.one hx h0 (h.trans_lt hy7)
    rw [a] at a'
    injection a' with a'
    subst a'
    exact ⟨u, v, a, b, d, c⟩
  · have ey := big hy hy7 h1
    rcases lt_or_ge (toQ x) 710 with hx7 | hx7
    · obtain ⟨u, a, d⟩ := LeX.one hx h0 hx7
      exact ⟨u, _, a, ey, d, le_inf d⟩
    · exact ⟨_, _, big hx hx7 (h.trans_lt h1), ey, l1, le_inf l1⟩

/-- reciprocals -/
theorem recip_le {u v : F64} (hu : F64.le (lit 1) u = true) (h : F64.le u v = true) :
    F64.le (lit 1 /. v) (lit 1 /. u) = true ∧ F64.le (lit 1 /. u) (lit 1) = true ∧ F64.le (lit 0) (lit 1 /. v) = true := by
  have hv : F64.le (lit 1) v = true := by
    have a := (F64.le_iff _ _).mp hu
    have b := (F64.le_iff _ _).mp h
    exact (F64.le_iff _ _).mpr ⟨a.1, b.2.1, a.2.2.trans b.2.2⟩
  have zi : lit 1 /. (inf false : F64) = lit 0 := by decide +kernel
  have z1 : F64.le (lit 0) (lit 1 : F64) = true := by decide +kernel
  have z0 : F64.le (lit 0) (lit 0 : F64) = true := by decide +kernel
  have z : isFin (lit 0 : F64) ∧ toQ (lit 0 : F64) = 0 := by decide +kernel
  have fin1 : ∀ {w : F64}, isFin w → 1 ≤ toQ w → isFin (lit 1 /. w) ∧ toQ (lit 1 /. w) = rq (1 / toQ w) := by
    intro w hw h1
    have := div_fin' lit1.1 hw (by linarith) (by
      rw [lit1.2, abs_of_nonneg (by positivity)]
      refine le_trans ?_ pow2_big
      rw [div_le_iff₀ (by linarith)]
      have : (10 ^ 60 : ℚ) * 1 ≤ 10 ^ 60 * toQ w := mul_le_mul_of_nonneg_left h1 (by norm_num)
      refine le_trans (by norm_num) this)
    rw [lit1.2] at this
    exact this
  have le1 : ∀ {w : F64}, isFin w → 1 ≤ toQ w → F64.le (lit 1 /. w) (lit 1) = true ∧ F64.le (lit 0) (lit 1 /. w) = true := by
    intro w hw h1
    obtain ⟨f, q⟩ := fin1 hw h1
    constructor
    · refine (F64.le_iff _ _).mpr ⟨f.notNaN, lit1.1.notNaN, ?_⟩
      rw [val_fin f, val_fin lit1.1, ratCast_le_EReal, lit1.2, q, ← rq_one']
      apply rq_mono
      rw [rq_one', div_le_one (by linarith)]; exact h1
    · refine (F64.le_iff _ _).mpr ⟨z.1.notNaN, f.notNaN, ?_⟩
      rw [val_fin f, val_fin z.1, ratCast_le_EReal, z.2, q]
      apply rq_nonneg
      positivity
  rcases val_one_le hu with ⟨fu, qu⟩ | rfl
  · rcases val_one_le hv with ⟨fv, qv⟩ | rfl
    · obtain ⟨a1, a2⟩ := fin1 fu qu
      obtain ⟨b1, b2⟩ := fin1 fv qv
      refine ⟨?_, (le1 fu qu).1, (le1 fv qv).2⟩
      refine (F64.le_iff _ _).mpr ⟨b1.notNaN, a1.notNaN, ?_⟩
      rw [val_fin a1, val_fin b1, ratCast_le_EReal, a2, b2]
      apply rq_mono
      have := ((F64.le_iff _ _).mp h).2.2
      rw [val_fin fu, val_fin fv, ratCast_le_EReal] at this
      apply div_le_div_of_nonneg_left (by norm_num) (by linarith) this
    · rw [zi]
      exact ⟨(le1 fu qu).2, (le1 fu qu).1, z0⟩
  · have : v = inf false := by
      rcases val_one_le hv with ⟨fv, qv⟩ | rfl
      · exfalso
        have := ((F64.le_iff _ _).mp h).2.2
        rw [val_fin fv] at this
        simp [val] at this
      · rfl
    subst this
    rw [zi]
    exact ⟨z0, z1, z0⟩

/-- `xexp` is non-decreasing on the doubles of magnitude below `2^31 * LOG2`; it is above 1 on the non-negative ones, and between 0
and 1 on the others. -/
theorem xexp_mono {x y : F64} (hx : isFin x) (hy : isFin y) (h : toQ x ≤ toQ y)
    (h0 : -(toQ (LOG2 : F64) * 2 ^ 31) < toQ x) (h1 : toQ y < toQ (LOG2 : F64) * 2 ^ 31) :
    ∃ u v, xexp muslFU x = .ok u ∧ xexp muslFU y = .ok v ∧ F64.le u v = true ∧
      (0 ≤ toQ x → F64.le (lit 1) u = true) ∧ (toQ y ≤ 0 → F64.le v (lit 1) = true) ∧ F64.le (lit 0) u = true := by
  have z1 : F64.le (lit 0) (lit 1 : F64) = true := by decide +kernel
  have trans : ∀ {a b c : F64}, F64.le a b = true → F64.le b c = true → F64.le a c = true := by
    intro a b c p q
    rw [F64.le_iff] at p q ⊢
    exact ⟨p.1, q.2.1, p.2.2.trans q.2.2⟩
  rcases lt_or_ge (toQ x) 0 with sx | sx
  · have fx : isFin (-. x) := isFin_neg.mpr hx
    have qx : toQ (-. x) = -toQ x := toQ_neg x
    rcases lt_or_ge (toQ y) 0 with sy | sy
    · have fy : isFin (-. y) := isFin_neg.mpr hy
      have qy : toQ (-. y) = -toQ y := toQ_neg y
      obtain ⟨u, v, a, b, c, d⟩ := xexp_mono_nonneg fy fx (by rw [qy]; linarith) (by rw [qx, qy]; linarith) (by rw [qx]; linarith)
      obtain ⟨e1, e2, e3⟩ := recip_le c d
      refine ⟨lit 1 /. v, lit 1 /. u, ?_, ?_, e1, fun h => absurd sx (not_lt.mpr h), fun _ => e2, e3⟩
      · rw [xexp_of_neg hx sx, b]; rfl
      · rw [xexp_of_neg hy sy, a]; rfl
    · obtain ⟨u, -, a, -, c, -⟩ := xexp_mono_nonneg fx fx (by rw [qx]; linarith) le_rfl (by rw [qx]; linarith)
      obtain ⟨v, -, a', -, c', -⟩ := xexp_mono_nonneg hy hy sy le_rfl h1
      have cu : F64.le u u = true := by
        have := (F64.le_iff _ _).mp c
        exact (F64.le_iff _ _).mpr ⟨this.2.1, this.2.1, le_rfl⟩
      obtain ⟨-, e2, e3⟩ := recip_le c cu
      refine ⟨lit 1 /. u, v, ?_, ?_, trans e2 c', fun h => absurd sx (not_lt.mpr h), ?_, e3⟩
      · rw [xexp_of_neg hx sx, a]; rfl
      · rw [xexp_of_nonneg hy sy, a']
      · intro hn
        have hq : toQ y = 0 := le_antisymm hn sy
        have lb := LOG2_small
        have e := xexp_small hy (by rw [hq]; linarith)
        rw [e] at a'
        injection a' with a'
        subst a'
        have hR : toR y = 0 := by unfold toR; rw [hq]; simp
        have s := (exp_cf_sign hy (by rw [hR]; norm_num) (by rw [hR]; norm_num)).2 (by rw [hR])
        have f := (expQ_fin hy (by rw [hR]; norm_num) (by rw [hR]; norm_num)).2.1
        refine (F64.le_iff _ _).mpr ⟨f.notNaN, lit1.1.notNaN, ?_⟩
        rw [val_fin f, val_fin lit1.1, ratCast_le_EReal, lit1.2]
        exact s
  · obtain ⟨u, v, a, b, c, d⟩ := xexp_mono_nonneg hx hy sx h h1
    refine ⟨u, v, ?_, ?_, d, fun _ => c, ?_, trans z1 c⟩
    · rw [xexp_of_nonneg hx sx, a]
    · rw [xexp_of_nonneg hy (sx.trans h), b]
    · intro hn
      have hq : toQ y = 0 := le_antisymm hn (sx.trans h)
      have lb := LOG2_small
      have e := xexp_small hy (by rw [hq]; linarith)
      rw [e] at b
      injection b with b
      subst b
      have hR : toR y = 0 := by unfold toR; rw [hq]; simp
      have s := (exp_cf_sign hy (by rw [hR]; norm_num) (by rw [hR]; norm_num)).2 (by rw [hR])
      have f := (expQ_fin hy (by rw [hR]; norm_num) (by rw [hR]; norm_num)).2.1
      refine (F64.le_iff _ _).mpr ⟨f.notNaN, lit1.1.notNaN, ?_⟩
      rw [val_fin f, val_fin lit1.1, ratCast_le_EReal, lit1.2]
      exact s

end Verif

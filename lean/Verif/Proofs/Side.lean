/-
`spot_quantile` and `spot_probability` in binary64: signs and monotonicity.
-/
import Verif.F64.Calc
import Verif.Props.Mono
import Verif.Props.Defined

namespace Verif
open F64

/-! ### Signs -/

theorem mul_nonneg_val {a c : F64} (hc : 0 ≤ val c) (ha : 0 ≤ val a) : mul c a = nan ∨ 0 ≤ val (mul c a) := by
  rcases c with _ | t | ⟨t, j⟩
  · left; cases a <;> rfl
  · cases t
    swap
    · rw [val_inf_true] at hc; simp at hc
    rcases a with _ | s | ⟨s, k⟩
    · exact .inl rfl
    · cases s
      · right; simp [mul, val]
      · rw [val_inf_true] at ha; simp at ha
    · by_cases hk : k.val = 0
      · left; simp [mul, hk]
      · right
        rw [val_fin_nonneg (by trivial)] at ha
        have : toQ (fin s k) ≠ 0 := fun e => hk (toQ_eq_zero.mp e)
        obtain rfl := sign_of_pos (lt_of_le_of_ne ha this.symm)
        simp [mul, hk, val]
  · have h0 : val (mul (fin t j) (zero false)) = 0 := by
      have : toQ (zero false) = 0 := by decide +kernel
      obtain ⟨z, e⟩ := mul_fin (x := fin t j) (y := zero false) trivial trivial
      rw [e, this, mul_zero, ofRat_zero, val_zero]
    have hz : LeN (zero false) a := .inr (.inr (by rw [val_zero]; exact ha))
    rcases hz.mul_left hc with e | e | e
    · exfalso
      obtain ⟨z, e'⟩ := mul_fin (x := fin t j) (y := zero false) trivial trivial
      rw [e'] at e
      exact ofRat_notNaN _ _ e
    · exact .inl e
    · right; rwa [h0] at e

theorem mul_nonneg_neg {a c : F64} (hc : val c ≤ 0) (ha : val a ≤ 0) : mul c a = nan ∨ 0 ≤ val (mul c a) := by
  have e1 := neg_mul' c a
  have e2 := neg_mul' a (neg c)
  have hc' : 0 ≤ val (neg c) := by rw [val_neg]; simpa using hc
  have ha' : 0 ≤ val (neg a) := by rw [val_neg]; simpa using ha
  have := mul_nonneg_val ha' hc'
  rw [e2.2, mul_comm' a, e1.2] at this
  rw [e2.1, val_neg, mul_comm' a, e1.1, val_neg, _root_.neg_neg] at this
  exact this

theorem mul_nonpos_val {a c : F64} (hc : 0 ≤ val c) (ha : val a ≤ 0) : mul c a = nan ∨ val (mul c a) ≤ 0 := by
  have e1 := neg_mul' a c
  have ha' : 0 ≤ val (neg a) := by rw [val_neg]; simpa using ha
  have := mul_nonneg_val ha' hc
  rw [e1.2, e1.1, val_neg, mul_comm' a] at this
  refine this.imp id fun h => ?_
  simpa using h

theorem mul_nonpos_val' {a c : F64} (hc : val c ≤ 0) (ha : 0 ≤ val a) : mul c a = nan ∨ val (mul c a) ≤ 0 := by
  rw [mul_comm' c a]; exact mul_nonpos_val ha hc

/-! ### The logarithm at 1 -/

theorem xlog_one : isFin (lit 1 : F64) ∧ toQ (lit 1 : F64) = 1 ∧ isFin (xlog muslFU (lit 1)) ∧ toQ (xlog muslFU (lit 1)) = 0 := by
  decide +kernel

theorem xlog_nonpos {r : F64} (hr : isFin r) (h0 : 0 < toQ r) (h1 : toQ r ≤ 1) : toQ (xlog muslFU r) ≤ 0 := by
  obtain ⟨a, b, -, d⟩ := xlog_one
  rcases le_or_gt (1 / 2 ^ 48) (toQ r) with h | h
  · rw [← d]
    exact (C76_partial r _ hr a h0 (by rw [b]; exact h1)).2.2.1 h (by rw [b]; norm_num)
  · have k : isFin (lit (1 / 2 ^ 48) : F64) ∧ toQ (lit (1 / 2 ^ 48) : F64) = 1 / 2 ^ 48 ∧
        toQ (xlog muslFU (lit (1 / 2 ^ 48))) ≤ -1 := by decide +kernel
    have := (C76_partial r _ hr k.1 h0 (by rw [k.2.1]; exact h.le)).2.2.2.2
    have := k.2.2
    have n : (1 / 10 ^ 12 : ℚ) ≤ 1 := by norm_num
    linarith

theorem xlog_nonneg {r : F64} (hr : isFin r) (h1 : 1 ≤ toQ r) : 0 ≤ toQ (xlog muslFU r) := by
  obtain ⟨a, b, -, d⟩ := xlog_one
  rcases lt_or_ge (toQ r) 32 with h | h
  · rw [← d]
    exact (C76_partial _ r a hr (by rw [b]; norm_num) (by rw [b]; exact h1)).2.2.1 (by rw [b]; norm_num) h
  · have k : isFin (lit 16 : F64) ∧ toQ (lit 16 : F64) = 16 ∧ 1 ≤ toQ (xlog muslFU (lit 16)) := by decide +kernel
    have := (C76_partial _ r k.1 hr (by rw [k.2.1]; norm_num) (by rw [k.2.1]; linarith)).2.2.2.2
    have := k.2.2
    have n : (1 / 10 ^ 12 : ℚ) ≤ 1 := by norm_num
    linarith

/-! ### The power function -/

/-- the argument of `xexp` in `xpow`, for a moderate exponent -/
theorem arg_bound {g l : F64} (hg : isFin g) (hg' : |toQ g| ≤ 2 ^ 20) (hl : isFin l) (hl' : |toQ l| ≤ 752) :
    isFin (g *. l) ∧ toQ (g *. l) = rq (toQ g * toQ l) ∧ |toQ (g *. l)| < toQ (LOG2 : F64) * 2 ^ 31 := by
  have hb : |toQ g * toQ l| ≤ ((2 ^ 20 * 752 : ℤ) : ℚ) := by
    rw [abs_mul]
    refine (mul_le_mul hg' hl' (abs_nonneg _) (by norm_num)).trans (le_of_eq (by norm_num))
  have hR : rq ((2 ^ 20 * 752 : ℤ) : ℚ) = ((2 ^ 20 * 752 : ℤ) : ℚ) := by
    have := rq_rep (rep_16 (i := 16 * (2 ^ 20 * 752)) (by norm_num))
    rwa [show (((16 * (2 ^ 20 * 752) : ℤ) : ℚ) / 16) = ((2 ^ 20 * 752 : ℤ) : ℚ) by norm_num] at this
  obtain ⟨f, e⟩ := mul_fin' hg hl (hb.trans ((le_abs_self _).trans (abs_int_le (by norm_num))))
  refine ⟨f, e, ?_⟩
  rw [show (g *. l) = F64.mul g l from rfl, e, LOG2_fin.2]
  have hb' := abs_le.mp hb
  have u1 := rq_mono hb'.1
  have u2 := rq_mono hb'.2
  rw [rq_neg, hR] at u1
  rw [hR] at u2
  refine lt_of_le_of_lt (abs_le.mpr ⟨u1, u2⟩) ?_
  norm_num

theorem xlog_fin {r : F64} (hr : isFin r) (h0 : 0 < toQ r) : isFin (xlog muslFU r) ∧ |toQ (xlog muslFU r)| ≤ 752 := by
  rcases xlog_bound r (fun e => h0.ne' ((eq_zero_iff r).mp e).2) with e | e
  · have := (xlog_exponent hr h0).1
    rw [e] at this
    exact absurd this (by simp [isFin])
  · exact e

theorem xpow_eq (a b : F64) : xpow (codeMath muslFU) a b = xexp muslFU (b *. xlog muslFU a) := rfl

/-- the power of a positive number with a moderate exponent, against 1 -/
theorem xpow_sign {r b : F64} (hr : isFin r) (h0 : 0 < toQ r) (hb : isFin b) (hb' : |toQ b| ≤ 2 ^ 20) :
    ∃ y, xpow (codeMath muslFU) r b = .ok y ∧ F64.le (lit 0) y = true ∧
      (0 ≤ toQ b * toQ (xlog muslFU r) → F64.le (lit 1) y = true) ∧ (toQ b * toQ (xlog muslFU r) ≤ 0 → F64.le y (lit 1) = true) := by
  obtain ⟨l1, l2⟩ := xlog_fin hr h0
  obtain ⟨f, e, g⟩ := arg_bound hb hb' l1 l2
  obtain ⟨g1, g2⟩ := abs_lt.mp g
  obtain ⟨u, v, hu, hv, -, h1, h2, h3⟩ := C77_partial _ _ f f le_rfl g1 g2
  rw [hu] at hv
  injection hv with hv
  subst hv
  refine ⟨u, hu, h3, fun h => h1 ?_, fun h => h2 ?_⟩
  · rw [e]; exact rq_nonneg h
  · rw [e]
    have := rq_mono h
    rwa [rq_zero] at this

/-- the power function is monotone in the base -/
theorem xpow_mono {r r' b : F64} (hr : isFin r) (hr' : isFin r') (h0 : 1 / 2 ^ 48 ≤ toQ r) (h : toQ r ≤ toQ r') (h1 : toQ r' < 32)
    (hb : isFin b) (hb' : |toQ b| ≤ 2 ^ 20) :
    ∃ y y', xpow (codeMath muslFU) r b = .ok y ∧ xpow (codeMath muslFU) r' b = .ok y' ∧
      (0 ≤ toQ b → F64.le y y' = true) ∧ (toQ b ≤ 0 → F64.le y' y = true) := by
  have p : 0 < toQ r := lt_of_lt_of_le (by norm_num) h0
  obtain ⟨l1, l2⟩ := xlog_fin hr p
  obtain ⟨l1', l2'⟩ := xlog_fin hr' (p.trans_le h)
  obtain ⟨f, e, g⟩ := arg_bound hb hb' l1 l2
  obtain ⟨f', e', g'⟩ := arg_bound hb hb' l1' l2'
  have hl := (C76_partial r r' hr hr' p h).2.2.1 h0 h1
  rcases le_total 0 (toQ b) with hs | hs
  · have : toQ (b *. xlog muslFU r) ≤ toQ (b *. xlog muslFU r') := by
      rw [e, e']; exact rq_mono (mul_le_mul_of_nonneg_left hl hs)
    obtain ⟨u, v, hu, hv, huv, -⟩ := C77_partial _ _ f f' this (abs_lt.mp g).1 (abs_lt.mp g').2
    refine ⟨u, v, hu, hv, fun _ => huv, fun hs' => ?_⟩
    have z : toQ b = 0 := le_antisymm hs' hs
    have : toQ (b *. xlog muslFU r') ≤ toQ (b *. xlog muslFU r) := by rw [e, e', z]; simp
    obtain ⟨u', v', hu', hv', huv', -⟩ := C77_partial _ _ f' f this (abs_lt.mp g').1 (abs_lt.mp g).2
    rw [hv] at hu'
    rw [hu] at hv'
    injection hu' with hu'
    injection hv' with hv'
    rwa [hu', hv']
  · have : toQ (b *. xlog muslFU r') ≤ toQ (b *. xlog muslFU r) := by
      rw [e, e']; exact rq_mono (mul_le_mul_of_nonpos_left hl hs)
    obtain ⟨v, u, hv, hu, huv, -⟩ := C77_partial _ _ f' f this (abs_lt.mp g').1 (abs_lt.mp g).2
    refine ⟨u, v, hu, hv, fun hs' => ?_, fun _ => huv⟩
    have z : toQ b = 0 := le_antisymm hs hs'
    have : toQ (b *. xlog muslFU r) ≤ toQ (b *. xlog muslFU r') := by rw [e, e', z]; simp
    obtain ⟨u', v', hu', hv', huv', -⟩ := C77_partial _ _ f f' this (abs_lt.mp g).1 (abs_lt.mp g').2
    rw [hu] at hu'
    rw [hv] at hv'
    injection hu' with hu'
    injection hv' with hv'
    rwa [hu', hv']

/-! ### The quantile -/

theorem add_zero_val {et : F64} (h : isFin et) : val (add et (zero false)) = val et ∧ val (add et (zero true)) = val et := by
  have z : ∀ s, toQ (zero s) = 0 := by decide +kernel
  constructor
  · obtain ⟨a, e⟩ := add_fin (x := et) (y := zero false) h trivial
    rw [e, z, add_zero, val_ofRat_toQ _ h]
  · obtain ⟨a, e⟩ := add_fin (x := et) (y := zero true) h trivial
    rw [e, z, add_zero, val_ofRat_toQ _ h]

/-- adding a number that is not negative to the threshold -/
theorem side_up {et t : F64} (h : isFin et) (ht : t = nan ∨ 0 ≤ val t) : add et t = nan ∨ F64.le et (add et t) = true := by
  rcases nan_or (add et t) with e | e
  · exact .inl e
  rcases ht with rfl | ht
  · left; cases et <;> rfl
  right
  have : LeN (zero false) t := .inr (.inr (by rw [val_zero]; exact ht))
  rcases this.add_left et with e' | e' | e'
  · obtain ⟨a, e''⟩ := add_fin (x := et) (y := zero false) h trivial
    rw [e''] at e'
    exact absurd e' (ofRat_notNaN _ _)
  · exact absurd e' e
  · rw [(add_zero_val h).1] at e'
    exact (F64.le_iff _ _).mpr ⟨h.notNaN, e, e'⟩

theorem side_down {et t : F64} (h : isFin et) (ht : t = nan ∨ val t ≤ 0) : add et t = nan ∨ F64.le (add et t) et = true := by
  rcases nan_or (add et t) with e | e
  · exact .inl e
  rcases ht with rfl | ht
  · left; cases et <;> rfl
  right
  have : LeN t (zero false) := .inr (.inr (by rw [val_zero]; exact ht))
  rcases this.add_left et with e' | e' | e'
  · exact absurd e' e
  · obtain ⟨a, e''⟩ := add_fin (x := et) (y := zero false) h trivial
    rw [e''] at e'
    exact absurd e' (ofRat_notNaN _ _)
  · rw [(add_zero_val h).1] at e'
    exact (F64.le_iff _ _).mpr ⟨e, h.notNaN, e'⟩

theorem sub_one_sign {y : F64} (hy : notNaN y) :
    (F64.le (lit 1) y = true → 0 ≤ val (sub y (lit 1))) ∧ (F64.le y (lit 1) = true → val (sub y (lit 1)) ≤ 0) := by
  have k : notNaN (sub (lit 1) (lit 1 : F64)) ∧ sub (lit 1) (lit 1 : F64) = zero false := by decide +kernel
  have hn : notNaN (sub y (lit 1)) := by
    rcases y with _ | s | ⟨s, j⟩
    · exact absurd rfl hy
    · show notNaN (sub _ (ofRat false 1)); rw [lit_one]; simp [sub, neg, add, notNaN]
    · show notNaN (sub _ (ofRat false 1)); rw [lit_one]; exact ofRat_notNaN _ _
  constructor
  · intro h
    rcases (LeN.of_le h).sub_right (lit 1) with e | e | e
    · exact absurd e k.1
    · exact absurd e hn
    · rwa [k.2, val_zero] at e
  · intro h
    rcases (LeN.of_le h).sub_right (lit 1) with e | e | e
    · exact absurd e hn
    · exact absurd e k.1
    · rwa [k.2, val_zero] at e

/-- the proportion of excesses: a positive number at most 1, the double nearest to the exact quotient -/
theorem proportion_pos {N n : ℕ} (h0 : 0 < N) (h : N ≤ n) (hn : n ≤ 2 ^ 53) :
    isFin (lit (N : ℚ) /. lit (n : ℚ) : F64) ∧ toQ (lit (N : ℚ) /. lit (n : ℚ) : F64) = rq ((N : ℚ) / n) ∧
      pow2 (-53) ≤ toQ (lit (N : ℚ) /. lit (n : ℚ) : F64) ∧ toQ (lit (N : ℚ) /. lit (n : ℚ) : F64) ≤ 1 := by
  have cN := lit_int (i := (N : ℤ)) (by rw [abs_of_nonneg (by positivity)]; exact_mod_cast h.trans hn)
  have cn := lit_int (i := (n : ℤ)) (by rw [abs_of_nonneg (by positivity)]; exact_mod_cast hn)
  rw [Int.cast_natCast] at cN cn
  have pN : (0 : ℚ) < N := by exact_mod_cast h0
  have pn : (0 : ℚ) < n := by exact_mod_cast h0.trans_le h
  have hle : (N : ℚ) ≤ n := by exact_mod_cast h
  have hq : (N : ℚ) / n ≤ 1 := by rw [div_le_one pn]; exact hle
  have hq0 : 0 < (N : ℚ) / n := div_pos pN pn
  obtain ⟨f, e⟩ := div_fin' cN.1 cn.1 (by rw [cn.2]; exact pn.ne')
    (by rw [cN.2, cn.2, abs_of_pos hq0]; exact hq.trans (by simpa using abs_int_le (i := 1) (by norm_num)))
  rw [cN.2, cn.2] at e
  refine ⟨f, e, ?_, ?_⟩
  · rw [show (lit (N : ℚ) /. lit (n : ℚ) : F64) = F64.div (lit (N : ℚ)) (lit (n : ℚ)) from rfl, e]
    have h1 : pow2 (-53) ≤ (N : ℚ) / n := by
      rw [le_div_iff₀ pn, pow2_eq]
      have : (n : ℚ) ≤ 2 ^ 53 := by exact_mod_cast hn
      have : (1 : ℚ) ≤ N := by exact_mod_cast h0
      norm_num
      linarith
    have h2 := rq_mono h1
    have h3 : rq (pow2 (-53)) = pow2 (-53) := rq_rep ⟨1, -53, by norm_num, by norm_num, by rw [abs_of_pos (pow2_pos _)]; simp⟩
    rw [h3] at h2
    exact h2
  · rw [show (lit (N : ℚ) /. lit (n : ℚ) : F64) = F64.div (lit (N : ℚ)) (lit (n : ℚ)) from rfl, e]
    have := rq_mono hq
    rwa [rq_1] at this

/-- the quotient of a probability by the proportion of excesses -/
theorem ratio_pos {q S : F64} (hq : isFin q) (q0 : 0 < toQ q) (q1 : toQ q ≤ 1) (hS : isFin S) (S0 : pow2 (-53) ≤ toQ S) (S1 : toQ S ≤ 1) :
    isFin (q /. S) ∧ toQ (q /. S) = rq (toQ q / toQ S) ∧ 0 < toQ (q /. S) := by
  have p : 0 < toQ S := (pow2_pos _).trans_le S0
  have hd : toQ q / toQ S ≤ ((2 ^ 53 : ℤ) : ℚ) := by
    rw [div_le_iff₀ p]
    have : ((2 ^ 53 : ℤ) : ℚ) * pow2 (-53) = 1 := by rw [pow2_eq]; norm_num
    have := mul_le_mul_of_nonneg_left S0 (show (0 : ℚ) ≤ ((2 ^ 53 : ℤ) : ℚ) by norm_num)
    linarith
  have hd0 : 0 < toQ q / toQ S := div_pos q0 p
  obtain ⟨f, e⟩ := div_fin' hq hS p.ne' (by
    rw [abs_of_pos hd0]; exact hd.trans ((le_abs_self _).trans (abs_int_le (by norm_num))))
  refine ⟨f, e, ?_⟩
  rw [show (q /. S) = F64.div q S from rfl, e]
  have : toQ q ≤ toQ q / toQ S := by rw [le_div_iff₀ p]; nlinarith
  have := rq_mono this
  rw [rq_toQ] at this
  linarith

end Verif

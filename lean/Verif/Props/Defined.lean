/-
Which calls have undefined behaviour (C75).
-/
import Verif.Props.Xexp
import Verif.Props.Xlog
import Verif.F64.Pair
import Verif.Props.Memory
import Verif.Props.Step

namespace Verif
open F64

/-! ### C75 -/

/-- False of the code: the fit of three times the value 3/10 converts an out-of-range double to `unsigned int` (the variance of
the three equal excesses is a rounding error, so the shape of the method of moments is about -10^15). -/
theorem C75_false : ¬ ∀ (lib : Lib F64) (h : Heap F64) (s0 : Spot F64) (q level : F64) (low disc : ℤ) (me : UInt64)
    (ops : List (Op F64)), 1 ≤ me.toNat → me.toNat < 2 ^ 61 → (∀ op ∈ ops, op.valid) →
    (spot_init lib h s0 q low disc level me).1 = 0 →
    ∃ r, runOps (codeMath lib.fu) (spot_init lib h s0 q low disc level me).2.2
      (spot_init lib h s0 q low disc level me).2.1 ops = .ok r := by
  intro H
  obtain ⟨r, hr⟩ := H Sample.lib Sample.emptyHeap Sample.zeroed (lit (1 / 100)) (lit (9 / 10)) 0 1 20
    [.fit [lit (3 / 10), lit (3 / 10), lit (3 / 10)] 3] (by decide) (by decide) (by simp [Op.valid]) (by decide +kernel)
  have : Sample.errOf (runOps (codeMath Sample.lib.fu) Sample.init.2.2 Sample.init.2.1
    [.fit [lit (3 / 10), lit (3 / 10), lit (3 / 10)] 3]) = some .floatConv := by decide +kernel
  change runOps (codeMath Sample.lib.fu) Sample.init.2.2 Sample.init.2.1 _ = _ at hr
  rw [hr] at this
  cases this

theorem toQ_of_lit0 : isFin (lit 0 : F64) ∧ toQ (lit 0 : F64) = 0 := by decide +kernel

theorem eq_zero_iff (x : F64) : (x ==. lit 0) = true ↔ isFin x ∧ toQ x = 0 := by
  obtain ⟨z1, z2⟩ := toQ_of_lit0
  have v0 : val (lit 0 : F64) = 0 := by rw [val_fin z1, z2]; simp
  rw [show (x ==. lit 0) = F64.eq x (lit 0) from rfl, F64.eq_iff, v0]
  constructor
  · rintro ⟨a, -, c⟩
    have hf : isFin x := isFin_iff_val.mpr ⟨a, by rw [c]; simp, by rw [c]; simp⟩
    rw [val_fin hf] at c
    refine ⟨hf, ?_⟩
    exact_mod_cast c
  · rintro ⟨a, b⟩
    refine ⟨a.notNaN, z1.notNaN, ?_⟩
    rw [val_fin a, b]; simp

/-- the logarithm of a double is NaN or a number of magnitude at most 752, except for the zeros -/
theorem xlog_bound (r : F64) (h : ¬ (r ==. lit 0) = true) :
    xlog muslFU r = nan ∨ (isFin (xlog muslFU r) ∧ |toQ (xlog muslFU r)| ≤ 752) := by
  by_cases hn : notNaN r
  swap
  · left
    unfold xlog
    rw [if_pos]; · rfl
    have : is_nan r = true := by
      by_contra hc
      exact hn ((F64.is_nan_false r).mp (by simpa using hc))
    simp [this]
  by_cases hi : r = inf false
  · left; rw [hi]; exact C52_false
  by_cases hneg : (r <. lit 0) = true
  · left
    unfold xlog
    rw [if_pos]; · rfl
    simp [hneg]
  right
  obtain ⟨z1, z2⟩ := toQ_of_lit0
  have v0 : val (lit 0 : F64) = 0 := by rw [val_fin z1, z2]; simp
  rw [show (r <. lit 0) = F64.lt r (lit 0) from rfl, F64.lt_iff, v0] at hneg
  have hv : 0 ≤ val r := by
    by_contra hc
    exact hneg ⟨hn, z1.notNaN, lt_of_not_ge hc⟩
  have hf : isFin r := by
    cases r with
    | nan => exact absurd hn (by simp [notNaN])
    | inf s => cases s with
      | false => exact absurd rfl hi
      | true => simp [val] at hv
    | fin s k => trivial
  have h0 : 0 < toQ r := by
    rw [val_fin hf] at hv
    have : (0 : ℚ) ≤ toQ r := by exact_mod_cast hv
    refine lt_of_le_of_ne this fun e => h ((eq_zero_iff r).mpr ⟨hf, e.symm⟩)
  obtain ⟨g1, g2, g3, g4⟩ := xlog_exponent hf h0
  refine ⟨g1, ?_⟩
  obtain ⟨-, m2, m3, m4, m5, m6⟩ := frexp_pos hf h0
  generalize (musl_frexp r 0).1 = m at *
  generalize (musl_frexp r 0).2 = e at *
  have L1 := log_two_bounds.1
  have L2 := log_two_bounds.2
  have L1' : (69 / 100 : ℝ) ≤ Real.log 2 := le_trans (by norm_num) L1
  have L2' : Real.log 2 ≤ 694 / 1000 := L2.trans (by norm_num)
  have e1 : (-1073 : ℝ) ≤ e := by exact_mod_cast m5
  have e2 : (e : ℝ) ≤ 1024 := by exact_mod_cast m6
  have hlog : Real.log (toR r) = Real.log (toR m) + e * Real.log 2 := by
    rw [m4, Real.log_mul (by linarith) (zpow_ne_zero _ (by norm_num)), Real.log_zpow]
  have a1 : Real.log (toR m) ≤ 0 := Real.log_nonpos (by linarith) m3.le
  have a2 : -Real.log 2 ≤ Real.log (toR m) := by
    have := Real.log_le_log (by norm_num) m2
    rwa [one_div, Real.log_inv] at this
  have b : |Real.log (toR r)| ≤ 750 := by
    rw [hlog, abs_le]; constructor <;> nlinarith
  have c : |toR (xlog muslFU r) - Real.log (toR r)| ≤ 2 := by
    by_cases h1 : e = 0
    · refine (g2 h1).trans ?_
      have : (16 / 10 ^ 16 : ℝ) * |Real.log (toR r)| ≤ 16 / 10 ^ 16 * 750 := mul_le_mul_of_nonneg_left b (by norm_num)
      exact this.trans (by norm_num)
    by_cases h2 : e = -1
    · refine (g3 h2).trans ?_
      have : (11 / 10 ^ 10 : ℝ) * |Real.log (toR r)| ≤ 11 / 10 ^ 10 * 750 := mul_le_mul_of_nonneg_left b (by norm_num)
      exact this.trans (by norm_num)
    refine (g4 h1 h2).trans ?_
    have : |(e : ℝ)| ≤ 1073 := by rw [abs_le]; constructor <;> linarith
    have : (2 / 10 ^ 16 : ℝ) * |(e : ℝ)| ≤ 2 / 10 ^ 16 * 1073 := mul_le_mul_of_nonneg_left this (by norm_num)
    refine (add_le_add_left this _).trans (by norm_num)
  have d : |toR (xlog muslFU r)| ≤ 752 := by
    have := abs_le.mp b; have := abs_le.mp c
    rw [abs_le]; constructor <;> linarith
  unfold toR at d
  exact_mod_cast d

/-- a product that `xexp` accepts -/
theorem xexp_mul_ok {g l : F64} (hg : g = nan ∨ (isFin g ∧ |toQ g| ≤ 2 ^ 21)) (hl : l = nan ∨ (isFin l ∧ |toQ l| ≤ 752)) :
    ∃ y, xexp muslFU (g *. l) = .ok y := by
  refine (C55_partial (g *. l)).2.1.mpr ?_
  rcases hg with rfl | ⟨g1, g2⟩
  · left; cases l <;> rfl
  rcases hl with rfl | ⟨l1, l2⟩
  · left; cases g <;> rfl
  right
  have hb : |toQ g * toQ l| ≤ ((2 ^ 21 * 752 : ℤ) : ℚ) := by
    rw [abs_mul]
    refine (mul_le_mul g2 l2 (abs_nonneg _) (by norm_num)).trans (le_of_eq (by norm_num))
  have hR : rq ((2 ^ 21 * 752 : ℤ) : ℚ) = ((2 ^ 21 * 752 : ℤ) : ℚ) := by
    have := rq_rep (rep_16 (i := 16 * (2 ^ 21 * 752)) (by norm_num))
    rwa [show (((16 * (2 ^ 21 * 752) : ℤ) : ℚ) / 16) = ((2 ^ 21 * 752 : ℤ) : ℚ) by norm_num] at this
  obtain ⟨f, e⟩ := mul_fin' g1 l1 (hb.trans ((le_abs_self _).trans (abs_int_le (by norm_num))))
  refine ⟨f, ?_⟩
  rw [show (g *. l) = F64.mul g l from rfl, e, LOG2_fin.2]
  have hb' := abs_le.mp hb
  have u1 := rq_mono hb'.1
  have u2 := rq_mono hb'.2
  rw [rq_neg, hR] at u1
  rw [hR] at u2
  refine lt_of_le_of_lt (abs_le.mpr ⟨u1, u2⟩) ?_
  norm_num

/-- a shape parameter for which `xexp` is never called out of its domain by `spot_quantile` -/
def ModerateShape (g : F64) : Prop := g = nan ∨ (isFin g ∧ |toQ g| ≤ 2 ^ 21)

theorem xexp_inf (s : Bool) : xexp muslFU (inf s) = .error .floatConv := by
  cases s
  · exact C55_false.1
  · exact C55_false.2.1

theorem xlog_zero {r : F64} (h : (r ==. lit 0) = true) : xlog muslFU r = inf true := by
  have hf := (eq_zero_iff r).mp h
  unfold xlog
  rw [if_neg, if_pos h]; · decide +kernel
  have hn : is_nan r = false := (F64.is_nan_false r).mpr hf.1.notNaN
  have : (r <. lit 0) = false := by
    rw [Bool.eq_false_iff]
    rw [show (r <. lit 0) = F64.lt r (lit 0) from rfl, ne_eq, F64.lt_iff]
    rintro ⟨-, -, c⟩
    rw [val_fin hf.1, val_fin toQ_of_lit0.1, hf.2, toQ_of_lit0.2] at c
    exact lt_irrefl _ c
  simp [this, hn]

theorem mul_inf {g : F64} (hg : isFin g) (h0 : toQ g ≠ 0) (s : Bool) : ∃ s', g *. inf s = inf s' := by
  cases g with
  | nan => exact absurd hg (by simp [isFin])
  | inf t => exact absurd hg (by simp [isFin])
  | fin t k =>
    have : k.val ≠ 0 := fun e => h0 (toQ_eq_zero.mpr e)
    show ∃ s', F64.mul (fin t k) (inf s) = inf s'
    unfold F64.mul
    simp [this]

/-- `a^b` with an exponent of moderate size is undefined exactly at base 0 -/
theorem xpow_ok_iff {b : F64} (hb : ModerateShape b) (a : F64) :
    (∃ y, xpow (codeMath muslFU) a b = .ok y) ↔ ¬ (isFin b ∧ toQ b ≠ 0 ∧ (a ==. lit 0) = true) := by
  have hx : xpow (codeMath muslFU) a b = xexp muslFU (b *. xlog muslFU a) := rfl
  rw [hx]
  by_cases ha : (a ==. lit 0) = true
  · rw [xlog_zero ha]
    rcases hb with rfl | ⟨h1, h2⟩
    · constructor
      · rintro - ⟨h, -⟩; exact h
      · intro _; exact ⟨nan, by decide +kernel⟩
    · by_cases h0 : toQ b = 0
      · refine ⟨fun _ h => h.2.1 h0, fun _ => ⟨nan, ?_⟩⟩
        have : b *. inf true = nan := by
          cases b with
          | nan => rfl
          | inf t => exact absurd h1 (by simp [isFin])
          | fin t k =>
            have : k.val = 0 := toQ_eq_zero.mp h0
            show F64.mul (fin t k) (inf true) = nan
            unfold F64.mul; simp [this]
        rw [this]; decide +kernel
      · obtain ⟨s', e⟩ := mul_inf h1 h0 true
        rw [e, xexp_inf]
        constructor
        · rintro ⟨y, hy⟩; cases hy
        · intro h; exact absurd ⟨h1, h0, ha⟩ h
  · exact ⟨fun _ h => ha h.2.2, fun _ => xexp_mul_ok hb (xlog_bound a ha)⟩

theorem ModerateShape.neg {g : F64} (h : ModerateShape g) : ModerateShape (F64.neg g) := by
  rcases h with rfl | ⟨a, b⟩
  · left; rfl
  · right; exact ⟨isFin_neg.mpr a, by rw [toQ_neg, abs_neg]; exact b⟩

/-- **C75** for `spot_quantile`, what holds: with a shape parameter that is NaN or of magnitude at most 2^21, the call is
undefined exactly if the shape is not 0 and the quotient of `q` by the proportion of excesses is 0. -/
theorem C75_quantile_partial (s : Spot F64) (q : F64) (hg : ModerateShape s.tail.gamma) :
    (∃ z, spot_quantile (codeMath muslFU) s q = .ok z) ↔
      ¬ (isFin s.tail.gamma ∧ toQ s.tail.gamma ≠ 0 ∧ ((q /. (lit s.Nt.toNat /. lit s.n.toNat)) ==. lit 0) = true) := by
  unfold spot_quantile tail_quantile
  dsimp only
  generalize q /. (lit s.Nt.toNat /. lit s.n.toNat) = r
  by_cases h0 : (s.tail.gamma ==. lit 0) = true
  · rw [if_pos h0]
    refine ⟨fun _ h => h.2.1 ((eq_zero_iff _).mp h0).2, fun _ => ⟨_, rfl⟩⟩
  rw [if_neg h0]
  have hx := xpow_ok_iff hg.neg r
  rw [isFin_neg, toQ_neg, neg_ne_zero] at hx
  rw [← hx]
  show _ ↔ ∃ y, xpow (codeMath muslFU) r (-. s.tail.gamma) = .ok y
  cases xpow (codeMath muslFU) r (-. s.tail.gamma) with
  | error e => simp [bind, Except.bind]
  | ok y => simp [bind, Except.bind]

theorem rq_1 : rq 1 = 1 := by rw [← mag_one, rq_mag]

/-- the proportion of excesses is NaN or in [0, 1] -/
theorem proportion {N n : ℕ} (h : N ≤ n) (hn : n < 2 ^ 64) :
    (lit (N : ℚ) /. lit (n : ℚ) : F64) = nan ∨
      (isFin (lit (N : ℚ) /. lit (n : ℚ) : F64) ∧ 0 ≤ toQ (lit (N : ℚ) /. lit (n : ℚ) : F64) ∧
        toQ (lit (N : ℚ) /. lit (n : ℚ) : F64) ≤ 1) := by
  have big : ∀ m : ℕ, m < 2 ^ 64 → noOverflow (m : ℚ) := fun m hm => by
    refine noOverflow_of_le ?_
    rw [abs_of_nonneg (by positivity)]
    have : (m : ℚ) ≤ ((2 ^ 64 : ℕ) : ℚ) := by exact_mod_cast hm.le
    refine this.trans ?_
    have h2 : pow2 (64 : ℕ) ≤ pow2 1023 := pow2_le (by norm_num)
    rw [pow2_natCast] at h2
    exact le_trans (le_of_eq (by norm_num)) h2
  have oN := big N (h.trans_lt hn)
  have on := big n hn
  have fN : isFin (lit (N : ℚ) : F64) := ofRat_isFin.mpr oN
  have fn : isFin (lit (n : ℚ) : F64) := ofRat_isFin.mpr on
  have qN : toQ (lit (N : ℚ) : F64) = rq N := toQ_ofRat oN
  have qn : toQ (lit (n : ℚ) : F64) = rq n := toQ_ofRat on
  by_cases h0 : n = 0
  · left
    have : N = 0 := by omega
    subst this; subst h0
    decide +kernel
  right
  have h1 : (1 : ℚ) ≤ rq n := by
    have := rq_mono (show (1 : ℚ) ≤ n by exact_mod_cast Nat.one_le_iff_ne_zero.mpr h0)
    rwa [rq_1] at this
  have h2 : rq N ≤ rq (n : ℚ) := rq_mono (by exact_mod_cast h)
  have h3 : 0 ≤ rq (N : ℚ) := rq_nonneg (by positivity)
  have hd : rq N / rq n ≤ 1 := by rw [div_le_one (by linarith)]; exact h2
  have hd0 : 0 ≤ rq N / rq n := div_nonneg h3 (by linarith)
  obtain ⟨z, e⟩ := div_fin fN fn (by rw [qn]; linarith)
  rw [show (lit (N : ℚ) /. lit (n : ℚ) : F64) = F64.div (lit (N : ℚ)) (lit (n : ℚ)) from rfl, e, qN, qn]
  have ho : noOverflow (rq N / rq n) := noOverflow_mono (q := 1) (by rw [abs_of_nonneg hd0, abs_one]; exact hd)
    (noOverflow_of_le (by simpa using abs_int_le (i := 1) (by norm_num)))
  refine ⟨ofRat_isFin.mpr ho, ?_⟩
  rw [toQ_ofRat ho]
  exact ⟨rq_nonneg hd0, by have := rq_mono hd; rwa [rq_1] at this⟩

/-- a positive `q` divided by a proportion is not 0 -/
theorem ratio_ne_zero {q : F64} (hq : isFin q) (h0 : 0 < toQ q) {N n : ℕ} (h : N ≤ n) (hn : n < 2 ^ 64) :
    ¬ ((q /. (lit (N : ℚ) /. lit (n : ℚ))) ==. lit 0) = true := by
  rw [eq_zero_iff]
  rintro ⟨a, b⟩
  rcases proportion h hn with e | ⟨f, p0, p1⟩
  · rw [e] at a
    cases q <;> exact a
  · generalize (lit (N : ℚ) /. lit (n : ℚ) : F64) = S at *
    by_cases hS : toQ S = 0
    · cases q with
      | nan => exact hq
      | inf s => exact hq
      | fin s k =>
        cases S with
        | nan => exact f
        | inf s => exact f
        | fin t j =>
          have hj : j.val = 0 := toQ_eq_zero.mp hS
          have hk : k.val ≠ 0 := fun e => h0.ne' (toQ_eq_zero.mpr e)
          rw [show (fin s k /. fin t j : F64) = F64.div (fin s k) (fin t j) from rfl, F64.div, if_pos hj, if_neg hk] at a
          exact a
    · obtain ⟨z, e⟩ := div_fin hq f hS
      have hp : 0 < toQ S := lt_of_le_of_ne p0 (Ne.symm hS)
      have := le_ofRat (z := z) hq (show toQ q ≤ toQ q / toQ S by rw [le_div_iff₀ hp]; nlinarith)
      rw [← e, show F64.div q S = (q /. S : F64) from rfl, val_fin hq, val_fin a, b] at this
      have : (toQ q : ℝ) ≤ 0 := by exact_mod_cast this
      have : toQ q ≤ 0 := by exact_mod_cast this
      linarith

/-- **C75** for `spot_step`, what holds: on a reachable detector whose counters have not wrapped, a step with undefined
behaviour is one that recorded an excess after which the estimated shape is infinite or larger in magnitude than 2^21. -/
theorem C75_step_partial (lib : Lib F64) (q level : F64) (low disc : ℤ) (me : UInt64) (s : Spot F64) (h : Heap F64)
    (R : Reaches (codeMath muslFU) lib q low disc level me s h) (hq : isFin q) (h0 : 0 < toQ q)
    (hc : s.Nt.toNat ≤ s.n.toNat) (hc' : s.n.toNat + 1 < 2 ^ 64) (x : F64) (e : UB)
    (he : spot_step (codeMath muslFU) h s x = .error e) :
    ∃ r f, tail_push h s.tail (s.up_down *. (x -. s.excess_threshold)) = .ok r ∧
      tail_fit (codeMath muslFU) r.2 r.1 = .ok f ∧ ¬ ModerateShape f.2.gamma := by
  obtain ⟨a, xs, I, P⟩ := R.inv
  unfold spot_step at he
  split at he
  · cases he
  split at he
  · cases he
  dsimp only at he
  split at he
  swap
  · cases he
  obtain ⟨p', h', hp, I', F⟩ := PeaksInv.push I (s.up_down *. (x -. s.excess_threshold))
  have hpush : tail_push h s.tail (s.up_down *. (x -. s.excess_threshold)) = .ok ({ s.tail with peaks := p' }, h') := by
    unfold tail_push; rw [hp]; rfl
  have hfit := tail_fit_inv (M := codeMath muslFU) (t := { s.tail with peaks := p' }) I'
  rw [hpush] at he
  simp only [C.ok_bind] at he
  rw [hfit] at he
  simp only [C.ok_bind] at he
  refine ⟨_, _, hpush, hfit, fun hm => ?_⟩
  have hqs : s.q = q := P.pq
  have := (C75_quantile_partial { s with n := s.n + 1, Nt := s.Nt + 1, tail := _ } s.q hm).mpr ?_
  · obtain ⟨z, hz⟩ := this
    rw [hz] at he
    cases he
  · rintro ⟨-, -, c⟩
    refine ratio_ne_zero (N := (s.Nt + 1).toNat) (n := (s.n + 1).toNat) (hqs ▸ hq) (hqs ▸ h0) ?_ (UInt64.toNat_lt _) c
    rw [UInt64.toNat_add, UInt64.toNat_add, Nat.mod_eq_of_lt, Nat.mod_eq_of_lt] <;> simp <;> omega

/-- **C75** for `spot_fit`, what holds: a fit with undefined behaviour is one where the shape estimated from the excesses is
infinite or larger in magnitude than 2^21. -/
theorem C75_fit_partial (lib : Lib F64) (q level : F64) (low disc : ℤ) (me : UInt64) (s : Spot F64) (h : Heap F64)
    (R : Reaches (codeMath muslFU) lib q low disc level me s h) (hq : isFin q) (h0 : 0 < toQ q)
    (data : List F64) (size : UInt64) (hs : size.toNat ≤ data.length) (e : UB)
    (he : spot_fit (codeMath muslFU) h s data size = .error e) :
    ∃ et st f, p2_quantile (if low ≠ 0 then lit 1 -. level else level) data size = .ok et ∧
      (data.take size.toNat).foldlM (fit_body et) ({ s with Nt := 0, n := size, excess_threshold := et }, h) = .ok st ∧
      tail_fit (codeMath muslFU) st.2 st.1.tail = .ok f ∧ ¬ ModerateShape f.2.gamma := by
  obtain ⟨a, xs, I, P⟩ := R.inv
  have hlow : s.low = if low ≠ 0 then 1 else 0 := P.plow
  have hlev : s.level = level := P.plevel
  have hqs : s.q = q := P.pq
  obtain ⟨et, het⟩ := p2_quantile_ok (if low ≠ 0 then lit 1 -. level else level) data size hs
  unfold spot_fit at he
  dsimp only at he
  have hE : (if s.low ≠ 0 then p2_quantile (lit 1 -. s.level) data size else p2_quantile s.level data size : C F64) = .ok et := by
    rw [hlow, hlev]
    by_cases hl : low = 0
    · simpa [hl] using het
    · simpa [hl] using het
  rw [hE] at he
  simp only [C.ok_bind] at he
  split at he
  · cases he
  have hlen : size.toNat = (data.take size.toNat).length := by simp; omega
  rw [foldlM_read' (f := fun st x => fit_body et st x) (rd := fun i => loadBuf data i) (data.take size.toNat) _ _ hlen
    (by intro i hi; simp at hi; rw [loadBuf_ok (by omega)]; simp)] at he
  obtain ⟨p', h', hp, I', F⟩ := fit_loop (c := me.toNat) (a := a) et (data.take size.toNat)
    { s with Nt := 0, n := size, excess_threshold := et } h xs I
  have hfit := tail_fit_inv (M := codeMath muslFU) (t := { s.tail with peaks := p' }) I'
  rw [hp] at he
  simp only [C.ok_bind] at he
  rw [hfit] at he
  simp only [C.ok_bind] at he
  refine ⟨et, _, _, het, hp, hfit, fun hm => ?_⟩
  have key : ∀ S : Spot F64, S.n = size → S.Nt = 0 + UInt64.ofNat (fitExcesses s.up_down et (data.take size.toNat)).length →
      ModerateShape S.tail.gamma → ∃ z, spot_quantile (codeMath muslFU) S s.q = .ok z := by
    intro S e1 e2 hS
    refine (C75_quantile_partial S s.q hS).mpr ?_
    rintro ⟨-, -, c⟩
    refine ratio_ne_zero (hqs ▸ hq) (hqs ▸ h0) ?_ (UInt64.toNat_lt _) c
    rw [e1, e2, UInt64.zero_add, UInt64.toNat_ofNat']
    refine (Nat.mod_le _ _).trans ?_
    unfold fitExcesses
    refine (List.length_filter_le _ _).trans ?_
    simp
  obtain ⟨z, hz⟩ := key { s with n := size, Nt := _, excess_threshold := et, tail := _ } rfl rfl hm
  rw [hz] at he
  simp only [C.ok_bind] at he
  split at he <;> cases he

/-- **C75** for `spot_probability`, what holds, with `d` the signed distance of `z` to the excess threshold: with a zero shape the
call is defined exactly if the quotient of `d` by the scale is NaN or less than `2^32 * LOG2` in magnitude, with a shape of which
the inverse is at most 2^21 in magnitude it is undefined exactly at the end of the support. -/
theorem C75_probability_partial (s : Spot F64) (z d : F64) (hd : d = s.up_down *. (z -. s.excess_threshold)) :
    ((s.tail.gamma ==. lit 0) = true →
      ((∃ p, spot_probability (codeMath muslFU) s z = .ok p) ↔
        ((-. d) /. s.tail.sigma = nan ∨ (isFin ((-. d) /. s.tail.sigma) ∧ |toQ ((-. d) /. s.tail.sigma)| < toQ (LOG2 : F64) * 2 ^ 32)))) ∧
    (isFin s.tail.gamma → 1 / 2 ^ 21 ≤ |toQ s.tail.gamma| → |toQ s.tail.gamma| ≤ 2 ^ 1000 →
      ((∃ p, spot_probability (codeMath muslFU) s z = .ok p) ↔
        ¬ ((lit 1 +. d *. (s.tail.gamma /. s.tail.sigma)) ==. lit 0) = true)) := by
  unfold spot_probability tail_probability
  rw [← hd]
  dsimp only
  constructor
  · intro h
    rw [if_pos h, ← (C55_partial _).2.1]
    show _ ↔ ∃ y, (codeMath muslFU).exp ((-. d) /. s.tail.sigma) = .ok y
    cases (codeMath muslFU).exp ((-. d) /. s.tail.sigma) with
    | error e => simp [bind, Except.bind]
    | ok y => simp [bind, Except.bind]
  · intro hf h1 h2
    have hpos : (0 : ℚ) < |toQ s.tail.gamma| := lt_of_lt_of_le (by norm_num) h1
    have hne : toQ s.tail.gamma ≠ 0 := abs_pos.mp hpos
    have h0 : ¬ (s.tail.gamma ==. lit 0) = true := fun e => hne ((eq_zero_iff _).mp e).2
    rw [if_neg h0]
    have hx : ModerateShape (lit (-1) /. s.tail.gamma) ∧ isFin (lit (-1) /. s.tail.gamma) ∧ toQ (lit (-1) /. s.tail.gamma) ≠ 0 := by
      obtain ⟨l1, l2⟩ := lit_int (i := -1) (by norm_num)
      push_cast at l1 l2
      have hq : |toQ (lit (-1) : F64) / toQ s.tail.gamma| ≤ ((2 ^ 21 : ℤ) : ℚ) := by
        rw [l2, abs_div, abs_neg, abs_one, div_le_iff₀ hpos]
        push_cast
        linarith
      have hR : rq ((2 ^ 21 : ℤ) : ℚ) = ((2 ^ 21 : ℤ) : ℚ) := by
        have := rq_rep (rep_16 (i := 16 * 2 ^ 21) (by norm_num))
        rwa [show (((16 * 2 ^ 21 : ℤ) : ℚ) / 16) = ((2 ^ 21 : ℤ) : ℚ) by norm_num] at this
      obtain ⟨f, e⟩ := div_fin' l1 hf hne (hq.trans ((le_abs_self _).trans (abs_int_le (by norm_num))))
      have hq' := abs_le.mp hq
      have u1 := rq_mono hq'.1
      have u2 := rq_mono hq'.2
      rw [rq_neg, hR] at u1
      rw [hR] at u2
      refine ⟨Or.inr ⟨f, ?_⟩, f, ?_⟩
      · rw [show (lit (-1) /. s.tail.gamma) = F64.div (lit (-1)) s.tail.gamma from rfl, e]
        refine (abs_le.mpr ⟨u1, u2⟩).trans (le_of_eq (by norm_num))
      · rw [show (lit (-1) /. s.tail.gamma) = F64.div (lit (-1)) s.tail.gamma from rfl, e]
        intro h
        have hb : pow2 (-1000) ≤ |toQ (lit (-1) : F64) / toQ s.tail.gamma| := by
          rw [l2, abs_div, abs_neg, abs_one, le_div_iff₀ hpos]
          have : pow2 (-1000) = 1 / 2 ^ 1000 := by decide +kernel
          rw [this]
          have := mul_le_mul_of_nonneg_left h2 (show (0 : ℚ) ≤ 1 / 2 ^ 1000 by positivity)
          refine this.trans (le_of_eq ?_)
          rw [div_mul_cancel₀]; positivity
        have h3 : 0 < rnd |toQ (lit (-1) : F64) / toQ s.tail.gamma| := rnd_pos_of ((pow2_le (by norm_num)).trans hb)
        have h4 := rq_abs (toQ (lit (-1) : F64) / toQ s.tail.gamma)
        rw [h, abs_zero] at h4
        exact absurd h4.symm (mag_pos h3.ne').ne'
    have hxp := xpow_ok_iff hx.1 (lit 1 +. d *. (s.tail.gamma /. s.tail.sigma))
    simp only [hx.2.1, ne_eq, hx.2.2, not_false_eq_true, true_and] at hxp
    rw [← hxp]
    cases xpow (codeMath muslFU) (lit 1 +. d *. (s.tail.gamma /. s.tail.sigma)) (lit (-1) /. s.tail.gamma) with
    | error e => simp [bind, Except.bind]
    | ok y => simp [bind, Except.bind]

/-- a detector with shape -1, scale 2 and threshold 4: `spot_probability` is undefined at the end 6 of the support, defined beside -/
def Sample.endpoint : Spot F64 :=
  { Sample.spot with excess_threshold := lit 4, Nt := 3, n := 10, tail := { Sample.spot.tail with gamma := lit (-1), sigma := lit 2 } }

example : (Sample.endpoint.tail.gamma ==. lit 0) = false ∧ isFin Sample.endpoint.tail.gamma ∧
    1 / 2 ^ 21 ≤ |toQ Sample.endpoint.tail.gamma| ∧ |toQ Sample.endpoint.tail.gamma| ≤ 2 ^ 1000 ∧
    Sample.errOf (spot_probability (codeMath muslFU) Sample.endpoint (lit 6)) = some .floatConv ∧
    Sample.errOf (spot_probability (codeMath muslFU) Sample.endpoint (lit 5)) = none := by decide +kernel

/-- the quantile of 0 is undefined, that of 1/100 is not -/
example : ModerateShape Sample.endpoint.tail.gamma ∧
    Sample.errOf (spot_quantile (codeMath muslFU) Sample.endpoint (lit 0)) = some .floatConv ∧
    Sample.errOf (spot_quantile (codeMath muslFU) Sample.endpoint (lit (1 / 100))) = none :=
  ⟨Or.inr (by decide +kernel), by decide +kernel⟩

/-- the run behind the two next examples: a fit of one value 3/10, then a step of the same value -/
def Sample.constRun : C (List (Out F64) × Spot F64 × Heap F64) :=
  runOps (codeMath muslFU) Sample.init.2.2 Sample.init.2.1 [.fit [lit (3 / 10)] 1, .step (lit (3 / 10))]

/-- The hypotheses of the partial theorem on steps are met: a second step of 3/10 is undefined. -/
example : ∃ s h, Reaches (codeMath muslFU) Sample.lib (lit (1 / 100)) 0 1 (lit (9 / 10)) 20 s h ∧
    s.Nt.toNat ≤ s.n.toNat ∧ s.n.toNat + 1 < 2 ^ 64 ∧ spot_step (codeMath muslFU) h s (lit (3 / 10)) = .error .floatConv := by
  have hok : Sample.errOf Sample.constRun = none := by decide +kernel
  have hc : (match Sample.constRun with
    | .ok r => decide (r.2.1.Nt.toNat ≤ r.2.1.n.toNat ∧ r.2.1.n.toNat + 1 < 2 ^ 64 ∧
        Sample.errOf (spot_step (codeMath muslFU) r.2.2 r.2.1 (lit (3 / 10))) = some .floatConv)
    | .error _ => false) = true := by decide +kernel
  cases hr : Sample.constRun with
  | error e => rw [hr] at hok; cases hok
  | ok r =>
    rw [hr] at hc
    obtain ⟨c1, c2, c3⟩ := of_decide_eq_true hc
    exact ⟨r.2.1, r.2.2, ⟨by decide, by decide, Sample.emptyHeap, Sample.zeroed, by decide +kernel, _, r.1,
      by simp [Op.valid], hr⟩, c1, c2, Sample.errOf_some c3⟩

/-- The hypotheses of the partial theorem on fits are met by the fit of three times 3/10. -/
example : Reaches (codeMath muslFU) Sample.lib (lit (1 / 100)) 0 1 (lit (9 / 10)) 20 Sample.init.2.1 Sample.init.2.2 ∧
    spot_fit (codeMath muslFU) Sample.init.2.2 Sample.init.2.1 [lit (3 / 10), lit (3 / 10), lit (3 / 10)] 3 = .error .floatConv :=
  ⟨⟨by decide, by decide, Sample.emptyHeap, Sample.zeroed, by decide +kernel, [], [], by simp, rfl⟩,
    Sample.errOf_some (by decide +kernel)⟩

end Verif

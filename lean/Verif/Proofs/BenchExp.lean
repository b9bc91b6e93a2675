/-
The argument reduction of the recursive exponential of benchmark/exp_cf_accuracy.c: one reduction brings an argument below 2^64 LOG2 under 10^4 in
magnitude, a second one under LOG2 + 2^-30, a third one between 0 and 2^-30.
-/
import Verif.Model.BenchExp
import Verif.Props.BenchMath
import Verif.Proofs.XexpF64

namespace Verif
open F64

namespace BenchExp

/-- `LOG2` as a rational -/
def L : ℚ := 6243314768165359 / 9007199254740992

theorem L_eq : toQ (LOG2 : F64) = L := LOG2_fin.2

/-- where the quotient by `LOG2` reaches `2^64` -/
theorem quot_range64 {x : F64} (hx : isFin x) (h0 : 0 < toQ x) :
    (toQ x < L * 2 ^ 64 → isFin (x /. LOG2) ∧ toQ (x /. LOG2) = rq (toQ x / L) ∧ toQ (x /. LOG2) < 2 ^ 64) ∧
      (L * 2 ^ 64 ≤ toQ x → ((2 ^ 64 : ℚ) : ℝ) ≤ val (x /. LOG2)) := by
  have l1 := LOG2_fin.1
  have lp : 0 < L := by norm_num [L]
  obtain ⟨z, hz⟩ := div_fin hx l1 (by rw [L_eq]; exact lp.ne')
  change x /. LOG2 = _ at hz
  rw [L_eq] at hz
  have big : (2 : ℚ) ^ 64 ≤ pow2 1023 := le_trans (by norm_num) pow2_big
  have lm : isFin (lit (2 ^ 64) : F64) ∧ toQ (lit (2 ^ 64) : F64) = 2 ^ 64 := by decide +kernel
  constructor
  · intro h
    obtain ⟨k, hk⟩ : ∃ k : Fin finCodes, toQ x = mag k.val := by
      rcases x with _ | _ | ⟨s, k⟩
      · exact absurd hx id
      · exact absurd hx id
      · refine ⟨k, ?_⟩
        rw [← abs_toQ_fin s k, abs_of_pos h0]
    obtain ⟨K, c, hK1, hK2, hc⟩ : ∃ K c : ℕ, mag K = L * 2 ^ 64 ∧ mag (K - 1) / L ≤ mag c ∧ mag c < 2 ^ 64 := by
      refine ⟨0x3FE62E42FEFA39EF + 64 * 2 ^ 52, (0x3FF + 64) * 2 ^ 52 - 1, ?_, ?_, ?_⟩ <;> decide +kernel
    have hkK : mag k.val ≤ mag (K - 1) := by
      rw [hk, ← hK1] at h
      have := mag_lt_iff.mp h
      exact mag_le_iff.mpr (by omega)
    have hq : toQ x / L ≤ mag c := by
      refine le_trans ?_ hK2
      rw [hk]; exact div_le_div_of_nonneg_right hkK lp.le
    have hq0 : 0 ≤ toQ x / L := by positivity
    have hf : |toQ x / L| ≤ pow2 1023 := by rw [abs_of_nonneg hq0]; linarith
    obtain ⟨f1, f2⟩ := fin_ofRat (z := z) hf
    rw [hz]
    refine ⟨f1, f2, ?_⟩
    rw [f2]
    calc rq _ ≤ rq (mag c) := rq_mono hq
      _ = mag c := rq_mag c
      _ < _ := hc
  · intro h
    rw [hz]
    have : val (lit (2 ^ 64) : F64) ≤ val (ofRat z (toQ x / L)) := by
      apply le_ofRat lm.1
      rw [lm.2, le_div_iff₀ lp]; linarith
    rwa [val_fin lm.1, lm.2] at this

/-- an absolute and relative bound of the rounding error -/
theorem rq_u (q : ℚ) : |rq q - q| ≤ |q| / 2 ^ 53 + 1 / 10 ^ 70 := by
  have h := rq_err q
  rw [pow2_m53] at h
  have := pow2_small
  have e : |q| / 2 ^ 53 = 1 / 9007199254740992 * |q| := by norm_num; ring
  rw [e]; linarith

theorem small_lt {q : ℚ} (h : q ≤ 10 ^ 60) : q ≤ pow2 1023 := h.trans pow2_big

/-- one argument reduction -/
theorem reduce {x : F64} (hx : isFin x) (h0 : L < toQ x) (h1 : toQ x < L * 2 ^ 64) :
    ∃ k : UInt64, Bench.toULL (x /. LOG2) = .ok k ∧ isFin (x -. LOG2 *. lit k.toNat) ∧
      |toQ (x -. LOG2 *. lit k.toNat)| ≤ L + toQ x / 2 ^ 51 + 1 / 2 ^ 40 := by
  have lp : (0 : ℚ) < L := by norm_num [L]
  have hL : L < 1 := by norm_num [L]
  obtain ⟨t1, t2, t3⟩ := (quot_range64 hx (by linarith)).1 h1
  have q0 : 0 ≤ toQ x / L := div_nonneg (by linarith) lp.le
  have t0 : 0 ≤ toQ (x /. LOG2) := by rw [t2]; exact rq_nonneg q0
  refine ⟨_, BenchMath.toULL_ok t1 t0 t3, ?_⟩
  have a : 0 ≤ ⌊toQ (x /. LOG2)⌋ := Int.floor_nonneg.mpr t0
  have b : ⌊toQ (x /. LOG2)⌋ < 2 ^ 64 := by rw [Int.floor_lt]; exact_mod_cast t3
  have f1 := Int.floor_le (toQ (x /. LOG2))
  have f2 := Int.lt_floor_add_one (toQ (x /. LOG2))
  obtain ⟨k, hk⟩ := Int.eq_ofNat_of_zero_le a
  rw [hk] at f1 f2 b ⊢
  have hn : (UInt64.ofNat (k : ℤ).toNat).toNat = k := by rw [UInt64.toNat_ofNat']; omega
  rw [hn]
  push_cast at f1 f2
  have hk0 : (0 : ℚ) ≤ k := Nat.cast_nonneg k
  have e1 := rq_u (toQ x / L)
  rw [← t2, abs_of_nonneg q0] at e1
  generalize toQ (x /. LOG2) = t at *
  -- the factor
  obtain ⟨c1, c2⟩ := fin_ofRat (z := false) (q := (k : ℚ)) (by
    rw [abs_of_nonneg hk0]; exact small_lt (by linarith))
  change isFin (lit (k : ℚ) : F64) at c1
  change toQ (lit (k : ℚ) : F64) = _ at c2
  have e2 := rq_u (k : ℚ)
  rw [← c2, abs_of_nonneg hk0] at e2
  have d0 : 0 ≤ toQ (lit (k : ℚ) : F64) := by rw [c2]; exact rq_nonneg hk0
  generalize (lit (k : ℚ) : F64) = c at *
  -- the product
  have e2' := abs_le.mp e2
  have hc : toQ c ≤ 10 ^ 30 := by linarith
  have m0 : 0 ≤ L * toQ c := mul_nonneg lp.le d0
  have m1 : L * toQ c ≤ 10 ^ 30 := by nlinarith
  obtain ⟨p1, p2⟩ := mul_fin' LOG2_fin.1 c1 (by
    rw [L_eq, abs_of_nonneg m0]; exact small_lt (by linarith))
  rw [L_eq] at p2
  have e3 := rq_u (L * toQ c)
  rw [← p2, abs_of_nonneg m0] at e3
  change isFin (LOG2 *. c) at p1
  change |toQ (LOG2 *. c) - _| ≤ _ at e3
  generalize (LOG2 *. c : F64) = p at *
  have e3' := abs_le.mp e3
  have e1' := abs_le.mp e1
  -- the difference
  have hxL : toQ x / L * L = toQ x := div_mul_cancel₀ _ lp.ne'
  generalize toQ x / L = y at *
  have k1 : |toQ x - L * k| ≤ L + toQ x / 2 ^ 53 + 1 / 10 ^ 70 := by
    rw [abs_le, ← hxL]
    constructor <;> nlinarith
  have k2 : |L * k - L * toQ c| ≤ toQ x / 2 ^ 53 + toQ x / 2 ^ 100 + 1 / 10 ^ 60 := by
    rw [abs_le, ← hxL]
    constructor <;> nlinarith
  have k2' := abs_le.mp k2
  have k1' := abs_le.mp k1
  have hd : |toQ x - toQ p| ≤ L + toQ x * (3 / 2 ^ 53 + 1 / 2 ^ 90) + 1 / 2 ^ 45 := by
    rw [abs_le]
    constructor <;> linarith
  have hs := abs_nonneg (toQ x - toQ p)
  obtain ⟨r1, r2⟩ := sub_fin' hx p1 (small_lt (by linarith))
  change isFin (x -. p) at r1
  change toQ (x -. p) = _ at r2
  refine ⟨r1, ?_⟩
  rw [r2]
  have e4 := rq_u (toQ x - toQ p)
  have e5 : |rq (toQ x - toQ p)| ≤ |toQ x - toQ p| + |rq (toQ x - toQ p) - (toQ x - toQ p)| := by
    have := abs_add_le (toQ x - toQ p) (rq (toQ x - toQ p) - (toQ x - toQ p))
    rwa [add_sub_cancel] at this
  linarith

/-- the last reduction -/
theorem reduce_last {x : F64} (hx : isFin x) (h0 : L < toQ x) (h1 : toQ x ≤ L + 1 / 2 ^ 30) :
    ∃ k : UInt64, Bench.toULL (x /. LOG2) = .ok k ∧ isFin (x -. LOG2 *. lit k.toNat) ∧
      0 ≤ toQ (x -. LOG2 *. lit k.toNat) ∧ toQ (x -. LOG2 *. lit k.toNat) ≤ L := by
  have lp : (0 : ℚ) < L := by norm_num [L]
  have hL : L < 1 := by norm_num [L]
  have hL' : 1 / 2 < L := by norm_num [L]
  obtain ⟨t1, t2, t3⟩ := (quot_range64 hx (by linarith)).1 (by linarith)
  have q1 : 1 ≤ toQ x / L := by rw [le_div_iff₀ lp]; linarith
  have q2 : toQ x / L ≤ 1 + 1 / 2 ^ 20 := by rw [div_le_iff₀ lp]; linarith
  have e1 := abs_le.mp (rq_u (toQ x / L))
  rw [abs_of_nonneg (by linarith)] at e1
  have u1 : 1 ≤ toQ (x /. LOG2) := by
    have := rq_mono q1
    rw [t2]
    have h : rq 1 = 1 := rq_rep (by simpa using rep_int (i := 1) (by norm_num))
    rwa [h] at this
  have u2 : toQ (x /. LOG2) < 2 := by rw [t2]; linarith
  have hf : ⌊toQ (x /. LOG2)⌋ = 1 := by
    rw [Int.floor_eq_iff]; constructor <;> push_cast <;> linarith
  refine ⟨_, BenchMath.toULL_ok t1 (by linarith) t3, ?_⟩
  rw [hf]
  have hm : isFin (LOG2 *. lit ((UInt64.ofNat (1 : ℤ).toNat).toNat : ℚ) : F64) ∧
      toQ (LOG2 *. lit ((UInt64.ofNat (1 : ℤ).toNat).toNat : ℚ) : F64) = L := by decide +kernel
  generalize (LOG2 *. lit ((UInt64.ofNat (1 : ℤ).toNat).toNat : ℚ) : F64) = p at *
  obtain ⟨r1, r2⟩ := sub_fin' hx hm.1 (small_lt (by rw [hm.2, abs_of_nonneg (by linarith)]; linarith))
  change isFin (x -. p) at r1
  change toQ (x -. p) = _ at r2
  refine ⟨r1, ?_⟩
  rw [r2, hm.2]
  have h : 0 ≤ toQ x - L := by linarith
  have e4 := abs_le.mp (rq_u (toQ x - L))
  rw [abs_of_nonneg h] at e4
  exact ⟨rq_nonneg h, by linarith⟩

theorem neg_iff {x : F64} (hx : isFin x) : ((x <. lit 0) = true) ↔ toQ x < 0 := by
  have l0 : isFin (lit 0 : F64) ∧ toQ (lit 0 : F64) = 0 := by decide +kernel
  rw [show (x <. lit 0) = true ↔ _ from F64.lt_iff _ _, val_fin hx, val_fin l0.1, ratCast_lt_EReal, l0.2]
  exact ⟨fun h => h.2.2, fun h => ⟨isFin.notNaN hx, isFin.notNaN l0.1, h⟩⟩

theorem gt_iff {x : F64} (hx : isFin x) : ((x >. LOG2) = true) ↔ L < toQ x := by
  rw [show (x >. LOG2) = true ↔ _ from F64.lt_iff _ _, val_fin hx, val_fin LOG2_fin.1, ratCast_lt_EReal, L_eq]
  exact ⟨fun h => h.2.2, fun h => ⟨isFin.notNaN LOG2_fin.1, isFin.notNaN hx, h⟩⟩

variable {cf : F64 → F64}

/-- the calls end with a value -/
def Ends (cf : F64 → F64) (n : ℕ) (x : F64) : Prop := ∃ y, Bench.expDeep cf n x = some (.ok y)

theorem small {n : ℕ} {x : F64} (hx : isFin x) (h0 : 0 ≤ toQ x) (h1 : toQ x ≤ L) : Ends cf (n + 1) x := by
  refine ⟨cf x, ?_⟩
  unfold Bench.expDeep
  rw [if_neg (by rw [neg_iff hx]; linarith), if_neg (by rw [gt_iff hx]; linarith)]

theorem step {n : ℕ} {x : F64} (hx : isFin x) (h0 : L < toQ x) {k : UInt64} (hk : Bench.toULL (x /. LOG2) = .ok k)
    (h : Ends cf n (x -. LOG2 *. lit k.toNat)) : Ends cf (n + 1) x := by
  have lp : (0 : ℚ) < L := by norm_num [L]
  obtain ⟨y, hy⟩ := h
  refine ⟨Bench.setExponent y (Bench.exponentBits y + k), ?_⟩
  unfold Bench.expDeep
  rw [if_neg (by rw [neg_iff hx]; linarith), if_pos (by rw [gt_iff hx]; exact h0), hk]
  simp only [hy]
  rfl

/-- an argument of either sign -/
theorem sign {n : ℕ} {B : ℚ} (h : ∀ x : F64, isFin x → 0 ≤ toQ x → toQ x ≤ B → Ends cf n x)
    (h' : ∀ x : F64, isFin x → 0 ≤ toQ x → toQ x ≤ B → Ends cf (n + 1) x) {x : F64} (hx : isFin x) (hB : |toQ x| ≤ B) : Ends cf (n + 1) x := by
  rcases lt_or_ge (toQ x) 0 with h0 | h0
  · rw [abs_of_neg h0] at hB
    have hn : isFin (-. x) := isFin_neg.mpr hx
    have hq : toQ (-. x) = -toQ x := toQ_neg x
    obtain ⟨y, hy⟩ := h (-. x) hn (by rw [hq]; linarith) (by rw [hq]; exact hB)
    refine ⟨lit 1 /. y, ?_⟩
    unfold Bench.expDeep
    rw [if_pos ((neg_iff hx).mpr h0), hy]
    rfl
  · rw [abs_of_nonneg h0] at hB
    exact h' x hx h0 hB

theorem level1 {n : ℕ} {x : F64} (hx : isFin x) (h0 : 0 ≤ toQ x) (h1 : toQ x ≤ L + 1 / 2 ^ 30) : Ends cf (n + 2) x := by
  rcases le_or_gt (toQ x) L with h | h
  · exact small hx h0 h
  obtain ⟨k, hk, r1, r2, r3⟩ := reduce_last hx h h1
  exact step hx h hk (small r1 r2 r3)

theorem level2 {n : ℕ} {x : F64} (hx : isFin x) (h0 : 0 ≤ toQ x) (h1 : toQ x ≤ 10 ^ 4) : Ends cf (n + 4) x := by
  rcases le_or_gt (toQ x) L with h | h
  · exact small hx h0 h
  obtain ⟨k, hk, r1, r2⟩ := reduce hx h (by norm_num [L]; linarith)
  refine step hx h hk (sign (fun _ a b c => level1 a b c) (fun _ a b c => level1 a b c) r1 (r2.trans ?_))
  linarith

theorem level3 {n : ℕ} {x : F64} (hx : isFin x) (h0 : 0 ≤ toQ x) (h1 : toQ x < L * 2 ^ 64) : Ends cf (n + 6) x := by
  rcases le_or_gt (toQ x) L with h | h
  · exact small hx h0 h
  obtain ⟨k, hk, r1, r2⟩ := reduce hx h h1
  refine step hx h hk (sign (fun _ a b c => level2 a b c) (fun _ a b c => level2 a b c) r1 (r2.trans ?_))
  have hL : L < 1 := by norm_num [L]
  linarith

theorem ends {n : ℕ} {x : F64} (hx : isFin x) (h1 : |toQ x| < L * 2 ^ 64) : Ends cf (n + 7) x :=
  sign (B := |toQ x|) (fun _ a b c => level3 a b (lt_of_le_of_lt c h1)) (fun _ a b c => level3 a b (lt_of_le_of_lt c h1)) hx le_rfl

theorem toULL_big {t : F64} (h : ((2 ^ 64 : ℚ) : ℝ) ≤ val t) : Bench.toULL t = .error .floatConv := by
  unfold Bench.toULL
  by_cases ht : isFin t
  · rw [val_fin ht] at h
    have h2 : (2 : ℚ) ^ 64 ≤ toQ t := by
      have h3 : ((2 ^ 64 : ℚ) : ℝ) ≤ ((toQ t : ℚ) : ℝ) := EReal.coe_le_coe_iff.mp h
      exact_mod_cast h3
    have h0 : (0 : ℚ) ≤ toQ t := le_trans (by norm_num) h2
    rw [trunc_pos ht h0]
    have : (2 : ℤ) ^ 64 ≤ ⌊toQ t⌋ := by rw [Int.le_floor]; exact_mod_cast h2
    simp only [if_neg (show ¬(0 ≤ ⌊toQ t⌋ ∧ ⌊toQ t⌋ < 2 ^ 64) by omega)]
  · rcases t with _ | _ | _
    · rfl
    · rfl
    · exact absurd trivial ht

/-- arguments whose quotient does not fit -/
theorem big_pos {n : ℕ} {x : F64} (hx : notNaN x) (h : ((L * 2 ^ 64 : ℚ) : ℝ) ≤ val x) : Bench.expDeep cf (n + 1) x = some (.error .floatConv) := by
  have lp : (0 : ℚ) < L := by norm_num [L]
  unfold Bench.expDeep
  rcases x with _ | s | ⟨s, k⟩
  · exact absurd rfl hx
  · cases s with
    | false =>
      rw [if_neg (by decide +kernel), if_pos (by decide +kernel), show Bench.toULL ((inf false : F64) /. LOG2) = .error .floatConv by decide +kernel]
    | true =>
      exfalso
      have : val (inf true) = ⊥ := rfl
      rw [this] at h
      exact absurd (le_bot_iff.mp h) (EReal.coe_ne_bot _)
  · have hx : isFin (fin s k) := trivial
    generalize (fin s k : F64) = x at *
    rw [val_fin hx] at h
    have h2 : L * 2 ^ 64 ≤ toQ x := by
      have h3 : ((L * 2 ^ 64 : ℚ) : ℝ) ≤ ((toQ x : ℚ) : ℝ) := EReal.coe_le_coe_iff.mp h
      exact_mod_cast h3
    have h0 : L < toQ x := lt_of_lt_of_le (by norm_num [L]) h2
    rw [if_neg (by rw [neg_iff hx]; linarith), if_pos ((gt_iff hx).mpr h0), toULL_big ((quot_range64 hx (by linarith)).2 h2)]

end BenchExp
end Verif

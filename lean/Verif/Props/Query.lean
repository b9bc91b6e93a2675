/-
C148: questions without an answer.
-/
import Verif.Props.Side
import Verif.Props.Quiet
import Verif.Props.PyObject

namespace Verif
open F64

namespace Query

theorem mul_nan' (y : F64) : y *. nan = nan := by cases y <;> rfl
theorem nan_mul' (y : F64) : nan *. y = nan := by cases y <;> rfl
theorem add_nan' (y : F64) : y +. nan = nan := by cases y <;> rfl
theorem nan_div' (y : F64) : nan /. y = nan := by cases y <;> rfl

/-- a negative number divided by a number of [0, 1] is negative, or NaN -/
theorem neg_div {q s : F64} (hq : F64.lt q (lit 0) = true) (hs : isFin s) (h0 : 0 ≤ toQ s) (h1 : toQ s ≤ 1) :
    ¬ (isFin (q /. s) ∧ 0 ≤ toQ (q /. s)) := by
  rintro ⟨hf, hn⟩
  have z := toQ_of_lit0
  obtain ⟨qn, -, ql⟩ := (F64.lt_iff _ _).mp hq
  rw [val_fin z.1, z.2] at ql
  rcases hs0 : h0.lt_or_eq with hp | hp
  · by_cases qf : isFin q
    · rw [val_fin qf, ratCast_lt_EReal] at ql
      obtain ⟨b, hb⟩ := div_fin qf hs hp.ne'
      have hle : toQ q / toQ s ≤ toQ q := by
        rw [div_le_iff₀ hp]; nlinarith
      have := ofRat_le (z := b) qf hle
      change isFin (div q s) at hf
      change 0 ≤ toQ (div q s) at hn
      rw [hb] at hf hn
      rw [val_fin hf, val_fin qf] at this
      have : toQ (ofRat b (toQ q / toQ s)) ≤ toQ q := by exact_mod_cast this
      linarith
    · rcases q with _ | t | ⟨t, k⟩
      · exact qn rfl
      · rcases s with _ | u | ⟨u, m⟩
        · exact hs
        · exact hs
        · exact hf
      · exact qf trivial
  · rcases s with _ | u | ⟨u, m⟩
    · exact hs
    · exact hs
    have hm : m.val = 0 := toQ_eq_zero.mp hp.symm
    have hz : fin u m = zero u := by
      unfold zero; congr 1; exact Fin.ext hm
    rw [hz] at hf
    rcases q with _ | t | ⟨t, k⟩
    · exact hf
    · exact hf
    · change isFin (F64.div (fin t k) (F64.fin u ⟨0, by decide⟩)) at hf
      unfold F64.div at hf
      dsimp only at hf
      rw [if_pos rfl] at hf
      split at hf <;> exact hf

/-- the proportion of excesses is NaN or lies in [0, 1] -/
theorem proportion {N n : ℕ} (h : N ≤ n) (hn : n < 2 ^ 64) :
    (lit (N : ℚ) /. lit (n : ℚ) : F64) = nan ∨ isFin (lit (N : ℚ) /. lit (n : ℚ) : F64) ∧
      0 ≤ toQ (lit (N : ℚ) /. lit (n : ℚ) : F64) ∧ toQ (lit (N : ℚ) /. lit (n : ℚ) : F64) ≤ 1 := by
  rcases Nat.eq_zero_or_pos n with h0 | h0
  · left
    have : N = 0 := by omega
    subst h0 this
    decide +kernel
  right
  obtain ⟨a1, a2⟩ := Quiet.lit_nat64 (h.trans_lt hn)
  obtain ⟨b1, b2⟩ := Quiet.lit_nat64 hn
  have one : rq 1 = 1 := by have := rq_rep (rep_int (i := 1) (by norm_num)); simpa using this
  have zr : rq 0 = 0 := by have := rq_rep (rep_int (i := 0) (by norm_num)); simpa using this
  have p1 : 1 ≤ rq n := by
    have : rq 1 ≤ rq n := rq_mono (by exact_mod_cast h0)
    rwa [one] at this
  have p2 : rq N ≤ rq n := rq_mono (by exact_mod_cast h)
  have p3 : 0 ≤ rq N := by
    have : rq 0 ≤ rq N := rq_mono (by positivity)
    rwa [zr] at this
  have q1 : 0 ≤ rq N / rq n := by positivity
  have q2 : rq N / rq n ≤ 1 := by rw [div_le_one (by linarith)]; exact p2
  obtain ⟨c1, c2⟩ := div_fin' a1 b1 (by rw [b2]; linarith) (by
    rw [a2, b2, abs_of_nonneg q1]
    exact q2.trans (by rw [pow2_eq]; exact one_le_zpow₀ (by norm_num) (by norm_num)))
  rw [a2, b2] at c2
  refine ⟨c1, ?_, ?_⟩
  · change 0 ≤ toQ (div _ _)
    rw [c2, ← zr]; exact rq_mono q1
  · change toQ (div _ _) ≤ 1
    rw [c2]
    have := rq_mono q2
    rwa [one] at this

end Query
open Query

/-- Asked for NaN, `spot_quantile` and `spot_probability` answer NaN, in every state of the detector (fitted or not). -/
theorem C148_nan (lib : Lib F64) (s : Spot F64) :
    spot_quantile (codeMath lib.fu) s nan = .ok nan ∧ spot_probability (codeMath lib.fu) s nan = .ok nan := by
  have hl : (codeMath lib.fu).log nan = nan := rfl
  have he : (codeMath lib.fu).exp nan = .ok nan := rfl
  constructor
  · unfold spot_quantile
    dsimp only
    rw [Py.tail_quantile_nan _ _ _ _ (nan_div' _)]
    simp only [C.ok_bind, mul_nan', add_nan']
  · unfold spot_probability
    have h1 : s.up_down *. (nan -. s.excess_threshold) = nan := by
      rw [show (nan -. s.excess_threshold : F64) = nan from nan_sub _, mul_nan']
    dsimp only
    rw [h1]
    unfold tail_probability
    split
    · have h2 : (-. (nan : F64)) /. s.tail.sigma = nan := nan_div' _
      rw [h2, he]
      simp only [C.ok_bind, mul_nan']
    · have h2 : (lit 1 : F64) +. nan *. (s.tail.gamma /. s.tail.sigma) = nan := by rw [nan_mul', add_nan']
      unfold xpow
      simp only [h2, hl, mul_nan', he, C.ok_bind]

/-- The full statement is that every number that is no probability is answered by NaN. Here: negative numbers, -∞ included, whenever there
are not more excesses than observations. Missing: numbers above 1 (C148_false). -/
theorem C148_partial (s : Spot F64) (hN : s.Nt ≤ s.n) (q : F64) (hq : F64.lt q (lit 0) = true) :
    spot_quantile (codeMath muslFU) s q = .ok nan := by
  have hlog : (codeMath muslFU).log (q /. (lit (s.Nt.toNat : ℚ) /. lit (s.n.toNat : ℚ))) = nan := by
    refine xlog_nan_of ?_
    rcases proportion (UInt64.le_iff_toNat_le.mp hN) s.n.toNat_lt with h | ⟨h1, h2, h3⟩
    · rw [h]
      rintro ⟨hf, -⟩
      rcases q with _ | t | ⟨t, k⟩ <;> exact hf
    · exact neg_div hq h1 h2 h3
  have he : (codeMath muslFU).exp nan = .ok nan := rfl
  unfold spot_quantile tail_quantile
  dsimp only
  split
  · simp only [hlog, mul_nan', C.ok_bind, add_nan']
  · unfold xpow
    simp only [hlog, mul_nan', he, C.ok_bind, show (nan : F64) -. lit 1 = nan from rfl, add_nan']

/-- After a fit and any further steps and queries, fewer than 2^64 values in all, there are not more excesses than observations. -/
theorem C148_reached (lib : Lib F64) (q level : F64) (low disc : ℤ) (me : UInt64) (s : Spot F64) (h : Heap F64)
    (R : Reaches (codeMath lib.fu) lib q low disc level me s h) (data : List F64) (size : UInt64)
    (hsz : size.toNat ≤ data.length) (r : ℤ) (s1 : Spot F64) (h1 : Heap F64)
    (hfit : spot_fit (codeMath lib.fu) h s data size = .ok (r, s1, h1)) (hr : r ≠ -1003)
    (ops : List (Op F64)) (hops : ∀ op ∈ ops, op.notFit) (outs : List (Out F64)) (s2 : Spot F64) (h2 : Heap F64)
    (hrun : runOps (codeMath lib.fu) h1 s1 ops = .ok (outs, s2, h2)) (hb : size.toNat + outs.length < 2 ^ 64) : s2.Nt ≤ s2.n := by
  obtain ⟨-, -, e1, e2⟩ := C31_counters lib q level low disc me s h R data size hsz r s1 h1 hfit hr ops hops outs s2 h2 hrun
  have c1 : outs.countP (fun o => o = .code 1) ≤ outs.countP (fun o => o = .code 0 ∨ o = .code 1) :=
    List.countP_mono_left fun o _ ho => by simp only [decide_eq_true_eq] at ho ⊢; exact .inr ho
  have c2 : outs.countP (fun o => decide (o = .code 0 ∨ o = .code 1)) ≤ outs.length := List.countP_le_length
  have c3 : (Spec.beyond low s1.excess_threshold (data.take size.toNat)).length ≤ size.toNat := by
    unfold Spec.beyond
    exact (List.length_filter_le _ _).trans (by rw [List.length_take]; exact min_le_left _ _)
  rw [UInt64.le_iff_toNat_le, e1, e2, UInt64.toNat_add, UInt64.toNat_add, UInt64.toNat_ofNat', UInt64.toNat_ofNat', UInt64.toNat_ofNat',
    Nat.mod_eq_of_lt (a := (Spec.beyond low s1.excess_threshold (data.take size.toNat)).length) (by omega),
    Nat.mod_eq_of_lt (a := outs.countP (fun o => decide (o = .code 1))) (by omega),
    Nat.mod_eq_of_lt (a := outs.countP (fun o => decide (o = .code 0 ∨ o = .code 1))) (by omega),
    Nat.mod_eq_of_lt (by omega), Nat.mod_eq_of_lt (by omega)]
  omega

/-- False of the code: after the fit of the value 1 the quantile of 2, which is not a probability, is a finite number below the excess threshold. -/
theorem C148_false : ∃ (ops : List (Op F64)) (outs : List (Out F64)) (s : Spot F64) (h : Heap F64) (z : F64),
    Sample.init.1 = 0 ∧ (∀ op ∈ ops, op.valid) ∧ runOps (codeMath muslFU) Sample.init.2.2 Sample.init.2.1 ops = .ok (outs, s, h) ∧
    FittedF64 s ((0 : ℤ) ≠ 0) ∧ spot_quantile (codeMath muslFU) s (lit 2) = .ok z ∧ isFin z ∧ toQ z < toQ s.excess_threshold := by
  obtain ⟨outs, s, h, hr, F, ht⟩ := Sample.after [.fit [lit 1] 1]
    (fun s => match spot_quantile (codeMath muslFU) s (lit 2) with
      | .ok z => decide (isFin z) && decide (toQ z < toQ s.excess_threshold)
      | .error _ => false) (by decide +kernel)
  cases hz : spot_quantile (codeMath muslFU) s (lit 2) with
  | error e => simp only [hz] at ht; cases ht
  | ok z =>
    simp only [hz, Bool.and_eq_true, decide_eq_true_eq] at ht
    exact ⟨_, outs, s, h, z, by decide +kernel, by simp [Op.valid], hr, F, hz, ht.1, ht.2⟩

/-- a fitted state with an excess, where quantiles of probabilities are numbers and those of -1/2 and -∞ are NaN -/
example : (runOps (codeMath muslFU) Sample.heap Sample.spot Sample.ops).map (fun r => (decide (r.2.1.Nt ≤ r.2.1.n),
      (spot_quantile (codeMath muslFU) r.2.1 (lit (1 / 4))).map (fun z => decide (isFin z)),
      spot_quantile (codeMath muslFU) r.2.1 (lit (-1 / 2)), spot_quantile (codeMath muslFU) r.2.1 (inf true))) =
    .ok (true, .ok true, .ok nan, .ok nan) := by decide +kernel

end Verif

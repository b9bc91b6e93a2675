/-
C120-C122: the continued fractions of the mathematical functions at every depth, and the program that measures the quantile estimator.
-/
import Verif.Model.Benchmark
import Verif.Proofs.LogFraction
import Verif.Proofs.ExpFraction
import Verif.Proofs.XmathXR
import Verif.Proofs.P2
import Verif.Props.P2

namespace Verif
open XR

/-! ### C120: the logarithm -/

theorem bench_logK {z : ℝ} (hz : -1 < z) (n : ℕ) (m : UInt32) (h : m.toNat + n < 2 ^ 32) :
    Bench.logK (fin z) n m = fin (Spec.logK z n m.toNat) := by
  induction n generalizing m with
  | zero => simp [Bench.logK, Spec.logK, XR.lit_fin]
  | succ n ih =>
    have e : (m + 1).toNat = m.toNat + 1 := by
      rw [UInt32.toNat_add]
      show (m.toNat + 1) % 2 ^ 32 = _
      omega
    have hT := (LogFraction.T_pos hz n m.toNat).ne'
    unfold LogFraction.T at hT
    unfold Bench.logK Spec.logK
    rw [ih (m + 1) (by omega), e]
    dsimp only
    simp only [XR.lit_fin, XR.neg_f, XR.mul_ff, XR.add_ff]
    push_cast
    have hT' : ((m.toNat : ℝ) + m.toNat + 1) * (2 + z) + Spec.logK z n (m.toNat + 1) ≠ 0 := by
      convert hT using 2
      ring
    rw [XR.div_ff hT']
    congr 2
    · ring
    · ring

theorem bench_log_cf {x : ℝ} (hx : 0 < x) (d : UInt32) (hd : 1 ≤ d.toNat) :
    Bench.log_cf (fin x) d = fin (Spec.logCF x d.toNat) := by
  have hz : -1 < x - 1 := by linarith
  have e : (d - 1).toNat = d.toNat - 1 := by
    rw [UInt32.toNat_sub_of_le]
    · rfl
    · exact hd
  have hT := (LogFraction.T_pos hz (d.toNat - 1) 0).ne'
  unfold LogFraction.T at hT
  unfold Bench.log_cf Spec.logCF
  dsimp only
  have e1 : (fin x -. lit 1 : XR) = fin (x - 1) := by rw [XR.lit_fin, XR.sub_ff]; norm_num
  rw [e1, e, bench_logK hz (d.toNat - 1) 1 (by have := d.toNat_lt; show 1 + (d.toNat - 1) < 2 ^ 32; omega)]
  simp only [XR.lit_fin, XR.mul_ff, XR.add_ff]
  have hT' : ((2 : ℚ) : ℝ) + (x - 1) + Spec.logK (x - 1) (d.toNat - 1) (1 : UInt32).toNat ≠ 0 := by
    have e2 : (1 : UInt32).toNat = 0 + 1 := rfl
    rw [e2]
    push_cast at hT ⊢
    intro h0
    exact hT (by linarith)
  rw [XR.div_ff hT']
  push_cast
  rfl

/-- **C120** (first part). In exact arithmetic the recursive continued fraction that the documentation gives for the logarithm, and that
benchmark/log_cf_accuracy.c computes, is defined for every positive number and every depth, lies between 0 and the logarithm, and its relative
error is at most `d ρ^(d-1) (√x - 1)² / (2 √x)` with `ρ = ((√x - 1) / (√x + 1))²`. -/
theorem C120_fraction (x : ℝ) (hx : 0 < x) (d : UInt32) (hd : 1 ≤ d.toNat) :
    ∃ r : ℝ, Bench.log_cf (fin x) d = fin r ∧ r = Spec.logCF x d.toNat ∧
      |r - Real.log x| ≤ d.toNat * (((√x - 1) / (√x + 1)) ^ 2) ^ (d.toNat - 1) * ((√x - 1) ^ 2 / (2 * √x)) * |Real.log x| ∧
      (1 < x → 0 < r ∧ r < Real.log x) ∧ (x < 1 → Real.log x < r ∧ r < 0) := by
  refine ⟨_, bench_log_cf hx d hd, rfl, ?_, ?_⟩
  · obtain ⟨k, hk⟩ : ∃ k, d.toNat = k + 1 := ⟨d.toNat - 1, by omega⟩
    rw [hk, Nat.add_sub_cancel]
    have := LogFraction.logCF_err hx k
    push_cast
    exact this
  · obtain ⟨k, hk⟩ : ∃ k, d.toNat = k + 1 := ⟨d.toNat - 1, by omega⟩
    have hz : -1 < x - 1 := by linarith
    have hc := LogFraction.c_pos hz 0
    have hT := LogFraction.T_pos hz k 0
    rw [hk, LogFraction.logCF_eq, LogFraction.log_eq hx]
    refine ⟨fun h => ⟨div_pos (by linarith) hT, ?_⟩, fun h => ⟨?_, div_neg_of_neg_of_pos (by linarith) hT⟩⟩
    · exact div_lt_div_of_pos_left (by linarith) hc (LogFraction.T_strict hz (by linarith) k 0)
    · have := div_lt_div_of_pos_left (a := 2 * (1 - x)) (by linarith) hc (LogFraction.T_strict hz (by linarith) k 0)
      have e1 : 2 * (x - 1) / LogFraction.c (x - 1) 0 = -(2 * (1 - x) / LogFraction.c (x - 1) 0) := by ring
      have e2 : 2 * (x - 1) / LogFraction.T (x - 1) k 0 = -(2 * (1 - x) / LogFraction.T (x - 1) k 0) := by ring
      rw [e1, e2]
      linarith

/-- **C120** (second part). A greater depth is strictly more accurate, and the fraction converges to the logarithm. -/
theorem C120_depth (x : ℝ) (hx : 0 < x) :
    (∀ d, 1 ≤ d → x ≠ 1 → |Spec.logCF x (d + 1) - Real.log x| < |Spec.logCF x d - Real.log x|) ∧
    Filter.Tendsto (Spec.logCF x) Filter.atTop (nhds (Real.log x)) := by
  have hz : -1 < x - 1 := by linarith
  have hc := LogFraction.c_pos hz 0
  constructor
  · intro d hd h1
    obtain ⟨k, rfl⟩ : ∃ k, d = k + 1 := ⟨d - 1, by omega⟩
    have hn : x - 1 ≠ 0 := sub_ne_zero.mpr h1
    have hp : 0 < |2 * (x - 1)| := abs_pos.mpr (mul_ne_zero two_ne_zero hn)
    have t : ∀ n, |Spec.logCF x (n + 1) - Real.log x| = |2 * (x - 1)| * (1 / LogFraction.c (x - 1) 0 - 1 / LogFraction.T (x - 1) n 0) := by
      intro n
      have h := LogFraction.T_strict hz hn n 0
      have := one_div_lt_one_div_of_lt hc h
      rw [LogFraction.logCF_eq, LogFraction.log_eq hx, abs_sub_comm,
        show 2 * (x - 1) / LogFraction.c (x - 1) 0 - 2 * (x - 1) / LogFraction.T (x - 1) n 0 =
          2 * (x - 1) * (1 / LogFraction.c (x - 1) 0 - 1 / LogFraction.T (x - 1) n 0) by ring, abs_mul,
        abs_of_pos (sub_pos.mpr this)]
    rw [t (k + 1), t k]
    refine mul_lt_mul_of_pos_left ?_ hp
    have := one_div_lt_one_div_of_lt (LogFraction.T_pos hz (k + 1) 0) (LogFraction.T_anti hz hn k 0)
    linarith
  · rw [← Filter.tendsto_add_atTop_iff_nat 1, tendsto_iff_norm_sub_tendsto_zero]
    have hs0 : 0 < √x := Real.sqrt_pos.mpr hx
    have hr : ((√x - 1) / (√x + 1)) ^ 2 < 1 := by
      rw [div_pow, div_lt_one (by positivity)]
      nlinarith
    have h0 : 0 ≤ ((√x - 1) / (√x + 1)) ^ 2 := by positivity
    have a1 := tendsto_self_mul_const_pow_of_lt_one h0 hr
    have a2 := tendsto_pow_atTop_nhds_zero_of_lt_one h0 hr
    have a3 := ((a1.add a2).mul_const ((√x - 1) ^ 2 / (2 * √x))).mul_const |Real.log x|
    rw [add_zero, zero_mul, zero_mul] at a3
    refine squeeze_zero (fun _ => norm_nonneg _) (fun d => ?_) a3
    refine (LogFraction.logCF_err hx d).trans (le_of_eq ?_)
    ring

/-- **C120** (third part). The unrolled fraction of src/xmath.c is the one of depth 11. -/
theorem C120_code (x : ℝ) (hx : 0 < x) : log_cf_11 (fin x) = fin (Spec.logCF x 11) := by
  rw [log_cf_X hx.le]
  congr 1
  unfold LogCF.logCF Spec.logCF
  congr 1
  simp only [Spec.logK, LogCF.d1, LogCF.d2, LogCF.d3, LogCF.d4, LogCF.d5, LogCF.d6, LogCF.d7, LogCF.d8, LogCF.d9, LogCF.d10, LogCF.d11]
  push_cast
  ring_nf

/-- **C120** (fourth part). At depth 11 the relative error is below 4.1e-16 for all numbers between 1/2 and 2, the maximum that the
documentation reports for this depth. -/
theorem C120_octave (x : ℝ) (h1 : 1 / 2 ≤ x) (h2 : x ≤ 2) : |Spec.logCF x 11 - Real.log x| ≤ 4.1 / 10 ^ 16 * |Real.log x| := by
  have hx : 0 < x := by linarith
  refine (LogFraction.logCF_err hx 10).trans (mul_le_mul_of_nonneg_right ?_ (abs_nonneg _))
  have hs : √x ^ 2 = x := Real.sq_sqrt hx.le
  have hs0 : 0 < √x := Real.sqrt_pos.mpr hx
  have u : √x ≤ 1.41422 := by
    rw [show (1.41422 : ℝ) = √(1.41422 ^ 2) by rw [Real.sqrt_sq (by norm_num)]]
    exact Real.sqrt_le_sqrt (by norm_num; linarith)
  have l : 0.7071 ≤ √x := by
    rw [show (0.7071 : ℝ) = √(0.7071 ^ 2) by rw [Real.sqrt_sq (by norm_num)]]
    exact Real.sqrt_le_sqrt (by norm_num; linarith)
  generalize √x = s at *
  have b1 : ((s - 1) / (s + 1)) ^ 2 ≤ 0.1716 ^ 2 := by
    have : |(s - 1) / (s + 1)| ≤ 0.1716 := by
      rw [abs_div, abs_of_pos (by linarith : 0 < s + 1), div_le_iff₀ (by linarith), abs_le]
      constructor <;> linarith
    rw [← sq_abs]
    exact pow_le_pow_left₀ (abs_nonneg _) this 2
  have b2 : (s - 1) ^ 2 / (2 * s) ≤ 0.0608 := by
    rw [div_le_iff₀ (by linarith)]
    nlinarith
  have b3 := pow_le_pow_left₀ (by positivity) b1 10
  calc (((10 : ℕ) : ℝ) + 1) * (((s - 1) / (s + 1)) ^ 2) ^ 10 * ((s - 1) ^ 2 / (2 * s))
      ≤ (((10 : ℕ) : ℝ) + 1) * (0.1716 ^ 2) ^ 10 * 0.0608 :=
        mul_le_mul (mul_le_mul_of_nonneg_left b3 (by positivity)) b2 (by positivity) (by positivity)
    _ ≤ _ := by norm_num

example : (1 : ℕ) ≤ (11 : UInt32).toNat ∧ (0 : ℝ) < 3 := ⟨by decide, by norm_num⟩

/-! ### C121: the exponential -/

theorem bench_expK (z : ℝ) (n : ℕ) (m : UInt32) (h1 : 1 ≤ m.toNat) (h : m.toNat + n < 2 ^ 31) :
    Bench.expK (fin (z * z)) n m = fin (Spec.expK (z * z) n m.toNat) := by
  induction n generalizing m with
  | zero => simp [Bench.expK, Spec.expK, XR.lit_fin]
  | succ n ih =>
    have e : (m + 1).toNat = m.toNat + 1 := by
      rw [UInt32.toNat_add]
      show (m.toNat + 1) % 2 ^ 32 = _
      omega
    have e2 : (2 * m).toNat = 2 * m.toNat := by
      rw [UInt32.toNat_mul]
      show (2 * m.toNat) % 2 ^ 32 = _
      omega
    have hG : 1 + Spec.expK (z * z) n (m.toNat + 1) ≠ 0 := by
      have := ExpFraction.G_one z n m.toNat
      unfold ExpFraction.G at this
      linarith
    have hm : (1 : ℝ) ≤ m.toNat := by exact_mod_cast h1
    have ha : (4 : ℝ) * (2 * m.toNat - 1) * (2 * m.toNat + 1) ≠ 0 := by
      have : (0 : ℝ) < 2 * m.toNat - 1 := by linarith
      positivity
    unfold Bench.expK Spec.expK
    rw [ih (m + 1) (by omega) (by omega), e, e2]
    dsimp only
    simp only [XR.lit_fin, XR.sub_ff, XR.mul_ff, XR.add_ff]
    push_cast
    rw [XR.div_ff ha, XR.mul_ff, XR.div_ff hG]
    congr 1
    field_simp

theorem bench_exp_cf {z : ℝ} (hz : z < 2) (d : UInt32) (hd : 1 ≤ d.toNat) (hd2 : d.toNat < 2 ^ 31) :
    Bench.exp_cf (fin z) d = fin (Spec.expCF z d.toNat) := by
  have e : (d - 1).toNat = d.toNat - 1 := by
    rw [UInt32.toNat_sub_of_le]
    · rfl
    · exact hd
  have hG := ExpFraction.G_one z (d.toNat - 1) 0
  unfold ExpFraction.G at hG
  unfold Bench.exp_cf Spec.expCF
  dsimp only
  rw [XR.mul_ff z z, e, bench_expK z (d.toNat - 1) 1 (by decide) (by show 1 + (d.toNat - 1) < 2 ^ 31; omega)]
  simp only [XR.lit_fin, XR.mul_ff, XR.add_ff, XR.sub_ff]
  have hT' : ((2 : ℚ) : ℝ) - z + ((2 : ℚ) : ℝ) * Spec.expK (z * z) (d.toNat - 1) (1 : UInt32).toNat ≠ 0 := by
    have : 1 ≤ 1 + Spec.expK (z * z) (d.toNat - 1) (1 : UInt32).toNat := hG
    push_cast
    linarith
  rw [XR.div_ff hT', XR.add_ff]
  push_cast
  rfl

/-- **C121** (first part). In exact arithmetic the recursive continued fraction that the documentation gives for the exponential, and that
benchmark/exp_cf_accuracy.c computes, is defined for every number below 2; on [-1, 1] its relative error is at most
`8 |z| ∏ z² / (4 (2j + 1) (2j + 3))`, `j` from 0 to `d - 1`. -/
theorem C121_fraction (z : ℝ) (hz : z < 2) (d : UInt32) (hd : 1 ≤ d.toNat) (hd2 : d.toNat < 2 ^ 31) :
    ∃ r : ℝ, Bench.exp_cf (fin z) d = fin r ∧ r = Spec.expCF z d.toNat ∧
      (|z| ≤ 1 → |r - Real.exp z| ≤ 8 * |z| * (∏ j ∈ Finset.range d.toNat, z ^ 2 / (4 * (2 * j + 1) * (2 * j + 3))) * Real.exp z) := by
  refine ⟨_, bench_exp_cf hz d hd hd2, rfl, fun h => ?_⟩
  obtain ⟨k, hk⟩ : ∃ k, d.toNat = k + 1 := ⟨d.toNat - 1, by omega⟩
  have hP : ∀ k m : ℕ, ExpFraction.P z k m = ∏ j ∈ Finset.range k, z ^ 2 / (4 * (2 * ((m + j : ℕ) : ℝ) + 1) * (2 * ((m + j : ℕ) : ℝ) + 3)) := by
    intro k
    induction k with
    | zero => intro m; simp [ExpFraction.P]
    | succ k ih =>
      intro m
      rw [Finset.prod_range_succ', ExpFraction.P, ih (m + 1), mul_comm]
      congr 1
      refine Finset.prod_congr rfl fun j _ => ?_
      rw [show m + 1 + j = m + (j + 1) by omega]
  have := ExpFraction.expCF_err h k
  rw [hP] at this
  simp only [Nat.zero_add] at this
  rw [hk]
  exact this

/-- **C121** (second part). The fraction converges to the exponential, for every number. -/
theorem C121_limit (z : ℝ) : Filter.Tendsto (Spec.expCF z) Filter.atTop (nhds (Real.exp z)) := ExpFraction.expCF_tendsto z

/-- **C121** (third part). The unrolled fraction of src/xmath.c is the one of depth 6. -/
theorem C121_code (z : ℝ) (hz : z < 2) : exp_cf_6 (fin z) = fin (Spec.expCF z 6) := by
  rw [exp_cf_X hz]
  congr 1
  unfold ExpCF.expCF Spec.expCF
  have p : ∀ n m, 1 + Spec.expK (z * z) n (m + 1) ≠ 0 := fun n m => by
    have := ExpFraction.G_one z n m
    unfold ExpFraction.G at this
    linarith
  have q0 : Spec.expK (z * z) 0 6 = 0 := rfl
  have q1 : Spec.expK (z * z) 1 5 = z * z / 396 := by
    simp only [Spec.expK]; push_cast; norm_num
  have w5 : ExpCF.w5 z = 252 * (1 + Spec.expK (z * z) 1 5) := by
    rw [q1]; unfold ExpCF.w5; ring
  have w4 : ExpCF.w4 z = 140 * (1 + Spec.expK (z * z) 2 4) := by
    have := p 1 4
    rw [show Spec.expK (z * z) 2 4 = z * z / (4 * (2 * ((4 : ℕ) : ℝ) - 1) * (2 * ((4 : ℕ) : ℝ) + 1) * (1 + Spec.expK (z * z) 1 5)) from rfl]
    unfold ExpCF.w4
    rw [w5]
    push_cast
    field_simp
    ring
  have w3 : ExpCF.w3 z = 60 * (1 + Spec.expK (z * z) 3 3) := by
    have := p 2 3
    rw [show Spec.expK (z * z) 3 3 = z * z / (4 * (2 * ((3 : ℕ) : ℝ) - 1) * (2 * ((3 : ℕ) : ℝ) + 1) * (1 + Spec.expK (z * z) 2 4)) from rfl]
    unfold ExpCF.w3
    rw [w4]
    push_cast
    field_simp
    ring
  have w2 : ExpCF.w2 z = 12 * (1 + Spec.expK (z * z) 4 2) := by
    have := p 3 2
    rw [show Spec.expK (z * z) 4 2 = z * z / (4 * (2 * ((2 : ℕ) : ℝ) - 1) * (2 * ((2 : ℕ) : ℝ) + 1) * (1 + Spec.expK (z * z) 3 3)) from rfl]
    unfold ExpCF.w2
    rw [w3]
    push_cast
    field_simp
    ring
  have w1 : ExpCF.w1 z = 2 - z + 2 * Spec.expK (z * z) 5 1 := by
    have := p 4 1
    rw [show Spec.expK (z * z) 5 1 = z * z / (4 * (2 * ((1 : ℕ) : ℝ) - 1) * (2 * ((1 : ℕ) : ℝ) + 1) * (1 + Spec.expK (z * z) 4 2)) from rfl]
    unfold ExpCF.w1
    rw [w2]
    push_cast
    field_simp
    ring
  rw [w1]
  ring

example : (1 : ℕ) ≤ (6 : UInt32).toNat ∧ (6 : UInt32).toNat < 2 ^ 31 ∧ (1 / 2 : ℝ) < 2 := ⟨by decide, by decide, by norm_num⟩

/-! ### C123: the reported maximum relative error -/

theorem relative_step (e a : ℝ → ℝ) (x r : ℝ) (he : e x ≠ 0) :
    (if !((fin (e x) : XR) ==. lit 0) then
      (if (((fin (a x) : XR) -. fin (e x)) /. fin (e x)) >. fin r then ((fin (a x) : XR) -. fin (e x)) /. fin (e x) else fin r)
    else fin r) = fin (max r ((a x - e x) / e x)) := by
  have h : ((fin (e x) : XR) ==. lit 0) = false := by
    rw [XR.lit_fin, XR.eq_ff]
    simpa using he
  rw [h, XR.sub_ff, XR.div_ff he]
  simp only [Bool.not_false, if_true]
  rw [XR.lt_ff]
  by_cases hr : r < (a x - e x) / e x
  · rw [if_pos (by simpa using hr), max_eq_right hr.le]
  · rw [if_neg (by simpa using hr), max_eq_left (not_lt.mp hr)]

theorem relative_fold (f g : XR → XR) (e a : ℝ → ℝ) (xs : List ℝ) (hf : ∀ x ∈ xs, f (fin x) = fin (e x)) (hg : ∀ x ∈ xs, g (fin x) = fin (a x))
    (he : ∀ x ∈ xs, e x ≠ 0) :
    Bench.relative f g (xs.map fin) = fin (xs.foldl (fun r x => max r ((a x - e x) / e x)) 0) := by
  unfold Bench.relative
  have h0 : (lit 0 : XR) = fin 0 := by rw [XR.lit_fin]; norm_num
  suffices H : ∀ r : ℝ, (xs.map fin).foldl (fun r x =>
      if !(f x ==. lit 0) then
        let relative_err := (g x -. f x) /. f x
        if relative_err >. r then relative_err else r
      else r) (fin r) = fin (xs.foldl (fun r x => max r ((a x - e x) / e x)) r) by
    rw [← H, ← h0]
  intro r
  induction xs generalizing r with
  | nil => rfl
  | cons x l ih =>
    rw [List.map_cons, List.foldl_cons, List.foldl_cons]
    have := relative_step e a x r (he x List.mem_cons_self)
    rw [← hf x List.mem_cons_self, ← hg x List.mem_cons_self] at this
    dsimp only at this ⊢
    rw [this]
    exact ih (fun y hy => hf y (List.mem_cons_of_mem _ hy)) (fun y hy => hg y (List.mem_cons_of_mem _ hy))
      (fun y hy => he y (List.mem_cons_of_mem _ hy)) _

theorem fold_max_zero (h : ℝ → ℝ) (xs : List ℝ) (hn : ∀ x ∈ xs, h x ≤ 0) : xs.foldl (fun r x => max r (h x)) 0 = 0 := by
  induction xs with
  | nil => rfl
  | cons x l ih =>
    rw [List.foldl_cons, max_eq_left (hn x List.mem_cons_self)]
    exact ih (fun y hy => hn y (List.mem_cons_of_mem _ hy))

theorem fold_max_spec (h : ℝ → ℝ) (xs : List ℝ) (r : ℝ) :
    r ≤ xs.foldl (fun r x => max r (h x)) r ∧ (∀ x ∈ xs, h x ≤ xs.foldl (fun r x => max r (h x)) r) ∧
      (xs.foldl (fun r x => max r (h x)) r = r ∨ ∃ x ∈ xs, xs.foldl (fun r x => max r (h x)) r = h x) := by
  induction xs generalizing r with
  | nil => simp
  | cons x l ih =>
    obtain ⟨h1, h2, h3⟩ := ih (max r (h x))
    rw [List.foldl_cons]
    refine ⟨(le_max_left _ _).trans h1, ?_, ?_⟩
    · intro y hy
      rcases List.mem_cons.mp hy with rfl | hy
      · exact (le_max_right _ _).trans h1
      · exact h2 y hy
    · rcases h3 with h3 | ⟨y, hy, h3⟩
      · rcases max_choice r (h x) with e | e
        · exact .inl (h3.trans e)
        · exact .inr ⟨x, List.mem_cons_self, h3.trans e⟩
      · exact .inr ⟨y, List.mem_cons_of_mem _ hy, h3⟩

/-- **C123** (negation). The "max relative error" of the benchmarks is the maximum of signed errors. In exact arithmetic it is 0 for the fraction of
the logarithm at every depth and all points between 1/2 and 2, and for the fraction of the exponential at every even depth and all points between 0 and 2,
although no value at a point other than 1 and 0 is exact. -/
theorem C123_false (d : UInt32) (hd : 1 ≤ d.toNat) (f g : XR → XR) (hf : ∀ x : ℝ, 0 < x → f (fin x) = fin (Real.log x))
    (hg : ∀ x : ℝ, g (fin x) = fin (Real.exp x)) :
    (∀ xs : List ℝ, (∀ x ∈ xs, 0 < x ∧ x ≠ 1) →
      Bench.relative f (Bench.log_cf · d) (xs.map fin) = fin 0 ∧ ∀ x ∈ xs, Bench.log_cf (fin x) d ≠ f (fin x)) ∧
    (∀ xs : List ℝ, Even d.toNat → d.toNat < 2 ^ 31 → (∀ x ∈ xs, 0 < x ∧ x < 2) →
      Bench.relative g (Bench.exp_cf · d) (xs.map fin) = fin 0 ∧ ∀ x ∈ xs, Bench.exp_cf (fin x) d ≠ g (fin x)) := by
  constructor
  · intro xs hxs
    have key : ∀ x ∈ xs, (Spec.logCF x d.toNat - Real.log x) / Real.log x < 0 := by
      intro x hx
      obtain ⟨r, _, h2, _, h4, h5⟩ := C120_fraction x (hxs x hx).1 d hd
      rw [← h2]
      rcases lt_or_gt_of_ne (hxs x hx).2 with h | h
      · have := Real.log_neg (hxs x hx).1 h
        exact div_neg_of_pos_of_neg (by linarith [h5 h]) this
      · have := Real.log_pos h
        exact div_neg_of_neg_of_pos (by linarith [h4 h]) this
    constructor
    · rw [relative_fold f _ Real.log (Spec.logCF · d.toNat) xs (fun x hx => hf x (hxs x hx).1) (fun x hx => bench_log_cf (hxs x hx).1 d hd)
        (fun x hx => Real.log_ne_zero_of_pos_of_ne_one (hxs x hx).1 (hxs x hx).2), fold_max_zero _ _ (fun x hx => (key x hx).le)]
    · intro x hx h
      rw [hf x (hxs x hx).1, bench_log_cf (hxs x hx).1 d hd] at h
      have := key x hx
      rw [XR.fin.inj h] at this
      simp at this
  · intro xs hev hd2 hxs
    have key : ∀ x ∈ xs, Spec.expCF x d.toNat < Real.exp x := by
      intro x hx
      obtain ⟨k, hk⟩ : ∃ k, d.toNat = k + 1 := ⟨d.toNat - 1, by omega⟩
      rw [hk] at hev ⊢
      exact (ExpFraction.expCF_sign (hxs x hx).1 (hxs x hx).2 k).2 (by rwa [Nat.even_add_one] at hev)
    constructor
    · rw [relative_fold g _ Real.exp (Spec.expCF · d.toNat) xs (fun x _ => hg x) (fun x hx => bench_exp_cf (hxs x hx).2 d hd hd2)
        (fun x _ => (Real.exp_pos x).ne'), fold_max_zero]
      intro x hx
      exact (div_neg_of_neg_of_pos (by linarith [key x hx]) (Real.exp_pos x)).le
    · intro x hx h
      rw [hg, bench_exp_cf (hxs x hx).2 d hd hd2] at h
      exact (key x hx).ne (XR.fin.inj h)

/-- **C123** (partial). For the exponential at odd depths and points between 0 and 2 the reported number is the maximum of the relative errors.
Missing, because it is false of the code: even depths, and the logarithm. -/
theorem C123_partial (d : UInt32) (hodd : ¬ Even d.toNat) (hd2 : d.toNat < 2 ^ 31) (g : XR → XR) (hg : ∀ x : ℝ, g (fin x) = fin (Real.exp x))
    (xs : List ℝ) (hxs : ∀ x ∈ xs, 0 < x ∧ x < 2) (hne : xs ≠ []) :
    ∃ M : ℝ, Bench.relative g (Bench.exp_cf · d) (xs.map fin) = fin M ∧
      (∀ x ∈ xs, |Spec.expCF x d.toNat - Real.exp x| / Real.exp x ≤ M) ∧ ∃ x ∈ xs, |Spec.expCF x d.toNat - Real.exp x| / Real.exp x = M := by
  have hd : 1 ≤ d.toNat := by
    by_contra h
    exact hodd (by rw [show d.toNat = 0 by omega]; exact Even.zero)
  have key : ∀ x ∈ xs, |Spec.expCF x d.toNat - Real.exp x| / Real.exp x = (Spec.expCF x d.toNat - Real.exp x) / Real.exp x ∧
      0 < (Spec.expCF x d.toNat - Real.exp x) / Real.exp x := by
    intro x hx
    obtain ⟨k, hk⟩ : ∃ k, d.toNat = k + 1 := ⟨d.toNat - 1, by omega⟩
    have h : Real.exp x < Spec.expCF x d.toNat := by
      rw [hk] at hodd ⊢
      exact (ExpFraction.expCF_sign (hxs x hx).1 (hxs x hx).2 k).1 (by rwa [Nat.even_add_one, not_not] at hodd)
    rw [abs_of_pos (by linarith)]
    exact ⟨rfl, div_pos (by linarith) (Real.exp_pos x)⟩
  refine ⟨_, relative_fold g _ Real.exp (Spec.expCF · d.toNat) xs (fun x _ => hg x) (fun x hx => bench_exp_cf (hxs x hx).2 d hd hd2)
    (fun x _ => (Real.exp_pos x).ne'), ?_⟩
  obtain ⟨h1, h2, h3⟩ := fold_max_spec (fun x => (Spec.expCF x d.toNat - Real.exp x) / Real.exp x) xs 0
  refine ⟨fun x hx => (key x hx).1 ▸ h2 x hx, ?_⟩
  rcases h3 with h3 | ⟨x, hx, h3⟩
  · obtain ⟨y, hy⟩ := List.exists_mem_of_ne_nil xs hne
    have := h2 y hy
    rw [h3] at this
    exact absurd (key y hy).2 (not_lt.mpr this)
  · exact ⟨x, hx, (key x hx).1.trans h3.symm⟩

/-- depth 4 and the point 1/2; depth 5 and the point 1/2 -/
example : Even (4 : UInt32).toNat ∧ ¬ Even (5 : UInt32).toNat ∧ (∀ x ∈ [(1 / 2 : ℝ)], 0 < x ∧ x < 2) := by
  refine ⟨by decide, by decide, ?_⟩
  simp
  norm_num

/-! ### C122: benchmark/p2.c -/

section
variable {α : Type} [CDouble α]

/-- the opposite array -/
def negA (a : Arr5 α) : Arr5 α := ⟨-. a.a0, -. a.a1, -. a.a2, -. a.a3, -. a.a4⟩

theorem lt_neg_neg [CDoubleLaws α] (x y : α) : ((-. x) <. (-. y)) = (y <. x) := by
  rw [Bool.eq_iff_iff, CDoubleLaws.lt_iff, CDoubleLaws.lt_iff, CDoubleLaws.nan_neg, CDoubleLaws.nan_neg, CDoubleLaws.val_neg,
    CDoubleLaws.val_neg, EReal.neg_lt_neg_iff]
  tauto

theorem bench_sort5 [CDoubleLaws α] (a : Arr5 α) : sort5 (negA a) = negA (Bench.sort5 a) := by
  have s1 : ∀ a : Arr5 α, (negA a).swap01 = negA a.swap01 := fun _ => rfl
  have s2 : ∀ a : Arr5 α, (negA a).swap12 = negA a.swap12 := fun _ => rfl
  have s3 : ∀ a : Arr5 α, (negA a).swap23 = negA a.swap23 := fun _ => rfl
  have s4 : ∀ a : Arr5 α, (negA a).swap34 = negA a.swap34 := fun _ => rfl
  have g : ∀ (a : Arr5 α), (negA a).a0 = -. a.a0 ∧ (negA a).a1 = -. a.a1 ∧ (negA a).a2 = -. a.a2 ∧ (negA a).a3 = -. a.a3 ∧
      (negA a).a4 = -. a.a4 := fun _ => ⟨rfl, rfl, rfl, rfl, rfl⟩
  unfold sort5 Bench.sort5
  simp only [(g _).1, (g _).2.1, (g _).2.2.1, (g _).2.2.2.1, (g _).2.2.2.2, lt_neg_neg, s1, s2, s3, s4, ← apply_ite negA]

/-- the middle of five values is the same in both orders -/
theorem bench_middle [CDoubleLaws α] (a : Arr5 α) (h : a.NoNaN) : CDoubleLaws.val (Bench.sort5 a).a2 = CDoubleLaws.val (sort5 a).a2 := by
  have hn : (negA a).NoNaN := by
    obtain ⟨h0, h1, h2, h3, h4⟩ := h
    unfold Arr5.NoNaN negA
    simp only [CDoubleLaws.nan_neg]
    exact ⟨h0, h1, h2, h3, h4⟩
  obtain ⟨u0, u1, u2, u3⟩ := sort5_sorted a h
  obtain ⟨v0, v1, v2, v3⟩ := sort5_sorted _ hn
  have p1 := (sort5_perm a).map CDoubleLaws.val
  have p2 := (sort5_perm (negA a)).map CDoubleLaws.val
  rw [bench_sort5] at v0 v1 v2 v3 p2
  simp only [negA, CDoubleLaws.val_neg, EReal.neg_le_neg_iff] at v0 v1 v2 v3
  have p3 := p2.map (fun x => -x)
  simp only [negA, Arr5.toList, List.map_cons, List.map_nil, CDoubleLaws.val_neg, neg_neg] at p1 p3
  have p4 := p3.trans p1.symm
  have p5 := ((List.reverse_perm _).trans p4)
  have e := List.Perm.eq_of_pairwise (le := (· ≤ ·)) (fun a b _ _ h1 h2 => le_antisymm h1 h2) ?_ ?_ p5
  · simp only [List.reverse_cons, List.reverse_nil, List.nil_append, List.cons_append, List.cons.injEq] at e
    exact e.2.2.1
  · have w1 := v1.trans v0
    have w2 := v2.trans w1
    have w3 := v3.trans w2
    have y2 := v2.trans v1
    have y3 := v3.trans y2
    have z3 := v3.trans v2
    simp [v0, v1, v2, v3, w1, w2, w3, y2, y3, z3]
  · have w1 := u0.trans u1
    have w2 := w1.trans u2
    have w3 := w2.trans u3
    have y2 := u1.trans u2
    have y3 := y2.trans u3
    have z3 := u2.trans u3
    simp [u0, u1, u2, u3, w1, w2, w3, y2, y3, z3]

/-- `Bench.p2_quantile` as a fold -/
theorem bench_quantile_eq [CDoubleLaws α] (p : α) (x0 x1 x2 x3 x4 : α) (rest tail : List α) (size : UInt64)
    (hs : size.toNat = rest.length + 5) :
    Bench.quantile p (x0 :: x1 :: x2 :: x3 :: x4 :: (rest ++ tail)) size =
      .ok (rest.foldl p2Step { init_p2 p with q := Bench.sort5 ⟨x0, x1, x2, x3, x4⟩ }).q.a2 := by
  unfold Bench.quantile Bench.p2_quantile
  rw [if_neg (by omega)]
  set data := x0 :: x1 :: x2 :: x3 :: x4 :: (rest ++ tail) with hd
  have hl : size.toNat ≤ data.length := by simp [hd, hs]
  rw [loadBuf_ok (i := 0) (by omega), loadBuf_ok (i := 1) (by omega), loadBuf_ok (i := 2) (by omega),
    loadBuf_ok (i := 3) (by omega), loadBuf_ok (i := 4) (by omega)]
  simp only [C.ok_bind, p2Step_spec]
  rw [show size.toNat - 5 = rest.length by omega,
    foldlM_read (f := fun acc v => (.ok (p2Step acc v) : C (P2 α))) (rd := fun i => loadBuf data i) rest 5, foldlM_ok]
  · rfl
  · intro i hi
    rw [loadBuf_ok (by omega)]
    congr 1
    rw [List.getElem_append_left' (l₁ := rest) (l₂ := tail) hi]
    simp only [hd]
    have : ∀ (l : List α) (i : ℕ) (h : 5 + i < (x0 :: x1 :: x2 :: x3 :: x4 :: l).length) (h' : i < l.length),
        (x0 :: x1 :: x2 :: x3 :: x4 :: l)[5 + i] = l[i] := by
      intro l i h h'
      simp only [show 5 + i = i + 1 + 1 + 1 + 1 + 1 by omega, List.getElem_cons_succ]
    exact this _ _ _ _

theorem bench_sort5_perm (a : Arr5 α) : (Bench.sort5 a).toList.Perm a.toList := by
  have s1 : ∀ (b : Arr5 α), b.toList.Perm a.toList → b.swap01.toList.Perm a.toList := fun b h => (perm_swap01 b).trans h
  have s2 : ∀ (b : Arr5 α), b.toList.Perm a.toList → b.swap12.toList.Perm a.toList := fun b h => (perm_swap12 b).trans h
  have s3 : ∀ (b : Arr5 α), b.toList.Perm a.toList → b.swap23.toList.Perm a.toList := fun b h => (perm_swap23 b).trans h
  have s4 : ∀ (b : Arr5 α), b.toList.Perm a.toList → b.swap34.toList.Perm a.toList := fun b h => (perm_swap34 b).trans h
  unfold Bench.sort5
  extract_lets a1 a2 a3 a4
  have h1 : a1.toList.Perm a.toList := by
    simp only [a1]; split
    · exact s1 _ (List.Perm.refl _)
    · exact List.Perm.refl _
  have h2 : a2.toList.Perm a.toList := by
    simp only [a2]; split
    · exact s3 _ h1
    · exact h1
  have h3 : a3.toList.Perm a.toList := by
    simp only [a3]; split
    · exact s3 _ (s2 _ h2)
    · exact s1 _ (s2 _ h2)
  have h4 : a4.toList.Perm a.toList := by
    simp only [a4]; split <;> split
    · exact s1 _ (s2 _ (s3 _ (s4 _ h3)))
    · exact s2 _ (s3 _ (s4 _ h3))
    · exact s3 _ (s4 _ h3)
    · exact s4 _ h3
  split <;> split
  · exact s2 _ (s3 _ (s4 _ h4))
  · exact s3 _ (s4 _ h4)
  · exact s4 _ h4
  · exact h4

/-- the benchmark sorts in descending order -/
theorem bench_sort5_desc [CDoubleLaws α] (a : Arr5 α) (h : a.NoNaN) :
    CDoubleLaws.val (Bench.sort5 a).a1 ≤ CDoubleLaws.val (Bench.sort5 a).a0 ∧ CDoubleLaws.val (Bench.sort5 a).a2 ≤ CDoubleLaws.val (Bench.sort5 a).a1 ∧
    CDoubleLaws.val (Bench.sort5 a).a3 ≤ CDoubleLaws.val (Bench.sort5 a).a2 ∧
    CDoubleLaws.val (Bench.sort5 a).a4 ≤ CDoubleLaws.val (Bench.sort5 a).a3 := by
  have hn : (negA a).NoNaN := by
    obtain ⟨h0, h1, h2, h3, h4⟩ := h
    unfold Arr5.NoNaN negA
    simp only [CDoubleLaws.nan_neg]
    exact ⟨h0, h1, h2, h3, h4⟩
  obtain ⟨v0, v1, v2, v3⟩ := sort5_sorted _ hn
  rw [bench_sort5] at v0 v1 v2 v3
  simp only [negA, CDoubleLaws.val_neg, EReal.neg_le_neg_iff] at v0 v1 v2 v3
  exact ⟨v0, v1, v2, v3⟩
end

/-- **C122** (negation). The program that measures the quantile estimator does not run the estimator of the library: on the values
1, 2, 3, 4, 5, 4, 4, 4, 4, 4, 4, 4, 4, 5 and the level 0.99 the library's estimator gives 4 and the benchmark's gives 3; on fewer than five values
the library gives 0 and the benchmark gives NaN. -/
theorem C122_false :
    (∀ (p : F64) (data : List F64) (size : UInt64), size.toNat < 5 →
      p2_quantile p data size = .ok (lit 0) ∧ Bench.quantile p data size = .ok cNAN) ∧
    ∃ (p : F64) (data : List F64), data.length = 14 ∧ p = lit (99 / 100) ∧
      p2_quantile p data 14 = .ok (lit 4) ∧ Bench.quantile p data 14 = .ok (lit 3) := by
  refine ⟨fun p data size h => ⟨?_, ?_⟩, lit (99 / 100), [lit 1, lit 2, lit 3, lit 4, lit 5, lit 4, lit 4, lit 4, lit 4, lit 4, lit 4, lit 4, lit 4, lit 5], rfl, rfl, ?_, ?_⟩
  · unfold p2_quantile quantile; rw [if_pos h]
  · unfold Bench.quantile Bench.p2_quantile; rw [if_pos h]
  · decide +kernel
  · decide +kernel

section
variable {α : Type} [CDouble α]

/-- **C122** (partial). The two estimators are equal on exactly five values that are not NaN. Missing, because it is false of the code:
equality on more values, and on fewer. -/
theorem C122_partial [CDoubleLaws α] (p : α) (x0 x1 x2 x3 x4 : α) (tail : List α)
    (h : ∀ x ∈ [x0, x1, x2, x3, x4], is_nan x = false) :
    ∃ a b, p2_quantile p (x0 :: x1 :: x2 :: x3 :: x4 :: tail) 5 = .ok a ∧ Bench.quantile p (x0 :: x1 :: x2 :: x3 :: x4 :: tail) 5 = .ok b ∧
      (a <=. b) = true ∧ (b <=. a) = true := by
  have hn : (⟨x0, x1, x2, x3, x4⟩ : Arr5 α).NoNaN := (noNaN_iff _).mpr h
  refine ⟨_, _, p2_quantile_eq p x0 x1 x2 x3 x4 [] tail 5 rfl, bench_quantile_eq p x0 x1 x2 x3 x4 [] tail 5 rfl, ?_⟩
  have e := bench_middle _ hn
  have n1 := (noNaN_iff _).mp hn _ ((sort5_perm (⟨x0, x1, x2, x3, x4⟩ : Arr5 α)).mem_iff.mp
    (show (sort5 (⟨x0, x1, x2, x3, x4⟩ : Arr5 α)).a2 ∈ (sort5 (⟨x0, x1, x2, x3, x4⟩ : Arr5 α)).toList by simp [Arr5.toList]))
  have n2 := (noNaN_iff _).mp hn _ ((bench_sort5_perm (⟨x0, x1, x2, x3, x4⟩ : Arr5 α)).mem_iff.mp
    (show (Bench.sort5 (⟨x0, x1, x2, x3, x4⟩ : Arr5 α)).a2 ∈ (Bench.sort5 (⟨x0, x1, x2, x3, x4⟩ : Arr5 α)).toList by simp [Arr5.toList]))
  rw [CDoubleLaws.le_iff, CDoubleLaws.le_iff]
  exact ⟨⟨n1, n2, e.ge⟩, ⟨n2, n1, e.le⟩⟩

/-- **C122** (no undefined behaviour). The benchmark's estimator is defined on every buffer of at least `size` values. -/
theorem C122_defined [CDoubleLaws α] (p : α) (data : List α) (size : UInt64) (h : size.toNat ≤ data.length) :
    ∃ r, Bench.quantile p data size = .ok r := by
  by_cases h5 : size.toNat < 5
  · unfold Bench.quantile Bench.p2_quantile
    rw [if_pos h5]
    exact ⟨_, rfl⟩
  match data, h with
  | x0 :: x1 :: x2 :: x3 :: x4 :: l, h =>
    have e : l = l.take (size.toNat - 5) ++ l.drop (size.toNat - 5) := (List.take_append_drop _ _).symm
    rw [e]
    refine ⟨_, bench_quantile_eq p x0 x1 x2 x3 x4 _ _ size ?_⟩
    simp only [List.length_cons] at h
    rw [List.length_take]
    omega
  | [], h => simp only [List.length_nil] at h; omega
  | [_], h => simp only [List.length_cons, List.length_nil] at h; omega
  | [_, _], h => simp only [List.length_cons, List.length_nil] at h; omega
  | [_, _, _], h => simp only [List.length_cons, List.length_nil] at h; omega
  | [_, _, _, _], h => simp only [List.length_cons, List.length_nil] at h; omega

/-- while the values rise, only the two outer markers move -/
theorem bench_rise [CDoubleLaws α] (rest : List α) (s : P2 α) (hinc : rest.Pairwise (fun a b => (a <. b) = true))
    (h4 : ∀ x ∈ rest, (s.q.a4 <. x) = true) : (rest.foldl p2Step s).q.a2 = s.q.a2 := by
  induction rest generalizing s with
  | nil => rfl
  | cons x l ih =>
    rw [List.pairwise_cons] at hinc
    rw [List.foldl_cons, p2Step_eq]
    unfold upd
    by_cases h0 : (x <. s.q.a0) = true
    · rw [if_pos h0]
      exact ih { s with q := { s.q with a0 := x } } hinc.2 (fun y hy => h4 y (List.mem_cons_of_mem _ hy))
    · have hx : (x >. s.q.a4) = true := h4 x List.mem_cons_self
      rw [if_neg h0, if_pos hx]
      exact ih { s with q := { s.q with a4 := x } } hinc.2 (fun y hy => hinc.1 y hy)

/-- **C122** (what the benchmark does on a rising series). When the values after the first five rise and are greater than one of the first five,
the benchmark's estimator returns the median of the first five values, whatever the level and the number of values. -/
theorem C122_rising [CDoubleLaws α] (p : α) (x0 x1 x2 x3 x4 : α) (rest tail : List α) (size : UInt64)
    (hs : size.toNat = rest.length + 5) (hn : ∀ x ∈ [x0, x1, x2, x3, x4], is_nan x = false)
    (hinc : rest.Pairwise (fun a b => (a <. b) = true)) (hmin : ∃ m ∈ [x0, x1, x2, x3, x4], ∀ x ∈ rest, (m <. x) = true) :
    ∃ r, Bench.quantile p (x0 :: x1 :: x2 :: x3 :: x4 :: (rest ++ tail)) size = .ok r ∧ r ∈ [x0, x1, x2, x3, x4] ∧
      3 ≤ [x0, x1, x2, x3, x4].countP (fun x => x <=. r) ∧ 3 ≤ [x0, x1, x2, x3, x4].countP (fun x => r <=. x) := by
  have hn' : (⟨x0, x1, x2, x3, x4⟩ : Arr5 α).NoNaN := (noNaN_iff _).mpr hn
  have hp := bench_sort5_perm (⟨x0, x1, x2, x3, x4⟩ : Arr5 α)
  obtain ⟨v0, v1, v2, v3⟩ := bench_sort5_desc _ hn'
  have hq : ∀ x ∈ (Bench.sort5 (⟨x0, x1, x2, x3, x4⟩ : Arr5 α)).toList, is_nan x = false :=
    fun x hx => (noNaN_iff _).mp hn' x (hp.mem_iff.mp hx)
  rw [bench_quantile_eq p x0 x1 x2 x3 x4 rest tail size hs]
  have hs5 : (⟨x0, x1, x2, x3, x4⟩ : Arr5 α).toList = [x0, x1, x2, x3, x4] := rfl
  generalize Bench.sort5 (⟨x0, x1, x2, x3, x4⟩ : Arr5 α) = b at *
  rw [hs5] at hp
  refine ⟨_, rfl, ?_⟩
  rw [bench_rise rest _ hinc]
  · dsimp only
    have hb : b.toList = [b.a0, b.a1, b.a2, b.a3, b.a4] := rfl
    rw [hb] at hp hq
    have n0 := hq b.a0 (by simp)
    have n1 := hq b.a1 (by simp)
    have n2 := hq b.a2 (by simp)
    have n3 := hq b.a3 (by simp)
    have n4 := hq b.a4 (by simp)
    refine ⟨hp.mem_iff.mp (by simp), ?_, ?_⟩
    · rw [← hp.countP_eq]
      have e2 : (b.a2 <=. b.a2) = true := (CDoubleLaws.le_iff _ _).mpr ⟨n2, n2, le_rfl⟩
      have e3 : (b.a3 <=. b.a2) = true := (CDoubleLaws.le_iff _ _).mpr ⟨n3, n2, v2⟩
      have e4 : (b.a4 <=. b.a2) = true := (CDoubleLaws.le_iff _ _).mpr ⟨n4, n2, v3.trans v2⟩
      simp only [List.countP_cons, e2, e3, e4, List.countP_nil, if_true]
      omega
    · rw [← hp.countP_eq]
      have e2 : (b.a2 <=. b.a2) = true := (CDoubleLaws.le_iff _ _).mpr ⟨n2, n2, le_rfl⟩
      have e1 : (b.a2 <=. b.a1) = true := (CDoubleLaws.le_iff _ _).mpr ⟨n2, n1, v1⟩
      have e0 : (b.a2 <=. b.a0) = true := (CDoubleLaws.le_iff _ _).mpr ⟨n2, n0, v1.trans v0⟩
      simp only [List.countP_cons, e2, e1, e0, List.countP_nil, if_true]
      omega
  · dsimp only
    obtain ⟨m, hm, hmx⟩ := hmin
    intro x hx
    obtain ⟨a1, a2, a3⟩ := (CDoubleLaws.lt_iff _ _).mp (hmx x hx)
    refine (CDoubleLaws.lt_iff _ _).mpr ⟨hq b.a4 (by simp [Arr5.toList]), a2, lt_of_le_of_lt ?_ a3⟩
    have hm' := hp.mem_iff.mpr hm
    simp only [Arr5.toList, List.mem_cons, List.not_mem_nil, or_false] at hm'
    rcases hm' with rfl | rfl | rfl | rfl | rfl
    · exact ((v3.trans v2).trans v1).trans v0
    · exact (v3.trans v2).trans v1
    · exact v3.trans v2
    · exact v3
    · exact le_rfl

end

/-- the values 3, 1, 2, 5, 4 followed by 6, 7 meet the hypotheses of `C122_rising`, and 3, 1, 2, 5, 4 those of `C122_partial` -/
example : (∀ x ∈ ([lit 3, lit 1, lit 2, lit 5, lit 4] : List F64), is_nan x = false) ∧
    ([lit 6, lit 7] : List F64).Pairwise (fun a b => (a <. b) = true) ∧
    (∃ m ∈ ([lit 3, lit 1, lit 2, lit 5, lit 4] : List F64), ∀ x ∈ ([lit 6, lit 7] : List F64), (m <. x) = true) := by
  refine ⟨by decide +kernel, by decide +kernel, lit 1, by simp, by decide +kernel⟩

end Verif

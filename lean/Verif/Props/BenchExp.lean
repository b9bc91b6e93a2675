/-
C143, C144: the recursive exponential whose accuracy benchmark/exp_cf_accuracy.c measures.
-/
import Verif.Proofs.BenchExpErr
import Verif.Proofs.BenchFracErr

namespace Verif
open F64

/-- **C143**. Whatever function is called on the reduced argument, the recursive exponential of the benchmark ends after at most seven nested calls, for every double:
with a value when the argument is NaN or of magnitude below `2^64 LOG2`, with an undefined conversion of the quotient to `unsigned long long` for every other argument. -/
theorem C143 (cf : F64 → F64) (x : F64) (n : ℕ) (hn : 7 ≤ n) :
    (x = nan → Bench.expDeep cf n x = some (.ok (cf x))) ∧
      (isFin x → |toQ x| < toQ (LOG2 : F64) * 2 ^ 64 → ∃ y, Bench.expDeep cf n x = some (.ok y)) ∧
      (isFin x → toQ (LOG2 : F64) * 2 ^ 64 ≤ |toQ x| → Bench.expDeep cf n x = some (.error .floatConv)) ∧
      ∀ s, x = inf s → Bench.expDeep cf n x = some (.error .floatConv) := by
  obtain ⟨n, rfl⟩ : ∃ m, n = m + 7 := ⟨n - 7, by omega⟩
  have neg : ∀ {x : F64}, ((x <. lit 0) = true) → Bench.expDeep cf (n + 6) (-. x) = some (.error .floatConv) → Bench.expDeep cf (n + 7) x = some (.error .floatConv) := by
    intro x h0 h
    unfold Bench.expDeep
    rw [if_pos h0, h]
    rfl
  have infp : ∀ n, Bench.expDeep cf (n + 1) (inf false) = some (.error .floatConv) := fun n => BenchExp.big_pos (by simp [notNaN]) le_top
  refine ⟨?_, fun hx h => BenchExp.ends hx (by rwa [BenchExp.L_eq] at h), ?_, ?_⟩
  · rintro rfl
    unfold Bench.expDeep
    rw [if_neg (by decide +kernel), if_neg (by decide +kernel)]
  · intro hx h
    rw [BenchExp.L_eq] at h
    have pos : ∀ {x : F64} (n : ℕ), isFin x → BenchExp.L * 2 ^ 64 ≤ toQ x → Bench.expDeep cf (n + 1) x = some (.error .floatConv) := by
      intro x n hx h
      refine BenchExp.big_pos (isFin.notNaN hx) ?_
      rw [val_fin hx]
      exact EReal.coe_le_coe_iff.mpr (by exact_mod_cast h)
    rcases le_or_gt 0 (toQ x) with h0 | h0
    · rw [abs_of_nonneg h0] at h
      exact pos _ hx h
    · rw [abs_of_neg h0] at h
      refine neg ((BenchExp.neg_iff hx).mpr h0) (pos _ (isFin_neg.mpr hx) ?_)
      rwa [show toQ (-. x) = -toQ x from toQ_neg x]
  · rintro s rfl
    cases s with
    | false => exact infp _
    | true => exact neg (by decide +kernel) (infp _)

/-- an argument of magnitude above 2^59 that takes five nested calls; 2^64 has no exponential -/
example : |toQ (ofBits 0xC3AFCE7E69815173)| < toQ (LOG2 : F64) * 2 ^ 64 ∧ Bench.expDeep (Bench.exp_cf · 6) 4 (ofBits 0xC3AFCE7E69815173) = none ∧
    (∃ y, Bench.expDeep (Bench.exp_cf · 6) 5 (ofBits 0xC3AFCE7E69815173) = some (.ok y)) ∧
    toQ (LOG2 : F64) * 2 ^ 64 ≤ |toQ (lit (2 ^ 64) : F64)| := by
  refine ⟨by decide +kernel, by decide +kernel, ?_, by decide +kernel⟩
  have h : (match Bench.expDeep (Bench.exp_cf · 6) 5 (ofBits 0xC3AFCE7E69815173) with | some (.ok _) => true | _ => false) = true := by decide +kernel
  generalize Bench.expDeep (Bench.exp_cf · 6) 5 (ofBits 0xC3AFCE7E69815173) = r at *
  rcases r with _ | (_ | y)
  · exact absurd h (by simp)
  · exact absurd h (by simp)
  · exact ⟨y, rfl⟩

/-- **C144** (first part). The reductions and the changes of the exponent add little to the error of the function called on the reduced argument: if that function
approximates the exponential on `[0, LOG2]` with a relative error `ε`, at most 1/1000, then the recursive exponential approximates it on `[-708, 708]` with a relative
error of at most `1.01 ε + 5e-13`, after at most five nested calls. -/
theorem C144_reduction (cf : F64 → F64) (ε : ℝ) (hε : 0 ≤ ε) (hε1 : ε ≤ 1 / 1000)
    (hcf : ∀ z : F64, isFin z → 0 ≤ toQ z → toQ z ≤ toQ (LOG2 : F64) → isFin (cf z) ∧ |toR (cf z) - Real.exp (toR z)| ≤ ε * Real.exp (toR z))
    (x : F64) (hx : isFin x) (h : |toQ x| ≤ 708) (n : ℕ) (hn : 5 ≤ n) :
    ∃ y, Bench.expDeep cf n x = some (.ok y) ∧ isFin y ∧ |toR y - Real.exp (toR x)| ≤ (101 / 100 * ε + 5 / 10 ^ 13) * Real.exp (toR x) :=
  BenchExp.good hε hε1 hcf hn hx h

/-- the error of the fraction on `[0, LOG2]` -/
theorem BenchExp.cf_err {z : F64} (hz : isFin z) (h0 : 0 ≤ toQ z) (h1 : toQ z ≤ toQ (LOG2 : F64)) (d : UInt32) (hd : 1 ≤ d.toNat) (hd2 : d.toNat < 2 ^ 31) :
    isFin (Bench.exp_cf z d) ∧ |toR (Bench.exp_cf z d) - Real.exp (toR z)| ≤
      (2 / 10 ^ 15 + 8 * (7 / 10) * ∏ j ∈ Finset.range d.toNat, (7 / 10 : ℝ) ^ 2 / (4 * (2 * j + 1) * (2 * j + 3))) * Real.exp (toR z) := by
  have z0 : 0 ≤ toR z := by unfold toR; exact_mod_cast h0
  have z1 : toR z ≤ 7 / 10 := by
    have : toQ z ≤ 7 / 10 := h1.trans (by rw [BenchExp.L_eq]; norm_num [BenchExp.L])
    have : ((toQ z : ℚ) : ℝ) ≤ ((7 / 10 : ℚ) : ℝ) := Rat.cast_le.mpr this
    push_cast at this
    exact this
  obtain ⟨f, e⟩ := BenchExp.exp_cf_err hz z0 z1 d hd hd2
  refine ⟨f, ?_⟩
  obtain ⟨r, -, rfl, t⟩ := C121_fraction (toR z) (by linarith) d hd hd2
  have t := t (by rw [abs_of_nonneg z0]; linarith)
  rw [abs_of_nonneg z0] at t
  have hP : ∏ j ∈ Finset.range d.toNat, (toR z) ^ 2 / (4 * (2 * (j : ℝ) + 1) * (2 * j + 3)) ≤ ∏ j ∈ Finset.range d.toNat, (7 / 10 : ℝ) ^ 2 / (4 * (2 * j + 1) * (2 * j + 3)) := by
    refine Finset.prod_le_prod (fun j _ => by positivity) fun j _ => ?_
    gcongr
  have hP0 : 0 ≤ ∏ j ∈ Finset.range d.toNat, (toR z) ^ 2 / (4 * (2 * (j : ℝ) + 1) * (2 * j + 3)) := Finset.prod_nonneg fun j _ => by positivity
  have hE : 1 ≤ Real.exp (toR z) := Real.one_le_exp z0
  have t2 : 8 * toR z * (∏ j ∈ Finset.range d.toNat, (toR z) ^ 2 / (4 * (2 * (j : ℝ) + 1) * (2 * j + 3))) ≤
      8 * (7 / 10) * ∏ j ∈ Finset.range d.toNat, (7 / 10 : ℝ) ^ 2 / (4 * (2 * j + 1) * (2 * j + 3)) := by gcongr
  have t3 := mul_le_mul_of_nonneg_right t2 (by linarith : 0 ≤ Real.exp (toR z))
  have := abs_add_le (toR (Bench.exp_cf z d) - Spec.expCF (toR z) d.toNat) (Spec.expCF (toR z) d.toNat - Real.exp (toR z))
  rw [sub_add_sub_cancel] at this
  rw [add_mul]
  linarith

/-- the products of the error from the third on -/
theorem BenchExp.prod_le (d : ℕ) (hd : 3 ≤ d) : ∏ j ∈ Finset.range d, (7 / 10 : ℝ) ^ 2 / (4 * (2 * j + 1) * (2 * j + 3)) ≤ 1 / 10 ^ 5 := by
  induction d, hd using Nat.le_induction with
  | base => norm_num [Finset.prod_range_succ]
  | succ d _ ih =>
    rw [Finset.prod_range_succ]
    have h0 : 0 ≤ ∏ j ∈ Finset.range d, (7 / 10 : ℝ) ^ 2 / (4 * (2 * j + 1) * (2 * j + 3)) := Finset.prod_nonneg fun j _ => by positivity
    have h1 : (7 / 10 : ℝ) ^ 2 / (4 * (2 * d + 1) * (2 * d + 3)) ≤ 1 := by
      rw [div_le_one (by positivity)]
      have : (0 : ℝ) ≤ d := Nat.cast_nonneg d
      nlinarith
    have h2 : 0 ≤ (7 / 10 : ℝ) ^ 2 / (4 * (2 * d + 1) * (2 * d + 3)) := by positivity
    nlinarith

/-- **C144** (second part). The function of the program, with the fraction of any depth from 3 on: on `[-708, 708]` the relative error of the computed exponential is at
most `5.7 ∏ 0.49 / (4 (2j + 1) (2j + 3))`, `j` from 0 to `d - 1`, plus `6e-13`. -/
theorem C144 (d : UInt32) (hd : 3 ≤ d.toNat) (hd2 : d.toNat < 2 ^ 31) (x : F64) (hx : isFin x) (h : |toQ x| ≤ 708) (n : ℕ) (hn : 5 ≤ n) :
    ∃ y, Bench.expDeep (Bench.exp_cf · d) n x = some (.ok y) ∧ isFin y ∧ |toR y - Real.exp (toR x)| ≤
      (57 / 10 * (∏ j ∈ Finset.range d.toNat, (49 / 100 : ℝ) / (4 * (2 * j + 1) * (2 * j + 3))) + 6 / 10 ^ 13) * Real.exp (toR x) := by
  have hP0 : 0 ≤ ∏ j ∈ Finset.range d.toNat, (7 / 10 : ℝ) ^ 2 / (4 * (2 * j + 1) * (2 * j + 3)) := Finset.prod_nonneg fun j _ => by positivity
  have hP := BenchExp.prod_le d.toNat hd
  have he : (49 / 100 : ℝ) = (7 / 10) ^ 2 := by norm_num
  rw [he]
  obtain ⟨y, a, b, c⟩ := C144_reduction (Bench.exp_cf · d)
    (2 / 10 ^ 15 + 8 * (7 / 10) * ∏ j ∈ Finset.range d.toNat, (7 / 10 : ℝ) ^ 2 / (4 * (2 * j + 1) * (2 * j + 3))) (by positivity) (by linarith)
    (fun z hz h0 h1 => BenchExp.cf_err hz h0 h1 d (by omega) hd2) x hx h n hn
  refine ⟨y, a, b, c.trans (mul_le_mul_of_nonneg_right ?_ (Real.exp_pos _).le)⟩
  linarith

/-- at depth 6 the bound is 1e-12; 11 LOG2, rounded down once, has a reduced argument that rounds to a negative number -/
example : (57 / 10 * (∏ j ∈ Finset.range (6 : UInt32).toNat, (49 / 100 : ℝ) / (4 * (2 * j + 1) * (2 * j + 3))) + 6 / 10 ^ 13) ≤ 1 / 10 ^ 12 ∧
    isFin (ofBits 0x401E7F9C1E980FA8) ∧ |toQ (ofBits 0x401E7F9C1E980FA8)| ≤ 708 ∧
    Bench.expDeep (Bench.exp_cf · 6) 2 (ofBits 0x401E7F9C1E980FA8) = none ∧ Bench.expDeep (Bench.exp_cf · 6) 3 (ofBits 0x401E7F9C1E980FA8) ≠ none := by
  refine ⟨?_, by decide +kernel, by decide +kernel, by decide +kernel, ?_⟩
  · show (57 / 10 * (∏ j ∈ Finset.range 6, _) + _ : ℝ) ≤ _
    norm_num [Finset.prod_range_succ]
  · intro h
    have h2 : (Bench.expDeep (Bench.exp_cf · 6) 3 (ofBits 0x401E7F9C1E980FA8)).isSome = true := by decide +kernel
    rw [h] at h2
    exact absurd h2 (by simp)

end Verif

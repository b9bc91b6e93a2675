/-
Bit patterns of doubles.
-/
import Verif.F64.Exact
import Mathlib.Data.Nat.Bitwise

namespace Verif
namespace F64

/-- sign bit as a number -/
def sb (s : Bool) : ℕ := if s then 1 else 0

theorem or_sign (s : Bool) {k : ℕ} (hk : k < 2 ^ 63) :
    (sb s * 2 ^ 63 ||| k) = sb s * 2 ^ 63 + k := by
  have := Nat.two_pow_add_eq_or_of_lt hk (sb s)
  rw [Nat.mul_comm]; exact this.symm

theorem finCodes_lt : finCodes < 2 ^ 63 := by decide

theorem toBits_fin (s : Bool) (k : Fin finCodes) : (toBits (fin s k)).toNat = sb s * 2 ^ 63 + k.val := by
  have hk := k.isLt
  have hf := finCodes_lt
  have h1 : (UInt64.ofNat k.val).toNat = k.val := by rw [UInt64.toNat_ofNat']; omega
  rw [← or_sign s (by omega)]
  unfold toBits
  rw [UInt64.toNat_or, h1]
  cases s <;> rfl

theorem ofBits_val {b : UInt64} {s : Bool} {k : ℕ} (hk : k < finCodes) (h : b.toNat = sb s * 2 ^ 63 + k) :
    ofBits b = fin s ⟨k, hk⟩ := by
  have hf := finCodes_lt
  unfold ofBits
  have hm : b.toNat % 2 ^ 63 = k := by rw [h]; cases s <;> simp only [sb, if_true, if_false, Bool.false_eq_true] <;> omega
  have hs : decide (2 ^ 63 ≤ b.toNat) = s := by
    rw [h]; cases s <;> simp only [sb, if_true, if_false, Bool.false_eq_true, decide_eq_true_eq, decide_eq_false_iff_not] <;> omega
  simp only [hm, hs, dif_pos hk]

/-- decoding is a left inverse of encoding (NaN has a single representative here) -/
theorem ofBits_toBits (x : F64) : ofBits (toBits x) = x := by
  rcases x with _ | s | ⟨s, k⟩
  · decide +kernel
  · cases s <;> decide +kernel
  · exact ofBits_val k.isLt (toBits_fin s k)

/-- exponent field -/
theorem expField (s : Bool) (k : Fin finCodes) : ((toBits (fin s k) >>> 52) &&& 0x7ff).toNat = k.val / 2 ^ 52 := by
  have hk := k.isLt
  have hf : finCodes = 2047 * 2 ^ 52 := by decide
  rw [UInt64.toNat_and, UInt64.toNat_shiftRight, toBits_fin]
  rw [show (0x7ff : UInt64).toNat = 2 ^ 11 - 1 from rfl, Nat.and_two_pow_sub_one_eq_mod,
    show (52 : UInt64).toNat % 64 = 52 from rfl, Nat.shiftRight_eq_div_pow]
  cases s <;> simp only [sb, if_true, if_false, Bool.false_eq_true] <;> omega

theorem field_eq_zero (s : Bool) (k : Fin finCodes) : ((toBits (fin s k) >>> 52) &&& 0x7ff) = 0 ↔ k.val / 2 ^ 52 = 0 := by
  rw [← expField s k, ← UInt64.toNat_inj]; rfl

theorem field_ne_max (s : Bool) (k : Fin finCodes) : ((toBits (fin s k) >>> 52) &&& 0x7ff) ≠ 0x7ff := by
  rw [Ne, ← UInt64.toNat_inj, expField]
  have hk := k.isLt
  have hf : finCodes = 2047 * 2 ^ 52 := by decide
  have : (0x7ff : UInt64).toNat = 2047 := rfl
  omega

/-- the bits kept by `frexp`, with the exponent field replaced by that of [1/2, 1) -/
theorem mantissaBits (s : Bool) (k : Fin finCodes) :
    ((toBits (fin s k) &&& 0x800fffffffffffff) ||| 0x3fe0000000000000).toNat =
      sb s * 2 ^ 63 + (1022 * 2 ^ 52 + k.val % 2 ^ 52) := by
  have hk := k.isLt
  have hf := finCodes_lt
  rw [UInt64.toNat_or, UInt64.toNat_and, toBits_fin]
  have m : (0x800fffffffffffff : UInt64).toNat = 2 ^ 63 ||| (2 ^ 52 - 1) := by decide
  have n : (0x3fe0000000000000 : UInt64).toNat = 1022 * 2 ^ 52 := by decide
  rw [m, n, Nat.and_or_distrib_left, Nat.and_two_pow_sub_one_eq_mod]
  have a1 : (sb s * 2 ^ 63 + k.val) &&& 2 ^ 63 = sb s * 2 ^ 63 := by
    rw [Nat.and_two_pow]
    have : (sb s * 2 ^ 63 + k.val).testBit 63 = s := by
      rw [Nat.testBit_eq_decide_div_mod_eq]
      cases s <;> simp only [sb, if_true, if_false, Bool.false_eq_true, decide_eq_true_eq, decide_eq_false_iff_not] <;> omega
    rw [this]; cases s <;> rfl
  have a2 : (sb s * 2 ^ 63 + k.val) % 2 ^ 52 = k.val % 2 ^ 52 := by
    cases s <;> simp only [sb, if_true, if_false, Bool.false_eq_true] <;> omega
  rw [a1, a2, Nat.or_assoc]
  have hm : k.val % 2 ^ 52 < 2 ^ 52 := Nat.mod_lt _ (by norm_num)
  have a3 : k.val % 2 ^ 52 ||| 1022 * 2 ^ 52 = 1022 * 2 ^ 52 + k.val % 2 ^ 52 := by
    rw [Nat.or_comm, Nat.mul_comm]
    exact (Nat.two_pow_add_eq_or_of_lt hm 1022).symm
  rw [a3, or_sign]
  omega

theorem mag_normal {v m : ℕ} (h1 : 1 ≤ v) (hm : m < 2 ^ 52) : mag (v * 2 ^ 52 + m) = ((2 ^ 52 + m : ℕ) : ℚ) * pow2 (v - 1075) := by
  have d1 : (v * 2 ^ 52 + m) / 2 ^ 52 = v := by omega
  have d2 : (v * 2 ^ 52 + m) % 2 ^ 52 = m := by omega
  unfold mag
  rw [d1, d2, if_neg (by omega)]

theorem mag_pow {v : ℕ} (h1 : 1 ≤ v) : mag (v * 2 ^ 52) = pow2 (v - 1023) := by
  have := mag_normal (m := 0) h1 (by norm_num)
  rw [Nat.add_zero, Nat.add_zero] at this
  rw [this, show ((2 ^ 52 : ℕ) : ℚ) = pow2 52 by rw [pow2_eq]; norm_num, ← pow2_add]
  congr 1; omega

theorem shiftBits {v : ℕ} (h : v ≤ 2046) : (UInt64.ofNat v <<< 52).toNat = sb false * 2 ^ 63 + v * 2 ^ 52 := by
  rw [UInt64.toNat_shiftLeft, UInt64.toNat_ofNat', show (52 : UInt64).toNat % 64 = 52 from rfl, Nat.shiftLeft_eq]
  simp only [sb, Bool.false_eq_true, if_false]
  omega

/-- The double 2^n built by `ldexp`. -/
theorem powBits {n : ℤ} (h1 : -1022 ≤ n) (h2 : n ≤ 1023) :
    ∃ k : Fin finCodes, ofBits (UInt64.ofNat (0x3ff + n).toNat <<< 52) = fin false k ∧ mag k.val = pow2 n := by
  obtain ⟨v, hv1, hv2, hn⟩ : ∃ v : ℕ, 1 ≤ v ∧ v ≤ 2046 ∧ n = v - 1023 := ⟨(n + 1023).toNat, by omega, by omega, by omega⟩
  have e : (0x3ff + n).toNat = v := by omega
  have hk : v * 2 ^ 52 < finCodes := by
    have hf : finCodes = 2047 * 2 ^ 52 := by decide
    rw [hf]; omega
  refine ⟨⟨v * 2 ^ 52, hk⟩, ?_, ?_⟩
  · rw [e]; exact ofBits_val hk (shiftBits hv2)
  · rw [hn]; exact mag_pow hv1

end F64
end Verif

/-
The steps of the second power function of benchmark/pow_accuracy_speed.c.
-/
import Verif.Model.BenchPowbis
import Verif.Props.BenchPow

namespace Verif
open F64

namespace BenchPowbis

theorem trunc_near {t : F64} (ht : isFin t) : ∃ k : ℤ, CDouble.trunc t = some k ∧ |toQ t - k| < 1 ∧ |(k : ℚ)| ≤ |toQ t| := by
  have key : ∀ q : ℚ, 0 ≤ q → |q - (⌊q⌋ : ℤ)| < 1 ∧ |((⌊q⌋ : ℤ) : ℚ)| ≤ |q| := fun q h => by
    have a := Int.floor_le q
    have b := Int.lt_floor_add_one q
    have c : (0 : ℚ) ≤ (⌊q⌋ : ℤ) := by exact_mod_cast Int.floor_nonneg.mpr h
    rw [abs_of_nonneg c, abs_of_nonneg h]
    exact ⟨by rw [abs_lt]; constructor <;> linarith, a⟩
  rcases t with _ | _ | ⟨s, k⟩
  · exact absurd ht id
  · exact absurd ht id
  obtain ⟨a, b⟩ := key (mag k.val) (mag_nonneg _)
  cases s with
  | false => exact ⟨⌊mag k.val⌋, rfl, by rw [toQ_fin, if_neg (by simp)]; exact a, by rw [toQ_fin, if_neg (by simp)]; exact b⟩
  | true =>
    refine ⟨-⌊mag k.val⌋, rfl, ?_, ?_⟩
    · rw [toQ_fin, if_pos rfl]; push_cast; rw [← abs_neg, show -(-mag k.val - -((⌊mag k.val⌋ : ℤ) : ℚ)) = mag k.val - (⌊mag k.val⌋ : ℤ) by ring]; exact a
    · rw [toQ_fin, if_pos rfl]; push_cast; rw [abs_neg, abs_neg]; exact b

/-- mantissa and exponent of a positive normal double -/
theorem split {a : F64} (ha : isFin a) (h0 : 2 ^ (-1022 : ℤ) ≤ toQ a) : ∃ e : ℤ, -1022 ≤ e ∧ e ≤ 1023 ∧ ((Bench.exponentBits a).toNat : ℤ) = e + 1023 ∧
    isFin (Bench.setExponent a 1023) ∧ 1 ≤ toQ (Bench.setExponent a 1023) ∧ toQ (Bench.setExponent a 1023) < 2 ∧ toQ a = 2 ^ e * toQ (Bench.setExponent a 1023) := by
  rcases a with _ | _ | ⟨s, k⟩
  · exact absurd ha id
  · exact absurd ha id
  have p0 : (0 : ℚ) < 2 ^ (-1022 : ℤ) := by positivity
  cases s with
  | true => exfalso; rw [toQ_fin, if_pos rfl] at h0; have := mag_nonneg k.val; linarith
  | false =>
  have hk : toQ (fin false k) = mag k.val := by rw [toQ_fin, if_neg (by simp)]
  have hf : finCodes = 2047 * 2 ^ 52 := by decide
  have hlt := k.isLt
  have hm : k.val % 2 ^ 52 < 2 ^ 52 := Nat.mod_lt _ (by norm_num)
  have hv1 : 1 ≤ k.val / 2 ^ 52 := by
    have : mag (1 * 2 ^ 52) ≤ mag k.val := by
      rw [mag_pow (by norm_num), ← hk, pow2_eq]
      exact h0
    have := mag_le_iff.mp this
    omega
  obtain ⟨hl, es⟩ := BenchMath.setExponent_fin false k (e := 1023) (v := 1023) rfl (by norm_num)
  obtain ⟨w, w1, w2, w3, w4, hw, rfl⟩ := BenchLog.mantissa (k.val % 2 ^ 52) hm
  rw [es]
  refine ⟨((k.val / 2 ^ 52 : ℕ) : ℤ) - 1023, by omega, by omega, ?_, w1, w3, w4, ?_⟩
  · unfold Bench.exponentBits; rw [expField]; ring
  · rw [hk, w2]
    conv_lhs => rw [show k.val = k.val / 2 ^ 52 * 2 ^ 52 + k.val % 2 ^ 52 by omega, mag_normal hv1 hm, pow2_eq]
    rw [show ((k.val / 2 ^ 52 : ℕ) : ℤ) - 1075 = ((k.val / 2 ^ 52 : ℕ) : ℤ) - 1023 - 52 by ring, zpow_sub₀ (by norm_num)]
    rw [show (2 : ℚ) ^ (52 : ℤ) = 2 ^ 52 from zpow_natCast 2 52]
    ring

/-- adding an integer to the exponent field multiplies by a power of 2, as long as both numbers are normal -/
theorem shift {t : F64} (ht : isFin t) {e k : ℤ} (he : -1022 ≤ e) (h0 : 2 ^ e ≤ toQ t) (h1 : toQ t < 2 ^ (e + 1)) (k0 : -1022 ≤ e + k) (k1 : e + k ≤ 1023) :
    isFin (Bench.setExponent t (UInt64.ofInt ((Bench.exponentBits t).toNat + k))) ∧
      toQ (Bench.setExponent t (UInt64.ofInt ((Bench.exponentBits t).toNat + k))) = toQ t * 2 ^ k := by
  rcases t with _ | _ | ⟨s, c⟩
  · exact absurd ht id
  · exact absurd ht id
  have hp : (0 : ℚ) < 2 ^ e := by positivity
  cases s with
  | true =>
    rw [toQ_fin, if_pos rfl] at h0
    have := mag_nonneg c.val
    linarith
  | false =>
  rw [toQ_fin, if_neg (by simp)] at h0 h1
  have hc := BenchMath.code_of_binade he (by rwa [pow2_eq]) (by rwa [pow2_eq])
  obtain ⟨v, hv⟩ : ∃ v : ℕ, (v : ℤ) = e + 1023 := ⟨(e + 1023).toNat, by omega⟩
  obtain ⟨u, hu⟩ : ∃ u : ℕ, (u : ℤ) = e + k + 1023 := ⟨(e + k + 1023).toNat, by omega⟩
  have hcv : c.val / 2 ^ 52 = v := by rw [hc]; omega
  have hm : c.val % 2 ^ 52 < 2 ^ 52 := Nat.mod_lt _ (by norm_num)
  have hb : (Bench.exponentBits (fin false c)).toNat = v := by unfold Bench.exponentBits; rw [expField, hcv]
  have hs : (UInt64.ofInt ((Bench.exponentBits (fin false c)).toNat + k)).toNat = u := by
    rw [hb, show (v : ℤ) + k = u by omega]
    show (UInt64.ofNat ((u : ℤ) % 2 ^ 64).toNat).toNat = u
    rw [UInt64.toNat_ofNat']
    omega
  obtain ⟨hlt, e1⟩ := BenchMath.setExponent_fin false c hs (by omega)
  rw [e1]
  refine ⟨trivial, ?_⟩
  rw [toQ_fin, toQ_fin, if_neg (by simp), if_neg (by simp)]
  dsimp only
  have hcv' : c.val = v * 2 ^ 52 + c.val % 2 ^ 52 := by omega
  rw [mag_normal (by omega) hm]
  conv_rhs => rw [hcv']
  rw [mag_normal (by omega) hm, mul_assoc, ← pow2_eq, ← pow2_add]
  congr 2
  omega

end BenchPowbis
end Verif

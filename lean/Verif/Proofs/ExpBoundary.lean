/-
`xexp` in binary64: the 1024 places where the exponent of the argument reduction changes, checked by computation.
-/
import Verif.Model.Xmath
import Verif.F64.Exact

namespace Verif
open F64

/-- the positive double of code `n` -/
def codeF (n : ℕ) : F64 := if h : n < finCodes then fin false ⟨n, h⟩ else nan

/-- the exponent extracted by the argument reduction, 0 without reduction -/
def expIdx (x : F64) : ℕ := if toQ (LOG2 : F64) < toQ x then ⌊toQ (x /. LOG2)⌋.toNat else 0

/-- two bits for each `K`: the distance, plus one, from the double nearest to `LOG2 * (K + 1)` to the first one of exponent `K + 1` -/
def bndTable : ℕ := 0x5555555555599999555555555666665555555555599999555555555566665555555555599999555555555566665555555555599999555555555566665555555555599999555555540055555555555540015555555555540015555555555540015555555555540015555555555540015555555555540015555555555540015555555556aa5555555555556aa5555555555556aa5555555555556aa5555555555556aa555505555554055555501555554055555501555554055555501555554055555a55555569555555a55555569555555a5515551554155455505551554155455655565559555955651515155454545555556565511155555555405555455556

/-- code of the smallest double of exponent `K + 1` -/
def bndCode (K : ℕ) : ℕ := rnd (toQ (LOG2 : F64) * ((K + 1 : ℕ) : ℚ)) + bndTable / 4 ^ K % 4 - 1

/-- both computations are defined and in order -/
def okLe : C F64 → C F64 → Bool
  | .ok u, .ok v => F64.le u v
  | _, _ => false

/-- `c` is the code of the first double of exponent `K + 1`, and below the code of 1000 -/
def IsBnd (K c : ℕ) : Prop := 1 ≤ c ∧ c ≤ 0x408F400000000000 ∧ expIdx (codeF (c - 1)) = K ∧ expIdx (codeF c) = K + 1

instance (K c : ℕ) : Decidable (IsBnd K c) := by unfold IsBnd; infer_instance

/-- the step from the exponent `K` to the exponent `K + 1`, both values being computed -/
def expHardAt (K c : ℕ) : Bool :=
  decide (IsBnd K c) && okLe (xexpNonneg muslFU (codeF (c - 1))) (xexpNonneg muslFU (codeF c))

/-- the same step when the reduced arguments `u` and `v` differ by less than `LOG2` by a margin covering the rounding errors -/
def expEasyAt (K c : ℕ) (u v : ℚ) : Bool := decide (IsBnd K c ∧ v ≤ 1 / 100 ∧ u - v ≤ toQ (LOG2 : F64) - 35 / 10 ^ 16)

def expHard (K : ℕ) : Bool := expHardAt K (bndCode K)

def expEasy (K : ℕ) : Bool :=
  expEasyAt K (bndCode K) (mag (bndCode K - 1) - toQ (LOG2 *. lit (K : ℚ) : F64)) (mag (bndCode K) - toQ (LOG2 *. lit ((K + 1 : ℕ) : ℚ) : F64))

theorem expHards : (List.range 46).all (fun i => expHard i) = true := by decide +kernel

theorem expEasys : (List.range 978).all (fun i => expEasy (i + 46)) = true := by decide +kernel

theorem expHard_spec {K : ℕ} (h : K < 46) : IsBnd K (bndCode K) ∧
    okLe (xexpNonneg muslFU (codeF (bndCode K - 1))) (xexpNonneg muslFU (codeF (bndCode K))) = true := by
  have := List.all_eq_true.mp expHards K (List.mem_range.mpr h)
  unfold expHard expHardAt at this
  rw [Bool.and_eq_true] at this
  exact ⟨of_decide_eq_true this.1, this.2⟩

theorem expEasy_spec {K : ℕ} (h : 46 ≤ K) (h' : K < 1024) : IsBnd K (bndCode K) ∧
    mag (bndCode K) - toQ (LOG2 *. lit ((K + 1 : ℕ) : ℚ) : F64) ≤ 1 / 100 ∧
    (mag (bndCode K - 1) - toQ (LOG2 *. lit (K : ℚ) : F64)) - (mag (bndCode K) - toQ (LOG2 *. lit ((K + 1 : ℕ) : ℚ) : F64)) ≤
      toQ (LOG2 : F64) - 35 / 10 ^ 16 := by
  have := List.all_eq_true.mp expEasys (K - 46) (List.mem_range.mpr (by omega))
  rw [show K - 46 + 46 = K by omega] at this
  exact of_decide_eq_true this

end Verif

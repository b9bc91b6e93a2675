/-
The floating-point utilities (C50, C51, C56, C57).
-/
import Verif.Proofs.Frexp

namespace Verif
open F64

/-! ### C50 -/

/-- Finite non-zero doubles, normal or subnormal, are decomposed exactly; `e0` is the old content of `*e`. -/
theorem C50_frexp (x : F64) (e0 : ℤ) (hx : isFin x) (h0 : toQ x ≠ 0) :
    Spec.IsFrexp x (musl_frexp x e0).1 (musl_frexp x e0).2 := by
  rcases x with _ | _ | ⟨s, k⟩
  · exact absurd hx id
  · exact absurd hx id
  · exact musl_frexp_normal s k e0 (fun h => h0 (toQ_eq_zero.mpr h))

/-- The exponent is within the range of an `int`, and so is every intermediate result. -/
theorem C50_exponent (x : F64) (e0 : ℤ) (hx : isFin x) (h0 : toQ x ≠ 0) :
    -1073 ≤ (musl_frexp x e0).2 ∧ (musl_frexp x e0).2 ≤ 1024 := by
  obtain ⟨h1, h2, h3, h4⟩ := C50_frexp x e0 hx h0
  rcases x with _ | _ | ⟨s, k⟩
  · exact absurd hx id
  · exact absurd hx id
  set m := toQ (musl_frexp (fin s k) e0).1
  set e := (musl_frexp (fin s k) e0).2
  have g1 := abs_toQ_ge h0
  have g2 := abs_toQ_le s k
  have p := pow2_pos e
  have g3 : |toQ (fin s k)| = |m| * pow2 e := by rw [h4, ← pow2_eq, abs_scale]
  rw [g3] at g1 g2
  constructor
  · by_contra hc
    push Not at hc
    have : pow2 e ≤ pow2 (-1074) := pow2_le (by omega)
    nlinarith
  · by_contra hc
    push Not at hc
    have : pow2 1025 ≤ pow2 e := pow2_le (by omega)
    have h25 : pow2 1025 = 2 * pow2 1024 := by
      rw [show (1025 : ℤ) = 1 + 1024 by norm_num, pow2_add, show pow2 1 = 2 by rw [pow2_eq]; norm_num]
    have hk : mag k.val < pow2 1024 := by
      have h : mag (2047 * 2 ^ 52) = pow2 1024 := mag_pow (v := 2047) (by norm_num)
      rw [← h]
      have := k.isLt
      have hf : finCodes = 2047 * 2 ^ 52 := by decide
      exact mag_lt_iff.mpr (by omega)
    rw [← abs_toQ_fin s, g3] at hk
    nlinarith

/-- Zeros, infinities and NaN are returned unchanged; the exponent of a zero is 0, otherwise `*e` is left alone. -/
theorem C50_special (e0 : ℤ) :
    (∀ s, musl_frexp (zero s) e0 = (zero s, 0)) ∧ (∀ s, musl_frexp (inf s) e0 = (inf s, e0)) ∧
      musl_frexp nan e0 = (nan, e0) := by
  refine ⟨fun s => ?_, fun s => ?_, ?_⟩
  · unfold musl_frexp
    dsimp only
    have h : (zero s).toBits >>> 52 &&& 0x7ff = 0 := by cases s <;> decide +kernel
    have h' : (zero s ==. lit 0) = true := by cases s <;> decide +kernel
    rw [if_pos h, h']; rfl
  · unfold musl_frexp
    dsimp only
    have h : ¬ ((inf s).toBits >>> 52 &&& 0x7ff = 0) := by cases s <;> decide +kernel
    have h' : (inf s).toBits >>> 52 &&& 0x7ff = 0x7ff := by cases s <;> decide +kernel
    rw [if_neg h, if_pos h']
  · unfold musl_frexp
    dsimp only
    have h : ¬ (nan.toBits >>> 52 &&& 0x7ff = 0) := by decide +kernel
    have h' : nan.toBits >>> 52 &&& 0x7ff = 0x7ff := by decide +kernel
    rw [if_neg h, if_pos h']

/-- a normal and a subnormal number -/
example : musl_frexp (lit (-12)) 5 = (lit (-3 / 4), 4) ∧
    musl_frexp (fin false ⟨3, by decide⟩) 5 = (lit (3 / 4), -1072) := by
  decide +kernel

/-! ### C51 -/

/-- `ldexp` rounds exactly once, for every integer `n` (all those of type `int` in particular). -/
theorem C51_ldexp (x : F64) (n : ℤ) : musl_ldexp x n = Spec.scaleB x n := musl_ldexp_eq x n

/-- Exact when the result is representable: `ldexp` undoes `frexp`. -/
theorem C51_inverse (x : F64) (e0 : ℤ) (hx : isFin x) (h0 : toQ x ≠ 0) :
    musl_ldexp (musl_frexp x e0).1 (musl_frexp x e0).2 = x := by
  obtain ⟨h1, h2, h3, h4⟩ := C50_frexp x e0 hx h0
  rw [C51_ldexp]
  obtain ⟨s, k, hm⟩ : ∃ s k, (musl_frexp x e0).1 = fin s k := by
    rcases hm : (musl_frexp x e0).1 with _ | _ | ⟨s, k⟩
    · rw [hm] at h1; exact absurd h1 id
    · rw [hm] at h1; exact absurd h1 id
    · exact ⟨s, k, rfl⟩
  rw [hm] at h4 ⊢
  unfold Spec.scaleB
  dsimp only
  rw [← h4, ofRat_toQ s hx h0]

/-- rounding in the subnormal range (a tie, to even), overflow and gradual underflow -/
example : musl_ldexp (lit (2 ^ 52 + 3)) (-1075) = fin false ⟨2 ^ 51 + 2, by decide⟩ ∧
    musl_ldexp (lit (3 / 2)) 1024 = inf false ∧ musl_ldexp (lit (3 / 2)) 1023 = lit (3 * 2 ^ 1022) ∧
    musl_ldexp (lit (-1)) (-1074) = fin true ⟨1, by decide⟩ ∧ musl_ldexp (lit (-1)) (-3000) = zero true := by
  decide +kernel

/-! ### C56 -/

/-- NaN if an argument is NaN, otherwise one of the arguments, not above either. -/
theorem C56_xmin (a b : F64) :
    (a = nan ∨ b = nan → xmin a b = nan) ∧
    (a ≠ nan → b ≠ nan → (xmin a b = a ∨ xmin a b = b) ∧ (xmin a b <=. a) = true ∧ (xmin a b <=. b) = true) := by
  have N : ∀ x : F64, is_nan x = false ↔ x ≠ nan := fun x => by
    rw [F64.is_nan_false]; cases x <;> simp [notNaN]
  constructor
  · intro h
    have : (is_nan a || is_nan b) = true := by
      by_contra hc
      rw [Bool.not_eq_true, Bool.or_eq_false_iff, N, N] at hc
      tauto
    unfold xmin; rw [if_pos this]; rfl
  · intro ha hb
    have ha' := (N a).mpr ha
    have hb' := (N b).mpr hb
    unfold xmin
    rw [if_neg (by rw [ha', hb']; decide)]
    by_cases h : (a <. b) = true
    · rw [if_pos h]
      obtain ⟨-, -, h'⟩ := (CDoubleLaws.lt_iff a b).mp h
      exact ⟨.inl rfl, (CDoubleLaws.le_iff _ _).mpr ⟨ha', ha', le_rfl⟩, (CDoubleLaws.le_iff _ _).mpr ⟨ha', hb', h'.le⟩⟩
    · rw [if_neg h]
      have h' : ¬ CDoubleLaws.val a < CDoubleLaws.val b := fun hc => h ((CDoubleLaws.lt_iff a b).mpr ⟨ha', hb', hc⟩)
      exact ⟨.inr rfl, (CDoubleLaws.le_iff _ _).mpr ⟨hb', ha', not_lt.mp h'⟩, (CDoubleLaws.le_iff _ _).mpr ⟨hb', hb', le_rfl⟩⟩

example : xmin (lit 2) (lit 1) = (lit 1 : F64) ∧ xmin (lit 2) nan = nan ∧ xmin (inf true) (lit 1) = inf true := by decide +kernel

/-! ### C57 -/

/-- Each function is replaced when and only when the argument is not NULL; nothing else of the library state changes. -/
theorem C57_set (lib : Lib F64) (l : Option (F64 → ℤ → F64)) (f : Option (F64 → ℤ → F64 × ℤ)) :
    (internal_set_float_utils lib l f).fu.ldexp = (match l with | some l => l | none => lib.fu.ldexp) ∧
    (internal_set_float_utils lib l f).fu.frexp = (match f with | some f => f | none => lib.fu.frexp) ∧
    (internal_set_float_utils lib l f).malloc = lib.malloc ∧ (internal_set_float_utils lib l f).freeSet = lib.freeSet := by
  refine ⟨?_, ?_, rfl, rfl⟩ <;> cases l <;> cases f <;> rfl

/-- a decomposition is unique -/
theorem IsFrexp.unique {x m m' : F64} {e e' : ℤ} (h : Spec.IsFrexp x m e) (h' : Spec.IsFrexp x m' e') : m = m' ∧ e = e' := by
  obtain ⟨a1, a2, a3, a4⟩ := h
  obtain ⟨b1, b2, b3, b4⟩ := h'
  have key : |toQ m| * pow2 e = |toQ m'| * pow2 e' := by
    rw [← abs_scale, ← abs_scale, pow2_eq, pow2_eq, ← a4, b4]
  have lt_aux : ∀ {e e' : ℤ} {u v : ℚ}, 1 / 2 ≤ u → u < 1 → 1 / 2 ≤ v → v < 1 → u * pow2 e = v * pow2 e' → ¬ e < e' := by
    intro e e' u v hu hu' hv hv' hk hlt
    have h1 : pow2 (e + 1) ≤ pow2 e' := pow2_le (by omega)
    rw [pow2_add, show pow2 1 = 2 by rw [pow2_eq]; norm_num] at h1
    have := pow2_pos e
    nlinarith
  have he : e = e' := by
    rcases lt_trichotomy e e' with h | h | h
    · exact absurd h (lt_aux a2 a3 b2 b3 key)
    · exact h
    · exact absurd h (lt_aux b2 b3 a2 a3 key.symm)
  refine ⟨?_, he⟩
  subst he
  have hp : (2 : ℚ) ^ e ≠ 0 := zpow_ne_zero _ (by norm_num)
  have hq : toQ m = toQ m' := mul_right_cancel₀ hp (a4.symm.trans b4)
  have h0 : toQ m ≠ 0 := fun h => by rw [h, abs_zero] at a2; norm_num at a2
  rw [← ofRat_toQ false a1 h0, ← ofRat_toQ false b1 (hq ▸ h0), hq]

/-- The contract of `frexp` in ISO C (7.12.6.4 and F.10.3.4): the exact decomposition of finite non-zero numbers, infinities
unchanged with an unspecified exponent. -/
def FrexpContract (f : F64 → ℤ → F64 × ℤ) : Prop :=
  (∀ x e0, isFin x → toQ x ≠ 0 → Spec.IsFrexp x (f x e0).1 (f x e0).2) ∧ ∀ s e0, (f (inf s) e0).1 = inf s

/-- The contract of `ldexp` (IEEE 754 scaleB) for the arguments of type `int`. -/
def LdexpContract (l : F64 → ℤ → F64) : Prop := ∀ x n, -2 ^ 31 ≤ n → n < 2 ^ 31 → l x n = Spec.scaleB x n

theorem log_cf_inf : log_cf_11 (inf false) = nan := by decide +kernel

/-- Any functions that meet the contracts give the same logarithm, exponential and power, hence the same `MathFns` for the
whole library. -/
theorem C57_same (fu : FloatUtils F64) (hf : FrexpContract fu.frexp) (hl : LdexpContract fu.ldexp) :
    codeMath fu = codeMath muslFU ∧ ∀ a x, xpow (codeMath fu) a x = xpow (codeMath muslFU) a x := by
  have hlog : xlog fu = xlog muslFU := by
    funext x
    unfold xlog
    by_cases h1 : (x <. lit 0 || is_nan x) = true
    · rw [if_pos h1, if_pos h1]
    rw [if_neg h1, if_neg h1]
    by_cases h2 : (x ==. lit 0) = true
    · rw [if_pos h2, if_pos h2]
    rw [if_neg h2, if_neg h2]
    dsimp only
    rcases x with _ | s | ⟨s, k⟩
    · exact absurd (by decide +kernel) h1
    · cases s
      · have e1 := hf.2 false 0
        have N : ∀ y : F64, (nan +. y) = nan := fun _ => rfl
        rw [e1, show muslFU.frexp (inf false) 0 = (inf false, 0) from (C50_special 0).2.1 false]
        dsimp only
        simp only [log_cf_inf, N, ite_self]
      · exact absurd (by decide +kernel) h1
    · have h0 : toQ (fin s k) ≠ 0 := by
        intro h
        apply h2
        have : fin s k = zero s := by unfold zero; congr 1; exact Fin.ext (toQ_eq_zero.mp h)
        rw [this]; cases s <;> decide +kernel
      obtain ⟨e1, e2⟩ := IsFrexp.unique (hf.1 (fin s k) 0 trivial h0) (C50_frexp (fin s k) 0 trivial h0)
      rw [e1, e2]; rfl
  have hU : ∀ k : ℕ, k < 2 ^ 32 → -2 ^ 31 ≤ uintToInt k ∧ uintToInt k < 2 ^ 31 := by
    intro k hk; unfold uintToInt; split <;> constructor <;> push_cast at * <;> omega
  have hexp' : xexpNonneg fu = xexpNonneg muslFU := by
    funext x
    unfold xexpNonneg
    by_cases h : (x >. LOG2) = true
    · rw [if_pos h, if_pos h]
      unfold toUInt32
      rcases hT : CDouble.trunc (x /. LOG2) with _ | k
      · rfl
      · dsimp only
        by_cases hk : 0 ≤ k ∧ k < 2 ^ 32
        · rw [if_pos hk]
          have hb := hU k.toNat (by omega)
          show Except.ok _ = Except.ok _
          congr 1
          rw [hl _ _ hb.1 hb.2]; exact (C51_ldexp _ _).symm
        · rw [if_neg hk]; rfl
    · rw [if_neg h, if_neg h]
  have hexp : xexp fu = xexp muslFU := by
    funext x; unfold xexp; rw [hexp']
  have hM : codeMath fu = codeMath muslFU := by unfold codeMath; rw [hlog, hexp]
  exact ⟨hM, fun a x => by rw [hM]⟩

/-- the built-in functions meet the contracts -/
theorem C57_builtin : FrexpContract muslFU.frexp ∧ LdexpContract muslFU.ldexp :=
  ⟨⟨fun x e0 hx h0 => C50_frexp x e0 hx h0, fun s e0 => congrArg Prod.fst ((C50_special e0).2.1 s)⟩,
    fun x n _ _ => C51_ldexp x n⟩

/-- and so do others: here `frexp` stores -1 for infinities (as some C libraries do), and `ldexp` rounds in one operation -/
example : FrexpContract (fun x e0 => if x = inf false ∨ x = inf true then (x, -1) else musl_frexp x e0) ∧
    LdexpContract Spec.scaleB := by
  refine ⟨⟨fun x e0 hx h0 => ?_, fun s e0 => ?_⟩, fun _ _ _ _ => rfl⟩
  · have : ¬ (x = inf false ∨ x = inf true) := by rintro (h | h) <;> rw [h] at hx <;> exact hx
    simp only [if_neg this]
    exact C50_frexp x e0 hx h0
  · cases s <;> simp

end Verif

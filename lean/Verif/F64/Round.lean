/-
IEEE-754 binary64: magnitudes and round-to-nearest-even on non-negative rationals.

A finite double magnitude is coded by the 63 low bits of its bit pattern, i.e. by a natural number
`k < 2047 * 2^52` (`k / 2^52` is the biased exponent field, `k % 2^52` the fraction field).
The coding is strictly increasing, which makes rounding statements short.
This file models no code of /repo: it is the semantics of the C type `double` (IEC 60559 binary64,
FLT_EVAL_METHOD = 0, default rounding mode).
-/
import Mathlib.Algebra.Order.Floor.Ring
import Mathlib.Data.Rat.Floor
import Mathlib.Algebra.Order.Field.Power
import Mathlib.Tactic.Linarith
import Mathlib.Tactic.Positivity
import Mathlib.Tactic.FieldSimp
import Mathlib.Tactic.Ring
import Mathlib.Tactic.NormNum
import Mathlib.Tactic.Zify
import Mathlib.Tactic.Push

namespace Verif

/-- `2^e` as a rational, written so that the kernel computes it quickly. -/
def pow2 (e : ℤ) : ℚ :=
  match e with
  | Int.ofNat n => ((2 ^ n : ℕ) : ℚ)
  | Int.negSucc n => mkRat 1 (2 ^ (n + 1))

theorem pow2_eq (e : ℤ) : pow2 e = (2 : ℚ) ^ e := by
  cases e with
  | ofNat n => simp [pow2]
  | negSucc n =>
    simp only [pow2, zpow_negSucc]
    rw [Rat.mkRat_eq_div]
    push_cast
    rw [one_div]

theorem pow2_pos (e : ℤ) : 0 < pow2 e := by rw [pow2_eq]; positivity

theorem pow2_ne (e : ℤ) : pow2 e ≠ 0 := (pow2_pos e).ne'

theorem pow2_add (a b : ℤ) : pow2 (a + b) = pow2 a * pow2 b := by
  simp only [pow2_eq]; exact zpow_add₀ (by norm_num) a b

theorem pow2_le {a b : ℤ} (h : a ≤ b) : pow2 a ≤ pow2 b := by
  simp only [pow2_eq]; exact zpow_le_zpow_right₀ (by norm_num) h

theorem pow2_lt {a b : ℤ} (h : a < b) : pow2 a < pow2 b := by
  simp only [pow2_eq]; exact zpow_lt_zpow_right₀ (by norm_num) h

theorem pow2_lt_iff {a b : ℤ} : pow2 a < pow2 b ↔ a < b := by
  simp only [pow2_eq]; exact zpow_lt_zpow_iff_right₀ (by norm_num)

theorem pow2_natCast (n : ℕ) : pow2 n = (2 ^ n : ℕ) := rfl

theorem pow2_zero : pow2 0 = 1 := by rw [pow2_eq]; simp

theorem pow2_mul_neg (a : ℤ) : pow2 a * pow2 (-a) = 1 := by
  rw [← pow2_add]; simp [pow2_zero]

theorem pow2_succ (a : ℤ) : pow2 (a + 1) = 2 * pow2 a := by
  rw [pow2_add, mul_comm]; congr 1

/-- `⌊log2 q⌋` for `q > 0`. -/
def ilog2 (q : ℚ) : ℤ :=
  let l : ℤ := (Nat.log2 q.num.natAbs : ℤ) - (Nat.log2 q.den : ℤ)
  if pow2 l ≤ q then l else l - 1

theorem ilog2_spec {q : ℚ} (hq : 0 < q) : pow2 (ilog2 q) ≤ q ∧ q < pow2 (ilog2 q + 1) := by
  have hn : 0 < q.num := Rat.num_pos.mpr hq
  have hn0 : q.num.natAbs ≠ 0 := by omega
  have hd0 : q.den ≠ 0 := q.den_nz
  set a := Nat.log2 q.num.natAbs with ha
  set b := Nat.log2 q.den with hb
  have h1 : (2 : ℚ) ^ a ≤ q.num := by
    have := Nat.log2_self_le hn0
    have h' : ((2 ^ a : ℕ) : ℤ) ≤ q.num := by
      have : ((2 ^ a : ℕ) : ℤ) ≤ (q.num.natAbs : ℤ) := by exact_mod_cast this
      omega
    exact_mod_cast h'
  have h2 : (q.num : ℚ) < 2 ^ (a + 1) := by
    have := Nat.lt_log2_self (n := q.num.natAbs)
    have h' : q.num < ((2 ^ (a + 1) : ℕ) : ℤ) := by
      have : (q.num.natAbs : ℤ) < ((2 ^ (a + 1) : ℕ) : ℤ) := by exact_mod_cast this
      omega
    exact_mod_cast h'
  have h3 : (2 : ℚ) ^ b ≤ q.den := by exact_mod_cast Nat.log2_self_le hd0
  have h4 : (q.den : ℚ) < 2 ^ (b + 1) := by exact_mod_cast Nat.lt_log2_self (n := q.den)
  have hq' : (q.num : ℚ) / q.den = q := Rat.num_div_den q
  have hdp : (0 : ℚ) < q.den := by exact_mod_cast Nat.pos_of_ne_zero hd0
  have hu : q < pow2 ((a : ℤ) - b + 1) := by
    rw [← hq', div_lt_iff₀ hdp, pow2_eq]
    calc (q.num : ℚ) < 2 ^ (a + 1) := h2
      _ = 2 ^ ((a : ℤ) - b + 1) * 2 ^ b := by
        rw [← zpow_natCast, ← zpow_natCast, ← zpow_add₀ (by norm_num)]; congr 1; push_cast; ring
      _ ≤ _ := by gcongr
  have hl : pow2 ((a : ℤ) - b - 1) ≤ q := by
    rw [← hq', le_div_iff₀ hdp, pow2_eq]
    calc (2 : ℚ) ^ ((a : ℤ) - b - 1) * q.den ≤ 2 ^ ((a : ℤ) - b - 1) * 2 ^ (b + 1) := by gcongr
      _ = 2 ^ a := by
        rw [← zpow_natCast, ← zpow_natCast, ← zpow_add₀ (by norm_num)]; congr 1; push_cast; ring
      _ ≤ _ := h1
  unfold ilog2
  simp only [← ha, ← hb]
  split
  · next h => exact ⟨h, hu⟩
  · next h => exact ⟨hl, by simpa using lt_of_not_ge h⟩

theorem ilog2_eq {q : ℚ} {e : ℤ} (h1 : pow2 e ≤ q) (h2 : q < pow2 (e + 1)) : ilog2 q = e := by
  have hq : 0 < q := lt_of_lt_of_le (pow2_pos e) h1
  obtain ⟨h3, h4⟩ := ilog2_spec hq
  have a1 : e < ilog2 q + 1 := pow2_lt_iff.mp (lt_of_le_of_lt h1 h4)
  have a2 : ilog2 q < e + 1 := pow2_lt_iff.mp (lt_of_le_of_lt h3 h2)
  omega

/-- Round a non-negative rational to the nearest natural number, ties to even. -/
def roundEven (x : ℚ) : ℕ :=
  let f := x.floor.toNat
  let r := x - f
  if r < 1 / 2 then f
  else if 1 / 2 < r then f + 1
  else if f % 2 = 0 then f else f + 1

/-- Magnitude coded by `k` (unbounded exponent range: `k ≥ 2047*2^52` codes values beyond the largest double). -/
def mag (k : ℕ) : ℚ :=
  if k / 2 ^ 52 = 0 then (k : ℚ) * pow2 (-1074)
  else ((2 ^ 52 + k % 2 ^ 52 : ℕ) : ℚ) * pow2 ((k / 2 ^ 52 : ℕ) - 1075)

/-- Code of the double nearest to `q ≥ 0` (ties to even), with unbounded exponent range. -/
def rnd (q : ℚ) : ℕ :=
  if q ≤ 0 then 0
  else
    let e := max (ilog2 q) (-1022)
    ((e + 1022) * 2 ^ 52).toNat + roundEven (q * pow2 (52 - e))

/-- exponent of the last place of `q > 0` plus 52 -/
def expo (q : ℚ) : ℤ := max (ilog2 q) (-1022)

/-- Code of the largest magnitude `≤ q`. -/
def flr (q : ℚ) : ℕ := ((expo q + 1022) * 2 ^ 52).toNat + (q * pow2 (52 - expo q)).floor.toNat

theorem mag_lin {e : ℤ} {m : ℕ} (he : -1022 ≤ e) (hm : m ≤ 2 ^ 53) (h : e = -1022 ∨ 2 ^ 52 ≤ m) :
    mag (((e + 1022) * 2 ^ 52).toNat + m) = m * pow2 (e - 52) := by
  obtain ⟨n, rfl⟩ : ∃ n : ℕ, e = n - 1022 := ⟨(e + 1022).toNat, by omega⟩
  have h0 : (((n : ℤ) - 1022 + 1022) * 2 ^ 52).toNat = n * 2 ^ 52 := by
    have : ((n : ℤ) - 1022 + 1022) * 2 ^ 52 = ((n * 2 ^ 52 : ℕ) : ℤ) := by push_cast; ring
    rw [this]; exact Int.toNat_natCast _
  rw [h0]
  unfold mag
  rcases Nat.lt_or_ge m (2 ^ 52) with hlt | hge
  · have hn : n = 0 := by rcases h with h | h <;> omega
    subst hn
    have : (0 * 2 ^ 52 + m) / 2 ^ 52 = 0 := by rw [Nat.zero_mul, Nat.zero_add]; exact Nat.div_eq_of_lt hlt
    rw [if_pos this, Nat.zero_mul, Nat.zero_add]
    norm_num
  · rcases Nat.lt_or_ge m (2 ^ 53) with hlt | hge2
    · have hd : (n * 2 ^ 52 + m) / 2 ^ 52 = n + 1 := by omega
      have hmod : (n * 2 ^ 52 + m) % 2 ^ 52 = m - 2 ^ 52 := by omega
      rw [if_neg (by omega), hd, hmod]
      have e1 : 2 ^ 52 + (m - 2 ^ 52) = m := by omega
      rw [e1, show ((n + 1 : ℕ) : ℤ) - 1075 = (n : ℤ) - 1022 - 52 by push_cast; ring]
    · have hm' : m = 2 ^ 53 := by omega
      have hd : (n * 2 ^ 52 + m) / 2 ^ 52 = n + 2 := by omega
      have hmod : (n * 2 ^ 52 + m) % 2 ^ 52 = 0 := by omega
      rw [if_neg (by omega), hd, hmod, hm']
      have e1 : ((n + 2 : ℕ) : ℤ) - 1075 = ((n : ℤ) - 1022 - 52) + 1 := by push_cast; ring
      rw [e1, pow2_succ]; push_cast; ring

theorem mag_zero : mag 0 = 0 := by simp [mag]

theorem mag_succ_sub (k : ℕ) : ∃ j : ℤ, -1074 ≤ j ∧ mag (k + 1) = mag k + pow2 j ∧
    (∃ a : ℕ, mag k = a * pow2 j) := by
  by_cases h : k / 2 ^ 52 = 0
  · have hk : k < 2 ^ 52 := by omega
    refine ⟨-1074, le_refl _, ?_, k, by unfold mag; rw [if_pos h]⟩
    have h1 := mag_lin (e := -1022) (m := k) (le_refl _) (by omega) (Or.inl rfl)
    have h2 := mag_lin (e := -1022) (m := k + 1) (le_refl _) (by omega) (Or.inl rfl)
    simp at h1 h2
    rw [h1, h2]; ring
  · set n := k / 2 ^ 52 with hn
    have hm := Nat.mod_lt k (show 2 ^ 52 > 0 by norm_num)
    have hk : k = (n - 1) * 2 ^ 52 + (2 ^ 52 + k % 2 ^ 52) := by
      have := Nat.div_add_mod k (2 ^ 52)
      have : n - 1 + 1 = n := by omega
      have h3 : (n - 1) * 2 ^ 52 + 2 ^ 52 = n * 2 ^ 52 := by
        conv_rhs => rw [← this]
        ring
      omega
    have hh : (((n : ℤ) - 1023 + 1022) * 2 ^ 52).toNat = (n - 1) * 2 ^ 52 := by
      have : ((n : ℤ) - 1023 + 1022) * 2 ^ 52 = (((n - 1) * 2 ^ 52 : ℕ) : ℤ) := by
        push_cast [Nat.cast_sub (show 1 ≤ n by omega)]; ring
      rw [this]; exact Int.toNat_natCast _
    have h1 := mag_lin (e := (n : ℤ) - 1023) (m := 2 ^ 52 + k % 2 ^ 52) (by omega) (by omega) (Or.inr (by omega))
    have h2 := mag_lin (e := (n : ℤ) - 1023) (m := 2 ^ 52 + k % 2 ^ 52 + 1) (by omega) (by omega) (Or.inr (by omega))
    rw [hh] at h1 h2
    rw [← add_assoc, ← hk] at h2
    rw [← hk] at h1
    refine ⟨(n : ℤ) - 1023 - 52, by omega, ?_, 2 ^ 52 + k % 2 ^ 52, h1⟩
    rw [h1, h2]; push_cast; ring

theorem mag_lt_succ (k : ℕ) : mag k < mag (k + 1) := by
  obtain ⟨j, -, h, -⟩ := mag_succ_sub k
  rw [h]; linarith [pow2_pos j]

theorem mag_strictMono : StrictMono mag := strictMono_nat_of_lt_succ mag_lt_succ

theorem mag_lt_iff {a b : ℕ} : mag a < mag b ↔ a < b := mag_strictMono.lt_iff_lt
theorem mag_le_iff {a b : ℕ} : mag a ≤ mag b ↔ a ≤ b := mag_strictMono.le_iff_le
theorem mag_inj {a b : ℕ} : mag a = mag b ↔ a = b := mag_strictMono.injective.eq_iff

theorem mag_nonneg (k : ℕ) : 0 ≤ mag k := by
  rw [← mag_zero]; exact mag_le_iff.mpr (Nat.zero_le k)

theorem mag_pos {k : ℕ} (h : k ≠ 0) : 0 < mag k := by
  rw [← mag_zero]; exact mag_lt_iff.mpr (Nat.pos_of_ne_zero h)

theorem mag_eq_zero {k : ℕ} : mag k = 0 ↔ k = 0 := by
  rw [← mag_zero]; exact mag_inj

/-- facts about the scaled value used by `rnd` -/
theorem expo_facts {q : ℚ} (hq : 0 < q) :
    -1022 ≤ expo q ∧ q * pow2 (52 - expo q) < 2 ^ 53 ∧ (expo q = -1022 ∨ 2 ^ 52 ≤ q * pow2 (52 - expo q)) := by
  obtain ⟨h1, h2⟩ := ilog2_spec hq
  refine ⟨le_max_right _ _, ?_, ?_⟩
  · have : q < pow2 (expo q + 1) := lt_of_lt_of_le h2 (pow2_le (by unfold expo; omega))
    have h3 : pow2 (expo q + 1) * pow2 (52 - expo q) = 2 ^ 53 := by
      rw [← pow2_add]; rw [show expo q + 1 + (52 - expo q) = ((53 : ℕ) : ℤ) by push_cast; ring]
      rw [pow2_natCast]; norm_num
    calc q * pow2 (52 - expo q) < pow2 (expo q + 1) * pow2 (52 - expo q) :=
          mul_lt_mul_of_pos_right this (pow2_pos _)
      _ = _ := h3
  · by_cases h : ilog2 q ≤ -1022
    · left; unfold expo; omega
    · right
      have he : expo q = ilog2 q := by unfold expo; omega
      have h3 : pow2 (expo q) * pow2 (52 - expo q) = 2 ^ 52 := by
        rw [← pow2_add]; rw [show expo q + (52 - expo q) = ((52 : ℕ) : ℤ) by push_cast; ring]
        rw [pow2_natCast]; norm_num
      rw [← h3]
      exact mul_le_mul_of_nonneg_right (by rw [he]; exact h1) (pow2_pos _).le

theorem scaled_pos {q : ℚ} (hq : 0 < q) : 0 < q * pow2 (52 - expo q) := mul_pos hq (pow2_pos _)

theorem unscale (q : ℚ) (e : ℤ) : q * pow2 (52 - e) * pow2 (e - 52) = q := by
  rw [mul_assoc, ← pow2_add]; simp [pow2_zero]

theorem floor_facts {x : ℚ} (hx : 0 ≤ x) : (x.floor.toNat : ℚ) ≤ x ∧ x < x.floor.toNat + 1 := by
  have h0 : 0 ≤ x.floor := by
    exact Rat.le_floor_iff.mpr (by simpa using hx)
  have h1 : ((x.floor.toNat : ℤ) : ℚ) = (x.floor : ℚ) := by
    congr 1; omega
  have h2 : (x.floor.toNat : ℚ) = (x.floor : ℚ) := by rw [← h1]; push_cast; rfl
  rw [h2]
  exact ⟨Rat.floor_le x, by have := Rat.lt_floor (x := x); linarith⟩

theorem flr_spec {q : ℚ} (hq : 0 < q) :
    mag (flr q) = (q * pow2 (52 - expo q)).floor.toNat * pow2 (expo q - 52) ∧
    mag (flr q + 1) = ((q * pow2 (52 - expo q)).floor.toNat + 1) * pow2 (expo q - 52) ∧
    mag (flr q) ≤ q ∧ q < mag (flr q + 1) := by
  obtain ⟨h1, h2, h3⟩ := expo_facts hq
  set x := q * pow2 (52 - expo q) with hx
  have hx0 : 0 < x := scaled_pos hq
  obtain ⟨f1, f2⟩ := floor_facts hx0.le
  set m := x.floor.toNat with hm
  have hm53 : m < 2 ^ 53 := by
    have : (m : ℚ) < (2 ^ 53 : ℕ) := by push_cast; linarith
    exact_mod_cast this
  have hor : expo q = -1022 ∨ 2 ^ 52 ≤ m := by
    rcases h3 with h3 | h3
    · exact Or.inl h3
    · right
      have : ((2 ^ 52 : ℕ) : ℚ) < ((m + 1 : ℕ) : ℚ) := by push_cast; linarith
      have := Nat.cast_lt.mp this
      omega
  have g1 := mag_lin (e := expo q) (m := m) h1 hm53.le hor
  have g2 := mag_lin (e := expo q) (m := m + 1) h1 hm53 (hor.imp id (by omega))
  have e1 : flr q = ((expo q + 1022) * 2 ^ 52).toNat + m := rfl
  rw [e1]
  rw [← add_assoc] at g2
  refine ⟨g1, by rw [g2]; push_cast; rfl, ?_, ?_⟩
  · rw [g1]
    calc (m : ℚ) * pow2 (expo q - 52) ≤ x * pow2 (expo q - 52) :=
          mul_le_mul_of_nonneg_right f1 (pow2_pos _).le
      _ = q := unscale q _
  · rw [g2]
    calc q = x * pow2 (expo q - 52) := (unscale q _).symm
      _ < _ := by push_cast; exact mul_lt_mul_of_pos_right f2 (pow2_pos _)

theorem flr_unique {q : ℚ} {k : ℕ} (hq : 0 < q) (h1 : mag k ≤ q) (h2 : q < mag (k + 1)) : flr q = k := by
  obtain ⟨-, -, h3, h4⟩ := flr_spec hq
  have a1 := mag_lt_iff.mp (lt_of_le_of_lt h1 h4)
  have a2 := mag_lt_iff.mp (lt_of_le_of_lt h3 h2)
  omega

theorem roundEven_bounds (x : ℚ) : x.floor.toNat ≤ roundEven x ∧ roundEven x ≤ x.floor.toNat + 1 := by
  unfold roundEven
  simp only
  split_ifs <;> omega

theorem rnd_eq {q : ℚ} (hq : 0 < q) :
    rnd q = ((expo q + 1022) * 2 ^ 52).toNat + roundEven (q * pow2 (52 - expo q)) := by
  unfold rnd
  rw [if_neg (not_le.mpr hq)]
  rfl

theorem rnd_bounds {q : ℚ} (hq : 0 < q) : flr q ≤ rnd q ∧ rnd q ≤ flr q + 1 := by
  rw [rnd_eq hq]
  have := roundEven_bounds (q * pow2 (52 - expo q))
  unfold flr
  omega

theorem rnd_nonpos {q : ℚ} (hq : q ≤ 0) : rnd q = 0 := by simp [rnd, hq]

theorem rnd_zero : rnd 0 = 0 := rnd_nonpos le_rfl

/-- `rnd` is the identity on codes of doubles. -/
theorem rnd_mag (k : ℕ) : rnd (mag k) = k := by
  by_cases hk : k = 0
  · subst hk; rw [mag_zero, rnd_zero]
  · have hq := mag_pos hk
    have hf : flr (mag k) = k := flr_unique hq le_rfl (mag_lt_succ k)
    obtain ⟨h1, -, -, -⟩ := flr_spec hq
    rw [hf] at h1
    have hx : mag k * pow2 (52 - expo (mag k)) = (mag k * pow2 (52 - expo (mag k))).floor.toNat := by
      set m := (mag k * pow2 (52 - expo (mag k))).floor.toNat
      calc mag k * pow2 (52 - expo (mag k)) = m * pow2 (expo (mag k) - 52) * pow2 (52 - expo (mag k)) := by
            rw [← h1]
        _ = m := by rw [mul_assoc, ← pow2_add]; simp [pow2_zero]
    rw [rnd_eq hq]
    have : roundEven (mag k * pow2 (52 - expo (mag k))) = (mag k * pow2 (52 - expo (mag k))).floor.toNat := by
      set x := mag k * pow2 (52 - expo (mag k))
      unfold roundEven
      simp only
      rw [if_pos]
      rw [← hx]; norm_num
    rw [this]
    exact hf

/-- the decision taken inside one cell is monotone -/
theorem roundEven_mono_cell {x y : ℚ} (hxy : x ≤ y) (h : x.floor.toNat = y.floor.toNat) :
    roundEven x ≤ roundEven y := by
  unfold roundEven
  simp only
  rw [h]
  split_ifs <;> first | omega | (exfalso; linarith)

theorem rnd_mono {p q : ℚ} (h : p ≤ q) : rnd p ≤ rnd q := by
  by_cases hp : p ≤ 0
  · rw [rnd_nonpos hp]; exact Nat.zero_le _
  push Not at hp
  have hq : 0 < q := lt_of_lt_of_le hp h
  obtain ⟨-, -, p3, p4⟩ := flr_spec hp
  obtain ⟨q1, q2, q3, q4⟩ := flr_spec hq
  have hle : flr p ≤ flr q := by
    have := mag_lt_iff.mp (lt_of_le_of_lt (le_trans p3 h) q4)
    omega
  rcases Nat.lt_or_ge (flr p) (flr q) with hlt | hge
  · exact le_trans (rnd_bounds hp).2 (le_trans hlt (rnd_bounds hq).1)
  · have heq : flr p = flr q := le_antisymm hle hge
    obtain ⟨p1, p2, -, -⟩ := flr_spec hp
    -- same cell, hence same exponent
    have hw : pow2 (expo p - 52) = pow2 (expo q - 52) := by
      have a : mag (flr p + 1) - mag (flr p) = pow2 (expo p - 52) := by rw [p1, p2]; ring
      have b : mag (flr q + 1) - mag (flr q) = pow2 (expo q - 52) := by rw [q1, q2]; ring
      rw [← a, ← b, heq]
    have he : expo p = expo q := by
      by_contra hne
      rcases lt_or_gt_of_ne hne with hl | hl
      · exact absurd hw (ne_of_lt (pow2_lt (by omega)))
      · exact absurd hw (ne_of_gt (pow2_lt (by omega)))
    rw [rnd_eq hp, rnd_eq hq, he]
    have hfl : (p * pow2 (52 - expo p)).floor.toNat = (q * pow2 (52 - expo q)).floor.toNat := by
      have : flr p = flr q := heq
      unfold flr at this
      rw [he] at this ⊢
      omega
    rw [he] at hfl
    have := roundEven_mono_cell (mul_le_mul_of_nonneg_right h (pow2_pos (52 - expo q)).le) hfl
    omega

theorem rnd_le {q : ℚ} {k : ℕ} (h : q ≤ mag k) : rnd q ≤ k := by
  have := rnd_mono h; rwa [rnd_mag] at this

theorem le_rnd {q : ℚ} {k : ℕ} (h : mag k ≤ q) : k ≤ rnd q := by
  have := rnd_mono h; rwa [rnd_mag] at this

theorem roundEven_err {x : ℚ} (hx : 0 ≤ x) : |(roundEven x : ℚ) - x| ≤ 1 / 2 := by
  obtain ⟨f1, f2⟩ := floor_facts hx
  unfold roundEven
  simp only
  rw [abs_le]
  split_ifs <;> (push_cast; constructor <;> linarith)

/-- rounding error is at most half a unit in the last place -/
theorem rnd_err {q : ℚ} (hq : 0 < q) : |mag (rnd q) - q| ≤ pow2 (expo q - 53) := by
  obtain ⟨h1, h2, h3⟩ := expo_facts hq
  set x := q * pow2 (52 - expo q) with hx
  have hx0 : 0 < x := scaled_pos hq
  obtain ⟨f1, f2⟩ := floor_facts hx0.le
  have hb := roundEven_bounds x
  have hm53 : x.floor.toNat < 2 ^ 53 := by
    have : (x.floor.toNat : ℚ) < (2 ^ 53 : ℕ) := by push_cast; linarith
    exact_mod_cast this
  have hor : expo q = -1022 ∨ 2 ^ 52 ≤ roundEven x := by
    rcases h3 with h3 | h3
    · exact Or.inl h3
    · right
      have : ((2 ^ 52 : ℕ) : ℚ) < ((x.floor.toNat + 1 : ℕ) : ℚ) := by push_cast; linarith
      have := Nat.cast_lt.mp this
      omega
  rw [rnd_eq hq, mag_lin h1 (by omega) hor]
  have : (roundEven x : ℚ) * pow2 (expo q - 52) - q = ((roundEven x : ℚ) - x) * pow2 (expo q - 52) := by
    rw [sub_mul, unscale]
  rw [this, abs_mul, abs_of_pos (pow2_pos _)]
  calc |(roundEven x : ℚ) - x| * pow2 (expo q - 52) ≤ 1 / 2 * pow2 (expo q - 52) :=
        mul_le_mul_of_nonneg_right (roundEven_err hx0.le) (pow2_pos _).le
    _ = pow2 (expo q - 53) := by
      rw [show expo q - 52 = (expo q - 53) + 1 by ring, pow2_succ]; ring

/-- relative error bound in the normal range -/
theorem rnd_rel {q : ℚ} (hq : pow2 (-1022) ≤ q) : |mag (rnd q) - q| ≤ pow2 (-53) * q := by
  have hq0 : 0 < q := lt_of_lt_of_le (pow2_pos _) hq
  have h := rnd_err hq0
  obtain ⟨h1, h2⟩ := ilog2_spec hq0
  have hil : -1022 ≤ ilog2 q := by
    have := pow2_lt_iff.mp (lt_of_le_of_lt hq h2); omega
  have he : expo q = ilog2 q := by unfold expo; omega
  refine le_trans h ?_
  rw [he, show ilog2 q - 53 = -53 + ilog2 q by ring, pow2_add]
  exact mul_le_mul_of_nonneg_left h1 (pow2_pos _).le

/-- absolute error bound in the subnormal range -/
theorem rnd_abs_sub {q : ℚ} (hq0 : 0 ≤ q) (hq : q ≤ pow2 (-1022)) : |mag (rnd q) - q| ≤ pow2 (-1075) := by
  rcases hq0.eq_or_lt with h | h
  · rw [← h, rnd_zero, mag_zero]; simpa using (pow2_pos (-1075)).le
  refine le_trans (rnd_err h) (pow2_le ?_)
  obtain ⟨h1, h2⟩ := ilog2_spec h
  have : ilog2 q < -1022 + 1 := pow2_lt_iff.mp (lt_of_le_of_lt h1 (lt_of_le_of_lt hq (pow2_lt (by omega))))
  unfold expo; omega

/-- every magnitude is a multiple of the smallest subnormal -/
theorem mag_multiple (k : ℕ) : ∃ a : ℕ, mag k = a * pow2 (-1074) := by
  unfold mag
  split
  · exact ⟨k, rfl⟩
  · next h =>
    refine ⟨(2 ^ 52 + k % 2 ^ 52) * 2 ^ (k / 2 ^ 52 - 1), ?_⟩
    have : ((k / 2 ^ 52 : ℕ) : ℤ) - 1075 = ((k / 2 ^ 52 - 1 : ℕ) : ℤ) + (-1074) := by omega
    rw [this, pow2_add, pow2_natCast]; push_cast; ring

/-- powers of two in range are magnitudes -/
theorem pow2_isMag {e : ℤ} (h : -1074 ≤ e) : ∃ k, mag k = pow2 e := by
  by_cases h2 : e ≤ -1022
  · refine ⟨((-1022 + 1022) * 2 ^ 52 : ℤ).toNat + 2 ^ (e + 1074).toNat, ?_⟩
    rw [mag_lin (e := -1022) (le_refl _) _ (Or.inl rfl)]
    · push_cast
      rw [show ((2 : ℚ) ^ (e + 1074).toNat) = pow2 ((e + 1074).toNat : ℤ) by rw [pow2_natCast]; push_cast; rfl]
      rw [← pow2_add]; congr 1; omega
    · exact Nat.pow_le_pow_right (by norm_num) (by omega)
  · refine ⟨((e + 1022) * 2 ^ 52).toNat + 2 ^ 52, ?_⟩
    rw [mag_lin (by omega) (by norm_num) (Or.inr le_rfl)]
    rw [show ((2 ^ 52 : ℕ) : ℚ) = pow2 (52 : ℕ) by rw [pow2_natCast]]
    rw [← pow2_add]; congr 1; push_cast; ring

end Verif

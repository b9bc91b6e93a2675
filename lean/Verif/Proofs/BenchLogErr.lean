/-
The rounding error of the recursive fraction of benchmark/log_cf_accuracy.c, for every depth.
-/
import Verif.Props.Benchmark
import Verif.Proofs.XlogF64
import Verif.Props.BenchMath

namespace Verif
open F64

namespace BenchLog

/-- a value that is 0 or not tiny -/
def Sized (v : ℝ) : Prop := (v = 0 ∨ 1 / 10 ^ 50 ≤ |v|) ∧ |v| ≤ 10 ^ 50

/-- a relative error through a rounded operation -/
theorem round {r : F64} {q : ℚ} {v θ e : ℝ} (hr : |q| ≤ pow2 1023 → isFin r ∧ toQ r = rq q) (hv : Sized v) (hq : |(q : ℝ) - v| ≤ θ * |v|)
    (hθ1 : θ ≤ 3 / 100) (hθ : θ + 12 / 10 ^ 17 ≤ e) : Rel r v e := by
  obtain ⟨h0, h1⟩ := hv
  obtain ⟨q1, q2⟩ := abs_le.mp hq
  have hva := abs_nonneg v
  have hqv : |(q : ℝ)| ≤ (1 + θ) * |v| := by
    have := abs_add_le ((q : ℝ) - v) v
    rw [sub_add_cancel] at this
    linarith
  have hr := hr (no_overflow (B := 2 * 10 ^ 50) (hqv.trans (by nlinarith)) (by norm_num))
  rcases h0 with rfl | h0
  · rw [abs_zero, mul_zero] at hqv
    have hz : (q : ℝ) = 0 := abs_eq_zero.mp (le_antisymm hqv (abs_nonneg _))
    have hz : q = 0 := by exact_mod_cast hz
    refine ⟨hr.1, ?_⟩
    unfold toR
    rw [hr.2, hz, rq_zero]; simp
  · refine rel_round hr hq ?_ ?_
    · have := abs_add_le (v - q) (q : ℝ)
      rw [sub_add_cancel, abs_sub_comm] at this
      have h2 : (1 : ℝ) / 10 ^ 60 ≤ 97 / 100 * (1 / 10 ^ 50) := by norm_num
      nlinarith
    · linarith

theorem mul {x y : F64} {v w a b e : ℝ} (hx : Rel x v a) (hy : Rel y w b) (ha : 0 ≤ a) (ha1 : a ≤ 1 / 100) (_hb : 0 ≤ b) (hb1 : b ≤ 1 / 100) (hs : Sized (v * w))
    (he : a + b + a * b + 12 / 10 ^ 17 ≤ e) : Rel (x *. y) (v * w) e := by
  refine round (q := toQ x * toQ y) (θ := a + b + a * b) (mul_fin' hx.1 hy.1) hs ?_ (by nlinarith) he
  push_cast
  change |toR x * toR y - v * w| ≤ _
  have h1 := hx.2
  have h2 := hy.2
  rw [show toR x * toR y - v * w = (toR x - v) * w + v * (toR y - w) + (toR x - v) * (toR y - w) by ring]
  refine (abs_add_le _ _).trans ?_
  refine (add_le_add_left (abs_add_le _ _) _).trans ?_
  rw [abs_mul, abs_mul, abs_mul, abs_mul]
  have hv := abs_nonneg v
  have hw := abs_nonneg w
  have m1 : |toR x - v| * |w| ≤ a * |v| * |w| := mul_le_mul_of_nonneg_right h1 hw
  have m2 : |v| * |toR y - w| ≤ |v| * (b * |w|) := mul_le_mul_of_nonneg_left h2 hv
  have m3 : |toR x - v| * |toR y - w| ≤ a * |v| * (b * |w|) := mul_le_mul h1 h2 (abs_nonneg _) (by positivity)
  nlinarith

theorem div {x y : F64} {v w a b e : ℝ} (hx : Rel x v a) (hy : Rel y w b) (ha : 0 ≤ a) (ha1 : a ≤ 1 / 100) (hb : 0 ≤ b) (hb1 : b ≤ 1 / 100) (hw : 0 < w) (hs : Sized (v / w))
    (he : (a + b) * (102 / 100) + 12 / 10 ^ 17 ≤ e) : Rel (x /. y) (v / w) e := by
  obtain ⟨y1, y2⟩ := abs_le.mp hy.2
  rw [abs_of_pos hw] at y1 y2
  have hy0 : 98 / 100 * w < toR y := by nlinarith
  have hyp : 0 < toR y := by nlinarith
  have hq0 : toQ y ≠ 0 := by
    intro h
    unfold toR at hyp
    rw [h] at hyp
    exact absurd hyp (by simp)
  refine round (q := toQ x / toQ y) (θ := (a + b) * (102 / 100)) (div_fin' hx.1 hy.1 hq0) hs ?_ (by linarith) he
  push_cast
  change |toR x / toR y - v / w| ≤ _
  have e1 : toR x / toR y - v / w = ((toR x - v) * w - v * (toR y - w)) / (toR y * w) := by
    field_simp; ring
  have hva := abs_nonneg v
  have n : |(toR x - v) * w - v * (toR y - w)| ≤ (a + b) * |v| * w := by
    refine (abs_sub _ _).trans ?_
    rw [abs_mul, abs_mul, abs_of_pos hw]
    have m1 := mul_le_mul_of_nonneg_right hx.2 hw.le
    have m2 := mul_le_mul_of_nonneg_left hy.2 hva
    rw [abs_of_pos hw] at m2
    nlinarith
  rw [e1, abs_div, abs_of_pos (by positivity : 0 < toR y * w), div_le_iff₀ (by positivity)]
  refine n.trans ?_
  rw [abs_div, abs_of_pos hw]
  have : (a + b) * (102 / 100) * (|v| / w) * (toR y * w) = (a + b) * |v| * (102 / 100 * toR y) := by field_simp
  rw [this]
  refine mul_le_mul_of_nonneg_left ?_ (by positivity)
  nlinarith

theorem add {x y : F64} {v w a b E e : ℝ} (hx : Rel x v a) (hy : Rel y w b) (hE : a * |v| + b * |w| ≤ E * |v + w|) (hE1 : E ≤ 3 / 100) (hs : Sized (v + w))
    (he : E + 12 / 10 ^ 17 ≤ e) : Rel (x +. y) (v + w) e := by
  refine round (q := toQ x + toQ y) (θ := E) (add_fin' hx.1 hy.1) hs ?_ hE1 he
  push_cast
  change |toR x + toR y - (v + w)| ≤ _
  rw [show toR x + toR y - (v + w) = (toR x - v) + (toR y - w) by ring]
  refine (abs_add_le _ _).trans ?_
  linarith [hx.2, hy.2]

theorem nat {n : ℕ} (h : n < 2 ^ 32) : Rel (lit (n : ℚ) : F64) n 0 := by
  have := App.lit_int (i := (n : ℤ)) (by rw [abs_of_nonneg (by positivity)]; exact_mod_cast (h.le.trans (by norm_num)))
  refine ⟨by simpa using this.1, ?_⟩
  have := this.2
  simpa using this

theorem neg {x : F64} {v a : ℝ} (hx : Rel x v a) : Rel (-. x) (-v) a := by
  refine ⟨isFin_neg.mpr hx.1, ?_⟩
  have : toR (-. x) = -toR x := by unfold toR; rw [show toQ (-. x) = -toQ x from toQ_neg x]; push_cast; rfl
  rw [this, abs_neg, show -toR x - -v = -(toR x - v) by ring, abs_neg]
  exact hx.2

/-- the values of the fraction -/
theorem logK_range {z : ℝ} (h0 : -(1 / 2) ≤ z) (h1 : z ≤ 1) (n m : ℕ) (hm : 1 ≤ m) : Spec.logK z n m ≤ 0 ∧ -(m * (2 + z) / 2) ≤ Spec.logK z n m := by
  induction n generalizing m with
  | zero =>
    simp only [Spec.logK]
    have h2z : (0 : ℝ) ≤ 2 + z := by linarith
    have : (0 : ℝ) ≤ m * (2 + z) / 2 := by positivity
    exact ⟨le_rfl, by linarith⟩
  | succ n ih =>
    obtain ⟨a, b⟩ := ih (m + 1) (by omega)
    simp only [Spec.logK]
    have hmR : (1 : ℝ) ≤ m := by exact_mod_cast hm
    push_cast at b
    have hD : (2 + z) * (3 * m + 1) / 2 ≤ (2 * (m : ℝ) + 1) * (2 + z) + Spec.logK z n (m + 1) := by linarith
    have h2z : (0 : ℝ) < 2 + z := by linarith
    have hDp : (0 : ℝ) < (2 + z) * (3 * m + 1) / 2 := by positivity
    have hzz : z * z ≤ 1 := by nlinarith
    have h22 : (9 / 4 : ℝ) ≤ (2 + z) * (2 + z) := by nlinarith
    constructor
    · apply div_nonpos_of_nonpos_of_nonneg
      · have : 0 ≤ (m : ℝ) * m * (z * z) := mul_nonneg (by positivity) (mul_self_nonneg z)
        linarith
      · linarith
    · rw [le_div_iff₀ (by linarith)]
      have h3 : (m : ℝ) * (2 + z) / 2 * ((2 + z) * (3 * m + 1) / 2) ≤ (m : ℝ) * (2 + z) / 2 * ((2 * (m : ℝ) + 1) * (2 + z) + Spec.logK z n (m + 1)) :=
        mul_le_mul_of_nonneg_left hD (by positivity)
      have h4 : (m : ℝ) * m * (z * z) ≤ m * m * 1 := mul_le_mul_of_nonneg_left hzz (by positivity)
      have h5 : (m : ℝ) * (3 * m + 1) * (9 / 4) ≤ m * (3 * m + 1) * ((2 + z) * (2 + z)) := mul_le_mul_of_nonneg_left h22 (by positivity)
      nlinarith

theorem sized_pos {v : ℝ} (h0 : 1 / 10 ^ 50 ≤ v) (h1 : v ≤ 10 ^ 50) : Sized v := by
  have : 0 < v := lt_of_lt_of_le (by norm_num) h0
  exact ⟨.inr (by rw [abs_of_pos this]; exact h0), by rw [abs_of_pos this]; exact h1⟩

theorem sized_of {v : ℝ} {c : ℝ} (hc : v = 0 ∨ c ≤ |v|) (h : 1 / 10 ^ 50 ≤ c) (h1 : |v| ≤ 10 ^ 50) : Sized v := ⟨hc.imp_right fun h' => h.trans h', h1⟩

/-- every level of the fraction -/
theorem logK_rel {z : F64} {Z : ℝ} (hz : Rel z Z 0) (h0 : -(1 / 2) ≤ Z) (h1 : Z ≤ 1) (hn : Z = 0 ∨ 1 / 10 ^ 16 ≤ |Z|) (n : ℕ) (m : UInt32) (hm : 1 ≤ m.toNat)
    (h : m.toNat + n < 2 ^ 31) : Rel (Bench.logK z n m) (Spec.logK Z n m.toNat) (3 / 10 ^ 15) := by
  induction n generalizing m with
  | zero =>
    have := nat (n := 0) (by norm_num)
    simp only [Bench.logK, Spec.logK]
    refine ⟨by simpa using this.1, ?_⟩
    have := this.2
    simpa using this
  | succ n ih =>
    have e : (m + 1).toNat = m.toNat + 1 := by
      rw [UInt32.toNat_add]
      show (m.toNat + 1) % 2 ^ 32 = _
      omega
    have i := ih (m + 1) (by omega) (by omega)
    rw [e] at i
    obtain ⟨k0, k1⟩ := logK_range h0 h1 n (m.toNat + 1) (by omega)
    have lm := nat (n := m.toNat) (by omega)
    have l1 : Rel (lit 1 : F64) 1 0 := by simpa using nat (n := 1) (by norm_num)
    have l2 : Rel (lit 2 : F64) 2 0 := by simpa using nat (n := 2) (by norm_num)
    unfold Bench.logK Spec.logK
    dsimp only
    generalize Bench.logK z n (m + 1) = K at *
    generalize Spec.logK Z n (m.toNat + 1) = V at *
    have hm2 : (m.toNat : ℝ) ≤ 10 ^ 10 := by
      have : (m.toNat : ℝ) < 2 ^ 31 := by exact_mod_cast (by omega : m.toNat < 2 ^ 31)
      linarith
    have hmR : (1 : ℝ) ≤ m.toNat := by exact_mod_cast hm
    generalize (lit (m.toNat : ℚ) : F64) = md at *
    push_cast at k1
    generalize (m.toNat : ℝ) = M at *
    have hz2 : Z = 0 ∨ 1 / 10 ^ 32 ≤ Z * Z := by
      refine hn.imp_right fun h => ?_
      rw [← abs_mul_abs_self]
      have := mul_le_mul h h (by norm_num) (abs_nonneg _)
      refine le_trans ?_ this
      norm_num
    have hZa : |Z| ≤ 1 := by rw [abs_le]; constructor <;> linarith
    have hMM : 1 ≤ M * M := by nlinarith
    have hMM2 : M * M ≤ 10 ^ 20 := by nlinarith
    have a1 : Rel ((-. md) *. md) (-M * M) (12 / 10 ^ 17) := mul (neg lm) lm le_rfl (by norm_num) le_rfl (by norm_num)
      (sized_of (c := 1) (.inr (by rw [neg_mul, abs_neg, abs_of_nonneg (by linarith)]; exact hMM)) (by norm_num)
        (by rw [neg_mul, abs_neg, abs_of_nonneg (by linarith)]; linarith)) (by norm_num)
    have s1 : |-M * M * Z| = M * M * |Z| := by rw [neg_mul, neg_mul, abs_neg, abs_mul, abs_of_nonneg (by linarith : 0 ≤ M * M)]
    have hZ0 := abs_nonneg Z
    have a2 : Rel ((-. md) *. md *. z) (-M * M * Z) (25 / 10 ^ 17) := mul a1 hz (by norm_num) (by norm_num) le_rfl (by norm_num)
      (sized_of (c := 1 / 10 ^ 16) (hn.imp (fun h => by rw [h, mul_zero]) fun h => by rw [s1]; nlinarith) (by norm_num) (by rw [s1]; nlinarith)) (by norm_num)
    have s2 : |-M * M * Z * Z| = M * M * (Z * Z) := by rw [abs_mul, s1, mul_assoc, abs_mul_abs_self]
    have hZZ : Z * Z ≤ 1 := by nlinarith
    have hZZ0 : 0 ≤ Z * Z := mul_self_nonneg Z
    have a3 : Rel ((-. md) *. md *. z *. z) (-M * M * Z * Z) (38 / 10 ^ 17) := mul a2 hz (by norm_num) (by norm_num) le_rfl (by norm_num)
      (sized_of (c := 1 / 10 ^ 32) (hz2.imp (fun h => by rw [h, mul_zero]) fun h => by rw [s2]; nlinarith) (by norm_num) (by rw [s2]; nlinarith)) (by norm_num)
    have b1 : Rel (md +. md) (M + M) (12 / 10 ^ 17) := add (E := 0) lm lm (by simp) (by norm_num) (sized_pos (by linarith) (by linarith)) (by norm_num)
    have b2 : Rel (md +. md +. lit 1) (M + M + 1) (25 / 10 ^ 17) := add (E := 12 / 10 ^ 17) b1 l1
      (by rw [abs_of_pos (by linarith), abs_of_pos (by linarith : 0 < M + M + 1)]; linarith) (by norm_num) (sized_pos (by linarith) (by linarith)) (by norm_num)
    have c1 : Rel (lit 2 +. z) (2 + Z) (12 / 10 ^ 17) := add (E := 0) l2 hz (by simp) (by norm_num) (sized_pos (by linarith) (by linarith)) (by norm_num)
    have h2Z : 3 / 2 ≤ 2 + Z := by linarith
    have hB1 : 3 * (2 + Z) ≤ (M + M + 1) * (2 + Z) := by nlinarith
    have c2 : Rel ((md +. md +. lit 1) *. (lit 2 +. z)) ((M + M + 1) * (2 + Z)) (50 / 10 ^ 17) := mul b2 c1 (by norm_num) (by norm_num) (by norm_num) (by norm_num)
      (sized_pos (by nlinarith) (by nlinarith)) (by norm_num)
    have hden : (2 + Z) * (3 * M + 1) / 2 ≤ (M + M + 1) * (2 + Z) + V := by linarith
    have hden0 : 3 ≤ (M + M + 1) * (2 + Z) + V := by nlinarith
    have hden1 : (M + M + 1) * (2 + Z) + V ≤ 10 ^ 12 := by nlinarith
    have c3 : Rel ((md +. md +. lit 1) *. (lit 2 +. z) +. K) ((M + M + 1) * (2 + Z) + V) (240 / 10 ^ 17) := by
      refine add (E := 225 / 10 ^ 17) c2 i ?_ (by norm_num) (sized_pos (by linarith) (by linarith)) (by norm_num)
      rw [abs_of_pos (by linarith : 0 < (M + M + 1) * (2 + Z)), abs_of_nonpos k0, abs_of_pos (by linarith : 0 < (M + M + 1) * (2 + Z) + V)]
      nlinarith
    have hv : -M * M * Z * Z / ((M + M + 1) * (2 + Z) + V) = -(M * M) * Z * Z / ((2 * M + 1) * (2 + Z) + V) := by
      rw [show M + M + 1 = 2 * M + 1 by ring, neg_mul]
    rw [← hv]
    refine div a3 c3 (by norm_num) (by norm_num) (by norm_num) (by norm_num) (by linarith) (sized_of (c := 1 / 10 ^ 44) ?_ (by norm_num) ?_) (by norm_num)
    · refine hz2.imp (fun h => by rw [h, mul_zero, zero_div]) fun h => ?_
      rw [abs_div, s2, abs_of_pos (by linarith), le_div_iff₀ (by linarith)]
      nlinarith
    · rw [abs_div, s2, abs_of_pos (by linarith), div_le_iff₀ (by linarith)]
      nlinarith

/-- in `[1/2, 2)` the difference with 1 is exact -/
theorem sub_one {x : F64} (hx : isFin x) (h0 : 1 / 2 ≤ toQ x) (h1 : toQ x < 2) :
    Rel (x -. lit 1) (toR x - 1) 0 ∧ (toR x - 1 = 0 ∨ 1 / 10 ^ 16 ≤ |toR x - 1|) := by
  have l1 : isFin (lit 1 : F64) ∧ toQ (lit 1 : F64) = 1 := by decide +kernel
  obtain ⟨i, hi⟩ : ∃ i : ℤ, toQ x - 1 = i / 2 ^ 53 ∧ |i| ≤ 2 ^ 53 := by
    rcases x with _ | _ | ⟨s, k⟩
    · exact absurd hx id
    · exact absurd hx id
    cases s with
    | true => rw [toQ_fin, if_pos rfl] at h0; have := mag_nonneg k.val; linarith
    | false =>
    rw [toQ_fin, if_neg (by simp)] at h0 h1 ⊢
    have hm : k.val % 2 ^ 52 < 2 ^ 52 := Nat.mod_lt _ (by norm_num)
    rcases lt_or_ge (mag k.val) 1 with h | h
    · have hk := BenchMath.code_of_binade (e := -1) (k := k.val) (by norm_num) (by rw [pow2_eq]; norm_num; linarith) (by rw [pow2_eq]; norm_num; linarith)
      have hk : k.val / 2 ^ 52 = 1022 := hk
      have a : k.val = 1022 * 2 ^ 52 + k.val % 2 ^ 52 := by omega
      refine ⟨(k.val % 2 ^ 52 : ℕ) - 2 ^ 52, ?_, by rw [abs_le]; omega⟩
      have e : mag k.val = ((2 ^ 52 + k.val % 2 ^ 52 : ℕ) : ℚ) * (1 / 2 ^ 53) := by
        conv_lhs => rw [a, mag_normal (by norm_num) hm, pow2_eq]
        norm_num
      rw [e]
      generalize k.val % 2 ^ 52 = j at *
      push_cast
      ring
    · have hk := BenchMath.code_of_binade (e := 0) (k := k.val) (by norm_num) (by rw [pow2_eq]; norm_num; linarith) (by rw [pow2_eq]; norm_num; linarith)
      have hk : k.val / 2 ^ 52 = 1023 := hk
      have a : k.val = 1023 * 2 ^ 52 + k.val % 2 ^ 52 := by omega
      refine ⟨2 * (k.val % 2 ^ 52 : ℕ), ?_, by rw [abs_le]; omega⟩
      have e : mag k.val = ((2 ^ 52 + k.val % 2 ^ 52 : ℕ) : ℚ) * (1 / 2 ^ 52) := by
        conv_lhs => rw [a, mag_normal (by norm_num) hm, pow2_eq]
        norm_num
      rw [e]
      generalize k.val % 2 ^ 52 = j at *
      push_cast
      ring
  have hr : Rep (toQ x - 1) := by
    refine ⟨i.natAbs, -53, by have := abs_le.mp hi.2; omega, by norm_num, ?_⟩
    rw [hi.1, abs_div, pow2_eq, Nat.cast_natAbs]
    push_cast
    norm_num
    ring
  obtain ⟨s1, s2⟩ := sub_fin' hx l1.1 (by
    rw [l1.2]
    refine le_trans ?_ pow2_big
    rw [abs_le]; constructor <;> linarith)
  rw [l1.2, rq_rep hr] at s2
  change isFin (x -. lit 1) at s1
  change toQ (x -. lit 1) = _ at s2
  have e : toR (x -. lit 1) = toR x - 1 := by unfold toR; rw [s2]; push_cast; rfl
  refine ⟨⟨s1, by rw [e]; simp⟩, ?_⟩
  have hi2 : toR x - 1 = i / 2 ^ 53 := by
    have : ((toQ x - 1 : ℚ) : ℝ) = ((i / 2 ^ 53 : ℚ) : ℝ) := congrArg _ hi.1
    push_cast at this
    exact this
  rw [hi2]
  rcases eq_or_ne i 0 with h | h
  · left; rw [h]; simp
  · right
    have : (1 : ℝ) ≤ |(i : ℝ)| := by exact_mod_cast Int.one_le_abs h
    rw [abs_div, abs_of_pos (by positivity : (0 : ℝ) < 2 ^ 53), le_div_iff₀ (by positivity)]
    refine le_trans ?_ this
    norm_num

/-- the fraction on `[1/2, 2)` -/
theorem log_cf_rel {x : F64} (hx : isFin x) (h0 : 1 / 2 ≤ toQ x) (h1 : toQ x < 2) (d : UInt32) (hd : 1 ≤ d.toNat) (hd2 : d.toNat < 2 ^ 31) :
    Rel (Bench.log_cf x d) (Spec.logCF (toR x) d.toNat) (4 / 10 ^ 15) := by
  obtain ⟨hz, hn⟩ := sub_one hx h0 h1
  have z0 : -(1 / 2) ≤ toR x - 1 := by
    have : ((1 / 2 : ℚ) : ℝ) ≤ ((toQ x : ℚ) : ℝ) := Rat.cast_le.mpr h0
    push_cast at this
    unfold toR; linarith
  have z1 : toR x - 1 ≤ 1 := by
    have : ((toQ x : ℚ) : ℝ) < ((2 : ℚ) : ℝ) := Rat.cast_lt.mpr h1
    push_cast at this
    unfold toR; linarith
  have e : (d - 1).toNat = d.toNat - 1 := by
    rw [UInt32.toNat_sub_of_le]
    · rfl
    · exact hd
  unfold Bench.log_cf Spec.logCF
  dsimp only
  have k := logK_rel hz z0 z1 hn (d - 1).toNat 1 (by decide) (by rw [e]; show 1 + _ < _; omega)
  obtain ⟨k0, k1⟩ := logK_range z0 z1 (d - 1).toNat 1 le_rfl
  rw [show (1 : UInt32).toNat = 1 from rfl, e] at k
  rw [e] at k0 k1 ⊢
  generalize Bench.logK (x -. lit 1) (d.toNat - 1) 1 = K at *
  generalize (x -. lit 1 : F64) = z at *
  generalize toR x - 1 = Z at *
  generalize Spec.logK Z (d.toNat - 1) 1 = V at *
  have l2 : Rel (lit 2 : F64) 2 0 := by simpa using nat (n := 2) (by norm_num)
  have hZa : |Z| ≤ 1 := by rw [abs_le]; constructor <;> linarith
  have s1 : |2 * Z| = 2 * |Z| := by rw [abs_mul, abs_two]
  push_cast at k1
  have a1 : Rel (lit 2 *. z) (2 * Z) (12 / 10 ^ 17) := mul l2 hz le_rfl (by norm_num) le_rfl (by norm_num)
    (sized_of (c := 1 / 10 ^ 16) (hn.imp (fun h => by rw [h, mul_zero]) fun h => by rw [s1]; linarith) (by norm_num) (by rw [s1]; linarith)) (by norm_num)
  have a2 : Rel (lit 2 +. z) (2 + Z) (12 / 10 ^ 17) := add (E := 0) l2 hz (by simp) (by norm_num) (sized_pos (by linarith) (by linarith)) (by norm_num)
  have hden : 3 / 4 ≤ 2 + Z + V := by linarith
  have a3 : Rel (lit 2 +. z +. K) (2 + Z + V) (34 / 10 ^ 16) := by
    refine add (E := 325 / 10 ^ 17) a2 k ?_ (by norm_num) (sized_pos (by linarith) (by linarith)) (by norm_num)
    rw [abs_of_pos (by linarith : 0 < 2 + Z), abs_of_nonpos k0, abs_of_pos (by linarith : 0 < 2 + Z + V)]
    linarith
  refine div a1 a3 (by norm_num) (by norm_num) (by norm_num) (by norm_num) (by linarith) (sized_of (c := 1 / 10 ^ 20) ?_ (by norm_num) ?_) (by norm_num)
  · refine hn.imp (fun h => by rw [h, mul_zero, zero_div]) fun h => ?_
    rw [abs_div, s1, abs_of_pos (by linarith : 0 < 2 + Z + V), le_div_iff₀ (by linarith)]
    linarith
  · rw [abs_div, s1, abs_of_pos (by linarith : 0 < 2 + Z + V), div_le_iff₀ (by linarith)]
    linarith

/-- the error of the fraction with respect to the logarithm -/
theorem log_cf_log {x : F64} (hx : isFin x) (h0 : 1 / 2 ≤ toQ x) (h1 : toQ x < 2) (d : UInt32) (hd : 1 ≤ d.toNat) (hd2 : d.toNat < 2 ^ 31) :
    Rel (Bench.log_cf x d) (Real.log (toR x)) (61 / 1000 * d.toNat * (295 / 10000) ^ (d.toNat - 1) + 4 / 10 ^ 15) := by
  have r := log_cf_rel hx h0 h1 d hd hd2
  refine ⟨r.1, ?_⟩
  have z0 : 1 / 2 ≤ toR x := by
    have : ((1 / 2 : ℚ) : ℝ) ≤ ((toQ x : ℚ) : ℝ) := Rat.cast_le.mpr h0
    push_cast at this
    exact this
  have z1 : toR x ≤ 2 := by
    have : ((toQ x : ℚ) : ℝ) ≤ ((2 : ℚ) : ℝ) := Rat.cast_le.mpr h1.le
    push_cast at this
    exact this
  have hx0 : 0 < toR x := by linarith
  obtain ⟨v, -, rfl, t, p, q⟩ := C120_fraction (toR x) hx0 d hd
  have hv : |Spec.logCF (toR x) d.toNat| ≤ |Real.log (toR x)| := by
    rcases lt_trichotomy (toR x) 1 with h | h | h
    · obtain ⟨a, b⟩ := q h
      rw [abs_of_neg b, abs_of_neg (by linarith)]; linarith
    · rw [h] at t ⊢
      rw [Real.log_one, abs_zero, mul_zero, sub_zero] at t
      rw [Real.log_one, abs_zero]; exact t
    · obtain ⟨a, b⟩ := p h
      rw [abs_of_pos a, abs_of_pos (by linarith)]; linarith
  have hs : √(toR x) ^ 2 = toR x := Real.sq_sqrt hx0.le
  have hs0 : 0 < √(toR x) := Real.sqrt_pos.mpr hx0
  have u : √(toR x) ≤ 1.41422 := by
    rw [show (1.41422 : ℝ) = √(1.41422 ^ 2) by rw [Real.sqrt_sq (by norm_num)]]
    exact Real.sqrt_le_sqrt (by norm_num; linarith)
  have l : 0.7071 ≤ √(toR x) := by
    rw [show (0.7071 : ℝ) = √(0.7071 ^ 2) by rw [Real.sqrt_sq (by norm_num)]]
    exact Real.sqrt_le_sqrt (by norm_num; linarith)
  have b1 : ((√(toR x) - 1) / (√(toR x) + 1)) ^ 2 ≤ 295 / 10000 := by
    have : |(√(toR x) - 1) / (√(toR x) + 1)| ≤ 0.1716 := by
      rw [abs_div, abs_of_pos (by linarith : 0 < √(toR x) + 1), div_le_iff₀ (by linarith), abs_le]
      constructor <;> linarith
    rw [← sq_abs]
    exact (pow_le_pow_left₀ (abs_nonneg _) this 2).trans (by norm_num)
  have b2 : (√(toR x) - 1) ^ 2 / (2 * √(toR x)) ≤ 61 / 1000 := by
    rw [div_le_iff₀ (by linarith)]
    nlinarith
  have b3 := pow_le_pow_left₀ (by positivity) b1 (d.toNat - 1)
  have t2 : d.toNat * (((√(toR x) - 1) / (√(toR x) + 1)) ^ 2) ^ (d.toNat - 1) * ((√(toR x) - 1) ^ 2 / (2 * √(toR x))) ≤
      61 / 1000 * d.toNat * (295 / 10000) ^ (d.toNat - 1) := by
    calc _ ≤ (d.toNat : ℝ) * (295 / 10000) ^ (d.toNat - 1) * (61 / 1000) :=
          mul_le_mul (mul_le_mul_of_nonneg_left b3 (by positivity)) b2 (by positivity) (by positivity)
      _ = _ := by ring
  have t3 := mul_le_mul_of_nonneg_right t2 (abs_nonneg (Real.log (toR x)))
  have := abs_add_le (toR (Bench.log_cf x d) - Spec.logCF (toR x) d.toNat) (Spec.logCF (toR x) d.toNat - Real.log (toR x))
  rw [sub_add_sub_cancel] at this
  have r2 := r.2.trans (mul_le_mul_of_nonneg_left hv (by norm_num : (0 : ℝ) ≤ 4 / 10 ^ 15))
  rw [add_mul]
  linarith

end BenchLog
end Verif

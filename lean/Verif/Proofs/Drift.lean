/-
The tracked sum of the stored peaks in binary64: how far it drifts from the sum of the stored values.
-/
import Verif.Proofs.Stats
import Verif.F64.Calc
import Verif.F64.Error

namespace Verif
open F64

/-- a sum of two finite doubles has a small relative error, however small it is -/
theorem rq_sum_rel {q : ℚ} (h : ∃ a : ℤ, q = a * pow2 (-1074)) : |rq q - q| ≤ pow2 (-53) * |q| := by
  rcases le_or_gt (pow2 (-1022)) |q| with h1 | h1
  · exact rq_rel (Or.inr h1)
  · obtain ⟨a, ha⟩ := h
    have hp := pow2_pos (-1074)
    have e1 : pow2 (-1022) = 2 ^ 52 * pow2 (-1074) := by
      rw [show (-1022 : ℤ) = 52 + -1074 by norm_num, pow2_add]
      congr 1
    have habs : |q| = |(a : ℚ)| * pow2 (-1074) := by rw [ha, abs_mul, abs_of_pos hp]
    have h2 : |(a : ℚ)| < 2 ^ 52 := by
      rw [habs, e1] at h1
      exact lt_of_mul_lt_mul_right h1 hp.le
    have h3 : (a.natAbs : ℚ) = |(a : ℚ)| := by rw [Nat.cast_natAbs]; push_cast; rfl
    have : Rep q := by
      refine ⟨a.natAbs, -1074, ?_, le_rfl, by rw [habs, h3]⟩
      have h4 : (a.natAbs : ℚ) < ((2 ^ 52 : ℕ) : ℚ) := by rw [h3]; push_cast; exact h2
      have := Nat.cast_lt.mp h4
      omega
    rw [rq_rep this, sub_self, abs_zero]
    exact mul_nonneg (pow2_pos _).le (abs_nonneg _)

theorem add_rel {x y : F64} (hx : isFin x) (hy : isFin y) (h : |toQ x + toQ y| ≤ pow2 1023) :
    isFin (x +. y) ∧ |toQ (x +. y) - (toQ x + toQ y)| ≤ 1 / 9007199254740992 * |toQ x + toQ y| := by
  obtain ⟨h1, h2⟩ := add_fin' hx hy h
  refine ⟨h1, ?_⟩
  change |toQ (F64.add x y) - _| ≤ _
  rw [h2, ← pow2_m53]
  refine rq_sum_rel ?_
  obtain ⟨a, ha⟩ := toQ_multiple x
  obtain ⟨b, hb⟩ := toQ_multiple y
  exact ⟨a + b, by rw [ha, hb]; push_cast; ring⟩

theorem sub_rel {x y : F64} (hx : isFin x) (hy : isFin y) (h : |toQ x - toQ y| ≤ pow2 1023) :
    isFin (x -. y) ∧ |toQ (x -. y) - (toQ x - toQ y)| ≤ 1 / 9007199254740992 * |toQ x - toQ y| := by
  obtain ⟨h1, h2⟩ := sub_fin' hx hy h
  refine ⟨h1, ?_⟩
  change |toQ (F64.sub x y) - _| ≤ _
  rw [h2, ← pow2_m53]
  refine rq_sum_rel ?_
  obtain ⟨a, ha⟩ := toQ_multiple x
  obtain ⟨b, hb⟩ := toQ_multiple y
  exact ⟨a - b, by rw [ha, hb]; push_cast; ring⟩

/-- one rounded addition -/
theorem drift_add {S e x m m' c D e' : ℚ} (hS0 : 0 ≤ S) (hS : S ≤ c * m') (hc : 1 ≤ c) (he : |e - S| ≤ D * m) (hD0 : 0 ≤ D) (hD : D ≤ 1 / 2)
    (hx0 : 0 ≤ x) (hx : x ≤ m') (hm : m ≤ m') (h' : |e' - (e + x)| ≤ 1 / 9007199254740992 * |e + x|) :
    |e' - (S + x)| ≤ D * m' + 3 * c / 9007199254740992 * m' := by
  have hm0 : 0 ≤ m' := hx0.trans hx
  have h1 : |e - S| ≤ D * m' := he.trans (mul_le_mul_of_nonneg_left hm hD0)
  have h2 : D * m' ≤ 1 / 2 * m' := mul_le_mul_of_nonneg_right hD hm0
  have h3 : m' ≤ c * m' := by nlinarith
  have h4 : |e + x| ≤ 3 * (c * m') := by
    have : e + x = (e - S) + (S + x) := by ring
    rw [this]
    refine (abs_add_le _ _).trans ?_
    rw [abs_of_nonneg (by linarith : 0 ≤ S + x)]
    linarith
  have h5 : e' - (S + x) = (e' - (e + x)) + (e - S) := by ring
  rw [h5]
  refine (abs_add_le _ _).trans ?_
  have h6 : 3 * c / 9007199254740992 * m' = 3 * (c * m') / 9007199254740992 := by ring
  rw [h6]
  linarith

/-- one rounded addition and one rounded subtraction -/
theorem drift_evict {S e x r m m' c D e1 e2 : ℚ} (hS0 : 0 ≤ S) (hS : S ≤ c * m') (hc : 1 ≤ c) (he : |e - S| ≤ D * m) (hD0 : 0 ≤ D)
    (hD : D ≤ 1 / 2) (hx0 : 0 ≤ x) (hx : x ≤ m') (hr0 : 0 ≤ r) (hr : r ≤ m') (hm : m ≤ m')
    (h1 : |e1 - (e + x)| ≤ 1 / 9007199254740992 * |e + x|) (h2 : |e2 - (e1 - r)| ≤ 1 / 9007199254740992 * |e1 - r|) :
    |e2 - (S - r + x)| ≤ D * m' + 8 * c / 9007199254740992 * m' := by
  have hm0 : 0 ≤ m' := hx0.trans hx
  have g0 : |e - S| ≤ D * m' := he.trans (mul_le_mul_of_nonneg_left hm hD0)
  have g1 := drift_add hS0 hS hc he hD0 hD hx0 hx hm h1
  have g2 : D * m' ≤ 1 / 2 * m' := mul_le_mul_of_nonneg_right hD hm0
  have g3 : m' ≤ c * m' := by nlinarith
  have h6 : 3 * c / 9007199254740992 * m' = 3 * (c * m') / 9007199254740992 := by ring
  have h8 : 8 * c / 9007199254740992 * m' = 8 * (c * m') / 9007199254740992 := by ring
  rw [h6] at g1
  rw [h8]
  have h4 : |e1 - r| ≤ 4 * (c * m') := by
    have : e1 - r = (e1 - (S + x)) + (S + x - r) := by ring
    rw [this]
    refine (abs_add_le _ _).trans ?_
    have : |S + x - r| ≤ 2 * (c * m') := by rw [abs_le]; constructor <;> linarith
    linarith
  have h5 : e2 - (S - r + x) = (e2 - (e1 - r)) + (e1 - (S + x)) := by ring
  rw [h5]
  refine (abs_add_le _ _).trans ?_
  linarith

theorem small_sum {c : ℕ} {q m : ℚ} (hc : (c : ℚ) ≤ 2 ^ 49) (hm0 : 0 ≤ m) (hm : m ≤ pow2 900) (h : |q| ≤ 4 * (c * m)) : |q| ≤ pow2 1023 := by
  have e1 : pow2 1023 = 2 ^ 123 * pow2 900 := by
    rw [show (1023 : ℤ) = 123 + 900 by norm_num, pow2_add]
    congr 1
  rw [e1]
  have h1 : (c : ℚ) * m ≤ 2 ^ 49 * pow2 900 := mul_le_mul hc hm hm0 (by positivity)
  have h2 := pow2_pos 900
  nlinarith

/-- values that can be excesses -/
def Excess (v : F64) : Prop := isFin v ∧ 0 ≤ toQ v ∧ toQ v ≤ pow2 900

theorem sum_bounds {l : List F64} {m : ℚ} (h : ∀ v ∈ l, 0 ≤ toQ v ∧ toQ v ≤ m) :
    0 ≤ (l.map toQ).sum ∧ (l.map toQ).sum ≤ l.length * m := by
  induction l with
  | nil => simp
  | cons v l ih =>
    obtain ⟨h1, h2⟩ := ih fun w hw => h w (by simp [hw])
    obtain ⟨h3, h4⟩ := h v (by simp)
    simp only [List.map_cons, List.sum_cons, List.length_cons]
    push_cast
    constructor <;> linarith

/-- the naive sum -/
theorem naive_sum {c : ℕ} (hc1 : 1 ≤ c) (hc : c * c ≤ 2 ^ 49) {m : ℚ} (hm0 : 0 ≤ m) (hm : m ≤ pow2 900) (l : List F64)
    (hl : l.length ≤ c) (h : ∀ v ∈ l, isFin v ∧ 0 ≤ toQ v ∧ toQ v ≤ m) :
    isFin (l.foldl (· +. ·) (lit 0 : F64)) ∧
      |toQ (l.foldl (· +. ·) (lit 0 : F64)) - (l.map toQ).sum| ≤ (3 * c / 9007199254740992 * l.length) * m := by
  induction l using List.reverseRecOn with
  | nil =>
    obtain ⟨h1, h2⟩ := lit_int (i := 0) (by norm_num)
    rw [Int.cast_zero] at h1 h2
    simp only [List.foldl_nil]
    refine ⟨h1, ?_⟩
    rw [h2]; simp
  | append_singleton l v ih =>
    rw [List.length_append, List.length_singleton] at hl ⊢
    obtain ⟨i1, i2⟩ := ih (by omega) fun w hw => h w (by simp [hw])
    obtain ⟨v1, v2, v3⟩ := h v (by simp)
    obtain ⟨s1, s2⟩ := sum_bounds (l := l) (m := m) fun w hw => ⟨(h w (by simp [hw])).2.1, (h w (by simp [hw])).2.2⟩
    simp only [List.foldl_append, List.foldl_cons, List.foldl_nil, List.map_append, List.map_cons, List.map_nil, List.sum_append,
      List.sum_cons, List.sum_nil, add_zero]
    generalize (l.foldl (· +. ·) (lit 0 : F64)) = e at *
    generalize (l.map toQ).sum = S at *
    have c1 : (1 : ℚ) ≤ c := by exact_mod_cast hc1
    have c2 : (c : ℚ) * c ≤ 2 ^ 49 := by exact_mod_cast hc
    have c3 : (l.length : ℚ) ≤ c := by exact_mod_cast (by omega : l.length ≤ c)
    have hcq : (c : ℚ) ≤ 2 ^ 49 := by
      have : c ≤ 2 ^ 49 := by clear hm; nlinarith
      exact_mod_cast this
    have hD : 3 * (c : ℚ) / 9007199254740992 * l.length ≤ 1 / 2 := by
      have : (c : ℚ) * l.length ≤ c * c := mul_le_mul_of_nonneg_left c3 (by linarith)
      have e : 3 * (c : ℚ) / 9007199254740992 * l.length = 3 * (c * l.length) / 9007199254740992 := by ring
      rw [e]
      norm_num at c2
      linarith
    have hD0 : 0 ≤ 3 * (c : ℚ) / 9007199254740992 * l.length := mul_nonneg (div_nonneg (mul_nonneg (by norm_num) (Nat.cast_nonneg _)) (by norm_num)) (Nat.cast_nonneg _)
    have hSc : S ≤ c * m := s2.trans (mul_le_mul_of_nonneg_right c3 hm0)
    have hmc : m ≤ c * m := le_mul_of_one_le_left hm0 c1
    have hsmall : |toQ e + toQ v| ≤ pow2 1023 := by
      refine small_sum hcq hm0 hm ?_
      have e2 : toQ e + toQ v = (toQ e - S) + (S + toQ v) := by ring
      rw [e2]
      refine (abs_add_le _ _).trans ?_
      rw [abs_of_nonneg (by linarith : 0 ≤ S + toQ v)]
      have := mul_le_mul_of_nonneg_right hD hm0
      linarith
    obtain ⟨f1, f2⟩ := add_rel i1 v1 hsmall
    refine ⟨f1, ?_⟩
    refine (drift_add s1 hSc c1 i2 hD0 hD v2 v3 le_rfl f2).trans (le_of_eq ?_)
    push_cast
    ring

theorem Extremes.max_bound {s : Stats F64} {l : List F64} (H : Extremes s l) (hl : ∀ v ∈ l, Excess v) :
    Excess s.max ∧ ∀ v ∈ l, 0 ≤ toQ v ∧ toQ v ≤ toQ s.max := by
  have hm := hl _ H.2.1
  refine ⟨hm, fun v hv => ⟨(hl v hv).2.1, ?_⟩⟩
  have h1 := H.2.2 v hv
  by_contra h2
  have h3 : F64.lt s.max v = true := by
    rw [lt_iff]
    refine ⟨(isFin_iff_val.mp hm.1).1, (isFin_iff_val.mp (hl v hv).1).1, ?_⟩
    rw [← not_le, val_fin_le (hl v hv).1 hm.1]
    exact h2
  have h4 : (s.max <. v) = true := h3
  exact absurd (h1.symm.trans h4) (by decide)

theorem sum_set_toQ (l : List F64) (i : ℕ) (hi : i < l.length) (x : F64) :
    ((l.set i x).map toQ).sum = (l.map toQ).sum - toQ l[i] + toQ x := by
  rw [List.map_set, List.sum_set', dif_pos (by simpa using hi)]
  simp only [List.getElem_map]
  ring

theorem excess_nan {v : F64} (h : Excess v) : is_nan v = false := (F64.is_nan_false v).mpr (isFin_iff_val.mp h.1).1

/-- the drift of the tracked sum by one insertion into a tail of finite excesses (whatever was recorded before them) -/
theorem drift_step {c : ℕ} (hc : 0 < c) (hcc : c * c ≤ 2 ^ 49) (xs : List F64) (x : F64) (n : ℕ) (hN : n * c ≤ 2 ^ 49)
    (hn : min (xs.length + 1) c ≤ n + 1) (hxs : ∀ v ∈ xs, is_nan v = false) (hslx : ∀ v ∈ slots c xs, Excess v) (hxx : Excess x)
    (i1 : isFin (statsOf c xs).e)
    (i2 : |toQ (statsOf c xs).e - ((slots c xs).map toQ).sum| ≤ (8 * c / 9007199254740992 * n) * toQ (statsOf c xs).max) :
    isFin (statsOf c (xs ++ [x])).e ∧
      |toQ (statsOf c (xs ++ [x])).e - ((slots c (xs ++ [x])).map toQ).sum| ≤
        (8 * c / 9007199254740992 * ((n + 1 : ℕ) : ℚ)) * toQ (statsOf c (xs ++ [x])).max := by
  have hb : c < 2 ^ 61 := by nlinarith
  have c1 : (1 : ℚ) ≤ c := by exact_mod_cast hc
  have hcq : (c : ℚ) ≤ 2 ^ 49 := by
    have : c ≤ 2 ^ 49 := by nlinarith
    exact_mod_cast this
  have hall : ∀ v ∈ xs ++ [x], is_nan v = false := fun v hv => by
    rcases List.mem_append.mp hv with h | h
    · exact hxs v h
    · rw [List.mem_singleton] at h; rw [h]; exact excess_nan hxx
  have hsl' : ∀ v ∈ slots c (xs ++ [x]), Excess v := by
    intro v hv
    rw [slots_snoc] at hv
    split at hv
    · rcases List.mem_append.mp hv with h | h
      · exact hslx v h
      · rw [List.mem_singleton] at h; rw [h]; exact hxx
    · rcases List.mem_or_eq_of_mem_set hv with h | h
      · exact hslx v h
      · rw [h]; exact hxx
  have hE' := statsOf_extremes hc hb (xs ++ [x]) hall (by simp)
  obtain ⟨M1, M2⟩ := hE'.max_bound hsl'
  have hincr := incr_extremes hc hb xs x (fun v hv => hxs v hv) (excess_nan hxx)
    (fun hne => statsOf_extremes hc hb xs (fun v hv => hxs v hv) hne)
  -- the drift so far, as a fraction of the maximum
  have hD0 : 0 ≤ 8 * (c : ℚ) / 9007199254740992 * n := by positivity
  have hD : 8 * (c : ℚ) / 9007199254740992 * n ≤ 1 / 2 := by
    have h1 : ((n * c : ℕ) : ℚ) ≤ ((2 ^ 49 : ℕ) : ℚ) := Nat.cast_le.mpr hN
    push_cast at h1
    have e : 8 * (c : ℚ) / 9007199254740992 * n = 8 * (n * c) / 9007199254740992 := by ring
    rw [e]
    linarith
  -- the maximum does not decrease by the insertion
  have hmono : (xs.length = 0 ∨ c ≠ 1) → toQ (statsOf c xs).max ≤ toQ ((statsOf c xs).incr (UInt64.ofNat (min (xs.length + 1) c)) x).max ∧
      toQ x ≤ toQ ((statsOf c xs).incr (UInt64.ofNat (min (xs.length + 1) c)) x).max ∧
      Excess ((statsOf c xs).incr (UInt64.ofNat (min (xs.length + 1) c)) x).max ∧
      ∀ v ∈ slots c xs, 0 ≤ toQ v ∧ toQ v ≤ toQ ((statsOf c xs).incr (UInt64.ofNat (min (xs.length + 1) c)) x).max := by
    intro hcase
    by_cases h0 : xs.length = 0
    · have : xs = [] := by simpa using h0
      subst this
      have hl : (if c = 1 then [x] else slots c [] ++ [x]) = [x] := by split <;> simp [slots_nil]
      rw [hl] at hincr
      have hmx : ((statsOf c []).incr (UInt64.ofNat (min (([] : List F64).length + 1) c)) x).max = x := by simpa using hincr.2.1
      rw [hmx]
      refine ⟨?_, le_rfl, hxx, fun v hv => by simp [slots_nil] at hv⟩
      have : toQ (statsOf c ([] : List F64)).max = 0 := rfl
      rw [this]; exact hxx.2.1
    · have hc' := hcase.resolve_left h0
      rw [if_neg hc'] at hincr
      obtain ⟨q1, q2⟩ := hincr.max_bound (l := slots c xs ++ [x]) (fun v hv => by
        rcases List.mem_append.mp hv with h | h
        · exact hslx v h
        · simp only [List.mem_singleton] at h; subst h; exact hxx)
      have hne : xs ≠ [] := by rintro rfl; simp at h0
      have hE := statsOf_extremes hc hb xs (fun v hv => hxs v hv) hne
      exact ⟨(q2 _ (List.mem_append_left _ hE.2.1)).2, (q2 x (by simp)).2, q1, fun v hv => q2 v (List.mem_append_left _ hv)⟩
  rw [statsOf_snoc] at M1 M2 ⊢
  generalize hs1 : (statsOf c xs).incr (UInt64.ofNat (min (xs.length + 1) c)) x = s1 at *
  have hs1e : s1.e = (statsOf c xs).e +. x := by rw [← hs1]; rfl
  by_cases hfull : xs.length < c
  · -- filling
    have he : erasedOf c (xs ++ [x]) = cNAN := by
      unfold erasedOf; rw [if_pos (by simp; omega)]
    have hev : s1.evict (erasedOf c (xs ++ [x])) (slots c (xs ++ [x])) = s1 := by
      unfold Stats.evict
      rw [he, CDoubleLaws.nan_cNAN]
      simp only [Bool.not_true, Bool.false_eq_true, if_false]
    rw [hev] at M1 M2 ⊢
    obtain ⟨m1, m2, m3, m4⟩ := hmono (by omega)
    obtain ⟨s1', s2'⟩ := sum_bounds m4
    have hSc : ((slots c xs).map toQ).sum ≤ c * toQ s1.max := by
      refine s2'.trans (mul_le_mul_of_nonneg_right ?_ m3.2.1)
      rw [slots_length]
      exact_mod_cast min_le_right _ _
    rw [slots_snoc, if_pos hfull, List.map_append, List.sum_append, hs1e]
    simp only [List.map_cons, List.map_nil, List.sum_cons, List.sum_nil, add_zero]
    generalize (statsOf c xs).e = e at *
    generalize ((slots c xs).map toQ).sum = S at *
    have hmc : toQ s1.max ≤ c * toQ s1.max := le_mul_of_one_le_left m3.2.1 c1
    have hsmall : |toQ e + toQ x| ≤ pow2 1023 := by
      refine small_sum hcq m3.2.1 m3.2.2 ?_
      have e2 : toQ e + toQ x = (toQ e - S) + (S + toQ x) := by ring
      rw [e2]
      refine (abs_add_le _ _).trans ?_
      rw [abs_of_nonneg (by linarith [hxx.2.1] : 0 ≤ S + toQ x)]
      have g1 := mul_le_mul_of_nonneg_left m1 hD0
      have g2 := mul_le_mul_of_nonneg_right hD m3.2.1
      linarith
    obtain ⟨f1, f2⟩ := add_rel i1 hxx.1 hsmall
    refine ⟨f1, ?_⟩
    refine (drift_add s1' hSc c1 i2 hD0 hD hxx.2.1 m2 m1 f2).trans ?_
    have : 0 ≤ (c : ℚ) * toQ s1.max := by nlinarith [m3.2.1]
    push_cast
    have e3 : 3 * (c : ℚ) / 9007199254740992 * toQ s1.max = 3 * (c * toQ s1.max) / 9007199254740992 := by ring
    have e4 : 8 * (c : ℚ) / 9007199254740992 * (n + 1) * toQ s1.max =
      8 * (c : ℚ) / 9007199254740992 * n * toQ s1.max + 8 * (c * toQ s1.max) / 9007199254740992 := by ring
    rw [e3, e4]
    linarith
  · have hlt : xs.length % c < (slots c xs).length := by
      rw [slots_length]; have := Nat.mod_lt xs.length hc; omega
    have he : erasedOf c (xs ++ [x]) = (slots c xs)[xs.length % c] := by
      unfold erasedOf
      rw [if_neg (by simp; omega)]
      simp only [List.length_append, List.length_cons, List.length_nil, zero_add, Nat.add_sub_cancel]
      rw [List.getElem?_append_left (by omega), ← slots_oldest hc xs (by omega), List.getElem?_eq_getElem hlt]
      rfl
    have her : Excess (erasedOf c (xs ++ [x])) := by rw [he]; exact hslx _ (List.getElem_mem _)
    have hrec : ∀ s : Stats F64, s = Stats.recompute (slots c (xs ++ [x])) → Excess s.max →
        (∀ v ∈ slots c (xs ++ [x]), 0 ≤ toQ v ∧ toQ v ≤ toQ s.max) →
        isFin s.e ∧ |toQ s.e - ((slots c (xs ++ [x])).map toQ).sum| ≤
          (8 * c / 9007199254740992 * ((n + 1 : ℕ) : ℚ)) * toQ s.max := by
      intro s hs k1 k2
      have k3 := naive_sum (by omega : 1 ≤ c) hcc k1.2.1 k1.2.2 (slots c (xs ++ [x])) (by rw [slots_length]; exact min_le_right _ _)
        fun v hv => ⟨(hsl' v hv).1, k2 v hv⟩
      rw [← recompute_e, ← hs] at k3
      refine ⟨k3.1, k3.2.trans ?_⟩
      refine mul_le_mul_of_nonneg_right ?_ k1.2.1
      have k4 : ((slots c (xs ++ [x])).length : ℚ) ≤ ((n + 1 : ℕ) : ℚ) := by
        rw [slots_length, List.length_append, List.length_singleton]
        exact_mod_cast hn
      have k5 : 3 * (c : ℚ) / 9007199254740992 ≤ 8 * c / 9007199254740992 := by
        rw [div_le_div_iff_of_pos_right (by norm_num)]; linarith
      exact mul_le_mul k5 k4 (by positivity) (by positivity)
    by_cases hcond : ((erasedOf c (xs ++ [x])) <=. s1.min || (erasedOf c (xs ++ [x])) >=. s1.max) = true
    · have hev : s1.evict (erasedOf c (xs ++ [x])) (slots c (xs ++ [x])) = Stats.recompute (slots c (xs ++ [x])) := by
        unfold Stats.evict
        rw [excess_nan her]
        simp only [Bool.not_false, if_true]
        rw [if_pos hcond]
      rw [hev] at M1 M2 ⊢
      exact hrec _ rfl M1 M2
    · have hev : s1.evict (erasedOf c (xs ++ [x])) (slots c (xs ++ [x])) =
          { s1 with e := s1.e -. erasedOf c (xs ++ [x]), e2 := s1.e2 -. erasedOf c (xs ++ [x]) *. erasedOf c (xs ++ [x]) } := by
        unfold Stats.evict
        rw [excess_nan her]
        simp only [Bool.not_false, if_true]
        rw [if_neg hcond]
      have hc1 : c ≠ 1 := by
        intro h1
        apply hcond
        rw [if_pos h1] at hincr
        have m1 : s1.min = x := by simpa using hincr.1.1
        have m2 : s1.max = x := by simpa using hincr.2.1
        rw [m1, m2]
        by_contra hh
        simp only [Bool.or_eq_true, not_or, Bool.not_eq_true] at hh
        obtain ⟨g1, g2⟩ := hh
        have l1 : (x <. erasedOf c (xs ++ [x])) = true := by
          by_contra hh
          rw [Bool.not_eq_true, not_lt_iff_le (excess_nan hxx) (excess_nan her), g1] at hh
          cases hh
        rw [le_of_lt' l1] at g2
        cases g2
      rw [hev] at M1 M2 ⊢
      obtain ⟨m1, m2, m3, m4⟩ := hmono (Or.inr hc1)
      obtain ⟨s1', s2'⟩ := sum_bounds m4
      have hSc : ((slots c xs).map toQ).sum ≤ c * toQ s1.max := by
        refine s2'.trans (mul_le_mul_of_nonneg_right ?_ m3.2.1)
        rw [slots_length]
        exact_mod_cast min_le_right _ _
      obtain ⟨r0, r1⟩ := m4 _ (List.getElem_mem hlt)
      rw [← he] at r0 r1
      dsimp only
      rw [slots_snoc, if_neg hfull, sum_set_toQ _ _ hlt, ← he, hs1e]
      generalize erasedOf c (xs ++ [x]) = r at *
      generalize (statsOf c xs).e = e at *
      generalize ((slots c xs).map toQ).sum = S at *
      have hmc : toQ s1.max ≤ c * toQ s1.max := le_mul_of_one_le_left m3.2.1 c1
      have g1 := mul_le_mul_of_nonneg_left m1 hD0
      have g2 := mul_le_mul_of_nonneg_right hD m3.2.1
      have hsmall : |toQ e + toQ x| ≤ pow2 1023 := by
        refine small_sum hcq m3.2.1 m3.2.2 ?_
        have e2 : toQ e + toQ x = (toQ e - S) + (S + toQ x) := by ring
        rw [e2]
        refine (abs_add_le _ _).trans ?_
        rw [abs_of_nonneg (by linarith [hxx.2.1] : 0 ≤ S + toQ x)]
        linarith
      obtain ⟨f1, f2⟩ := add_rel i1 hxx.1 hsmall
      have d1 := drift_add s1' hSc c1 i2 hD0 hD hxx.2.1 m2 m1 f2
      have hsmall' : |toQ (e +. x) - toQ r| ≤ pow2 1023 := by
        refine small_sum hcq m3.2.1 m3.2.2 ?_
        have e2 : toQ (e +. x) - toQ r = (toQ (e +. x) - (S + toQ x)) + (S + toQ x - toQ r) := by ring
        rw [e2]
        refine (abs_add_le _ _).trans ?_
        have : |S + toQ x - toQ r| ≤ 2 * (c * toQ s1.max) := by
          rw [abs_le]; constructor <;> linarith [hxx.2.1]
        have e3 : 3 * (c : ℚ) / 9007199254740992 * toQ s1.max = 3 * (c * toQ s1.max) / 9007199254740992 := by ring
        rw [e3] at d1
        linarith
      obtain ⟨f3, f4⟩ := sub_rel f1 her.1 hsmall'
      refine ⟨f3, ?_⟩
      refine (drift_evict s1' hSc c1 i2 hD0 hD hxx.2.1 m2 r0 r1 m1 f2 f4).trans (le_of_eq ?_)
      push_cast
      ring

/-- the drift of the tracked sum -/
theorem statsOf_drift {c : ℕ} (hc : 0 < c) (xs : List F64) (hx : ∀ v ∈ xs, Excess v) (hN : xs.length * c ≤ 2 ^ 49)
    (hcc : c * c ≤ 2 ^ 49) :
    isFin (statsOf c xs).e ∧
      |toQ (statsOf c xs).e - ((slots c xs).map toQ).sum| ≤ (8 * c / 9007199254740992 * xs.length) * toQ (statsOf c xs).max := by
  induction xs using List.reverseRecOn with
  | nil =>
    obtain ⟨h1, h2⟩ := lit_int (i := 0) (by norm_num)
    rw [Int.cast_zero] at h1 h2
    simp only [statsOf, statsRev, List.reverse_nil, slots_nil]
    refine ⟨h1, ?_⟩
    rw [h2]; simp
  | append_singleton xs x ih =>
    have hxs : ∀ v ∈ xs, Excess v := fun v hv => hx v (by simp [hv])
    rw [List.length_append, List.length_singleton] at hN ⊢
    have hN' : xs.length * c ≤ 2 ^ 49 := le_trans (Nat.mul_le_mul_right _ (by omega)) hN
    obtain ⟨i1, i2⟩ := ih hxs hN'
    exact drift_step hc hcc xs x xs.length hN' (min_le_left _ _) (fun v hv => excess_nan (hxs v hv))
      (fun v hv => hxs v (slots_mem hc hv)) (hx x (by simp)) i1 i2

end Verif

/-
The P2 estimator on doubles: positions are exact integers, heights stay within the data.
-/
import Verif.Proofs.P2
import Verif.F64.Exact

set_option linter.unusedSectionVars false

namespace Verif
open F64

/-! ### rounding of an interpolation -/

theorem mag_succ_le_two {f : ℕ} (h : f ≠ 0) : mag (f + 1) ≤ 2 * mag f := by
  obtain ⟨j, _, h1, a, ha⟩ := mag_succ_sub f
  have hp := mag_pos h
  have hj := pow2_pos j
  have : (1 : ℚ) ≤ a := by
    have : a ≠ 0 := by rintro rfl; rw [ha] at hp; simp at hp
    exact_mod_cast Nat.one_le_iff_ne_zero.mpr this
  rw [h1, ha]; nlinarith

theorem mag_one_code : mag 1 = pow2 (-1074) := by decide +kernel

/-- half (or less) of a rounded difference of doubles does not exceed the exact difference -/
theorem rq_frac_le {D : ℚ} (hD : ∃ m : ℤ, D = m * pow2 (-1074)) (h0 : 0 ≤ D) {k : ℚ} (hk : 2 ≤ k) :
    0 ≤ rq (rq D / k) ∧ rq (rq D / k) ≤ D := by
  have hr := rq_nonneg h0
  refine ⟨rq_nonneg (div_nonneg hr (by linarith)), ?_⟩
  rcases h0.eq_or_lt with h | h
  · rw [← h, rq_zero]; simp [rq_zero]
  obtain ⟨m, hm⟩ := hD
  have hm1 : (1 : ℚ) ≤ m := by
    have : 0 < m := by
      by_contra hc
      have : (m : ℚ) ≤ 0 := by exact_mod_cast not_lt.mp hc
      have := mul_nonpos_of_nonpos_of_nonneg this (pow2_pos (-1074)).le
      linarith
    exact_mod_cast this
  have hD1 : mag 1 ≤ D := by
    rw [mag_one_code, hm]
    have := pow2_pos (-1074); nlinarith
  obtain ⟨-, -, f1, f2⟩ := flr_spec h
  have hf : flr D ≠ 0 := by
    intro h0; rw [h0] at f2; exact absurd hD1 (not_le.mpr f2)
  have hb := (rnd_bounds h).2
  have h3 : rq D ≤ 2 * mag (flr D) := by
    rw [rq_of_nonneg h0]; exact (mag_le_iff.mpr hb).trans (mag_succ_le_two hf)
  have h4 : rq D / k ≤ mag (flr D) := by
    rw [div_le_iff₀ (by linarith)]
    have := mag_nonneg (flr D); nlinarith
  calc rq (rq D / k) ≤ rq (mag (flr D)) := rq_mono h4
    _ = mag (flr D) := rq_mag _
    _ ≤ D := f1

theorem sub_multiple (x y : F64) : ∃ m : ℤ, toQ x - toQ y = m * pow2 (-1074) := by
  obtain ⟨a, ha⟩ := toQ_multiple x
  obtain ⟨b, hb⟩ := toQ_multiple y
  exact ⟨a - b, by rw [ha, hb]; push_cast; ring⟩

/-- The interpolated value `a + fl(fl(b - a)/k)`, `k ≥ 2`, rounded, stays between `a` and `b`. -/
theorem interp_q {a b : F64} {k : ℚ} (hk : 2 ≤ k) :
    min (toQ a) (toQ b) ≤ rq (toQ a + rq (rq (toQ b - toQ a) / k)) ∧
    rq (toQ a + rq (rq (toQ b - toQ a) / k)) ≤ max (toQ a) (toQ b) ∧
    |rq (rq (toQ b - toQ a) / k)| ≤ |toQ b - toQ a| := by
  rcases le_total (toQ a) (toQ b) with h | h
  · obtain ⟨h1, h2⟩ := rq_frac_le (sub_multiple b a) (sub_nonneg.mpr h) hk
    rw [min_eq_left h, max_eq_right h]
    refine ⟨?_, ?_, ?_⟩
    · calc toQ a = rq (toQ a) := (rq_toQ a).symm
        _ ≤ _ := rq_mono (by linarith)
    · calc _ ≤ rq (toQ b) := rq_mono (by linarith)
        _ = toQ b := rq_toQ b
    · rw [abs_of_nonneg h1, abs_of_nonneg (sub_nonneg.mpr h)]; exact h2
  · obtain ⟨h1, h2⟩ := rq_frac_le (sub_multiple a b) (sub_nonneg.mpr h) hk
    have e : rq (rq (toQ b - toQ a) / k) = - rq (rq (toQ a - toQ b) / k) := by
      rw [← rq_neg, ← neg_div, ← rq_neg, neg_sub]
    rw [min_eq_right h, max_eq_left h, e]
    refine ⟨?_, ?_, ?_⟩
    · calc toQ b = rq (toQ b) := (rq_toQ b).symm
        _ ≤ _ := rq_mono (by linarith)
    · calc _ ≤ rq (toQ a) := rq_mono (by linarith)
        _ = toQ a := rq_toQ a
    · rw [abs_neg, abs_of_nonneg h1, abs_of_nonpos (by linarith)]; linarith

theorem pow2_1022 : pow2 1023 = 2 * pow2 1022 := by rw [show (1023 : ℤ) = 1022 + 1 by norm_num, pow2_succ]

/-- `a + (b - a) / n` computed in doubles for `n ≥ 2` -/
theorem interp_up {a b n : F64} (ha : isFin a) (hb : isFin b) (hn : isFin n) (hk : 2 ≤ toQ n)
    (ha' : |toQ a| ≤ pow2 1022) (hb' : |toQ b| ≤ pow2 1022) :
    isFin (add a (div (sub b a) n)) ∧ min (toQ a) (toQ b) ≤ toQ (add a (div (sub b a) n)) ∧
      toQ (add a (div (sub b a) n)) ≤ max (toQ a) (toQ b) := by
  obtain ⟨i1, i2, i3⟩ := interp_q (a := a) (b := b) hk
  have hD : |toQ b - toQ a| ≤ pow2 1023 := by
    rw [pow2_1022]; exact (abs_sub _ _).trans (by linarith)
  obtain ⟨s1, s2⟩ := sub_fin' hb ha hD
  have hr : |rq (toQ b - toQ a)| ≤ pow2 1023 := by
    obtain ⟨K, hK⟩ := pow2_isMag (e := 1023) (by norm_num)
    have : rq (pow2 1023) = pow2 1023 := by rw [← hK, rq_mag]
    rw [abs_le] at hD ⊢
    constructor
    · have := rq_mono hD.1; rw [rq_neg] at this; linarith
    · have := rq_mono hD.2; linarith
  obtain ⟨d1, d2⟩ := div_fin' s1 hn (by linarith) (by
    rw [s2, abs_div, abs_of_pos (a := toQ n) (by linarith), div_le_iff₀ (by linarith)]
    have := pow2_pos 1023
    nlinarith)
  rw [s2] at d2
  have hA : |toQ a + toQ (div (sub b a) n)| ≤ pow2 1023 := by
    rw [d2]
    rcases le_total (toQ a) (toQ b) with h | h
    · obtain ⟨h1, h2⟩ := rq_frac_le (sub_multiple b a) (sub_nonneg.mpr h) hk
      rw [abs_le] at ha' hb' ⊢
      have := pow2_pos 1022
      constructor <;> linarith [pow2_1022]
    · obtain ⟨h1, h2⟩ := rq_frac_le (sub_multiple a b) (sub_nonneg.mpr h) hk
      have e : rq (rq (toQ b - toQ a) / toQ n) = - rq (rq (toQ a - toQ b) / toQ n) := by
        rw [← rq_neg, ← neg_div, ← rq_neg, neg_sub]
      rw [e]
      rw [abs_le] at ha' hb' ⊢
      have := pow2_pos 1022
      constructor <;> linarith [pow2_1022]
  obtain ⟨r1, r2⟩ := add_fin' ha d1 hA
  rw [d2] at r2
  exact ⟨r1, by rw [r2]; exact i1, by rw [r2]; exact i2⟩

theorem div_neg_neg (x y : F64) : div (neg x) (neg y) = div x y := by
  rcases x with _ | s | ⟨s, a⟩ <;> rcases y with _ | t | ⟨t, b⟩ <;> try rfl
  · cases s <;> cases t <;> rfl
  · cases s <;> cases t <;> rfl
  · have e : ∀ u : Bool, ∀ c, toQ (fin (!u) c) = - toQ (fin u c) := fun u c => toQ_neg (fin u c)
    simp only [neg, div, e, neg_div_neg_eq]
    cases s <;> cases t <;> rfl

/-! ### positions -/

/-- the value of the double is the integer `k` -/
def HasInt (x : F64) (k : ℕ) : Prop := isFin x ∧ toQ x = k

theorem HasInt.ofLit {k : ℕ} (h : k ≤ 2 ^ 53) : HasInt (lit (k : ℚ)) k := by
  have := lit_int (i := k) (by rw [abs_of_nonneg (by positivity)]; exact_mod_cast h)
  exact ⟨by simpa using this.1, by simpa using this.2⟩

/-- Positions: strictly increasing integers, at most `m` -/
def Pos (n : Arr5 F64) (m : ℕ) : Prop := ∃ k0 k1 k2 k3 k4 : ℕ,
  HasInt n.a0 k0 ∧ HasInt n.a1 k1 ∧ HasInt n.a2 k2 ∧ HasInt n.a3 k3 ∧ HasInt n.a4 k4 ∧
  k0 < k1 ∧ k1 < k2 ∧ k2 < k3 ∧ k3 < k4 ∧ k4 ≤ m

theorem one_int : isFin (lit 1 : F64) ∧ toQ (lit 1 : F64) = ((1 : ℤ) : ℚ) := by
  have := lit_int (i := 1) (by norm_num); simpa using this
theorem neg_one_int : isFin (lit (-1) : F64) ∧ toQ (lit (-1) : F64) = ((-1 : ℤ) : ℚ) := by
  have := lit_int (i := -1) (by norm_num); simpa using this

theorem HasInt.succ {x : F64} {k : ℕ} (h : HasInt x k) (hk : k + 1 ≤ 2 ^ 53) : HasInt (x +. lit 1) (k + 1) := by
  have := add_int (i := k) (j := 1) h.1 one_int.1 (by rw [h.2]; simp) one_int.2
    (by rw [abs_of_nonneg (by positivity)]; exact_mod_cast hk)
  exact ⟨this.1, by rw [show x +. lit 1 = add x (lit 1) from rfl, this.2]; push_cast; rfl⟩

theorem HasInt.pred {x : F64} {k : ℕ} (h : HasInt x k) (hk : k ≤ 2 ^ 53) (h1 : 1 ≤ k) : HasInt (x +. lit (-1)) (k - 1) := by
  have := add_int (i := k) (j := -1) h.1 neg_one_int.1 (by rw [h.2]; simp) neg_one_int.2
    (by rw [abs_le]; omega)
  refine ⟨this.1, ?_⟩
  rw [show x +. lit (-1) = add x (lit (-1)) from rfl, this.2]; push_cast [Nat.cast_sub h1]; ring

theorem HasInt.sub {x y : F64} {k l : ℕ} (hx : HasInt x k) (hy : HasInt y l) (hk : k ≤ 2 ^ 53) (hl : l ≤ 2 ^ 53) :
    isFin (x -. y) ∧ toQ (x -. y) = (((k : ℤ) - l : ℤ) : ℚ) :=
  sub_int (i := k) (j := l) hx.1 hy.1 (by rw [hx.2]; simp) (by rw [hy.2]; simp) (by rw [abs_le]; omega)

theorem lt_toQ {x y : F64} (hx : isFin x) (hy : isFin y) : (x <. y) = true ↔ toQ x < toQ y := by
  rw [show (x <. y) = F64.lt x y from rfl, F64.lt_iff, val_fin hx, val_fin hy, ratCast_lt_EReal]
  simp [hx.notNaN, hy.notNaN]

theorem pos_of_one_le {d : F64} (h : (lit 1 <=. d) = true) : (lit 0 <. d) = true := by
  rw [show (lit 1 <=. d) = F64.le (lit 1) d from rfl, F64.le_iff] at h
  rw [show (lit 0 <. d) = F64.lt (lit 0) d from rfl, F64.lt_iff]
  refine ⟨by decide +kernel, h.2.1, lt_of_lt_of_le ?_ h.2.2⟩
  have : F64.lt (lit 0 : F64) (lit 1) = true := by decide +kernel
  rw [F64.lt_iff] at this; exact this.2.2

theorem neg_of_le_neg_one {d : F64} (h : (d <=. lit (-1)) = true) : (d <. lit 0) = true ∧ (lit 0 <. d) = false := by
  rw [show (d <=. lit (-1)) = F64.le d (lit (-1)) from rfl, F64.le_iff] at h
  have k : F64.lt (lit (-1) : F64) (lit 0) = true := by decide +kernel
  rw [F64.lt_iff] at k
  have hlt := lt_of_le_of_lt h.2.2 k.2.2
  constructor
  · rw [show (d <. lit 0) = F64.lt d (lit 0) from rfl, F64.lt_iff]; exact ⟨h.1, k.2.1, hlt⟩
  · rw [← Bool.not_eq_true, show (lit 0 <. d) = F64.lt (lit 0) d from rfl, F64.lt_iff]
    rintro ⟨-, -, h'⟩; exact absurd hlt (not_lt.mpr h'.le)

/-- what a move implies -/
theorem moves_dir {npi nm ni nu : F64} {km ki ku : ℕ} (hm : HasInt nm km) (hi : HasInt ni ki) (hu : HasInt nu ku)
    (bm : km ≤ 2 ^ 53) (bi : ki ≤ 2 ^ 53) (bu : ku ≤ 2 ^ 53) (h : moves npi nm ni nu = true) :
    (dirOf (npi -. ni) = 1 ∧ ki + 2 ≤ ku) ∨ (dirOf (npi -. ni) = -1 ∧ km + 2 ≤ ki) := by
  unfold moves at h
  rw [Bool.or_eq_true, Bool.and_eq_true, Bool.and_eq_true] at h
  rcases h with ⟨h1, h2⟩ | ⟨h1, h2⟩
  · left
    refine ⟨by unfold dirOf; rw [if_pos (pos_of_one_le h1)], ?_⟩
    obtain ⟨f, e⟩ := hu.sub hi bu bi
    rw [lt_toQ one_int.1 f, one_int.2, e] at h2
    have : (1 : ℤ) < (ku : ℤ) - ki := by exact_mod_cast h2
    omega
  · right
    obtain ⟨a, b⟩ := neg_of_le_neg_one h1
    refine ⟨by unfold dirOf; rw [if_neg (by rw [b]; decide), if_pos a], ?_⟩
    obtain ⟨f, e⟩ := hm.sub hi bm bi
    rw [lt_toQ f neg_one_int.1, neg_one_int.2, e] at h2
    have : (km : ℤ) - ki < -1 := by exact_mod_cast h2
    omega

theorem newN_int {npi nm ni nu : F64} {km ki ku : ℕ} (hm : HasInt nm km) (hi : HasInt ni ki) (hu : HasInt nu ku)
    (l1 : km < ki) (l2 : ki < ku) (bu : ku ≤ 2 ^ 53) :
    ∃ k, HasInt (newN nm ni nu npi) k ∧ km < k ∧ k < ku := by
  unfold newN
  split
  · next h =>
    rcases moves_dir hm hi hu (by omega) (by omega) bu h with ⟨e, h⟩ | ⟨e, h⟩ <;> rw [e]
    · exact ⟨ki + 1, by simpa using hi.succ (by omega), by omega, by omega⟩
    · exact ⟨ki - 1, by simpa using hi.pred (by omega) (by omega), by omega, by omega⟩
  · exact ⟨ki, hi, l1, l2⟩

theorem Pos.adj1 {s : P2 F64} {m : ℕ} (h : Pos s.n m) (hm : m ≤ 2 ^ 53) : Pos (adj1 s).n m := by
  obtain ⟨k0, k1, k2, k3, k4, h0, h1, h2, h3, h4, l0, l1, l2, l3, l4⟩ := h
  obtain ⟨k, hk, a, b⟩ := newN_int (npi := s.np.a1) h0 h1 h2 l0 l1 (by omega)
  exact ⟨k0, k, k2, k3, k4, h0, hk, h2, h3, h4, a, b, l2, l3, l4⟩

theorem Pos.adj2 {s : P2 F64} {m : ℕ} (h : Pos s.n m) (hm : m ≤ 2 ^ 53) : Pos (adj2 s).n m := by
  obtain ⟨k0, k1, k2, k3, k4, h0, h1, h2, h3, h4, l0, l1, l2, l3, l4⟩ := h
  obtain ⟨k, hk, a, b⟩ := newN_int (npi := s.np.a2) h1 h2 h3 l1 l2 (by omega)
  exact ⟨k0, k1, k, k3, k4, h0, h1, hk, h3, h4, l0, a, b, l3, l4⟩

theorem Pos.adj3 {s : P2 F64} {m : ℕ} (h : Pos s.n m) (hm : m ≤ 2 ^ 53) : Pos (adj3 s).n m := by
  obtain ⟨k0, k1, k2, k3, k4, h0, h1, h2, h3, h4, l0, l1, l2, l3, l4⟩ := h
  obtain ⟨k, hk, a, b⟩ := newN_int (npi := s.np.a3) h2 h3 h4 l2 l3 (by omega)
  exact ⟨k0, k1, k2, k, k4, h0, h1, h2, hk, h4, l0, l1, a, b, l4⟩

theorem Pos.bump {n : Arr5 F64} {m : ℕ} (h : Pos n m) (hm : m + 1 ≤ 2 ^ 53) (k : ℕ) : Pos (bumpFrom n k) (m + 1) := by
  obtain ⟨k0, k1, k2, k3, k4, h0, h1, h2, h3, h4, l0, l1, l2, l3, l4⟩ := h
  refine ⟨if k ≤ 0 then k0 + 1 else k0, if k ≤ 1 then k1 + 1 else k1, if k ≤ 2 then k2 + 1 else k2,
    if k ≤ 3 then k3 + 1 else k3, k4 + 1, ?_, ?_, ?_, ?_, ?_, ?_, ?_, ?_, ?_, by omega⟩
  · unfold bumpFrom; dsimp only; split
    · exact h0.succ (by omega)
    · exact h0
  · unfold bumpFrom; dsimp only; split
    · exact h1.succ (by omega)
    · exact h1
  · unfold bumpFrom; dsimp only; split
    · exact h2.succ (by omega)
    · exact h2
  · unfold bumpFrom; dsimp only; split
    · exact h3.succ (by omega)
    · exact h3
  · exact h4.succ (by omega)
  all_goals split_ifs <;> omega

theorem Pos.mono {n : Arr5 F64} {m m' : ℕ} (h : Pos n m) (hm : m ≤ m') : Pos n m' := by
  obtain ⟨k0, k1, k2, k3, k4, h0, h1, h2, h3, h4, l0, l1, l2, l3, l4⟩ := h
  exact ⟨k0, k1, k2, k3, k4, h0, h1, h2, h3, h4, l0, l1, l2, l3, l4.trans hm⟩

theorem Pos.upd {s : P2 F64} {m : ℕ} (h : Pos s.n m) (hm : m + 1 ≤ 2 ^ 53) (x : F64) : Pos (upd s x).n (m + 1) := by
  unfold Verif.upd
  split
  · exact h.mono (by omega)
  · split
    · exact h.mono (by omega)
    · exact Pos.adj3 (Pos.adj2 (Pos.adj1 (h.bump hm _) hm) hm) hm

theorem Pos.start (p x0 x1 x2 x3 x4 : F64) : Pos (start p x0 x1 x2 x3 x4).n 4 := by
  refine ⟨0, 1, 2, 3, 4, ?_, ?_, ?_, ?_, ?_, by omega, by omega, by omega, by omega, by omega⟩
  · have := HasInt.ofLit (k := 0) (by norm_num); simpa [Verif.start, init_p2] using this
  · have := HasInt.ofLit (k := 1) (by norm_num); simpa [Verif.start, init_p2] using this
  · have := HasInt.ofLit (k := 2) (by norm_num); simpa [Verif.start, init_p2] using this
  · have := HasInt.ofLit (k := 3) (by norm_num); simpa [Verif.start, init_p2] using this
  · have := HasInt.ofLit (k := 4) (by norm_num); simpa [Verif.start, init_p2] using this

theorem Pos.fold {s : P2 F64} {m : ℕ} (l : List F64) (h : Pos s.n m) (hm : m + l.length ≤ 2 ^ 53) :
    Pos (l.foldl Verif.upd s).n (m + l.length) := by
  induction l generalizing s m with
  | nil => exact h
  | cons x l ih =>
    simp only [List.length_cons] at hm ⊢
    rw [List.foldl_cons, show m + (l.length + 1) = m + 1 + l.length by omega]
    exact ih (h.upd (by omega) x) (by omega)

/-! ### heights -/

/-- finite, between `a` and `b` -/
def InQ (a b : ℚ) (x : F64) : Prop := isFin x ∧ a ≤ toQ x ∧ toQ x ≤ b

theorem newQ_in {a b : ℚ} (ha : -pow2 1022 ≤ a) (hb : b ≤ pow2 1022) {qm qi qu npi nm ni nu : F64}
    (im : InQ a b qm) (ii : InQ a b qi) (iu : InQ a b qu) {km ki ku : ℕ} (hm : HasInt nm km) (hi : HasInt ni ki)
    (hu : HasInt nu ku) (l1 : km < ki) (l2 : ki < ku) (bu : ku ≤ 2 ^ 53) :
    InQ a b (newQ qm qi qu nm ni nu npi) := by
  have bnd : ∀ x, InQ a b x → |toQ x| ≤ pow2 1022 := fun x h => abs_le.mpr ⟨by linarith [h.2.1], by linarith [h.2.2]⟩
  unfold newQ
  split
  · next h =>
    generalize hd : dirOf (npi -. ni) = d
    split
    · next hp =>
      rw [Bool.and_eq_true] at hp
      obtain ⟨p1, p2⟩ := hp
      generalize parab qm qi qu nm ni nu d = r at p1 p2 ⊢
      have hr : isFin r := by
        rw [show (qm <. r) = F64.lt qm r from rfl, F64.lt_iff] at p1
        rw [show (r <. qu) = F64.lt r qu from rfl, F64.lt_iff] at p2
        rw [isFin_iff_val]
        exact ⟨p1.2.1, (lt_of_lt_of_le p2.2.2 le_top).ne, (lt_of_le_of_lt bot_le p1.2.2).ne'⟩
      rw [lt_toQ im.1 hr] at p1
      rw [lt_toQ hr iu.1] at p2
      exact ⟨hr, im.2.1.trans p1.le, p2.le.trans iu.2.2⟩
    · rcases moves_dir hm hi hu (by omega) (by omega) bu h with ⟨e, h⟩ | ⟨e, h⟩
      · rw [← hd, e]
        unfold linp
        rw [if_pos rfl, show ((1 : ℤ) : ℚ) = 1 by norm_num, CDoubleLaws.one_mul]
        obtain ⟨f, e'⟩ := hu.sub hi bu (by omega)
        obtain ⟨r1, r2, r3⟩ := interp_up (a := qi) (b := qu) ii.1 iu.1 f (by
          rw [e']; have : (2 : ℤ) ≤ (ku : ℤ) - ki := by omega
          exact_mod_cast this) (bnd _ ii) (bnd _ iu)
        exact ⟨r1, (le_min ii.2.1 iu.2.1).trans r2, r3.trans (max_le ii.2.2 iu.2.2)⟩
      · rw [← hd, e]
        unfold linp
        rw [if_neg (by norm_num), if_pos rfl, show ((-1 : ℤ) : ℚ) = -1 by norm_num, CDoubleLaws.neg_one_mul]
        obtain ⟨f, e'⟩ := hm.sub hi (by omega) (by omega)
        have e2 : (-. (qm -. qi)) /. (nm -. ni) = div (F64.sub qm qi) (neg (nm -. ni)) := by
          rw [← div_neg_neg, F64.neg_neg]; rfl
        rw [e2]
        obtain ⟨r1, r2, r3⟩ := interp_up (a := qi) (b := qm) (n := neg (nm -. ni)) ii.1 im.1 (isFin_neg.mpr f) (by
          rw [toQ_neg, e']; have : (2 : ℤ) ≤ -((km : ℤ) - ki) := by omega
          exact_mod_cast this) (bnd _ ii) (bnd _ im)
        exact ⟨r1, (le_min ii.2.1 im.2.1).trans r2, r3.trans (max_le ii.2.2 im.2.2)⟩
  · exact ii

/-- all heights within [a, b] -/
def Heights (a b : ℚ) (q : Arr5 F64) : Prop := InQ a b q.a0 ∧ InQ a b q.a1 ∧ InQ a b q.a2 ∧ InQ a b q.a3 ∧ InQ a b q.a4

theorem heights_iff {a b : ℚ} {q : Arr5 F64} : Heights a b q ↔ ∀ x ∈ q.toList, InQ a b x := by
  simp [Heights, Arr5.toList]

section
variable {a b : ℚ} (ha : -pow2 1022 ≤ a) (hb : b ≤ pow2 1022)
include ha hb

theorem Heights.adj1 {s : P2 F64} {m : ℕ} (h : Heights a b s.q) (hp : Pos s.n m) (hm : m ≤ 2 ^ 53) :
    Heights a b (adj1 s).q := by
  obtain ⟨k0, k1, k2, k3, k4, h0, h1, h2, h3, h4, l0, l1, l2, l3, l4⟩ := hp
  obtain ⟨i0, i1, i2, i3, i4⟩ := h
  exact ⟨i0, newQ_in ha hb i0 i1 i2 h0 h1 h2 l0 l1 (by omega), i2, i3, i4⟩

theorem Heights.adj2 {s : P2 F64} {m : ℕ} (h : Heights a b s.q) (hp : Pos s.n m) (hm : m ≤ 2 ^ 53) :
    Heights a b (adj2 s).q := by
  obtain ⟨k0, k1, k2, k3, k4, h0, h1, h2, h3, h4, l0, l1, l2, l3, l4⟩ := hp
  obtain ⟨i0, i1, i2, i3, i4⟩ := h
  exact ⟨i0, i1, newQ_in ha hb i1 i2 i3 h1 h2 h3 l1 l2 (by omega), i3, i4⟩

theorem Heights.adj3 {s : P2 F64} {m : ℕ} (h : Heights a b s.q) (hp : Pos s.n m) (hm : m ≤ 2 ^ 53) :
    Heights a b (adj3 s).q := by
  obtain ⟨k0, k1, k2, k3, k4, h0, h1, h2, h3, h4, l0, l1, l2, l3, l4⟩ := hp
  obtain ⟨i0, i1, i2, i3, i4⟩ := h
  exact ⟨i0, i1, i2, newQ_in ha hb i2 i3 i4 h2 h3 h4 l2 l3 (by omega), i4⟩

theorem Heights.upd {s : P2 F64} {m : ℕ} (h : Heights a b s.q) (hp : Pos s.n m) (hm : m + 1 ≤ 2 ^ 53) {x : F64}
    (hx : InQ a b x) : Heights a b (upd s x).q := by
  unfold Verif.upd
  split
  · exact ⟨hx, h.2⟩
  · split
    · exact ⟨h.1, h.2.1, h.2.2.1, h.2.2.2.1, hx⟩
    · have p0 := hp.bump hm (firstNotBelow s.q x)
      refine Heights.adj3 ha hb (m := m + 1) (Heights.adj2 ha hb (m := m + 1) (Heights.adj1 ha hb (m := m + 1) h p0 hm) ?_ hm)
        ?_ hm
      · exact Pos.adj1 p0 hm
      · exact Pos.adj2 (Pos.adj1 p0 hm) hm

theorem Heights.fold {s : P2 F64} {m : ℕ} (l : List F64) (h : Heights a b s.q) (hp : Pos s.n m)
    (hm : m + l.length ≤ 2 ^ 53) (hl : ∀ x ∈ l, InQ a b x) : Heights a b (l.foldl Verif.upd s).q := by
  induction l generalizing s m with
  | nil => exact h
  | cons x l ih =>
    simp only [List.length_cons] at hm
    exact ih (h.upd ha hb hp (by omega) (hl x (by simp))) (hp.upd (by omega) x) (by omega)
      (fun y hy => hl y (by simp [hy]))

end

theorem Heights.start {a b : ℚ} {p x0 x1 x2 x3 x4 : F64} (h : ∀ x ∈ [x0, x1, x2, x3, x4], InQ a b x) :
    Heights a b (start p x0 x1 x2 x3 x4).q := by
  rw [heights_iff]
  intro x hx
  exact h x ((sort5_perm _).mem_iff.mp hx)

end Verif

/-
Where `xlog` is non-decreasing in binary64, rounding included.
-/
import Verif.F64.Pair
import Verif.Props.Xlog

namespace Verif
open F64

/-- one level of the fraction -/
theorem bet_level {q : ℚ} (c m : ℤ) {l h i j i' j' : ℤ} {x2 x2' D D' xx xx' : F64} (X : Bet 0 9 x2' x2) (hD : Bet l h D D')
    (hS : Bet i j xx xx') (hq : q = ((-c : ℤ) : ℚ)) (hc : 0 ≤ c) (hc' : c ≤ 100) (hl : 0 < l) (hm : |m| ≤ 2 ^ 50)
    (hnm : 16 * (c * 9) ≤ m * l) (b1 : |i'| ≤ 2 ^ 50) (b2 : |j'| ≤ 2 ^ 50) (e1 : -m + i = i') (e2 : 0 + j = j') :
    Bet i' j' (lit q *. x2 /. D +. xx) (lit q *. x2' /. D' +. xx') := by
  subst hq; subst e1; subst e2
  exact ((X.mulNeg hc (hc'.trans (by norm_num)) (by omega)).divNeg hD hl hm hnm).add hS b1 b2

theorem F64.Bet.add' {i j k l a b : ℤ} {x y u v : F64} (h : Bet i j x y) (g : Bet k l u v) (e1 : i + k = a) (e2 : j + l = b)
    (hi : |a| ≤ 2 ^ 50) (hj : |b| ≤ 2 ^ 50) : Bet a b (x +. u) (y +. v) := by
  subst e1; subst e2; exact h.add g hi hj

theorem logDen_bet {z z' : F64} (h : Bet 4 16 z z') : Bet 16 32 (logDen z) (logDen z') ∧
    Bet (-12) 0 (z -. lit 1) (z' -. lit 1) := by
  have k1 : Bet 16 16 (lit 1 : F64) (lit 1) := by simpa using Bet.const (i := 1) (by norm_num)
  have k2 : Bet 32 32 (lit 2 : F64) (lit 2) := by simpa using Bet.const (i := 2) (by norm_num)
  have x : Bet (-12) 0 (z -. lit 1) (z' -. lit 1) := h.sub k1 (by norm_num) (by norm_num)
  refine ⟨?_, x⟩
  unfold logDen
  generalize z -. lit 1 = a at x ⊢
  generalize z' -. lit 1 = a' at x ⊢
  have x2 : Bet 0 9 (a' *. a') (a *. a) := x.sqNeg (by norm_num) (by norm_num) (by norm_num)
  have s1 : Bet 20 32 (a +. lit 2) (a' +. lit 2) := x.add k2 (by norm_num) (by norm_num)
  dsimp only
  rw [neg_eq_mul, neg_eq_mul]
  generalize a +. lit 2 = xx at s1 ⊢
  generalize a' +. lit 2 = xx' at s1 ⊢
  generalize a *. a = y at x2 ⊢
  generalize a' *. a' = y' at x2 ⊢
  have s2 : Bet 40 64 (xx +. xx) (xx' +. xx') := s1.add s1 (by norm_num) (by norm_num)
  have s3 := s1.add' s2 (a := 60) (b := 96) (by norm_num) (by norm_num) (by norm_num) (by norm_num)
  have s5 := s3.add' s2 (a := 100) (b := 160) (by norm_num) (by norm_num) (by norm_num) (by norm_num)
  have s7 := s5.add' s2 (a := 140) (b := 224) (by norm_num) (by norm_num) (by norm_num) (by norm_num)
  have s9 := s7.add' s2 (a := 180) (b := 288) (by norm_num) (by norm_num) (by norm_num) (by norm_num)
  have s11 := s9.add' s2 (a := 220) (b := 352) (by norm_num) (by norm_num) (by norm_num) (by norm_num)
  have s13 := s11.add' s2 (a := 260) (b := 416) (by norm_num) (by norm_num) (by norm_num) (by norm_num)
  have s15 := s13.add' s2 (a := 300) (b := 480) (by norm_num) (by norm_num) (by norm_num) (by norm_num)
  have s17 := s15.add' s2 (a := 340) (b := 544) (by norm_num) (by norm_num) (by norm_num) (by norm_num)
  have s19 := s17.add' s2 (a := 380) (b := 608) (by norm_num) (by norm_num) (by norm_num) (by norm_num)
  have s21 := s19.add' s2 (a := 420) (b := 672) (by norm_num) (by norm_num) (by norm_num) (by norm_num)
  have d19 := bet_level (q := -100) 100 36 x2 s21 s19 (by norm_num) (by norm_num) (by norm_num) (by norm_num) (by norm_num) (by norm_num)
    (i' := 344) (j' := 608) (by norm_num) (by norm_num) (by norm_num) (by norm_num)
  have d17 := bet_level (q := -81) 81 36 x2 d19 s17 (by norm_num) (by norm_num) (by norm_num) (by norm_num) (by norm_num) (by norm_num)
    (i' := 304) (j' := 544) (by norm_num) (by norm_num) (by norm_num) (by norm_num)
  have d15 := bet_level (q := -64) 64 32 x2 d17 s15 (by norm_num) (by norm_num) (by norm_num) (by norm_num) (by norm_num) (by norm_num)
    (i' := 268) (j' := 480) (by norm_num) (by norm_num) (by norm_num) (by norm_num)
  have d13 := bet_level (q := -49) 49 28 x2 d15 s13 (by norm_num) (by norm_num) (by norm_num) (by norm_num) (by norm_num) (by norm_num)
    (i' := 232) (j' := 416) (by norm_num) (by norm_num) (by norm_num) (by norm_num)
  have d11 := bet_level (q := -36) 36 24 x2 d13 s11 (by norm_num) (by norm_num) (by norm_num) (by norm_num) (by norm_num) (by norm_num)
    (i' := 196) (j' := 352) (by norm_num) (by norm_num) (by norm_num) (by norm_num)
  have d9 := bet_level (q := -25) 25 20 x2 d11 s9 (by norm_num) (by norm_num) (by norm_num) (by norm_num) (by norm_num) (by norm_num)
    (i' := 160) (j' := 288) (by norm_num) (by norm_num) (by norm_num) (by norm_num)
  have d7 := bet_level (q := -16) 16 16 x2 d9 s7 (by norm_num) (by norm_num) (by norm_num) (by norm_num) (by norm_num) (by norm_num)
    (i' := 124) (j' := 224) (by norm_num) (by norm_num) (by norm_num) (by norm_num)
  have d5 := bet_level (q := -9) 9 12 x2 d7 s5 (by norm_num) (by norm_num) (by norm_num) (by norm_num) (by norm_num) (by norm_num)
    (i' := 88) (j' := 160) (by norm_num) (by norm_num) (by norm_num) (by norm_num)
  have d3 := bet_level (q := -4) 4 8 x2 d5 s3 (by norm_num) (by norm_num) (by norm_num) (by norm_num) (by norm_num) (by norm_num)
    (i' := 52) (j' := 96) (by norm_num) (by norm_num) (by norm_num) (by norm_num)
  have d1 := bet_level (q := ((-1 : ℤ) : ℚ)) 1 4 x2 d3 s1 (by norm_num) (by norm_num) (by norm_num) (by norm_num) (by norm_num) (by norm_num)
    (i' := 16) (j' := 32) (by norm_num) (by norm_num) (by norm_num) (by norm_num)
  exact d1

theorem log_cf_mono {z z' : F64} (h : Bet 4 16 z z') : Bet (-24) 0 (log_cf_11 z) (log_cf_11 z') := by
  obtain ⟨D, x⟩ := logDen_bet h
  rw [log_cf_eq, log_cf_eq]
  obtain ⟨l1, l2⟩ := lit_int (i := 2) (by norm_num)
  push_cast at l1 l2
  have lo := x.lo
  have hi := x.hi
  push_cast at lo hi
  have N : Bet (-24) 0 (lit 2 *. (z -. lit 1)) (lit 2 *. (z' -. lit 1)) := by
    refine Bet.round (q := toQ (lit 2 : F64) * toQ (z -. lit 1)) (q' := toQ (lit 2 : F64) * toQ (z' -. lit 1)) (by norm_num) (by norm_num)
      ?_ ?_ ?_ (mul_fin' l1 x.fx) (mul_fin' l1 x.fy)
    · rw [l2]; push_cast; linarith
    · rw [l2]; have := x.le; linarith
    · rw [l2]; push_cast; linarith
  exact N.divNeg D (by norm_num) (by norm_num) (by norm_num)

/-- `xlog` is monotone on the doubles of the same binary exponent. -/
theorem xlog_binade {x y : F64} (hx : isFin x) (hy : isFin y) (h0 : 0 < toQ x) (h : toQ x ≤ toQ y)
    (he : (musl_frexp x 0).2 = (musl_frexp y 0).2) : toQ (xlog muslFU x) ≤ toQ (xlog muslFU y) := by
  have h0' := h0.trans_le h
  obtain ⟨m1, m2, m3, m4, m5, m6⟩ := frexp_pos hx h0
  obtain ⟨n1, n2, n3, n4, -, -⟩ := frexp_pos hy h0'
  rw [xlog_pos hx h0, xlog_pos hy h0']
  rw [← he] at n4 ⊢
  generalize (musl_frexp x 0).1 = m at *
  generalize (musl_frexp y 0).1 = n at *
  generalize (musl_frexp x 0).2 = e at *
  have hr : toR x ≤ toR y := by unfold toR; exact_mod_cast h
  have hp : (0 : ℝ) < 2 ^ e := zpow_pos (by norm_num) _
  have hmn : toR m ≤ toR n := by rw [m4, n4] at hr; exact le_of_mul_le_mul_right hr hp
  have Q : ∀ {a : F64} {q : ℚ}, (q : ℝ) ≤ toR a → q ≤ toQ a := fun h => by unfold toR at h; exact_mod_cast h
  have Q' : ∀ {a : F64} {q : ℚ}, toR a ≤ (q : ℝ) → toQ a ≤ q := fun h => by unfold toR at h; exact_mod_cast h
  by_cases hc : e = 0 ∨ e = -1
  · rw [if_pos hc, if_pos hc]
    refine (log_cf_mono ⟨hx, hy, ?_, h, ?_⟩).le
    · refine Q ?_
      rcases hc with rfl | rfl
      · rw [m4]; push_cast; norm_num; linarith
      · rw [m4]; push_cast; norm_num; linarith
    · refine Q' ?_
      rcases hc with rfl | rfl
      · rw [n4]; push_cast; norm_num; linarith
      · rw [n4]; push_cast; norm_num; linarith
  · rw [if_neg hc, if_neg hc]
    have B : Bet 4 16 m n := ⟨m1, n1, Q (by push_cast; linarith), Q (by simpa [toR] using hmn), Q' (by push_cast; linarith)⟩
    have L := log_cf_mono B
    obtain ⟨l1, l2⟩ := lit_int (i := e) (by rw [abs_le]; constructor <;> norm_num <;> omega)
    obtain ⟨g1, g2⟩ := LOG2_fin
    have e1 : (-1073 : ℚ) ≤ e := by exact_mod_cast m5
    have e2 : (e : ℚ) ≤ 1024 := by exact_mod_cast m6
    have C : Bet (-16 * 1073) (16 * 1024) (LOG2 *. lit (e : ℚ)) (LOG2 *. lit (e : ℚ)) := by
      refine Bet.round (q := toQ (LOG2 : F64) * toQ (lit (e : ℚ) : F64)) (q' := toQ (LOG2 : F64) * toQ (lit (e : ℚ) : F64)) (by norm_num) (by norm_num)
        ?_ le_rfl ?_ (mul_fin' g1 l1) (mul_fin' g1 l1)
      · rw [g2, l2]; push_cast; linarith
      · rw [g2, l2]; push_cast; linarith
    exact (L.add C (by norm_num) (by norm_num)).le

/-- first and last double of binary exponent `e` -/
def binBot (e : ℤ) : F64 := lit ((1 / 2) * 2 ^ e)
@[inherit_doc binBot] def binTop (e : ℤ) : F64 := lit ((1 - 1 / 2 ^ 53) * 2 ^ e)

/-- the first double of a binade has a logarithm not below that of the double before -/
def binStep (e : ℤ) : Bool :=
  decide (isFin (binBot e) ∧ isFin (binTop e) ∧ toQ (binBot e) = 1 / 2 * 2 ^ e ∧ toQ (binTop e) = (1 - 1 / 2 ^ 53) * 2 ^ e ∧
    toQ (xlog muslFU (binTop e)) ≤ toQ (xlog muslFU (binBot (e + 1))))

theorem binSteps : (List.range 52).all (fun i => binStep ((i : ℤ) - 47)) = true := by decide +kernel

theorem binStep_spec {e : ℤ} (h : -47 ≤ e) (h' : e ≤ 4) :
    isFin (binBot e) ∧ isFin (binTop e) ∧ toQ (binBot e) = 1 / 2 * 2 ^ e ∧ toQ (binTop e) = (1 - 1 / 2 ^ 53) * 2 ^ e ∧
    toQ (xlog muslFU (binTop e)) ≤ toQ (xlog muslFU (binBot (e + 1))) := by
  have := List.all_eq_true.mp binSteps (e + 47).toNat (List.mem_range.mpr (by omega))
  have he : (((e + 47).toNat : ℤ)) - 47 = e := by omega
  rw [he] at this
  exact of_decide_eq_true this

theorem binBot_spec {e : ℤ} (h : -47 ≤ e) (h' : e ≤ 5) : isFin (binBot e) ∧ toQ (binBot e) = 1 / 2 * 2 ^ e := by
  rcases h'.lt_or_eq with h1 | rfl
  · have := binStep_spec h (by omega); exact ⟨this.1, this.2.2.1⟩
  · decide +kernel

theorem binade_of {x : F64} (hx : isFin x) {e : ℤ} (h1 : 1 / 2 * 2 ^ e ≤ toQ x) (h2 : toQ x < 2 ^ e) :
    0 < toQ x ∧ (musl_frexp x 0).2 = e := by
  have hp : (0 : ℚ) < 2 ^ e := zpow_pos (by norm_num) _
  have h0 : 0 < toQ x := by linarith
  refine ⟨h0, ?_⟩
  have := exponent_of_range hx h0 (a := e - 1) ?_ ?_
  · rw [this]; ring
  · have : ((1 / 2 * 2 ^ e : ℚ) : ℝ) ≤ toR x := by unfold toR; exact_mod_cast h1
    refine le_trans (le_of_eq ?_) this
    rw [zpow_sub_one₀ (by norm_num)]; push_cast; ring
  · have : toR x < ((2 ^ e : ℚ) : ℝ) := by unfold toR; exact_mod_cast h2
    refine this.trans_le (le_of_eq ?_)
    rw [sub_add_cancel]; push_cast; rfl

theorem binBot_mono (n : ℕ) : ∀ e : ℤ, -47 ≤ e → e + n ≤ 5 →
    toQ (xlog muslFU (binBot e)) ≤ toQ (xlog muslFU (binBot (e + n))) := by
  induction n with
  | zero => intro e _ _; simp
  | succ n ih =>
    intro e h h'
    push_cast at h'
    obtain ⟨f1, f2, q1, q2, q3⟩ := binStep_spec h (by omega)
    have hp : (0 : ℚ) < 2 ^ e := zpow_pos (by norm_num) _
    obtain ⟨b0, b1⟩ := binade_of f1 (e := e) (by rw [q1]) (by rw [q1]; linarith)
    obtain ⟨t0, t1⟩ := binade_of f2 (e := e) (by rw [q2]; norm_num; linarith) (by rw [q2]; norm_num; linarith)
    have a := xlog_binade f1 f2 b0 (by rw [q1, q2]; norm_num; linarith) (b1.trans t1.symm)
    have b := ih (e + 1) (by omega) (by omega)
    rw [show e + ((n + 1 : ℕ) : ℤ) = e + 1 + n by push_cast; ring]
    exact (a.trans q3).trans b

/-- `xlog` is monotone on [2^-48, 32). -/
theorem xlog_mono_range {x y : F64} (hx : isFin x) (hy : isFin y) (h0 : 1 / 2 ^ 48 ≤ toQ x) (h : toQ x ≤ toQ y) (h1 : toQ y < 32) :
    toQ (xlog muslFU x) ≤ toQ (xlog muslFU y) := by
  have p0 : 0 < toQ x := lt_of_lt_of_le (by norm_num) h0
  have p1 := p0.trans_le h
  by_cases he : (musl_frexp x 0).2 = (musl_frexp y 0).2
  · exact xlog_binade hx hy p0 h he
  have X := C50_frexp x 0 hx p0.ne'
  have Y := C50_frexp y 0 hy p1.ne'
  obtain ⟨fx, x1, x2, x3⟩ := X
  obtain ⟨fy, y1, y2, y3⟩ := Y
  have hxe : (0 : ℚ) < 2 ^ (musl_frexp x 0).2 := zpow_pos (by norm_num) _
  have hye : (0 : ℚ) < 2 ^ (musl_frexp y 0).2 := zpow_pos (by norm_num) _
  have mx : 0 < toQ (musl_frexp x 0).1 := (pos_iff_pos_of_mul_pos (x3 ▸ p0)).mpr hxe
  have my : 0 < toQ (musl_frexp y 0).1 := (pos_iff_pos_of_mul_pos (y3 ▸ p1)).mpr hye
  rw [abs_of_pos mx] at x1 x2
  rw [abs_of_pos my] at y1 y2
  have lt : (musl_frexp x 0).2 < (musl_frexp y 0).2 := by
    by_contra hn
    have hlt : (musl_frexp y 0).2 + 1 ≤ (musl_frexp x 0).2 := by omega
    have := zpow_le_zpow_right₀ (a := (2 : ℚ)) (by norm_num) hlt
    rw [zpow_add_one₀ (by norm_num)] at this
    have a1 : toQ y < 2 ^ (musl_frexp y 0).2 := by rw [y3]; nlinarith
    have a2 : 1 / 2 * 2 ^ (musl_frexp x 0).2 ≤ toQ x := by rw [x3]; nlinarith
    linarith
  have ex : -47 ≤ (musl_frexp x 0).2 := by
    by_contra hn
    have := zpow_le_zpow_right₀ (a := (2 : ℚ)) (by norm_num) (show (musl_frexp x 0).2 ≤ -48 by omega)
    have a1 : toQ x < 2 ^ (musl_frexp x 0).2 := by rw [x3]; nlinarith
    rw [show (2 : ℚ) ^ (-48 : ℤ) = 1 / 2 ^ 48 by norm_num] at this
    linarith
  have ey : (musl_frexp y 0).2 ≤ 5 := by
    by_contra hn
    have := zpow_le_zpow_right₀ (a := (2 : ℚ)) (by norm_num) (show 6 ≤ (musl_frexp y 0).2 by omega)
    have a2 : 1 / 2 * 2 ^ (musl_frexp y 0).2 ≤ toQ y := by rw [y3]; nlinarith
    norm_num at this
    linarith
  obtain ⟨d, hd⟩ := Int.le.dest (show (musl_frexp x 0).2 + 1 ≤ (musl_frexp y 0).2 by omega)
  obtain ⟨f1, f2, q1, q2, q3⟩ := binStep_spec ex (by omega)
  obtain ⟨g1, g2⟩ := binBot_spec (e := (musl_frexp y 0).2) (by omega) ey
  obtain ⟨t0, t1⟩ := binade_of f2 (e := (musl_frexp x 0).2) (by rw [q2]; norm_num; linarith) (by rw [q2]; norm_num; linarith)
  obtain ⟨b0, b1⟩ := binade_of g1 (e := (musl_frexp y 0).2) (by rw [g2]) (by rw [g2]; linarith)
  have s1 : toQ x ≤ toQ (binTop (musl_frexp x 0).2) := by
    rw [q2, x3]
    have := below_one fx mx x2
    refine mul_le_mul_of_nonneg_right (this.trans (le_of_eq (by norm_num))) hxe.le
  have s2 : toQ (binBot (musl_frexp y 0).2) ≤ toQ y := by
    rw [g2, y3]; exact mul_le_mul_of_nonneg_right y1 hye.le
  have r1 := xlog_binade hx f2 p0 s1 t1.symm
  have r2 := binBot_mono d ((musl_frexp x 0).2 + 1) (by omega) (by omega)
  rw [hd] at r2
  have r3 := xlog_binade g1 hy b0 s2 b1
  exact ((r1.trans q3).trans r2).trans r3

end Verif

/-
C125: the excess threshold as a function of the level.
-/
import Verif.Proofs.P2XR
import Verif.Proofs.P2Paper
import Verif.Props.Samples

namespace Verif
open XR

/-! ### witness -/

namespace LevelWitness

def data : List F64 := [lit 18, lit 0, lit 16, lit 14, lit 13, lit 10, lit 17, lit 16, lit 4, lit 11, lit 18, lit 15]

/-- `spot_init` with `q` = 0.001, upper tail, `max_excess` = 20 and the given level -/
def init (level : F64) : ℤ × Spot F64 × Heap F64 := spot_init Sample.lib Sample.emptyHeap Sample.zeroed (lit (1 / 1000)) 0 1 level 20

def fit (level : F64) : C (ℤ × Spot F64 × Heap F64) := spot_fit (codeMath muslFU) (init level).2.2 (init level).2.1 data 12

end LevelWitness

/-- **C125** (negation). With the same 12 training values, the detector with level 0.99 gets a lower excess threshold (below 17) and more excesses than the
detector with level 0.9 (above 17). -/
theorem C125_false : ∃ s t : Spot F64, ∃ g h, (LevelWitness.init (lit (9 / 10))).1 = 0 ∧ (LevelWitness.init (lit (99 / 100))).1 = 0 ∧
    LevelWitness.fit (lit (9 / 10)) = .ok (0, s, g) ∧ LevelWitness.fit (lit (99 / 100)) = .ok (0, t, h) ∧
    (t.excess_threshold <. lit 17) = true ∧ (lit 17 <. s.excess_threshold) = true ∧ s.Nt = 2 ∧ t.Nt = 3 := by
  have a : (LevelWitness.fit (lit (9 / 10))).map (fun r => (r.1, r.2.1.Nt, lit 17 <. r.2.1.excess_threshold)) =
      .ok (0, 2, true) := by decide +kernel
  have b : (LevelWitness.fit (lit (99 / 100))).map (fun r => (r.1, r.2.1.Nt, r.2.1.excess_threshold <. lit 17)) =
      .ok (0, 3, true) := by decide +kernel
  cases ha : LevelWitness.fit (lit (9 / 10)) with
  | error e => rw [ha] at a; cases a
  | ok r =>
    cases hb : LevelWitness.fit (lit (99 / 100)) with
    | error e => rw [hb] at b; cases b
    | ok r' =>
      rw [ha] at a
      rw [hb] at b
      have a' := Except.ok.inj a
      have b' := Except.ok.inj b
      simp only [Prod.mk.injEq] at a' b'
      refine ⟨r.2.1, r'.2.1, r.2.2, r'.2.2, by decide +kernel, by decide +kernel, ?_, ?_, b'.2.2, a'.2.2, a'.2.1, b'.2.1⟩
      · rw [← a'.1]
      · rw [← b'.1]

/-! ### six values -/

theorem moves_fin {km ki ku : ℤ} (v : ℝ) : moves (fin v) (fin (km : ℝ)) (fin (ki : ℝ)) (fin (ku : ℝ)) =
    decide ((1 ≤ v - ki ∧ ki + 1 < ku) ∨ (v - ki ≤ -1 ∧ km + 1 < ki)) := by
  unfold moves
  simp only [lit_fin, sub_ff, le_ff, lt_ff]
  rw [Bool.eq_iff_iff]
  simp only [Bool.or_eq_true, Bool.and_eq_true, decide_eq_true_eq]
  push_cast
  have q1 : (1 < (ku : ℝ) - ki) ↔ ki + 1 < ku := by
    rw [lt_sub_iff_add_lt, add_comm]; exact_mod_cast Iff.rfl
  have q2 : ((km : ℝ) - ki < -1) ↔ km + 1 < ki := by
    rw [sub_lt_iff_lt_add, ← sub_lt_iff_lt_add', sub_neg_eq_add]; exact_mod_cast Iff.rfl
  rw [q1, q2]

theorem dir_up {ki : ℤ} {v : ℝ} (h : 1 ≤ v - ki) : dirOf ((fin v : XR) -. fin (ki : ℝ)) = 1 := by
  unfold dirOf
  rw [if_pos]
  rw [sub_ff, lit_fin, lt_ff, decide_eq_true_eq]
  push_cast
  linarith

theorem dir_down {ki : ℤ} {v : ℝ} (h : v - ki ≤ -1) : dirOf ((fin v : XR) -. fin (ki : ℝ)) = -1 := by
  unfold dirOf
  rw [if_neg, if_pos]
  · rw [sub_ff, lit_fin, lt_ff, decide_eq_true_eq]
    push_cast
    linarith
  · rw [sub_ff, lit_fin, lt_ff, decide_eq_true_eq]
    push_cast
    linarith

theorem newN_dir {km ki ku : ℤ} (v : ℝ) : newN (fin (km : ℝ)) (fin (ki : ℝ)) (fin (ku : ℝ)) (fin v) =
    if 1 ≤ v - ki ∧ ki + 1 < ku then fin ((ki + 1 : ℤ) : ℝ) else if v - ki ≤ -1 ∧ km + 1 < ki then fin ((ki - 1 : ℤ) : ℝ) else fin (ki : ℝ) := by
  unfold newN
  rw [moves_fin]
  by_cases u : 1 ≤ v - ki ∧ ki + 1 < ku
  · rw [if_pos u, if_pos (by simp only [decide_eq_true_eq]; exact .inl u), dir_up u.1, lit_fin, add_ff]
    push_cast; rfl
  · by_cases w : v - ki ≤ -1 ∧ km + 1 < ki
    · rw [if_neg u, if_pos w, if_pos (by simp only [decide_eq_true_eq]; exact .inr w), dir_down w.1, lit_fin, add_ff]
      push_cast; rfl
    · rw [if_neg u, if_neg w, if_neg]
      simp only [decide_eq_true_eq]
      tauto

theorem newQ_stay {km ki ku : ℤ} {a b c : XR} {v : ℝ} (h : ¬ (1 ≤ v - ki ∧ ki + 1 < ku)) (h' : ¬ (v - ki ≤ -1 ∧ km + 1 < ki)) :
    newQ a b c (fin (km : ℝ)) (fin (ki : ℝ)) (fin (ku : ℝ)) (fin v) = b := by
  unfold newQ
  rw [moves_fin, if_neg]
  simp only [decide_eq_true_eq]
  tauto

/-- the new height of a marker: up, down, or where it was -/
theorem newQ_dir {rm ri ru : ℝ} (h1 : rm ≤ ri) (h2 : ri ≤ ru) {km ki ku : ℤ} (l1 : km < ki) (l2 : ki < ku) :
    ∃ U D : ℝ, ri ≤ U ∧ D ≤ ri ∧ ∀ v : ℝ, newQ (fin rm) (fin ri) (fin ru) (fin km) (fin ki) (fin ku) (fin v) =
      if 1 ≤ v - ki ∧ ki + 1 < ku then fin U else if v - ki ≤ -1 ∧ km + 1 < ki then fin D else fin ri := by
  have k1 : (km : ℝ) + 1 ≤ ki := by exact_mod_cast l1
  have k2 : (ki : ℝ) + 1 ≤ ku := by exact_mod_cast l2
  have c1 : (0 : ℝ) < ku - km := by linarith
  have c2 : (0 : ℝ) < ku - ki := by linarith
  have c3 : (0 : ℝ) < ki - km := by linarith
  have c4 : (km : ℝ) - ki ≠ 0 := by linarith
  have hp : ∀ d : ℤ, parab (fin rm) (fin ri) (fin ru) (fin (km : ℝ)) (fin (ki : ℝ)) (fin (ku : ℝ)) d =
      fin (ri + (d : ℝ) / (ku - km) * (((ki : ℝ) - km + (d : ℝ)) * (ru - ri) / (ku - ki) + ((ku : ℝ) - ki - (d : ℝ)) * (ri - rm) / (ki - km))) := by
    intro d
    unfold parab
    simp only [lit_fin, sub_ff, add_ff, mul_ff, div_ff c1.ne', div_ff c2.ne', div_ff c3.ne', Rat.cast_intCast]
  have hl1 : linp (fin rm) (fin ri) (fin ru) (fin (km : ℝ)) (fin (ki : ℝ)) (fin (ku : ℝ)) 1 = fin (ri + (ru - ri) / (ku - ki)) := by
    unfold linp
    rw [if_pos rfl, sub_ff, sub_ff, lit_fin, mul_ff, div_ff c2.ne', add_ff]
    norm_num
  have hl2 : linp (fin rm) (fin ri) (fin ru) (fin (km : ℝ)) (fin (ki : ℝ)) (fin (ku : ℝ)) (-1) = fin (ri + -(rm - ri) / (km - ki)) := by
    unfold linp
    rw [if_neg (by norm_num), if_pos rfl, sub_ff, sub_ff, lit_fin, mul_ff, div_ff c4, add_ff]
    norm_num
  set P1 : ℝ := ri + ((1 : ℤ) : ℝ) / (ku - km) * (((ki : ℝ) - km + ((1 : ℤ) : ℝ)) * (ru - ri) / (ku - ki) +
    ((ku : ℝ) - ki - ((1 : ℤ) : ℝ)) * (ri - rm) / (ki - km)) with hP1
  set P2 : ℝ := ri + ((-1 : ℤ) : ℝ) / (ku - km) * (((ki : ℝ) - km + ((-1 : ℤ) : ℝ)) * (ru - ri) / (ku - ki) +
    ((ku : ℝ) - ki - ((-1 : ℤ) : ℝ)) * (ri - rm) / (ki - km)) with hP2
  have b1 : ri ≤ P1 := by
    rw [hP1]
    push_cast
    have e1 : 0 ≤ ((ki : ℝ) - km + 1) * (ru - ri) / (ku - ki) := div_nonneg (mul_nonneg (by linarith) (by linarith)) c2.le
    have e2 : 0 ≤ ((ku : ℝ) - ki - 1) * (ri - rm) / (ki - km) := div_nonneg (mul_nonneg (by linarith) (by linarith)) c3.le
    have := mul_nonneg (div_nonneg zero_le_one c1.le) (add_nonneg e1 e2)
    linarith
  have b2 : P2 ≤ ri := by
    rw [hP2]
    push_cast
    have e1 : 0 ≤ ((ki : ℝ) - km + -1) * (ru - ri) / (ku - ki) := div_nonneg (mul_nonneg (by linarith) (by linarith)) c2.le
    have e2 : 0 ≤ ((ku : ℝ) - ki - -1) * (ri - rm) / (ki - km) := div_nonneg (mul_nonneg (by linarith) (by linarith)) c3.le
    have e3 : (-1 : ℝ) / (ku - km) ≤ 0 := div_nonpos_of_nonpos_of_nonneg (by norm_num) c1.le
    have := mul_nonpos_of_nonpos_of_nonneg e3 (add_nonneg e1 e2)
    linarith
  have b3 : ri ≤ ri + (ru - ri) / (ku - ki) := by
    have := div_nonneg (sub_nonneg.mpr h2) c2.le
    linarith
  have b4 : ri + -(rm - ri) / (km - ki) ≤ ri := by
    have : -(rm - ri) / ((km : ℝ) - ki) ≤ 0 := div_nonpos_of_nonneg_of_nonpos (by linarith) (by linarith)
    linarith
  refine ⟨if rm < P1 ∧ P1 < ru then P1 else ri + (ru - ri) / (ku - ki), if rm < P2 ∧ P2 < ru then P2 else ri + -(rm - ri) / (km - ki), ?_, ?_, ?_⟩
  · split <;> assumption
  · split <;> assumption
  intro v
  have hm := moves_fin (km := km) (ki := ki) (ku := ku) v
  unfold newQ
  rw [hm]
  by_cases u : 1 ≤ v - ki ∧ ki + 1 < ku
  · have hd := dir_up u.1
    rw [if_pos u, if_pos (by simp only [decide_eq_true_eq]; exact .inl u), hd, hp, hl1, ← hP1, lt_ff, lt_ff]
    simp only [Bool.and_eq_true, decide_eq_true_eq]
    split <;> rfl
  · by_cases w : v - ki ≤ -1 ∧ km + 1 < ki
    · have hd := dir_down w.1
      rw [if_neg u, if_pos w, if_pos (by simp only [decide_eq_true_eq]; exact .inr w), hd, hp, hl2, ← hP2, lt_ff, lt_ff]
      simp only [Bool.and_eq_true, decide_eq_true_eq]
      split <;> rfl
    · rw [if_neg u, if_neg w, if_neg]
      simp only [decide_eq_true_eq]
      tauto

/-- the middle marker after one more value, as a function of the level -/
theorem six {r0 r1 r2 r3 r4 : ℝ} (h0 : r0 ≤ r1) (h1 : r1 ≤ r2) (h2 : r2 ≤ r3) (x : ℝ) :
    ∃ f : ℝ → ℝ, (∀ p, 0 ≤ p → p ≤ 1 → (upd { init_p2 (fin p) with q := ⟨fin r0, fin r1, fin r2, fin r3, fin r4⟩ } (fin x)).q.a2 = fin (f p)) ∧
      ∀ p p', 0 ≤ p → p ≤ p' → p' ≤ 1 → f p ≤ f p' := by
  by_cases hx0 : x < r0
  · refine ⟨fun _ => r2, fun p _ _ => ?_, fun _ _ _ _ _ => le_rfl⟩
    unfold upd
    rw [if_pos (by rw [lt_ff]; simpa using hx0)]
  by_cases hx4 : r4 < x
  · refine ⟨fun _ => r2, fun p _ _ => ?_, fun _ _ _ _ _ => le_rfl⟩
    unfold upd
    rw [if_neg (by rw [lt_ff]; simpa using hx0), if_pos (by show (fin r4 <. fin x) = true; rw [lt_ff]; simpa using hx4)]
  have e1 : ∀ p : ℝ, (lit 2 *. fin p +. fin p /. lit 2 : XR) = fin (5 / 2 * p) := fun p => by
    have z2 : ((2 : ℚ) : ℝ) ≠ 0 := by norm_num
    rw [lit_fin, mul_ff, div_ff z2, add_ff]
    congr 1
    push_cast
    ring
  have e2 : ∀ p : ℝ, (lit 4 *. fin p +. fin p : XR) = fin (5 * p) := fun p => by
    rw [lit_fin, mul_ff, add_ff]
    congr 1
    push_cast
    ring
  have li : ∀ n : ℤ, (lit n : XR) = fin (n : ℝ) := fun n => by rw [lit_fin]; push_cast; rfl
  have add1 : ∀ n : ℤ, (fin (n : ℝ) +. lit 1 : XR) = fin ((n + 1 : ℤ) : ℝ) := fun n => by rw [lit_fin, add_ff]; push_cast; rfl
  set n0 : Arr5 XR := ⟨fin ((0 : ℤ) : ℝ), fin ((1 : ℤ) : ℝ), fin ((2 : ℤ) : ℝ), fin ((3 : ℤ) : ℝ), fin ((4 : ℤ) : ℝ)⟩ with hn0
  set k := firstNotBelow (⟨fin r0, fin r1, fin r2, fin r3, fin r4⟩ : Arr5 XR) (fin x) with hk
  have hu : ∀ p : ℝ, (upd { init_p2 (fin p) with q := ⟨fin r0, fin r1, fin r2, fin r3, fin r4⟩ } (fin x)).q.a2 =
      newQ (newQ (fin r0) (fin r1) (fin r2) (bumpFrom n0 k).a0 (bumpFrom n0 k).a1 (bumpFrom n0 k).a2 (fin (5 / 2 * p))) (fin r2) (fin r3)
        (newN (bumpFrom n0 k).a0 (bumpFrom n0 k).a1 (bumpFrom n0 k).a2 (fin (5 / 2 * p))) (bumpFrom n0 k).a2 (bumpFrom n0 k).a3 (fin (5 * p)) := by
    intro p
    unfold upd
    rw [if_neg (by rw [lt_ff]; simpa using hx0), if_neg (by show ¬ (fin r4 <. fin x) = true; rw [lt_ff]; simpa using hx4), ← e1, ← e2, hn0,
      ← li, ← li, ← li, ← li, ← li]
    rfl
  simp only [hu]
  have hk4 : k ≤ 4 := firstNotBelow_le _ _
  rcases (by omega : k = 0 ∨ k = 1 ∨ k = 2 ∨ k = 3 ∨ k = 4) with h | h | h | h | h
  · -- x is the least of the six values
    have eb : bumpFrom n0 k = ⟨fin ((1 : ℤ) : ℝ), fin ((2 : ℤ) : ℝ), fin ((3 : ℤ) : ℝ), fin ((4 : ℤ) : ℝ), fin ((5 : ℤ) : ℝ)⟩ := by
      rw [h, hn0]; unfold bumpFrom; simp [lit_fin, add_ff]; norm_num
    simp only [eb]
    obtain ⟨U, D, hU, hD, hf⟩ := newQ_dir h0 h1 (km := 1) (ki := 2) (ku := 3) (by norm_num) (by norm_num)
    obtain ⟨U', D', hU', hD', hf'⟩ := newQ_dir h1 h2 (km := 2) (ki := 3) (ku := 4) (by norm_num) (by norm_num)
    refine ⟨fun _ => r2, fun p _ _ => ?_, fun _ _ _ _ _ => le_rfl⟩
    rw [hf, newN_dir, if_neg (by norm_num), if_neg (by norm_num), if_neg (by norm_num), if_neg (by norm_num), hf', if_neg (by norm_num),
      if_neg (by norm_num)]
  · have eb : bumpFrom n0 k = ⟨fin ((0 : ℤ) : ℝ), fin ((2 : ℤ) : ℝ), fin ((3 : ℤ) : ℝ), fin ((4 : ℤ) : ℝ), fin ((5 : ℤ) : ℝ)⟩ := by
      rw [h, hn0]; unfold bumpFrom; simp [lit_fin, add_ff]; norm_num
    simp only [eb]
    obtain ⟨U, D, hU, hD, hf⟩ := newQ_dir h0 h1 (km := 0) (ki := 2) (ku := 3) (by norm_num) (by norm_num)
    obtain ⟨U', D', hU', hD', hf'⟩ := newQ_dir (hD.trans h1) h2 (km := 1) (ki := 3) (ku := 4) (by norm_num) (by norm_num)
    obtain ⟨U2, D2, hU2, hD2, hf2⟩ := newQ_dir h1 h2 (km := 2) (ki := 3) (ku := 4) (by norm_num) (by norm_num)
    refine ⟨fun p => if p ≤ 2 / 5 then D' else r2, fun p _ _ => ?_, fun p p' _ hp _ => ?_⟩
    · have nu : ¬ (1 ≤ 5 / 2 * p - ((2 : ℤ) : ℝ) ∧ (2 : ℤ) + 1 < 3) := fun c => absurd c.2 (by norm_num)
      rw [hf, newN_dir]
      by_cases hp : p ≤ 2 / 5
      · have dd : 5 / 2 * p - ((2 : ℤ) : ℝ) ≤ -1 ∧ (0 : ℤ) + 1 < 2 := ⟨by push_cast; linarith, by norm_num⟩
        simp only [if_neg nu, if_pos dd]
        rw [show ((2 - 1 : ℤ) : ℝ) = ((1 : ℤ) : ℝ) by norm_num, hf', if_neg (by norm_num), if_pos ⟨by push_cast; linarith, by norm_num⟩, if_pos hp]
      · have dd : ¬ (5 / 2 * p - ((2 : ℤ) : ℝ) ≤ -1 ∧ (0 : ℤ) + 1 < 2) := fun c => hp (by have := c.1; push_cast at this; linarith)
        simp only [if_neg nu, if_neg dd]
        rw [hf2, if_neg (by norm_num), if_neg (by norm_num), if_neg hp]
    · dsimp only
      split_ifs
      · exact le_rfl
      · exact hD'
      · linarith
      · exact le_rfl
  · have eb : bumpFrom n0 k = ⟨fin ((0 : ℤ) : ℝ), fin ((1 : ℤ) : ℝ), fin ((3 : ℤ) : ℝ), fin ((4 : ℤ) : ℝ), fin ((5 : ℤ) : ℝ)⟩ := by
      rw [h, hn0]; unfold bumpFrom; simp [lit_fin, add_ff]; norm_num
    simp only [eb]
    obtain ⟨U, D, hU, hD, hf⟩ := newQ_dir h0 h1 (km := 0) (ki := 1) (ku := 3) (by norm_num) (by norm_num)
    obtain ⟨U2, D2, hU2, hD2, hf2⟩ := newQ_dir h1 h2 (km := 1) (ki := 3) (ku := 4) (by norm_num) (by norm_num)
    refine ⟨fun p => if p ≤ 2 / 5 then D2 else r2, fun p p0 p1 => ?_, fun p p' _ hp _ => ?_⟩
    · rw [hf, newN_dir]
      by_cases hp : p ≤ 2 / 5
      · have n1 : ¬ (1 ≤ 5 / 2 * p - ((1 : ℤ) : ℝ) ∧ (1 : ℤ) + 1 < 3) := fun c => by have := c.1; push_cast at this; linarith
        rw [if_neg n1, if_neg n1, if_neg (by norm_num), if_neg (by norm_num), hf2, if_neg (by norm_num),
          if_pos ⟨by push_cast; linarith, by norm_num⟩]
        dsimp only
        rw [if_pos hp]
      · dsimp only
        rw [if_neg hp]
        split_ifs
        · exact newQ_stay (km := 2) (by norm_num) (by norm_num)
        · rename_i c
          exact absurd c.2 (by norm_num)
        · exact newQ_stay (by norm_num) (fun c => hp (by have := c.1; push_cast at this; linarith))
    · dsimp only
      split_ifs
      · exact le_rfl
      · exact hD2
      · linarith
      · exact le_rfl
  · have eb : bumpFrom n0 k = ⟨fin ((0 : ℤ) : ℝ), fin ((1 : ℤ) : ℝ), fin ((2 : ℤ) : ℝ), fin ((4 : ℤ) : ℝ), fin ((5 : ℤ) : ℝ)⟩ := by
      rw [h, hn0]; unfold bumpFrom; simp [lit_fin, add_ff]; norm_num
    simp only [eb]
    obtain ⟨U, D, hU, hD, hf⟩ := newQ_dir h0 h1 (km := 0) (ki := 1) (ku := 2) (by norm_num) (by norm_num)
    obtain ⟨U2, D2, hU2, hD2, hf2⟩ := newQ_dir h1 h2 (km := 1) (ki := 2) (ku := 4) (by norm_num) (by norm_num)
    refine ⟨fun p => if 3 / 5 ≤ p then U2 else r2, fun p p0 p1 => ?_, fun p p' _ hp _ => ?_⟩
    · rw [hf, newN_dir, if_neg (by norm_num), if_neg (by norm_num), if_neg (by norm_num), if_neg (by norm_num), hf2]
      by_cases hp : 3 / 5 ≤ p
      · rw [if_pos ⟨by push_cast; linarith, by norm_num⟩]
        dsimp only
        rw [if_pos hp]
      · rw [if_neg (fun c => hp (by have := c.1; push_cast at this; linarith)), if_neg (by norm_num)]
        dsimp only
        rw [if_neg hp]
    · dsimp only
      split_ifs
      · exact le_rfl
      · linarith
      · exact hU2
      · exact le_rfl
  · have eb : bumpFrom n0 k = ⟨fin ((0 : ℤ) : ℝ), fin ((1 : ℤ) : ℝ), fin ((2 : ℤ) : ℝ), fin ((3 : ℤ) : ℝ), fin ((5 : ℤ) : ℝ)⟩ := by
      rw [h, hn0]; unfold bumpFrom; simp [lit_fin, add_ff]; norm_num
    simp only [eb]
    obtain ⟨U, D, hU, hD, hf⟩ := newQ_dir h0 h1 (km := 0) (ki := 1) (ku := 2) (by norm_num) (by norm_num)
    obtain ⟨U2, D2, hU2, hD2, hf2⟩ := newQ_dir h1 h2 (km := 1) (ki := 2) (ku := 3) (by norm_num) (by norm_num)
    refine ⟨fun _ => r2, fun p _ _ => ?_, fun _ _ _ _ _ => le_rfl⟩
    rw [hf, newN_dir, if_neg (by norm_num), if_neg (by norm_num), if_neg (by norm_num), if_neg (by norm_num), hf2, if_neg (by norm_num),
      if_neg (by norm_num)]

/-- **C125** (partial). In exact arithmetic, with at most six training values, a higher level never gives a lower excess threshold. Missing: more than six
training values, for which the statement is false (`C125_false`). -/
theorem C125_partial (data : List ℝ) (size : UInt64) (hs : size.toNat ≤ data.length) (h6 : size.toNat ≤ 6) {p p' : ℝ} (h0 : 0 ≤ p) (hp : p ≤ p')
    (h1 : p' ≤ 1) : ∃ t t' : ℝ, p2_quantile (fin p) (data.map fin) size = .ok (fin t) ∧ p2_quantile (fin p') (data.map fin) size = .ok (fin t') ∧
      t ≤ t' := by
  by_cases h5 : 5 ≤ size.toNat
  · match data, hs with
    | x0 :: x1 :: x2 :: x3 :: x4 :: l, hs =>
      have hN : (⟨fin x0, fin x1, fin x2, fin x3, fin x4⟩ : Arr5 XR).NoNaN := ⟨nan_f _, nan_f _, nan_f _, nan_f _, nan_f _⟩
      have hP := sort5_perm (⟨fin x0, fin x1, fin x2, fin x3, fin x4⟩ : Arr5 XR)
      have hS := sort5_sorted (⟨fin x0, fin x1, fin x2, fin x3, fin x4⟩ : Arr5 XR) hN
      set a : Arr5 XR := ⟨fin x0, fin x1, fin x2, fin x3, fin x4⟩ with ha
      have hall : ∀ y ∈ (sort5 a).toList, ∃ r : ℝ, y = fin r := by
        intro y hy
        have := hP.mem_iff.mp hy
        simp only [ha, Arr5.toList, List.mem_cons, List.not_mem_nil, or_false] at this
        rcases this with h | h | h | h | h <;> exact ⟨_, h⟩
      obtain ⟨r0, e0⟩ := hall (sort5 a).a0 (by simp [Arr5.toList])
      obtain ⟨r1, e1⟩ := hall (sort5 a).a1 (by simp [Arr5.toList])
      obtain ⟨r2, e2⟩ := hall (sort5 a).a2 (by simp [Arr5.toList])
      obtain ⟨r3, e3⟩ := hall (sort5 a).a3 (by simp [Arr5.toList])
      obtain ⟨r4, e4⟩ := hall (sort5 a).a4 (by simp [Arr5.toList])
      obtain ⟨s0, s1, s2, s3⟩ := hS
      rw [e0, e1] at s0
      rw [e1, e2] at s1
      rw [e2, e3] at s2
      have es : sort5 a = ⟨fin r0, fin r1, fin r2, fin r3, fin r4⟩ := by rw [← e0, ← e1, ← e2, ← e3, ← e4]
      have l0 : r0 ≤ r1 := EReal.coe_le_coe_iff.mp s0
      have l1 : r1 ≤ r2 := EReal.coe_le_coe_iff.mp s1
      have l2 : r2 ≤ r3 := EReal.coe_le_coe_iff.mp s2
      by_cases e5 : size.toNat = 5
      · have q : ∀ p : ℝ, p2_quantile (fin p) ((x0 :: x1 :: x2 :: x3 :: x4 :: l).map fin) size = .ok (fin r2) := fun p => by
          have := p2_quantile_eq (fin p) (fin x0) (fin x1) (fin x2) (fin x3) (fin x4) [] (l.map fin) size (by simpa using e5)
          simp only [List.nil_append, List.foldl_nil, start, ← ha, es] at this
          exact this
        exact ⟨r2, r2, q p, q p', le_rfl⟩
      · match l, hs with
        | [], hs => simp at hs; omega
        | x :: l, hs =>
          obtain ⟨f, hf, hm⟩ := six l0 l1 l2 x (r4 := r4)
          have q : ∀ p : ℝ, 0 ≤ p → p ≤ 1 →
              p2_quantile (fin p) ((x0 :: x1 :: x2 :: x3 :: x4 :: x :: l).map fin) size = .ok (fin (f p)) := fun p a0 a1 => by
            have := p2_quantile_eq (fin p) (fin x0) (fin x1) (fin x2) (fin x3) (fin x4) [fin x] (l.map fin) size (by simp; omega)
            simp only [List.cons_append, List.nil_append, List.foldl_cons, List.foldl_nil, start, ← ha, es] at this
            rw [← hf p a0 a1, ← this]
            rfl
          exact ⟨f p, f p', q p h0 (hp.trans h1), q p' (h0.trans hp) h1, hm p p' h0 hp h1⟩
    | [], hs => simp at hs; omega
    | [_], hs => simp at hs; omega
    | [_, _], hs => simp at hs; omega
    | [_, _, _], hs => simp at hs; omega
    | [_, _, _, _], hs => simp at hs; omega
  · have q : ∀ p : ℝ, p2_quantile (fin p) (data.map fin) size = .ok (fin 0) := fun p => by
      unfold p2_quantile quantile
      rw [if_pos (by omega), lit_fin]
      push_cast
      rfl
    exact ⟨0, 0, q p, q p', le_rfl⟩

/-- six values and two levels that meet the hypotheses; with the arithmetic of the machine the two thresholds differ -/
example : ∃ t t' : ℝ, p2_quantile (fin (1 / 10)) ([10, 20, 30, 40, 50, 35].map fin) 6 = .ok (fin t) ∧
    p2_quantile (fin (9 / 10)) ([10, 20, 30, 40, 50, 35].map fin) 6 = .ok (fin t') ∧ t ≤ t' :=
  C125_partial [10, 20, 30, 40, 50, 35] 6 (by decide) (by decide) (by norm_num) (by norm_num) (by norm_num)

example : p2_quantile (lit (1 / 10) : F64) [lit 10, lit 20, lit 30, lit 40, lit 50, lit 35] 6 = .ok (lit 30) ∧
    (p2_quantile (lit (9 / 10) : F64) [lit 10, lit 20, lit 30, lit 40, lit 50, lit 35] 6).map (fun t => lit 30 <. t) = .ok true := by
  refine ⟨?_, ?_⟩ <;> decide +kernel

end Verif

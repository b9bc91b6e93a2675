/-
The P2 estimator in exact arithmetic against the published algorithm.
-/
import Verif.Proofs.P2XR
import Verif.Spec.P2Paper

namespace Verif
open XR Spec.P2Paper

/-- the state of the code holds these markers, `m` observations being counted -/
structure Holds (p : ℝ) (m : ℕ) (s : P2 XR) (t : Markers ℝ) : Prop where
  q : s.q = ⟨fin (t.q 0), fin (t.q 1), fin (t.q 2), fin (t.q 3), fin (t.q 4)⟩
  n : s.n = ⟨fin (t.n 0), fin (t.n 1), fin (t.n 2), fin (t.n 3), fin (t.n 4)⟩
  np : s.np = ⟨fin (desired p m 0), fin (desired p m 1), fin (desired p m 2), fin (desired p m 3), fin (desired p m 4)⟩
  dn : s.dn = ⟨fin (inc p 0), fin (inc p 1), fin (inc p 2), fin (inc p 3), fin (inc p 4)⟩
  l0 : t.n 0 < t.n 1
  l1 : t.n 1 < t.n 2
  l2 : t.n 2 < t.n 3
  l3 : t.n 3 < t.n 4

/-- the condition of the move of a marker -/
theorem moves_iff {w : ℝ} {km ki ku : ℤ} : moves (fin w) (fin km) (fin ki) (fin ku) = true ↔
    (1 ≤ w - ki ∧ 1 < ku - ki) ∨ (w - ki ≤ -1 ∧ km - ki < -1) := by
  unfold moves
  rw [Bool.or_eq_true, Bool.and_eq_true, Bool.and_eq_true]
  simp only [sub_ff, lit_fin, lt_ff, le_ff, decide_eq_true_eq]
  push_cast
  have h1 : ((1 : ℝ) < ku - ki) ↔ (1 < ku - ki) := by exact_mod_cast Iff.rfl
  have h2 : ((km : ℝ) - ki < -1) ↔ (km - ki < -1) := by exact_mod_cast Iff.rfl
  rw [h1, h2]

theorem dir_eq {w : ℝ} {km ki ku : ℤ} (h : (1 ≤ w - ki ∧ 1 < ku - ki) ∨ (w - ki ≤ -1 ∧ km - ki < -1)) :
    dirOf (fin w -. fin ki) = if 0 < w - ki then 1 else -1 := by
  unfold dirOf
  simp only [sub_ff, lit_fin, lt_ff, decide_eq_true_eq]
  push_cast
  rcases h with ⟨h, -⟩ | ⟨h, -⟩
  · rw [if_pos (by linarith), if_pos (by linarith)]
  · rw [if_neg (by linarith), if_pos (by linarith), if_neg (by linarith)]

theorem newN_paper {w : ℝ} {km ki ku : ℤ} : newN (fin km) (fin ki) (fin ku) (fin w) =
    fin ((if (1 ≤ w - ki ∧ 1 < ku - ki) ∨ (w - ki ≤ -1 ∧ km - ki < -1) then ki + (if 0 < w - ki then 1 else -1) else ki : ℤ) : ℝ) := by
  unfold newN
  by_cases h : (1 ≤ w - ki ∧ 1 < ku - ki) ∨ (w - ki ≤ -1 ∧ km - ki < -1)
  · rw [if_pos (moves_iff.mpr h), if_pos h, dir_eq h, lit_fin, add_ff]
    split <;> push_cast <;> rfl
  · rw [if_neg (fun h' => h (moves_iff.mp h')), if_neg h]

/-- the new height, in terms of the three heights and positions -/
noncomputable def heightR (rm ri ru : ℝ) (km ki ku : ℤ) (w : ℝ) : ℝ :=
  if (1 ≤ w - ki ∧ 1 < ku - ki) ∨ (w - ki ≤ -1 ∧ km - ki < -1) then
    let d : ℤ := if 0 < w - ki then 1 else -1
    let v := ri + (d : ℝ) / ((ku : ℝ) - km) * (((ki : ℝ) - km + d) * (ru - ri) / ((ku : ℝ) - ki) +
      ((ku : ℝ) - ki - d) * (ri - rm) / ((ki : ℝ) - km))
    if rm < v ∧ v < ru then v
    else if d = 1 then ri + (d : ℝ) * (ru - ri) / ((ku : ℝ) - ki) else ri + (d : ℝ) * (rm - ri) / ((km : ℝ) - ki)
  else ri

theorem newQ_paper (rm ri ru w : ℝ) {km ki ku : ℤ} (l1 : km < ki) (l2 : ki < ku) :
    newQ (fin rm) (fin ri) (fin ru) (fin km) (fin ki) (fin ku) (fin w) = fin (heightR rm ri ru km ki ku w) := by
  have c1 : (ku : ℝ) - km ≠ 0 := by have : (km : ℝ) < ku := by exact_mod_cast l1.trans l2
                                    linarith
  have c2 : (ku : ℝ) - ki ≠ 0 := by have : (ki : ℝ) < ku := by exact_mod_cast l2
                                    linarith
  have c3 : (ki : ℝ) - km ≠ 0 := by have : (km : ℝ) < ki := by exact_mod_cast l1
                                    linarith
  have c4 : (km : ℝ) - ki ≠ 0 := by have : (km : ℝ) < ki := by exact_mod_cast l1
                                    linarith
  unfold newQ heightR
  by_cases h : (1 ≤ w - ki ∧ 1 < ku - ki) ∨ (w - ki ≤ -1 ∧ km - ki < -1)
  · rw [if_pos (moves_iff.mpr h), if_pos h, dir_eq h]
    have hd : (if 0 < w - ki then 1 else -1 : ℤ) = 1 ∨ (if 0 < w - ki then 1 else -1 : ℤ) = -1 := by split <;> simp
    generalize (if 0 < w - ki then 1 else -1 : ℤ) = d at hd ⊢
    have hp : parab (fin rm) (fin ri) (fin ru) (fin (km : ℝ)) (fin (ki : ℝ)) (fin (ku : ℝ)) d =
        fin (ri + (d : ℝ) / ((ku : ℝ) - km) * (((ki : ℝ) - km + d) * (ru - ri) / ((ku : ℝ) - ki) +
          ((ku : ℝ) - ki - d) * (ri - rm) / ((ki : ℝ) - km))) := by
      unfold parab
      simp only [lit_fin, sub_ff, add_ff, mul_ff, div_ff c1, div_ff c2, div_ff c3]
      push_cast; rfl
    have hl : linp (fin rm) (fin ri) (fin ru) (fin (km : ℝ)) (fin (ki : ℝ)) (fin (ku : ℝ)) d =
        fin (if d = 1 then ri + (d : ℝ) * (ru - ri) / ((ku : ℝ) - ki) else ri + (d : ℝ) * (rm - ri) / ((km : ℝ) - ki)) := by
      unfold linp
      rcases hd with rfl | rfl
      · rw [if_pos rfl, if_pos rfl, sub_ff, sub_ff, lit_fin, mul_ff, div_ff c2, add_ff]; push_cast; rfl
      · rw [if_neg (by norm_num), if_pos rfl, if_neg (by norm_num), sub_ff, sub_ff, lit_fin, mul_ff, div_ff c4, add_ff]; push_cast; rfl
    rw [hp, hl]
    dsimp only
    rw [lt_ff, lt_ff]
    simp only [Bool.and_eq_true, decide_eq_true_eq]
    split <;> rfl
  · rw [if_neg (fun h' => h (moves_iff.mp h')), if_neg h]

/-- the published move, marker by marker -/
theorem move_q (p : ℝ) (m : ℕ) (t : Markers ℝ) (i : ℕ) (hi : 1 ≤ i) :
    (move p m t i).q = Function.update t.q i
        (heightR (t.q (i - 1)) (t.q i) (t.q (i + 1)) (t.n (i - 1)) (t.n i) (t.n (i + 1)) (desired p m i)) ∧
    (move p m t i).n = Function.update t.n i
      (if (1 ≤ desired p m i - t.n i ∧ 1 < t.n (i + 1) - t.n i) ∨ (desired p m i - t.n i ≤ -1 ∧ t.n (i - 1) - t.n i < -1) then
        t.n i + (if 0 < desired p m i - t.n i then 1 else -1) else t.n i) := by
  unfold move heightR
  dsimp only
  split
  · next h =>
    refine ⟨?_, rfl⟩
    dsimp only
    congr 1
    unfold parabola line
    by_cases hp : 0 < desired p m i - t.n i
    · simp only [if_pos hp]
      have : ((i : ℤ) + 1).toNat = i + 1 := by omega
      rw [this]; simp
    · simp only [if_neg hp]
      have : ((i : ℤ) + -1).toNat = i - 1 := by omega
      rw [this]; simp
  · exact ⟨(Function.update_eq_self ..).symm, (Function.update_eq_self ..).symm⟩

theorem move_between {w : ℝ} {km ki ku : ℤ} (l1 : km < ki) (l2 : ki < ku) :
    km < (if (1 ≤ w - ki ∧ 1 < ku - ki) ∨ (w - ki ≤ -1 ∧ km - ki < -1) then ki + (if 0 < w - ki then 1 else -1) else ki) ∧
    (if (1 ≤ w - ki ∧ 1 < ku - ki) ∨ (w - ki ≤ -1 ∧ km - ki < -1) then ki + (if 0 < w - ki then 1 else -1) else ki) < ku := by
  split
  · next h =>
    rcases h with ⟨h, h'⟩ | ⟨h, h'⟩
    · rw [if_pos (by linarith)]; omega
    · rw [if_neg (by linarith)]; omega
  · exact ⟨l1, l2⟩

variable {p : ℝ} {m : ℕ} {s : P2 XR} {t : Markers ℝ}

theorem Holds.adj1 (H : Holds p m s t) : Holds p m (adj1 s) (move p m t 1) := by
  obtain ⟨hq, hn, hnp, hdn, l0, l1, l2, l3⟩ := H
  obtain ⟨e1, e2⟩ := move_q p m t 1 le_rfl
  obtain ⟨b1, b2⟩ := move_between (w := desired p m 1) l0 l1
  refine ⟨?_, ?_, hnp, hdn, ?_, ?_, ?_, ?_⟩
  · rw [e1]; simp only [Verif.adj1, hq, hn, hnp, newQ_paper _ _ _ _ l0 l1]; simp [Function.update]
  · rw [e2]; simp only [Verif.adj1, hq, hn, hnp, newN_paper]; simp [Function.update]
  all_goals rw [e2]; simp [Function.update]
  · simpa using b1
  · simpa using b2
  · exact l2
  · exact l3

theorem Holds.adj2 (H : Holds p m s t) : Holds p m (adj2 s) (move p m t 2) := by
  obtain ⟨hq, hn, hnp, hdn, l0, l1, l2, l3⟩ := H
  obtain ⟨e1, e2⟩ := move_q p m t 2 (by norm_num)
  obtain ⟨b1, b2⟩ := move_between (w := desired p m 2) l1 l2
  refine ⟨?_, ?_, hnp, hdn, ?_, ?_, ?_, ?_⟩
  · rw [e1]; simp only [Verif.adj2, hq, hn, hnp, newQ_paper _ _ _ _ l1 l2]; simp [Function.update]
  · rw [e2]; simp only [Verif.adj2, hq, hn, hnp, newN_paper]; simp [Function.update]
  all_goals rw [e2]; simp [Function.update]
  · exact l0
  · simpa using b1
  · simpa using b2
  · exact l3

theorem Holds.adj3 (H : Holds p m s t) : Holds p m (adj3 s) (move p m t 3) := by
  obtain ⟨hq, hn, hnp, hdn, l0, l1, l2, l3⟩ := H
  obtain ⟨e1, e2⟩ := move_q p m t 3 (by norm_num)
  obtain ⟨b1, b2⟩ := move_between (w := desired p m 3) l2 l3
  refine ⟨?_, ?_, hnp, hdn, ?_, ?_, ?_, ?_⟩
  · rw [e1]; simp only [Verif.adj3, hq, hn, hnp, newQ_paper _ _ _ _ l2 l3]; simp [Function.update]
  · rw [e2]; simp only [Verif.adj3, hq, hn, hnp, newN_paper]; simp [Function.update]
  all_goals rw [e2]; simp [Function.update]
  · exact l0
  · exact l1
  · simpa using b1
  · simpa using b2

/-- a treated value that is not a new extreme and not the height of a marker -/
theorem Holds.upd (H : Holds p m s t) {x : ℝ} (h0 : t.q 0 < x) (h4 : x ≤ t.q 4) (h1 : x ≠ t.q 1) (h2 : x ≠ t.q 2) (h3 : x ≠ t.q 3) :
    Holds p (m + 1) (upd s (fin x)) (observe p (m + 1) t x) := by
  obtain ⟨hq, hn, hnp, hdn, l0, l1, l2, l3⟩ := H
  unfold Verif.upd observe
  rw [hq]
  simp only [lt_ff]
  rw [if_neg (by simp; exact h0.le), if_neg (by simpa using h4)]
  rw [if_neg (not_lt.mpr h0.le), if_neg (not_lt.mpr h4)]
  refine Holds.adj3 (Holds.adj2 (Holds.adj1 ?_))
  have hf : firstNotBelow (⟨fin (t.q 0), fin (t.q 1), fin (t.q 2), fin (t.q 3), fin (t.q 4)⟩ : Arr5 XR) (fin x) = cell t x + 1 := by
    unfold firstNotBelow cell
    simp only [lt_ff, decide_eq_true_eq]
    rw [if_pos h0]
    rcases lt_or_gt_of_ne h1 with k1 | k1
    · rw [if_neg (not_lt.mpr k1.le), if_pos k1]
    rw [if_pos k1, if_neg (not_lt.mpr k1.le)]
    rcases lt_or_gt_of_ne h2 with k2 | k2
    · rw [if_neg (not_lt.mpr k2.le), if_pos k2]
    rw [if_pos k2, if_neg (not_lt.mpr k2.le)]
    rcases lt_or_gt_of_ne h3 with k3 | k3
    · rw [if_neg (not_lt.mpr k3.le), if_pos k3]
    rw [if_pos k3, if_neg (not_lt.mpr k3.le)]
  have hc : cell t x ≤ 3 := by unfold cell; split_ifs <;> omega
  rw [hf]
  refine ⟨rfl, ?_, ?_, hdn, ?_, ?_, ?_, ?_⟩
  · rw [hn]
    unfold bumpFrom
    simp only [lit_fin, add_ff]
    have g : ∀ i : ℕ, (if cell t x + 1 ≤ i then fin ((t.n i : ℝ) + ((1 : ℚ) : ℝ)) else fin (t.n i : ℝ)) =
        fin (((if cell t x < i then t.n i + 1 else t.n i : ℤ)) : ℝ) := by
      intro i
      by_cases h : cell t x < i
      · rw [if_pos (by omega), if_pos h]; push_cast; rfl
      · rw [if_neg (by omega), if_neg h]
    rw [g 0, g 1, g 2, g 3]
    have g4 := g 4
    rw [if_pos (by omega)] at g4
    rw [g4]
  · rw [hnp, hdn]
    unfold bumpNP
    simp only [add_ff]
    have g : ∀ i, desired p m i + inc p i = desired p (m + 1) i := by
      intro i; unfold desired; push_cast; ring
    simp only [g]
  all_goals dsimp only; split_ifs <;> omega

/-- the first five values -/
theorem Holds.start (p x0 x1 x2 x3 x4 : ℝ) :
    Holds p 5 (start (fin p) (fin x0) (fin x1) (fin x2) (fin x3) (fin x4)) (Spec.P2Paper.start [x0, x1, x2, x3, x4]) := by
  set a : Arr5 XR := ⟨fin x0, fin x1, fin x2, fin x3, fin x4⟩ with ha
  have hP := sort5_perm a
  have hN : a.NoNaN := ⟨nan_f _, nan_f _, nan_f _, nan_f _, nan_f _⟩
  have hS := sort5_sorted a hN
  have hall : ∀ y ∈ (sort5 a).toList, ∃ r : ℝ, y = fin r := by
    intro y hy
    have := hP.mem_iff.mp hy
    simp only [ha, Arr5.toList, List.mem_cons, List.not_mem_nil, or_false] at this
    rcases this with h | h | h | h | h <;> exact ⟨_, h⟩
  obtain ⟨r0, e0⟩ := hall (sort5 a).a0 (by simp [Arr5.toList])
  obtain ⟨r1, e1⟩ := hall (sort5 a).a1 (by simp [Arr5.toList])
  obtain ⟨r2, e2⟩ := hall (sort5 a).a2 (by simp [Arr5.toList])
  obtain ⟨r3, e3⟩ := hall (sort5 a).a3 (by simp [Arr5.toList])
  obtain ⟨r4, e4⟩ := hall (sort5 a).a4 (by simp [Arr5.toList])
  have hp : List.Perm [r0, r1, r2, r3, r4] [x0, x1, x2, x3, x4] := by
    have h1 : ([r0, r1, r2, r3, r4].map XR.fin).Perm ([x0, x1, x2, x3, x4].map XR.fin) := by
      have : (sort5 a).toList = [r0, r1, r2, r3, r4].map XR.fin := by simp [Arr5.toList, e0, e1, e2, e3, e4]
      rw [← this]; exact hP
    exact (List.map_perm_map_iff (fun _ _ h => fin_inj.mp h)).mp h1
  obtain ⟨s0, s1, s2, s3⟩ := hS
  rw [e0, e1] at s0
  rw [e1, e2] at s1
  rw [e2, e3] at s2
  rw [e3, e4] at s3
  have cv : ∀ u v : ℝ, CDoubleLaws.val (fin u) ≤ CDoubleLaws.val (fin v) → u ≤ v := fun u v h => by
    have : XR.val (fin u) ≤ XR.val (fin v) := h
    simpa [XR.val] using this
  have t0 := cv _ _ s0
  have t1 := cv _ _ s1
  have t2 := cv _ _ s2
  have t3 := cv _ _ s3
  have hs : [x0, x1, x2, x3, x4].insertionSort (· ≤ ·) = [r0, r1, r2, r3, r4] := by
    refine List.Perm.eq_of_pairwise' (r := (· ≤ ·)) (List.pairwise_insertionSort _ _) ?_ ((List.perm_insertionSort _ _).trans hp.symm)
    simp only [List.pairwise_cons, List.mem_cons, List.not_mem_nil, or_false, forall_eq_or_imp, forall_eq, List.Pairwise.nil,
      and_true, IsEmpty.forall_iff, implies_true]
    refine ⟨⟨t0, ?_, ?_, ?_⟩, ⟨t1, ?_, ?_⟩, ⟨t2, ?_⟩, t3⟩ <;> linarith
  refine ⟨?_, ?_, ?_, ?_, ?_, ?_, ?_, ?_⟩
  · unfold Verif.start Spec.P2Paper.start
    rw [hs]
    show sort5 a = _
    rw [show sort5 a = ⟨(sort5 a).a0, (sort5 a).a1, (sort5 a).a2, (sort5 a).a3, (sort5 a).a4⟩ from rfl, e0, e1, e2, e3, e4]
    simp
  · unfold Verif.start Spec.P2Paper.start init_p2
    simp only [lit_fin]; push_cast; rfl
  · unfold Verif.start init_p2 desired inc
    simp only [lit_fin, mul_ff, add_ff]
    norm_num
    refine ⟨?_, ?_⟩ <;> ring
  · unfold Verif.start init_p2 inc
    simp only [lit_fin, add_ff]
    rw [div_ff (by norm_num), div_ff (by norm_num)]
    norm_num
    ring
  all_goals unfold Spec.P2Paper.start; norm_num

end Verif

/-
C47: what the positions of the extreme markers count, for all data.
-/
import Verif.Spec.P2Count
import Verif.Props.P2

namespace Verif
open F64 (isFin toQ notNaN)

namespace P2Count

theorem notNaN' {x : F64} (h : notNaN x) : is_nan x = false := (F64.is_nan_false x).mpr h

/-- the extreme markers are the extreme treated values -/
structure Ends (s : P2 F64) (done : List F64) : Prop where
  bet : Between s done
  lo : s.q.a0 ∈ done
  hi : s.q.a4 ∈ done

theorem Ends.upd {s : P2 F64} {done : List F64} (h : Ends s done) {x : F64} (hx : notNaN x) : Ends (upd s x) (done ++ [x]) := by
  refine ⟨h.bet.upd hx (List.ne_nil_of_mem h.lo), ?_, ?_⟩
  · unfold Verif.upd
    split
    · simp
    split
    · exact List.mem_append_left _ h.lo
    · exact List.mem_append_left _ (show s.q.a0 ∈ done from h.lo)
  · unfold Verif.upd
    split
    · exact List.mem_append_left _ h.hi
    split
    · simp
    · exact List.mem_append_left _ (show s.q.a4 ∈ done from h.hi)

theorem Ends.start (p x0 x1 x2 x3 x4 : F64) (hn : ∀ x ∈ [x0, x1, x2, x3, x4], notNaN x) :
    Ends (start p x0 x1 x2 x3 x4) [x0, x1, x2, x3, x4] := by
  have hP := sort5_perm (⟨x0, x1, x2, x3, x4⟩ : Arr5 F64)
  exact ⟨Between.start p x0 x1 x2 x3 x4 hn, hP.mem_iff.mp (by simp [Arr5.toList, Verif.start]),
    hP.mem_iff.mp (by simp [Arr5.toList, Verif.start])⟩

theorem not_lt' {x y : F64} (hx : notNaN x) (hy : notNaN y) : ¬ (x <. y) = true ↔ F64.le y x = true := by
  constructor
  · intro h
    refine (CDoubleLaws.le_iff y x).mpr ⟨notNaN' hy, notNaN' hx, ?_⟩
    by_contra hc
    exact h ((CDoubleLaws.lt_iff x y).mpr ⟨notNaN' hx, notNaN' hy, not_le.mp hc⟩)
  · intro h h'
    exact absurd ((CDoubleLaws.lt_iff x y).mp h').2.2 (not_lt.mpr ((CDoubleLaws.le_iff y x).mp h).2.2)

theorem le_trans' {x y z : F64} (h : F64.le x y = true) (h' : F64.le y z = true) : F64.le x z = true := by
  have a := (CDoubleLaws.le_iff x y).mp h
  have b := (CDoubleLaws.le_iff y z).mp h'
  exact (CDoubleLaws.le_iff x z).mpr ⟨a.1, b.2.1, a.2.2.trans b.2.2⟩

theorem Ends.above {s : P2 F64} {done : List F64} (h : Ends s done) (x : F64) :
    done.any (fun y => F64.le y x) = true ↔ F64.le s.q.a0 x = true := by
  rw [List.any_eq_true]
  exact ⟨fun ⟨y, hy, hl⟩ => le_trans' (h.bet y hy).1 hl, fun hl => ⟨_, h.lo, hl⟩⟩

theorem Ends.below {s : P2 F64} {done : List F64} (h : Ends s done) (x : F64) :
    done.any (fun y => F64.le x y) = true ↔ F64.le x s.q.a4 = true := by
  rw [List.any_eq_true]
  exact ⟨fun ⟨y, hy, hl⟩ => le_trans' hl (h.bet y hy).2, fun hl => ⟨_, h.hi, hl⟩⟩

theorem Ends.under {s : P2 F64} {done : List F64} (h : Ends s done) (x : F64) :
    done.all (fun y => F64.le x y) = true ↔ F64.le x s.q.a0 = true := by
  rw [List.all_eq_true]
  exact ⟨fun hl => hl _ h.lo, fun hl y hy => le_trans' hl (h.bet y hy).1⟩

theorem fold {s : P2 F64} {done : List F64} (l : List F64) (h : Ends s done) (hd : ∀ x ∈ done, notNaN x) (k m : ℕ)
    (h0 : HasInt s.n.a0 k) (h4 : HasInt s.n.a4 m) (hk : k + l.length ≤ 2 ^ 53) (hm : m + l.length ≤ 2 ^ 53) (hn : ∀ x ∈ l, notNaN x) :
    HasInt (l.foldl upd s).n.a0 (k + Spec.tally Spec.repeatsMin done l) ∧
    HasInt (l.foldl upd s).n.a4 (m + Spec.tally Spec.inside done l) := by
  induction l generalizing s done k m with
  | nil => exact ⟨h0, h4⟩
  | cons x l ih =>
    simp only [List.length_cons] at hk hm
    have hx := hn x (by simp)
    have n0 := hd _ h.lo
    have n4 := hd _ h.hi
    have hn' : ∀ y ∈ l, notNaN y := fun y hy => hn y (by simp [hy])
    have hd' : ∀ y ∈ done ++ [x], notNaN y := fun y hy => by
      rcases List.mem_append.mp hy with hy | hy
      · exact hd y hy
      · rw [List.mem_singleton.mp hy]; exact hx
    have e : (upd s x).n.a0 = (if Spec.repeatsMin done x then s.n.a0 +. lit 1 else s.n.a0) ∧
        (upd s x).n.a4 = (if Spec.inside done x then s.n.a4 +. lit 1 else s.n.a4) := by
      have r : Spec.repeatsMin done x = true ↔ F64.le s.q.a0 x = true ∧ F64.le x s.q.a0 = true := by
        unfold Spec.repeatsMin
        rw [Bool.and_eq_true, h.above, h.under]
      have i : Spec.inside done x = true ↔ F64.le s.q.a0 x = true ∧ F64.le x s.q.a4 = true := by
        unfold Spec.inside
        rw [Bool.and_eq_true, h.above, h.below]
      by_cases c1 : (x <. s.q.a0) = true
      · have c : ¬ F64.le s.q.a0 x = true := fun hc => (not_lt' hx n0).mpr hc c1
        rw [if_neg (fun hc => c (r.mp hc).1), if_neg (fun hc => c (i.mp hc).1)]
        unfold upd
        rw [if_pos c1]
        exact ⟨rfl, rfl⟩
      have c1' := (not_lt' hx n0).mp c1
      by_cases c2 : (s.q.a4 <. x) = true
      · have c : ¬ F64.le x s.q.a4 = true := fun hc => (not_lt' n4 hx).mpr hc c2
        have h04 : F64.le s.q.a0 s.q.a4 = true := (h.bet _ h.lo).2
        rw [if_neg (fun hc => c (le_trans' (r.mp hc).2 h04)), if_neg (fun hc => c (i.mp hc).2)]
        unfold upd
        rw [if_neg c1, if_pos c2]
        exact ⟨rfl, rfl⟩
      have c2' := (not_lt' n4 hx).mp c2
      rw [if_pos (i.mpr ⟨c1', c2'⟩)]
      unfold upd
      rw [if_neg c1, if_neg c2]
      refine ⟨?_, rfl⟩
      show (if firstNotBelow s.q x ≤ 0 then _ else _) = _
      by_cases c3 : (s.q.a0 <. x) = true
      · rw [if_neg (fun hc => (not_lt' n0 hx).mpr (r.mp hc).2 c3), if_neg]
        unfold firstNotBelow
        rw [if_pos c3]; split_ifs <;> omega
      · rw [if_pos (r.mpr ⟨c1', (not_lt' n0 hx).mp c3⟩), if_pos]
        unfold firstNotBelow
        rw [if_neg c3]
    rw [List.foldl_cons]
    unfold Spec.tally
    rw [← Nat.add_assoc, ← Nat.add_assoc]
    refine ih (h.upd hx) hd' _ _ ?_ ?_ ?_ ?_ hn'
    · rw [e.1]; split
      · exact h0.succ (by omega)
      · exact h0
    · rw [e.2]; split
      · exact h4.succ (by omega)
      · exact h4
    · split <;> omega
    · split <;> omega

theorem fold_middle {s : P2 F64} {done : List F64} (l : List F64) (h : Ends s done) (hd : ∀ x ∈ done, notNaN x) (hn : ∀ x ∈ l, notNaN x)
    (ht : Spec.tally Spec.inside done l = 0) : (l.foldl upd s).q.a2 = s.q.a2 := by
  induction l generalizing s done with
  | nil => rfl
  | cons x l ih =>
    have hx := hn x (by simp)
    have n0 := hd _ h.lo
    have n4 := hd _ h.hi
    unfold Spec.tally at ht
    have hi : ¬ Spec.inside done x = true := fun hc => by rw [if_pos hc] at ht; omega
    rw [if_neg hi, Nat.zero_add] at ht
    have e : (upd s x).q.a2 = s.q.a2 := by
      unfold upd
      by_cases c1 : (x <. s.q.a0) = true
      · rw [if_pos c1]
      rw [if_neg c1]
      by_cases c2 : (s.q.a4 <. x) = true
      · rw [if_pos c2]
      refine absurd ?_ hi
      unfold Spec.inside
      rw [Bool.and_eq_true, h.above, h.below]
      exact ⟨(not_lt' hx n0).mp c1, (not_lt' n4 hx).mp c2⟩
    rw [List.foldl_cons, ih (h.upd hx) (fun y hy => by
      rcases List.mem_append.mp hy with hy | hy
      · exact hd y hy
      · rw [List.mem_singleton.mp hy]; exact hx) (fun y hy => hn y (by simp [hy])) ht, e]

end P2Count
open P2Count

/-- For all data without NaN: the position of the last marker is 4 plus the number of the data, from the sixth on, that lie in the range of those
before them; the position of the first one is the number of those that repeat the minimum. (New extremes are not counted.) -/
theorem C47_counts (p : F64) (data : List F64) (h5 : 5 ≤ data.length) (h53 : data.length ≤ 2 ^ 53) (hn : ∀ x ∈ data, notNaN x) :
    ∃ st, Spec.p2State p data = .ok st ∧ Spec.IsInt st.n.a0 (Spec.tally Spec.repeatsMin (data.take 5) (data.drop 5)) ∧
      Spec.IsInt st.n.a4 (4 + Spec.tally Spec.inside (data.take 5) (data.drop 5)) := by
  rcases data with _ | ⟨x0, _ | ⟨x1, _ | ⟨x2, _ | ⟨x3, _ | ⟨x4, l⟩⟩⟩⟩⟩ <;> simp only [List.length_cons, List.length_nil] at h5 h53 <;>
    try omega
  have hh : ∀ x ∈ [x0, x1, x2, x3, x4], notNaN x := fun x hx => hn x (by simp at hx ⊢; tauto)
  refine ⟨_, p2State_eq p x0 x1 x2 x3 x4 l, ?_⟩
  have H := fold l (Ends.start p x0 x1 x2 x3 x4 hh) hh 0 4
    (by have := HasInt.ofLit (k := 0) (by norm_num); simpa [start, init_p2] using this)
    (by have := HasInt.ofLit (k := 4) (by norm_num); simpa [start, init_p2] using this) (by omega) (by omega)
    (fun x hx => hn x (by simp [hx]))
  rw [Nat.zero_add] at H
  exact H

/-- eight values of which, after the fifth, one is a new maximum, one repeats the minimum and one lies between -/
example : Spec.tally Spec.repeatsMin [lit 1, lit 5, lit 2, lit 4, lit 3] [lit 6, lit 1, lit 2] = 1 ∧
    Spec.tally Spec.inside [lit 1, lit 5, lit 2, lit 4, lit 3] [lit 6, lit 1, lit 2] = 2 ∧
    (Spec.p2State (lit (1 / 2)) [lit 1, lit 5, lit 2, lit 4, lit 3, lit 6, lit 1, lit 2]).map (fun st => (st.n.a0, st.n.a4)) =
      .ok (lit 1, lit 6) := by decide +kernel

/-- When every datum after the fifth is a new minimum or a new maximum, they have no influence: at every level the threshold is that of the first
five data (their median, C42). -/
theorem C65_extremes (p : F64) (data : List F64) (size : UInt64) (hs : size.toNat = data.length) (h5 : 5 ≤ data.length)
    (hn : ∀ x ∈ data, notNaN x) (ht : Spec.tally Spec.inside (data.take 5) (data.drop 5) = 0) :
    ∃ v, p2_quantile p data size = .ok v ∧ Spec.IsMedian5 (data.take 5) v := by
  obtain ⟨v, hv, hm⟩ := C42_five p data h5 (fun x hx => hn x (List.mem_of_mem_take hx))
  refine ⟨v, ?_, hm⟩
  rcases data with _ | ⟨x0, _ | ⟨x1, _ | ⟨x2, _ | ⟨x3, _ | ⟨x4, l⟩⟩⟩⟩⟩ <;> simp only [List.length_cons, List.length_nil] at h5 hs <;>
    try omega
  have hh : ∀ x ∈ [x0, x1, x2, x3, x4], notNaN x := fun x hx => hn x (by simp at hx ⊢; tauto)
  have e := p2_quantile_eq p x0 x1 x2 x3 x4 l [] size (by omega)
  have e5 := p2_quantile_eq p x0 x1 x2 x3 x4 [] l 5 (by simp)
  rw [List.append_nil] at e
  rw [List.nil_append, hv] at e5
  rw [e, fold_middle l (Ends.start p x0 x1 x2 x3 x4 hh) hh (fun x hx => hn x (by simp [hx])) ht]
  exact e5.symm

/-- a series that swings ever further -/
example : Spec.tally Spec.inside [lit 0, lit 1, lit (-1), lit 2, lit (-2)] [lit 3, lit (-3), lit 4, lit (-4), lit 5] = 0 ∧
    p2_quantile (lit (99 / 100) : F64) [lit 0, lit 1, lit (-1), lit 2, lit (-2), lit 3, lit (-3), lit 4, lit (-4), lit 5] 10 = .ok (lit 0) := by
  decide +kernel

end Verif

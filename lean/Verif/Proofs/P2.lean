/-
The P2 estimator: closed form of one marker adjustment, sorting, positions.
-/
import Verif.Proofs.P2Safe

set_option linter.unusedSectionVars false

namespace Verif
variable {α : Type} [CDouble α]

/-! ### sort5 -/

section Sorting
open Arr5

omit [CDouble α] in
theorem perm_swap01 (a : Arr5 α) : a.swap01.toList.Perm a.toList := List.Perm.swap _ _ _
omit [CDouble α] in
theorem perm_swap12 (a : Arr5 α) : a.swap12.toList.Perm a.toList := (List.Perm.swap _ _ _).cons _
omit [CDouble α] in
theorem perm_swap23 (a : Arr5 α) : a.swap23.toList.Perm a.toList := ((List.Perm.swap _ _ _).cons _).cons _
omit [CDouble α] in
theorem perm_swap34 (a : Arr5 α) : a.swap34.toList.Perm a.toList := (((List.Perm.swap _ _ _).cons _).cons _).cons _

theorem sort5_perm (a : Arr5 α) : (sort5 a).toList.Perm a.toList := by
  have s1 : ∀ (b : Arr5 α), b.toList.Perm a.toList → b.swap01.toList.Perm a.toList := fun b h => (perm_swap01 b).trans h
  have s2 : ∀ (b : Arr5 α), b.toList.Perm a.toList → b.swap12.toList.Perm a.toList := fun b h => (perm_swap12 b).trans h
  have s3 : ∀ (b : Arr5 α), b.toList.Perm a.toList → b.swap23.toList.Perm a.toList := fun b h => (perm_swap23 b).trans h
  have s4 : ∀ (b : Arr5 α), b.toList.Perm a.toList → b.swap34.toList.Perm a.toList := fun b h => (perm_swap34 b).trans h
  unfold sort5
  extract_lets a1 a2 a3 a4
  have h1 : a1.toList.Perm a.toList := by
    simp only [a1]; split
    · exact s1 _ (List.Perm.refl _)
    · exact List.Perm.refl _
  have h2 : a2.toList.Perm a.toList := by
    simp only [a2]; split
    · exact s3 _ h1
    · exact h1
  have h3 : a3.toList.Perm a.toList := by
    simp only [a3]; split
    · exact s3 _ (s2 _ h2)
    · exact s1 _ (s2 _ h2)
  have h4 : a4.toList.Perm a.toList := by
    simp only [a4]; split
    · split
      · exact s1 _ (s2 _ (s3 _ (s4 _ h3)))
      · exact s2 _ (s3 _ (s4 _ h3))
    · split
      · exact s3 _ (s4 _ h3)
      · exact s4 _ h3
  split
  · split
    · exact s2 _ (s3 _ (s4 _ h4))
    · exact s3 _ (s4 _ h4)
  · split
    · exact s4 _ h4
    · exact h4

/-- the values of an array are in non-decreasing order -/
def Arr5.Sorted [CDoubleLaws α] (a : Arr5 α) : Prop :=
  CDoubleLaws.val a.a0 ≤ CDoubleLaws.val a.a1 ∧ CDoubleLaws.val a.a1 ≤ CDoubleLaws.val a.a2 ∧
  CDoubleLaws.val a.a2 ≤ CDoubleLaws.val a.a3 ∧ CDoubleLaws.val a.a3 ≤ CDoubleLaws.val a.a4

/-- no element is a NaN -/
def Arr5.NoNaN (a : Arr5 α) : Prop :=
  is_nan a.a0 = false ∧ is_nan a.a1 = false ∧ is_nan a.a2 = false ∧ is_nan a.a3 = false ∧ is_nan a.a4 = false

theorem noNaN_iff (a : Arr5 α) : a.NoNaN ↔ ∀ x ∈ a.toList, is_nan x = false := by
  simp [Arr5.NoNaN, Arr5.toList]

/-- first part of `sort5`: the first four elements -/
def sort5a (a : Arr5 α) : Arr5 α :=
  let a := if a.a1 <. a.a0 then a.swap01 else a
  if a.a3 <. a.a2 then a.swap23 else a

def sort5b (a : Arr5 α) : Arr5 α := if a.a0 <. a.a2 then a.swap12.swap23 else a.swap12.swap01

def sort5c (a : Arr5 α) : Arr5 α :=
  if a.a4 <. a.a1 then
    if a.a4 <. a.a0 then a.swap34.swap23.swap12.swap01
    else a.swap34.swap23.swap12
  else
    if a.a4 <. a.a2 then a.swap34.swap23
    else a.swap34

def sort5d (a : Arr5 α) : Arr5 α :=
  if a.a4 <. a.a2 then
    if a.a4 <. a.a1 then a.swap34.swap23.swap12
    else a.swap34.swap23
  else
    if a.a4 <. a.a3 then a.swap34 else a

theorem sort5_eq (a : Arr5 α) : sort5 a = sort5d (sort5c (sort5b (sort5a a))) := rfl

theorem lt_val [CDoubleLaws α] {x y : α} (hx : is_nan x = false) (hy : is_nan y = false) :
    (x <. y) = true ↔ CDoubleLaws.val x < CDoubleLaws.val y := by rw [CDoubleLaws.lt_iff]; simp [hx, hy]

theorem sort5_sorted [CDoubleLaws α] (a : Arr5 α) (h : a.NoNaN) : (sort5 a).Sorted := by
  rw [sort5_eq]
  have ha : (sort5a a).NoNaN ∧ CDoubleLaws.val (sort5a a).a0 ≤ CDoubleLaws.val (sort5a a).a1 ∧
      CDoubleLaws.val (sort5a a).a2 ≤ CDoubleLaws.val (sort5a a).a3 := by
    obtain ⟨n0, n1, n2, n3, n4⟩ := h
    unfold sort5a
    by_cases h1 : (a.a1 <. a.a0) = true
    · rw [if_pos h1]; dsimp only [swap01]
      rw [lt_val n1 n0] at h1
      by_cases h2 : (a.a3 <. a.a2) = true
      · rw [if_pos h2]; rw [lt_val n3 n2] at h2
        refine ⟨⟨n1, n0, n3, n2, n4⟩, h1.le, h2.le⟩
      · rw [if_neg h2]; rw [lt_val n3 n2, not_lt] at h2
        refine ⟨⟨n1, n0, n2, n3, n4⟩, h1.le, h2⟩
    · rw [if_neg h1]
      rw [lt_val n1 n0, not_lt] at h1
      by_cases h2 : (a.a3 <. a.a2) = true
      · rw [if_pos h2]; rw [lt_val n3 n2] at h2
        refine ⟨⟨n0, n1, n3, n2, n4⟩, h1, h2.le⟩
      · rw [if_neg h2]; rw [lt_val n3 n2, not_lt] at h2
        refine ⟨⟨n0, n1, n2, n3, n4⟩, h1, h2⟩
  generalize sort5a a = b at ha
  clear h a
  have hb : (sort5b b).NoNaN ∧ CDoubleLaws.val (sort5b b).a0 ≤ CDoubleLaws.val (sort5b b).a1 ∧
      CDoubleLaws.val (sort5b b).a1 ≤ CDoubleLaws.val (sort5b b).a2 ∧
      CDoubleLaws.val (sort5b b).a0 ≤ CDoubleLaws.val (sort5b b).a3 := by
    obtain ⟨⟨n0, n1, n2, n3, n4⟩, h1, h2⟩ := ha
    unfold sort5b
    by_cases h3 : (b.a0 <. b.a2) = true
    · rw [if_pos h3]; rw [lt_val n0 n2] at h3
      exact ⟨⟨n0, n2, n3, n1, n4⟩, h3.le, h2, h1⟩
    · rw [if_neg h3]; rw [lt_val n0 n2, not_lt] at h3
      exact ⟨⟨n2, n0, n1, n3, n4⟩, h3, h1, h2⟩
  generalize sort5b b = c at hb
  clear ha b
  have hc : (sort5c c).NoNaN ∧ CDoubleLaws.val (sort5c c).a0 ≤ CDoubleLaws.val (sort5c c).a1 ∧
      CDoubleLaws.val (sort5c c).a1 ≤ CDoubleLaws.val (sort5c c).a2 ∧
      CDoubleLaws.val (sort5c c).a2 ≤ CDoubleLaws.val (sort5c c).a3 ∧
      CDoubleLaws.val (sort5c c).a0 ≤ CDoubleLaws.val (sort5c c).a4 := by
    obtain ⟨⟨n0, n1, n2, n3, n4⟩, h1, h2, h3⟩ := hb
    unfold sort5c
    by_cases k1 : (c.a4 <. c.a1) = true
    · rw [if_pos k1]; rw [lt_val n4 n1] at k1
      by_cases k2 : (c.a4 <. c.a0) = true
      · rw [if_pos k2]; rw [lt_val n4 n0] at k2
        exact ⟨⟨n4, n0, n1, n2, n3⟩, k2.le, h1, h2, k2.le.trans h3⟩
      · rw [if_neg k2]; rw [lt_val n4 n0, not_lt] at k2
        exact ⟨⟨n0, n4, n1, n2, n3⟩, k2, k1.le, h2, h3⟩
    · rw [if_neg k1]; rw [lt_val n4 n1, not_lt] at k1
      by_cases k2 : (c.a4 <. c.a2) = true
      · rw [if_pos k2]; rw [lt_val n4 n2] at k2
        exact ⟨⟨n0, n1, n4, n2, n3⟩, h1, k1, k2.le, h3⟩
      · rw [if_neg k2]; rw [lt_val n4 n2, not_lt] at k2
        exact ⟨⟨n0, n1, n2, n4, n3⟩, h1, h2, k2, h3⟩
  generalize sort5c c = d at hc
  clear hb c
  obtain ⟨⟨n0, n1, n2, n3, n4⟩, h1, h2, h3, h4⟩ := hc
  unfold sort5d
  by_cases k1 : (d.a4 <. d.a2) = true
  · rw [if_pos k1]; rw [lt_val n4 n2] at k1
    by_cases k2 : (d.a4 <. d.a1) = true
    · rw [if_pos k2]; rw [lt_val n4 n1] at k2
      exact ⟨h4, k2.le, h2, h3⟩
    · rw [if_neg k2]; rw [lt_val n4 n1, not_lt] at k2
      exact ⟨h1, k2, k1.le, h3⟩
  · rw [if_neg k1]; rw [lt_val n4 n2, not_lt] at k1
    by_cases k2 : (d.a4 <. d.a3) = true
    · rw [if_pos k2]; rw [lt_val n4 n3] at k2
      exact ⟨h1, h2, k1, k2.le⟩
    · rw [if_neg k2]; rw [lt_val n4 n3, not_lt] at k2
      exact ⟨h1, h2, h3, k2⟩

end Sorting

/-! ### one adjustment in closed form -/

/-- direction of a move: the integer `d` at src/p2.c:155 -/
def dirOf (d : α) : ℤ := if d >. lit 0 then 1 else if d <. lit 0 then -1 else 0

theorem sign_eq (d : α) : sign d = lit (dirOf d) := by
  unfold sign dirOf
  split
  · norm_num
  · split <;> norm_num

theorem toInt32_sign' [CDoubleLaws α] (d : α) : toInt32 (sign d) = .ok (dirOf d) := by
  unfold sign dirOf
  split
  · rw [toInt32, CDoubleLaws.trunc_one]; simp
  · split
    · rw [toInt32, CDoubleLaws.trunc_neg_one]; simp
    · rw [toInt32, CDoubleLaws.trunc_zero]; simp

/-- the move condition at src/p2.c:153-154 -/
def moves (npi nm ni nu : α) : Bool :=
  ((npi -. ni) >=. lit 1 && (nu -. ni) >. lit 1) || ((npi -. ni) <=. lit (-1) && (nm -. ni) <. lit (-1))

/-- parabolic prediction from the three heights and positions -/
def parab (qm qi qu nm ni nu : α) (d : ℤ) : α :=
  qi +. (lit d /. (nu -. nm)) *.
    ((ni -. nm +. lit d) *. (qu -. qi) /. (nu -. ni) +. (nu -. ni -. lit d) *. (qi -. qm) /. (ni -. nm))

/-- linear prediction -/
def linp (qm qi qu nm ni nu : α) (d : ℤ) : α :=
  if d = 1 then qi +. lit d *. (qu -. qi) /. (nu -. ni)
  else if d = -1 then qi +. lit d *. (qm -. qi) /. (nm -. ni)
  else qi +. lit d *. (qi -. qi) /. (ni -. ni)

/-- new height of the marker -/
def newQ (qm qi qu nm ni nu npi : α) : α :=
  if moves npi nm ni nu then
    if qm <. parab qm qi qu nm ni nu (dirOf (npi -. ni)) && parab qm qi qu nm ni nu (dirOf (npi -. ni)) <. qu then
      parab qm qi qu nm ni nu (dirOf (npi -. ni))
    else linp qm qi qu nm ni nu (dirOf (npi -. ni))
  else qi

/-- new position of the marker -/
def newN (nm ni nu npi : α) : α := if moves npi nm ni nu then ni +. lit (dirOf (npi -. ni)) else ni

theorem dirOf_cases (d : α) : dirOf d = 1 ∨ dirOf d = -1 ∨ dirOf d = 0 := by
  unfold dirOf; split_ifs <;> simp

def adj1 (s : P2 α) : P2 α :=
  { s with
    q := { s.q with a1 := newQ s.q.a0 s.q.a1 s.q.a2 s.n.a0 s.n.a1 s.n.a2 s.np.a1 }
    n := { s.n with a1 := newN s.n.a0 s.n.a1 s.n.a2 s.np.a1 } }

def adj2 (s : P2 α) : P2 α :=
  { s with
    q := { s.q with a2 := newQ s.q.a1 s.q.a2 s.q.a3 s.n.a1 s.n.a2 s.n.a3 s.np.a2 }
    n := { s.n with a2 := newN s.n.a1 s.n.a2 s.n.a3 s.np.a2 } }

def adj3 (s : P2 α) : P2 α :=
  { s with
    q := { s.q with a3 := newQ s.q.a2 s.q.a3 s.q.a4 s.n.a2 s.n.a3 s.n.a4 s.np.a3 }
    n := { s.n with a3 := newN s.n.a2 s.n.a3 s.n.a4 s.np.a3 } }

theorem ite_not_ok (b : Bool) (l p : α) :
    (if (!b) = true then (.ok l : C α) else .ok p) = .ok (if b = true then p else l) := by cases b <;> rfl

theorem adjust1 [CDoubleLaws α] (s : P2 α) : adjust s 1 = .ok (adj1 s) := by
  unfold adjust adj1 newQ newN
  simp only [idx_up (i := 1) (by omega), idx_down (i := 1) (by omega) (by omega), Arr5.get, C.ok_bind, toInt32_sign']
  rw [← moves.eq_1]
  by_cases hm : moves s.np.a1 s.n.a0 s.n.a1 s.n.a2 = true
  · simp only [hm, if_true]
    have hp : ∀ d, parabolic s 1 d = .ok (parab s.q.a0 s.q.a1 s.q.a2 s.n.a0 s.n.a1 s.n.a2 d) := by
      intro d; unfold parabolic parab
      simp only [idx_up (i := 1) (by omega), idx_down (i := 1) (by omega) (by omega), Arr5.get, C.ok_bind]
    have hl : linear s 1 (dirOf (s.np.a1 -. s.n.a1)) =
        .ok (linp s.q.a0 s.q.a1 s.q.a2 s.n.a0 s.n.a1 s.n.a2 (dirOf (s.np.a1 -. s.n.a1))) := by
      unfold linear linp
      rcases dirOf_cases (s.np.a1 -. s.n.a1) with h | h | h <;> rw [h] <;>
        simp [idx_up (i := 1) (by omega), idx_down (i := 1) (by omega) (by omega), idx_zero (i := 1) (by omega), Arr5.get]
    rw [hp, hl, sign_eq]
    simp only [C.ok_bind, ite_not_ok, Arr5.set]
  · simp only [hm, if_false, Bool.false_eq_true]

theorem adjust2 [CDoubleLaws α] (s : P2 α) : adjust s 2 = .ok (adj2 s) := by
  unfold adjust adj2 newQ newN
  simp only [idx_up (i := 2) (by omega), idx_down (i := 2) (by omega) (by omega), Arr5.get, C.ok_bind, toInt32_sign']
  rw [← moves.eq_1]
  by_cases hm : moves s.np.a2 s.n.a1 s.n.a2 s.n.a3 = true
  · simp only [hm, if_true]
    have hp : ∀ d, parabolic s 2 d = .ok (parab s.q.a1 s.q.a2 s.q.a3 s.n.a1 s.n.a2 s.n.a3 d) := by
      intro d; unfold parabolic parab
      simp only [idx_up (i := 2) (by omega), idx_down (i := 2) (by omega) (by omega), Arr5.get, C.ok_bind]
    have hl : linear s 2 (dirOf (s.np.a2 -. s.n.a2)) =
        .ok (linp s.q.a1 s.q.a2 s.q.a3 s.n.a1 s.n.a2 s.n.a3 (dirOf (s.np.a2 -. s.n.a2))) := by
      unfold linear linp
      rcases dirOf_cases (s.np.a2 -. s.n.a2) with h | h | h <;> rw [h] <;>
        simp [idx_up (i := 2) (by omega), idx_down (i := 2) (by omega) (by omega), idx_zero (i := 2) (by omega), Arr5.get]
    rw [hp, hl, sign_eq]
    simp only [C.ok_bind, ite_not_ok, Arr5.set]
  · simp only [hm, if_false, Bool.false_eq_true]

theorem adjust3 [CDoubleLaws α] (s : P2 α) : adjust s 3 = .ok (adj3 s) := by
  unfold adjust adj3 newQ newN
  simp only [idx_up (i := 3) (by omega), idx_down (i := 3) (by omega) (by omega), Arr5.get, C.ok_bind, toInt32_sign']
  rw [← moves.eq_1]
  by_cases hm : moves s.np.a3 s.n.a2 s.n.a3 s.n.a4 = true
  · simp only [hm, if_true]
    have hp : ∀ d, parabolic s 3 d = .ok (parab s.q.a2 s.q.a3 s.q.a4 s.n.a2 s.n.a3 s.n.a4 d) := by
      intro d; unfold parabolic parab
      simp only [idx_up (i := 3) (by omega), idx_down (i := 3) (by omega) (by omega), Arr5.get, C.ok_bind]
    have hl : linear s 3 (dirOf (s.np.a3 -. s.n.a3)) =
        .ok (linp s.q.a2 s.q.a3 s.q.a4 s.n.a2 s.n.a3 s.n.a4 (dirOf (s.np.a3 -. s.n.a3))) := by
      unfold linear linp
      rcases dirOf_cases (s.np.a3 -. s.n.a3) with h | h | h <;> rw [h] <;>
        simp [idx_up (i := 3) (by omega), idx_down (i := 3) (by omega) (by omega), idx_zero (i := 3) (by omega), Arr5.get]
    rw [hp, hl, sign_eq]
    simp only [C.ok_bind, ite_not_ok, Arr5.set]
  · simp only [hm, if_false, Bool.false_eq_true]

/-- `n[i] += 1` for `i >= k` -/
def bumpFrom (n : Arr5 α) (k : ℕ) : Arr5 α :=
  ⟨if k ≤ 0 then n.a0 +. lit 1 else n.a0, if k ≤ 1 then n.a1 +. lit 1 else n.a1, if k ≤ 2 then n.a2 +. lit 1 else n.a2,
    if k ≤ 3 then n.a3 +. lit 1 else n.a3, n.a4 +. lit 1⟩

theorem bumpN_eq (n : Arr5 α) {k : ℕ} (h : k ≤ 4) : bumpN n k = .ok (bumpFrom n k) := by
  rcases (by omega : k = 0 ∨ k = 1 ∨ k = 2 ∨ k = 3 ∨ k = 4) with h | h | h | h | h <;> subst h <;>
    simp [bumpN, Arr5.get, Arr5.set, bumpFrom]

/-- index of the first marker that is not below `x` (4 if they all are) -/
def firstNotBelow (q : Arr5 α) (x : α) : ℕ :=
  if x >. q.a0 then if x >. q.a1 then if x >. q.a2 then if x >. q.a3 then 4 else 3 else 2 else 1 else 0

theorem firstNotBelow_le (q : Arr5 α) (x : α) : firstNotBelow q x ≤ 4 := by
  unfold firstNotBelow; split_ifs <;> omega

/-- one treated value -/
def upd (s : P2 α) (x : α) : P2 α :=
  if x <. s.q.a0 then { s with q := { s.q with a0 := x } }
  else if x >. s.q.a4 then { s with q := { s.q with a4 := x } }
  else adj3 (adj2 (adj1 { s with n := bumpFrom s.n (firstNotBelow s.q x), np := bumpNP s.np s.dn }))

theorem p2_update_eq [CDoubleLaws α] (s : P2 α) (x : α) : p2_update s x = .ok (upd s x) := by
  unfold p2_update upd
  by_cases h1 : (x <. s.q.a0) = true
  · rw [if_pos h1, if_pos h1]
  rw [if_neg h1, if_neg h1]
  by_cases h2 : (x >. s.q.a4) = true
  · rw [if_pos h2, if_pos h2]
  rw [if_neg h2, if_neg h2]
  have hk : findK s.q x 6 0 = .ok (firstNotBelow s.q x) := by
    simp only [findK, Arr5.get, C.ok_bind, firstNotBelow]
    split_ifs <;> rfl
  rw [hk]; simp only [C.ok_bind]
  have hi : idx (idx (firstNotBelow s.q x) (-1)) 1 = firstNotBelow s.q x := by
    have := firstNotBelow_le s.q x
    unfold idx; omega
  rw [hi, bumpN_eq _ (firstNotBelow_le _ _)]
  simp only [C.ok_bind, adjust1, adjust2, adjust3]

theorem p2Step_eq [CDoubleLaws α] (s : P2 α) (x : α) : p2Step s x = upd s x := by
  have h := p2Step_spec s x
  rw [p2_update_eq] at h
  exact (Except.ok.inj h).symm

/-- the state after the first five data -/
def start (p : α) (x0 x1 x2 x3 x4 : α) : P2 α := { init_p2 p with q := sort5 ⟨x0, x1, x2, x3, x4⟩ }

theorem p2_quantile_eq [CDoubleLaws α] (p : α) (x0 x1 x2 x3 x4 : α) (rest tail : List α) (size : UInt64)
    (hs : size.toNat = rest.length + 5) :
    p2_quantile p (x0 :: x1 :: x2 :: x3 :: x4 :: (rest ++ tail)) size = .ok (rest.foldl upd (start p x0 x1 x2 x3 x4)).q.a2 := by
  unfold p2_quantile
  rw [quantile_eq _ _ _ (by omega) (by simp [hs])]
  have : p2Step (α := α) = upd := by funext s x; exact p2Step_eq s x
  rw [this]
  simp [start, hs]

end Verif

/-
The circular container refines "the last c inserted values".
-/
import Verif.Model.Ubend
import Verif.Proofs.Estim
import Verif.Spec.Ring
import Mathlib.Data.List.Perm.Basic
import Mathlib.Tactic.Push

namespace Verif
variable {α : Type} [CDouble α]

/-- slots of a container of capacity `c` after the insertions `xs` (given with their number so far) -/
def slotsAux {β : Type} (c : ℕ) : ℕ → List β → List β → List β
  | _, l, [] => l
  | k, l, x :: xs => slotsAux c (k + 1) (if k < c then l ++ [x] else l.set (k % c) x) xs

def slots {β : Type} (c : ℕ) (xs : List β) : List β := slotsAux c 0 [] xs

section pure
variable {β : Type} {c : ℕ}

theorem slotsAux_append (k : ℕ) (l xs ys : List β) :
    slotsAux c k l (xs ++ ys) = slotsAux c (k + xs.length) (slotsAux c k l xs) ys := by
  induction xs generalizing k l with
  | nil => rfl
  | cons x xs ih =>
    simp only [List.cons_append, slotsAux, List.length_cons]
    rw [ih]; congr 1; omega

theorem slots_snoc (xs : List β) (x : β) :
    slots c (xs ++ [x]) = if xs.length < c then slots c xs ++ [x] else (slots c xs).set (xs.length % c) x := by
  unfold slots; rw [slotsAux_append]; simp [slotsAux]

theorem slots_nil : slots c ([] : List β) = [] := rfl

theorem slots_length (xs : List β) : (slots c xs).length = min xs.length c := by
  induction xs using List.reverseRecOn with
  | nil => simp [slots_nil]
  | append_singleton xs x ih =>
    rw [slots_snoc]; split <;> simp [ih] <;> omega

theorem slots_latest (xs : List β) (i : ℕ) (hi : i < (slots c xs).length) :
    Spec.IsLatest c xs i (slots c xs)[i] := by
  induction xs using List.reverseRecOn with
  | nil => simp [slots_nil] at hi
  | append_singleton xs x ih =>
    have hlen := slots_length (c := c) xs
    by_cases hx : xs.length % c = i
    · refine ⟨xs.length, ?_, hx, ?_⟩
      · simp only [slots_snoc]
        split
        · next h =>
          have : i = (slots c xs).length := by rw [hlen, ← hx, Nat.mod_eq_of_lt h]; omega
          simp [this]
        · next h => simp [hx]
      · intro j' h1 h2; simp at h2; omega
    · have hi' : i < (slots c xs).length := by
        simp only [slots_snoc] at hi
        split at hi
        · next h =>
          simp at hi
          rw [Nat.mod_eq_of_lt h] at hx
          omega
        · simpa using hi
      obtain ⟨j, h1, h2, h3⟩ := ih hi'
      have hj : j < xs.length := by
        rcases List.getElem?_eq_some_iff.mp h1 with ⟨hj, _⟩; exact hj
      refine ⟨j, ?_, h2, ?_⟩
      · rw [List.getElem?_append_left hj, h1]
        congr 1
        simp only [slots_snoc]
        split
        · rw [List.getElem_append_left]
        · rw [List.getElem_set_ne hx]
      · intro j' g1 g2
        by_cases hj' : j' < xs.length
        · exact h3 j' g1 hj'
        · simp at g2
          have : j' = xs.length := by omega
          rw [this]; exact hx

theorem succ_mod {c : ℕ} (hc : 0 < c) (k : ℕ) : (k + 1) % c = if k % c + 1 = c then 0 else k % c + 1 := by
  rw [Nat.add_mod_eq_ite]
  have h1 := Nat.mod_lt k hc
  by_cases h : c = 1
  · subst h; simp [Nat.mod_one]
  · have : 1 % c = 1 := Nat.mod_eq_of_lt (by omega)
    rw [this]
    split_ifs <;> omega

theorem _root_.List.drop_append_of_le_length' {β : Type} {l1 l2 : List β} {x : β} {m : ℕ} (h : l1.length = m) :
    (l1 ++ x :: l2).drop (m + 1) = l2 := by
  subst h; simp

theorem _root_.List.take_append_of_length' {β : Type} {l1 l2 : List β} {x : β} {m : ℕ} (h : l1.length = m) :
    (l1 ++ x :: l2).take (m + 1) = l1 ++ [x] := by
  subst h; simp [List.take_append]

/-- chronological read-out of the slots -/
theorem slots_rotate (hc : 0 < c) (xs : List β) (h : c ≤ xs.length) :
    (slots c xs).drop (xs.length % c) ++ (slots c xs).take (xs.length % c) = Spec.lastN c xs := by
  induction xs using List.reverseRecOn with
  | nil => simp at h; omega
  | append_singleton xs x ih =>
    simp only [List.length_append, List.length_cons, List.length_nil, zero_add] at h ⊢
    have hlen := slots_length (c := c) xs
    rw [slots_snoc]
    by_cases hx : xs.length < c
    · -- the container has just become full
      have hc' : xs.length + 1 = c := by omega
      rw [if_pos hx, hc', Nat.mod_self]
      have hs : slots c xs = xs := by
        clear ih h hc' hlen
        induction xs using List.reverseRecOn with
        | nil => rfl
        | append_singleton ys y ih2 =>
          simp at hx
          rw [slots_snoc, if_pos (by omega), ih2 (by omega)]
      simp [hs, Spec.lastN, hc']
    · rw [if_neg hx]
      have ih := ih (by omega)
      set m := xs.length % c with hm
      have hmc : m < c := Nat.mod_lt _ hc
      have hl : (slots c xs).length = c := by rw [hlen]; omega
      have hlast : Spec.lastN c (xs ++ [x]) = (Spec.lastN c xs).tail ++ [x] := by
        unfold Spec.lastN
        rw [List.drop_append_of_le_length (by simp; omega)]
        congr 1
        rw [List.tail_drop]; congr 1; simp; omega
      rw [hlast, ← ih]
      have hset : (slots c xs).set m x = (slots c xs).take m ++ x :: (slots c xs).drop (m + 1) := by
        rw [List.set_eq_take_append_cons_drop, if_pos (by omega)]
      have hdrop : (slots c xs).drop m = (slots c xs)[m]'(by omega) :: (slots c xs).drop (m + 1) :=
        List.drop_eq_getElem_cons (by omega)
      have htl : ((slots c xs).take m).length = m := by rw [List.length_take]; omega
      rw [succ_mod hc, ← hm, hset, hdrop]
      split
      · next hm1 =>
        have : (slots c xs).drop (m + 1) = [] := List.drop_eq_nil_of_le (by omega)
        simp [this]
      · rw [List.drop_append_of_le_length' htl, List.take_append_of_length' htl, List.cons_append,
          List.tail_cons, List.append_assoc]

/-- the stored values are, up to order, the last `c` inserted ones -/
theorem slots_perm (hc : 0 < c) (xs : List β) : (slots c xs).Perm (Spec.lastN c xs) := by
  by_cases h : c ≤ xs.length
  · rw [← slots_rotate hc xs h]
    conv_lhs => rw [← List.take_append_drop (xs.length % c) (slots c xs)]
    exact List.perm_append_comm
  · have : slots c xs = xs := by
      have h : xs.length ≤ c := by omega
      induction xs using List.reverseRecOn with
      | nil => rfl
      | append_singleton ys y ih =>
        simp at h
        rw [slots_snoc, if_pos (by omega), ih (by omega) (by omega)]
    rw [this, Spec.lastN, show xs.length - c = 0 by omega]
    exact List.Perm.refl _

/-- the slot about to be overwritten holds the oldest stored value -/
theorem slots_oldest (hc : 0 < c) (xs : List β) (h : c ≤ xs.length) :
    (slots c xs)[xs.length % c]? = xs[xs.length - c]? := by
  have hr := slots_rotate hc xs h
  have hl : (slots c xs).length = c := by rw [slots_length]; omega
  have hm := Nat.mod_lt xs.length hc
  have h0 : ((slots c xs).drop (xs.length % c) ++ (slots c xs).take (xs.length % c))[0]? = (Spec.lastN c xs)[0]? := by
    rw [hr]
  rw [List.getElem?_append_left (by rw [List.length_drop]; omega), List.getElem?_drop] at h0
  rw [Spec.lastN, List.getElem?_drop] at h0
  simpa using h0

end pure

/-! ### the container in memory -/

/-- The structure `u` in heap `h` is a container of capacity `c`, whose buffer is the block at address `a`, after exactly the
insertions `xs`. -/
structure Ring (h : Heap α) (u : Ubend α) (a : ℕ) (c : ℕ) (xs : List α) : Prop where
  data : u.data = some a
  cap : u.capacity.toNat = c
  pos : 0 < c
  bound : c < 2 ^ 61
  cells : h a = some ((slots c xs).map some ++ List.replicate (c - (slots c xs).length) none)
  cursor : u.cursor.toNat = xs.length % c
  filled : u.filled = if c ≤ xs.length then 1 else 0
  erased : if xs.length ≤ c then u.last_erased_data = cNAN else xs[xs.length - 1 - c]? = some u.last_erased_data

variable {h : Heap α} {u : Ubend α} {a c : ℕ} {xs : List α}

theorem Ring.size (R : Ring h u a c xs) : (ubend_size u).toNat = min xs.length c := by
  unfold ubend_size
  rw [R.filled]
  by_cases hc : c ≤ xs.length
  · simp [hc, R.cap]
  · simp [hc, R.cursor]; rw [Nat.mod_eq_of_lt (by omega)]; omega

theorem Ring.stored (R : Ring h u a c xs) : Stored h u (slots c xs) where
  size := by rw [R.size, slots_length]
  read i hi := by
    unfold load
    rw [R.data]
    simp only [R.cells]
    rw [List.getElem?_append_left (by simpa using hi)]
    simp [hi]

theorem Ring.push (R : Ring h u a c xs) (x : α) :
    ∃ u' h' cells', ubend_push h u x = .ok (u'.last_erased_data, u', h') ∧ Ring h' u' a c (xs ++ [x]) ∧
      h' = Function.update h a (some cells') ∧ cells'.length = c := by
  have hc := R.pos
  have hm := Nat.mod_lt xs.length hc
  have hlen := slots_length (c := c) xs
  set cells := (slots c xs).map some ++ List.replicate (c - (slots c xs).length) none with hcells
  have hcl : cells.length = c := by simp [hcells]; omega
  have hstore : store h u.data u.cursor.toNat x =
      .ok (Function.update h a (some (cells.set (xs.length % c) (some x)))) := by
    unfold store; rw [R.data]; simp only [R.cells, R.cursor]
    rw [if_pos (by rw [← hcells, hcl]; exact hm)]
  have hlast : ∃ v, (if u.filled ≠ 0 then load h u.data u.cursor.toNat else .ok u.last_erased_data) = .ok v ∧
      (if (xs ++ [x]).length ≤ c then v = cNAN else (xs ++ [x])[(xs ++ [x]).length - 1 - c]? = some v) := by
    by_cases hf : c ≤ xs.length
    · have hold := slots_oldest hc xs hf
      have hlt : xs.length % c < (slots c xs).length := by omega
      refine ⟨(slots c xs)[xs.length % c], ?_, ?_⟩
      · simp only [R.filled, hf, if_true, R.cursor]
        simp [R.stored.read _ hlt]
      · rw [if_neg (by simp; omega)]
        simp only [List.length_append, List.length_cons, List.length_nil, zero_add, Nat.add_sub_cancel]
        rw [List.getElem?_append_left (by omega), ← hold]
        simp [hlt]
    · refine ⟨u.last_erased_data, by simp [R.filled, hf], ?_⟩
      have := R.erased
      rw [if_pos (by omega)] at this
      rw [if_pos (by simp; omega), this]
  obtain ⟨v, hv1, hv2⟩ := hlast
  have hcur : (u.cursor = u.capacity - 1) ↔ xs.length % c + 1 = c := by
    rw [← UInt64.toNat_inj, UInt64.toNat_sub_of_le, R.cursor, R.cap]
    · simp; omega
    · rw [UInt64.le_iff_toNat_le, R.cap]; exact hc
  have hnewcells : cells.set (xs.length % c) (some x) =
      (slots c (xs ++ [x])).map some ++ List.replicate (c - (slots c (xs ++ [x])).length) none := by
    rw [hcells, slots_snoc]
    by_cases hf : xs.length < c
    · rw [if_pos hf, Nat.mod_eq_of_lt hf]
      have hl : (slots c xs).length = xs.length := by omega
      rw [List.set_append, if_neg (by simp [hl])]
      simp only [List.length_map, hl, Nat.sub_self, List.map_append, List.append_assoc]
      congr 1
      rw [show c - xs.length = (c - (xs.length + 1)) + 1 by omega, List.replicate_succ]
      simp [hl]
    · rw [if_neg hf]
      have hl : (slots c xs).length = c := by omega
      rw [List.set_append, if_pos (by simp; omega)]
      simp [List.map_set]
  refine ⟨if u.cursor = u.capacity - 1 then { u with last_erased_data := v, cursor := 0, filled := 1 }
    else { u with last_erased_data := v, cursor := u.cursor + 1 }, _, cells.set (xs.length % c) (some x), ?_, ?_, rfl,
    by simpa using hcl⟩
  · unfold ubend_push
    rw [hv1, hstore]
    simp only [C.ok_bind]
  · have hmod := succ_mod hc xs.length
    by_cases hw : xs.length % c + 1 = c
    · rw [if_pos (hcur.mpr hw)]
      rw [if_pos hw] at hmod
      have hle : c ≤ xs.length + 1 := by
        have := Nat.mod_le xs.length c; omega
      exact ⟨R.data, R.cap, R.pos, R.bound, by rw [Function.update_self, hnewcells], by simp [hmod], by simp [hle], hv2⟩
    · rw [if_neg (fun hh => hw (hcur.mp hh))]
      rw [if_neg hw] at hmod
      have hfl : (c ≤ xs.length + 1) = (c ≤ xs.length) := by
        apply propext; constructor
        · intro h1
          by_contra h2
          rw [Nat.mod_eq_of_lt (by omega)] at hw; omega
        · omega
      refine ⟨R.data, R.cap, R.pos, R.bound, by rw [Function.update_self, hnewcells], ?_, ?_, hv2⟩
      · have hb := R.bound
        simp only [UInt64.toNat_add, R.cursor, List.length_append, List.length_cons, List.length_nil, zero_add, hmod]
        rw [show (1 : UInt64).toNat = 1 from rfl, Nat.mod_eq_of_lt]; omega
      · simp only [R.filled, List.length_append, List.length_cons, List.length_nil, zero_add, hfl]

end Verif

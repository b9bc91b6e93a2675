/-
The copy function.
-/
import Verif.Spec.Text
import Verif.Proofs.Monad
import Mathlib.Data.List.TakeDrop
import Mathlib.Tactic.Linarith

namespace Verif
open Spec

theorem take_set_drop (src b : List UInt8) (i : ℕ) (hi : i < src.length) (hb : i < b.length) :
    (src.take i ++ b.drop i).set i src[i] = src.take (i + 1) ++ b.drop (i + 1) := by
  have h1 : (src.take i).length = i := by simp; omega
  rw [List.set_append_right _ _ (by omega), h1, Nat.sub_self, List.take_add_one, List.getElem?_eq_getElem hi,
    List.append_assoc]
  congr 1
  rw [List.drop_eq_getElem_cons hb]; rfl

theorem copyLoop_eq (b : List UInt8) (src : CStr) (size : ℕ) (hs : size ≤ b.length) (hn : NoNul src) (i : ℕ)
    (hi : i ≤ min size src.length) :
    copyLoop (src.take i ++ b.drop i) src size i =
      .ok (src.take (min size src.length) ++ b.drop (min size src.length), min size src.length) := by
  have hl : (src.take i ++ b.drop i).length = b.length := by simp; omega
  rw [copyLoop]
  by_cases h1 : i < size
  · rw [dif_pos h1]
    by_cases h2 : i < src.length
    · have hg : CStr.get src i = .ok src[i] := by
        unfold CStr.get; rw [if_pos h2]; simp [List.getD, h2]
      rw [hg, C.ok_bind, if_pos (hn _ (List.getElem_mem h2))]
      unfold putByte
      rw [if_pos (by omega), C.ok_bind, take_set_drop src b i h2 (by omega)]
      exact copyLoop_eq b src size hs hn (i + 1) (by omega)
    · have hg : CStr.get src i = .ok 0 := by
        unfold CStr.get; rw [if_neg h2, if_pos (by omega)]
      have e : min size src.length = i := by omega
      rw [hg, C.ok_bind, e, if_neg (by simp)]
  · have e : min size src.length = i := by omega
    rw [dif_neg h1, e]
termination_by size - i

theorem fillLoop_eq (pre b : List UInt8) (size : ℕ) (hs : size ≤ b.length) (i j : ℕ) (hp : pre.length = j) (hj : j ≤ i) (hi : i ≤ size) :
    fillLoop (pre ++ List.replicate (i - j) 0 ++ b.drop i) size i =
      .ok (pre ++ List.replicate (size - j) 0 ++ b.drop size) := by
  have hl : (pre ++ List.replicate (i - j) 0 ++ b.drop i).length = b.length := by simp; omega
  rw [fillLoop]
  by_cases h1 : i < size
  · rw [dif_pos h1]
    unfold putByte
    rw [if_pos (by omega), C.ok_bind]
    have e : (pre ++ List.replicate (i - j) 0 ++ b.drop i).set i 0 = pre ++ List.replicate (i + 1 - j) 0 ++ b.drop (i + 1) := by
      rw [List.set_append_right _ _ (by simp; omega)]
      have : (pre ++ List.replicate (i - j) (0 : UInt8)).length = i := by simp; omega
      rw [this, Nat.sub_self, show i + 1 - j = (i - j) + 1 by omega, List.replicate_succ',
        List.drop_eq_getElem_cons (by omega : i < b.length), List.set_cons_zero, List.append_assoc, List.append_assoc,
        List.append_assoc]
      rfl
    rw [e]
    exact fillLoop_eq pre b size hs (i + 1) j hp (by omega) (by omega)
  · have e : i = size := by omega
    rw [dif_neg h1, e]
termination_by size - i

theorem strncpy_eq (b : List UInt8) (src : CStr) (size : UInt64) (h1 : 1 ≤ size.toNat) (hs : size.toNat ≤ b.length)
    (hn : NoNul src) : strncpy (some b) src size = .ok (some (stored src size.toNat b)) := by
  have hc := copyLoop_eq b src size.toNat hs hn 0 (by omega)
  have hf := fillLoop_eq (src.take (min size.toNat src.length)) b size.toNat hs (min size.toNat src.length)
    (min size.toNat src.length) (by simp) (le_refl _) (by omega)
  simp only [List.take_zero, List.drop_zero, List.nil_append] at hc
  simp only [Nat.sub_self, List.replicate_zero, List.append_nil] at hf
  have e1 : (size - 1).toNat = size.toNat - 1 := by
    rw [UInt64.toNat_sub_of_le _ _ (by rw [UInt64.le_iff_toNat_le]; exact h1)]; rfl
  unfold strncpy
  simp only [hc, hf, C.ok_bind, e1]
  unfold putByte
  rw [if_pos (by simp; omega), C.ok_bind]
  congr 2
  unfold stored
  dsimp only
  generalize size.toNat = n at *
  by_cases h : src.length < n
  · have m1 : min n src.length = src.length := by omega
    have t1 : src.take (n - 1) = src := List.take_of_length_le (by omega)
    have t2 : src.take src.length = src := List.take_length
    rw [m1, t1, t2]
    rw [List.set_append_left _ _ (by simp; omega), List.set_append_right _ _ (by omega)]
    congr 2
    rw [List.set_replicate_self]
  · have m1 : min n src.length = n := by omega
    rw [m1, Nat.sub_self, List.replicate_zero, List.append_nil, List.set_append_left _ _ (by simp; omega)]
    congr 1
    have l1 : (src.take (n - 1)).length = n - 1 := by simp; omega
    rw [l1, show n - (n - 1) = 1 by omega]
    obtain ⟨m, rfl⟩ : ∃ m, n = m + 1 := ⟨n - 1, by omega⟩
    have hm : m < src.length := by omega
    rw [List.take_add_one, List.getElem?_eq_getElem hm, List.set_append_right _ _ (by simp)]
    simp [Nat.min_eq_left hm.le]

end Verif

/-
C48, C49: version, licence and error messages.
-/
import Verif.Proofs.Text

namespace Verif
open Spec

/-! ### C48 -/

/-- For a buffer of at least `size ≥ 1` bytes the three functions store exactly the truncated, NUL-terminated, zero-filled text
and leave the bytes from `size` on unchanged. `version` is a compile-time constant. -/
theorem C48_text (version : CStr) (hv : NoNul version) (b : List UInt8) (size : UInt64) (h1 : 1 ≤ size.toNat)
    (hs : size.toNat ≤ b.length) :
    libspot_version version (some b) size = .ok (some (stored version size.toNat b)) ∧
    libspot_license (some b) size = .ok (some (stored (cstr "LGPL-3.0-or-later") size.toNat b)) ∧
    ∀ err, libspot_error err (some b) size = .ok (some b) ∨
      ∃ m, message err = some m ∧ libspot_error err (some b) size = .ok (some (stored (cstr m) size.toNat b)) := by
  refine ⟨strncpy_eq b version size h1 hs hv, strncpy_eq b _ size h1 hs (by decide +kernel), fun err => ?_⟩
  unfold libspot_error
  by_cases he : 1000 ≤ err ∧ err < 1005
  · rw [if_pos he]
    rcases (by omega : err = 1000 ∨ err = 1001 ∨ err = 1002 ∨ err = 1003 ∨ err = 1004) with rfl | rfl | rfl | rfl | rfl <;>
      exact .inr ⟨_, rfl, strncpy_eq b _ size h1 hs (by decide +kernel)⟩
  · rw [if_neg he]; exact .inl rfl

/-- A NULL buffer is ignored, for every size. -/
theorem C48_null (version : CStr) (size : UInt64) (err : ℕ) :
    libspot_version version none size = .ok none ∧ libspot_license none size = .ok none ∧ libspot_error err none size = .ok none := by
  refine ⟨rfl, rfl, ?_⟩
  unfold libspot_error
  by_cases he : 1000 ≤ err ∧ err < 1005
  · rw [if_pos he]
    rcases (by omega : err = 1000 ∨ err = 1001 ∨ err = 1002 ∨ err = 1003 ∨ err = 1004) with rfl | rfl | rfl | rfl | rfl <;> rfl
  · rw [if_neg he]

/-- a truncation, and a text that fits -/
example : stored (cstr "LGPL-3.0-or-later") 5 [9, 9, 9, 9, 9, 9] = [76, 71, 80, 76, 0, 9] ∧
    stored (cstr "ab") 5 [9, 9, 9, 9, 9, 9] = [97, 98, 0, 0, 0, 9] ∧ NoNul (cstr "2.0b5") := by
  decide +kernel

/-- What `stored` means byte by byte: the buffer keeps its length, ends with NUL at `size - 1`, holds the text before. -/
theorem C48_stored (text : List UInt8) (size : ℕ) (b : List UInt8) (h1 : 1 ≤ size) (hs : size ≤ b.length) :
    (stored text size b).length = b.length ∧
    (∀ i, i < size - 1 → (stored text size b)[i]? = some (if h : i < text.length then text[i] else 0)) ∧
    (stored text size b)[size - 1]? = some 0 ∧
    ∀ i, size ≤ i → (stored text size b)[i]? = b[i]? := by
  have hl : (text.take (size - 1)).length = min (size - 1) text.length := by simp
  unfold stored
  dsimp only
  refine ⟨by simp; omega, ?_, ?_, ?_⟩
  · intro i hi
    rw [List.append_assoc]
    by_cases h : i < text.length
    · rw [dif_pos h, List.getElem?_append_left (by omega), List.getElem?_take_of_lt hi, List.getElem?_eq_getElem h]
    · rw [dif_neg h, List.getElem?_append_right (by omega), List.getElem?_append_left (by simp; omega),
        List.getElem?_replicate_of_lt (by omega)]
  · rw [List.append_assoc, List.getElem?_append_right (by omega), List.getElem?_append_left (by simp; omega),
      List.getElem?_replicate_of_lt (by omega)]
  · intro i hi
    rw [List.getElem?_append_right (by simp; omega)]
    simp only [List.length_append, List.length_replicate, List.getElem?_drop]
    congr 1
    omega

/-- `size = 0` is outside of the property, and is a real hazard: the terminator is written at `dst[2^64 - 1]`. -/
example : libspot_license (some [0, 0, 0]) 0 = .error .outOfBounds := by decide +kernel

/-! ### C49 -/

/-- False of the code: nothing is written for ERR_DATA_IS_NAN (1005). -/
theorem C49_false : message 1005 = some "The input data is NaN" ∧
    ∀ b size, libspot_error 1005 b size = .ok b := by
  refine ⟨rfl, fun b size => ?_⟩
  unfold libspot_error
  rw [if_neg (by omega)]

/-- For every other code the documented message is stored, or the buffer is untouched when there is none. -/
theorem C49_partial (err : ℕ) (h : err ≠ 1005) (b : List UInt8) (size : UInt64) (h1 : 1 ≤ size.toNat) (hs : size.toNat ≤ b.length) :
    libspot_error err (some b) size = .ok (some (match message err with
      | some m => stored (cstr m) size.toNat b
      | none => b)) := by
  unfold libspot_error
  by_cases he : 1000 ≤ err ∧ err < 1005
  · rw [if_pos he]
    rcases (by omega : err = 1000 ∨ err = 1001 ∨ err = 1002 ∨ err = 1003 ∨ err = 1004) with rfl | rfl | rfl | rfl | rfl <;>
      exact strncpy_eq b _ size h1 hs (by decide +kernel)
  · rw [if_neg he]
    have : message err = none := by
      unfold message; split <;> first | rfl | omega
    rw [this]

example : (libspot_error 1002 (some (List.replicate 8 7)) 6) = .ok (some [84, 104, 101, 32, 113, 0, 7, 7]) := by
  decide +kernel

end Verif

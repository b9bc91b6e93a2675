/-
The JavaScript interface: bytes of the structure, the temporary buffer of `fit`.
-/
import Verif.Model.Wasm
import Verif.Proofs.Python
import Verif.Proofs.Text
import Verif.F64.Bits
import Mathlib.Tactic.IntervalCases

namespace Verif.Js
open Verif F64

/-! ### bytes -/

/-- the `n` low bytes of a number, least significant first -/
def leBytes : ℕ → ℕ → List UInt8
  | 0, _ => []
  | n + 1, v => UInt8.ofNat v :: leBytes n (v / 256)

theorem leBytes_length (n v : ℕ) : (leBytes n v).length = n := by
  induction n generalizing v with
  | zero => rfl
  | succ n ih => simp [leBytes, ih]

theorem leNat_leBytes (n v : ℕ) : leNat (leBytes n v) = v % 256 ^ n := by
  induction n generalizing v with
  | zero => simp [leBytes, leNat, Nat.mod_one]
  | succ n ih =>
    simp only [leBytes, leNat, ih, UInt8.toNat_ofNat']
    rw [show (2 : ℕ) ^ 8 = 256 from rfl, pow_succ, Nat.mul_comm (256 ^ n) 256, Nat.mod_mul]

/-- the bytes of a member -/
def bytesOf : Val → List UInt8
  | .double v => leBytes 8 (toBits v).toNat
  | .word n => leBytes 4 n

/-- an image of the structure in memory: its members in order -/
def image (s : Spot F64) : Bytes := fun i => ((members s).flatMap (fun p => bytesOf p.2)).getD i 0

theorem slice_image (l1 l2 l3 : List UInt8) (n : ℕ) (hn : l2.length = n) :
    slice (fun i => (l1 ++ (l2 ++ l3)).getD i 0) l1.length n = l2 := by
  unfold slice
  apply List.ext_getElem
  · simp [hn]
  · intro i h1 h2
    simp only [List.getElem_map, List.getElem_range]
    rw [List.getD_eq_getElem?_getD, List.getElem?_append_right (by omega), Nat.add_sub_cancel_left,
      List.getElem?_append_left (by omega)]
    simp [h2]

theorem holds_bytes (mem : Bytes) (p : ℕ) (v : Val) (n : ℕ) (hn : (bytesOf v).length = n) (h : slice mem p n = bytesOf v) :
    Holds mem p v := by
  cases v with
  | double v =>
    have e : n = 8 := by rw [← hn]; exact leBytes_length 8 _
    subst e
    unfold Holds
    rw [h]
    unfold bytesOf
    dsimp only
    rw [leNat_leBytes, Nat.mod_eq_of_lt (by have := (toBits v).toNat_lt; norm_num; omega), UInt64.ofNat_toNat, ofBits_toBits]
  | word w =>
    have e : n = 4 := by rw [← hn]; exact leBytes_length 4 _
    subst e
    unfold Holds
    rw [h]
    unfold bytesOf
    dsimp only
    rw [leNat_leBytes]
    norm_num

/-- offsets of the members, in order -/
theorem offsets (s : Spot F64) : (members s).map (fun p => SpotT.offset wasm32 p.1) =
    [0, 8, 16, 20, 24, 32, 40, 48, 52, 56, 64, 72, 80, 88, 96, 104, 108, 112, 120, 124].map some := rfl

/-- the members are contiguous -/
theorem prefixes (s : Spot F64) (i : ℕ) (hi : i < 20) :
    (((members s).take i).flatMap (fun p => bytesOf p.2)).length =
      [0, 8, 16, 20, 24, 32, 40, 48, 52, 56, 64, 72, 80, 88, 96, 104, 108, 112, 120, 124].getD i 0 := by
  have hl : ∀ v : Val, (bytesOf v).length = match v with | .double _ => 8 | .word _ => 4 := by
    intro v; cases v <;> exact leBytes_length _ _
  have hs : (members s).map (fun p => (bytesOf p.2).length) = [8, 8, 4, 4, 8, 8, 8, 4, 4, 8, 8, 8, 8, 8, 8, 4, 4, 8, 4, 4] := by
    simp only [hl]; rfl
  rw [List.length_flatMap, List.map_take, hs]
  revert i
  decide

theorem stores_image (s : Spot F64) : Stores (image s) 0 s := by
  intro path v hm o ho
  rw [Nat.zero_add]
  obtain ⟨i, hi, he⟩ := List.getElem_of_mem hm
  have hi20 : i < 20 := hi
  have hoff : o = [0, 8, 16, 20, 24, 32, 40, 48, 52, 56, 64, 72, 80, 88, 96, 104, 108, 112, 120, 124].getD i 0 := by
    have h1 : ((members s).map (fun p => SpotT.offset wasm32 p.1))[i]? = some (SpotT.offset wasm32 path) := by
      rw [List.getElem?_map, List.getElem?_eq_getElem hi, he]; rfl
    rw [offsets, ho] at h1
    revert h1
    clear he ho hm hi
    interval_cases i <;> · intro h1; simpa [eq_comm] using h1
  have hsplit : (members s).flatMap (fun p => bytesOf p.2) = ((members s).take i).flatMap (fun p => bytesOf p.2) ++
      (bytesOf v ++ ((members s).drop (i + 1)).flatMap (fun p => bytesOf p.2)) := by
    conv_lhs => rw [← List.take_append_drop i (members s)]
    rw [List.flatMap_append, List.drop_eq_getElem_cons hi, List.flatMap_cons, he]
  refine holds_bytes _ _ v _ rfl ?_
  rw [hoff, ← prefixes s i hi20]
  unfold image
  rw [hsplit]
  exact slice_image _ _ _ _ rfl

/-! ### the buffer of `fit` -/

theorem bufferOf_py (h : Heap F64) (x : Ptr) (n : ℕ) : bufferOf h x n = Py.bufferOf h x n := rfl

theorem setBytes_full (h : Heap F64) (p : ℕ) (d : Float64Array) (h0 : d.byteOffset = 0) (hl : d.buffer.length = d.length * 8) :
    setBytes h (some p) (d.length * 8) d.buffer = .ok (Function.update h p (some (d.toList.map some))) := by
  unfold setBytes Float64Array.toList
  simp only
  rw [if_neg (by omega), Nat.mul_div_cancel _ (by norm_num : 0 < 8)]
  congr 3
  rw [List.map_map]
  apply List.map_congr_left
  intro i hi
  rw [List.mem_range] at hi
  rw [if_pos (by omega), h0]
  simp

theorem toList_length (d : Float64Array) : d.toList.length = d.length := by simp [Float64Array.toList]

end Verif.Js

/-
The Python extension: the temporary buffer, independence of `spot_fit` from other blocks.
-/
import Verif.Model.Python
import Verif.Proofs.StepF64
import Verif.Proofs.Two

namespace Verif
variable {α : Type} [CDouble α]

/-- another block in the heap changes nothing to `spot_fit` -/
theorem fit_frame [CDoubleLaws α] {M : MathFns α} {h : Heap α} {s : Spot α} {a c p : ℕ} {xs : List α} (I : SpotInv h s a c xs)
    (hp : h p = none) (blk : List (Option α)) (data : List α) (size : UInt64) (hs : size.toNat ≤ data.length) :
    spot_fit M (Function.update h p (some blk)) s data size =
      (spot_fit M h s data size).map (fun r => (r.1, r.2.1, Function.update r.2.2 p (some blk))) ∧
    ∀ r, spot_fit M h s data size = .ok r → r.2.2 p = none := by
  have hne : p ≠ a := by
    rintro rfl
    rw [I.ring.cells] at hp
    cases hp
  have I' : SpotInv (Function.update h p (some blk)) s a c xs := by
    refine I.of_frame (b := p) (c' := blk.length) ⟨fun b hb => Function.update_of_ne hb _ _, blk, by simp, rfl⟩ hne.symm
  have f1 := fit_refines (M := M) I data size hs
  have f2 := fit_refines (M := M) I' data size hs
  cases hq : fitC M c s.core xs data size with
  | error e =>
    simp only [hq, Refines] at f1 f2
    rw [f1, f2]
    exact ⟨rfl, fun r hr => nomatch hr⟩
  | ok q =>
    obtain ⟨code, k, ys⟩ := q
    simp only [hq, Refines] at f1 f2
    obtain ⟨s1, h1, e1, c1, I1, F1⟩ := f1
    obtain ⟨s2, h2, e2, c2, I2, F2⟩ := f2
    obtain ⟨hu, hcell⟩ := I1.unique I2 (c1.trans c2.symm)
    rw [e1, e2, ← hu]
    refine ⟨?_, ?_⟩
    · simp only [Except.map]
      congr 3
      funext b
      by_cases hb : b = p
      · subst hb; rw [F2.1 b hne]; simp
      · rw [Function.update_of_ne hb]
        by_cases hba : b = a
        · subst hba; exact hcell.symm
        · rw [F2.1 b hba, F1.1 b hba, Function.update_of_ne hb]
    · rintro r hr
      cases hr
      exact (F1.1 p hne).trans hp

end Verif

namespace Verif.Py
open Verif F64

/-- `float(o)` is the double `v` -/
inductive HasFloat : Obj → F64 → Prop where
  | float (v : F64) : HasFloat (.float v) v
  | int (n : ℤ) (h : isFin (ofRat false n)) : HasFloat (.int n) (ofRat false n)

theorem HasFloat.asDouble {o : Obj} {v : F64} (hv : HasFloat o v) : PyFloat_AsDouble (some o) = (v, none) := by
  cases hv with
  | float => rfl
  | int n h =>
    unfold PyFloat_AsDouble
    cases hq : ofRat false n with
    | nan => rw [hq] at h; exact h.elim
    | inf s => rw [hq] at h; exact h.elim
    | fin s k => simp only [hq]

theorem copyLoop_prefix (items : List Obj) (vals : List F64) (hv : List.Forall₂ HasFloat items vals) (h : Heap F64) (p : ℕ)
    (n : ℕ) (hn : n ≤ items.length) :
    copyLoop (.list items) (some p) n (Function.update h p (some (List.replicate items.length none)), none) =
      .ok (Function.update h p (some ((vals.take n).map some ++ List.replicate (items.length - n) none)), none) := by
  have hl : items.length = vals.length := hv.length_eq
  induction n with
  | zero => simp [copyLoop]
  | succ n ih =>
    have ih := ih (by omega)
    unfold copyLoop at ih ⊢
    rw [List.range_succ, List.foldlM_append, ih, C.ok_bind]
    have hg : PyList_GetItem (.list items) n = some items[n] := by
      simp [PyList_GetItem]
    have hvn : HasFloat items[n] (vals[n]'(by omega)) := hv.get (by omega) (by omega)
    simp only [List.foldlM_cons, List.foldlM_nil, hg, hvn.asDouble, pend]
    unfold store
    simp only [Function.update_self]
    rw [if_pos (by simp; omega)]
    simp only [C.ok_bind, C.pure_eq, Function.update_idem]
    congr 4
    have e : items.length - n = (items.length - (n + 1)) + 1 := by omega
    rw [e, List.replicate_succ, List.set_append_right _ _ (by simp)]
    simp only [List.length_map, List.length_take, show min n vals.length = n by omega, Nat.sub_self, List.set_cons_zero]
    rw [List.take_add_one, List.getElem?_eq_getElem (by omega : n < vals.length), List.map_append, List.append_assoc]
    rfl

theorem bufferOf_eq (h : Heap F64) (p : ℕ) (vals : List F64) (n : ℕ) (hn : n ≤ vals.length)
    (hp : h p = some (vals.map some)) : bufferOf h (some p) n = .ok (vals.take n) := by
  unfold bufferOf
  induction n with
  | zero => rfl
  | succ n ih =>
    have hr : load h (some p) n = .ok vals[n] := by
      unfold load
      simp [hp, show n < vals.length by omega]
    rw [List.range_succ, List.mapM_append, ih (by omega), C.ok_bind, List.mapM_cons, hr]
    rw [List.take_add_one, List.getElem?_eq_getElem (by omega : n < vals.length)]
    rfl

theorem codeExc_eq {code : ℤ} (hc : code = 0 ∨ code = -1003 ∨ code = -1004) :
    ∃ e, codeExc code = .ok e ∧ (e = none ↔ code = 0) := by
  rcases hc with rfl | rfl | rfl
  · exact ⟨none, rfl, by simp⟩
  · have : (codeExc (-1003)).map Option.isSome = .ok true := by decide +kernel
    cases hx : codeExc (-1003) with
    | error e => rw [hx] at this; cases this
    | ok e =>
      rw [hx] at this
      refine ⟨e, rfl, ?_⟩
      cases e with
      | none => cases this
      | some e => simp
  · have : (codeExc (-1004)).map Option.isSome = .ok true := by decide +kernel
    cases hx : codeExc (-1004) with
    | error e => rw [hx] at this; cases this
    | ok e =>
      rw [hx] at this
      refine ⟨e, rfl, ?_⟩
      cases e with
      | none => cases this
      | some e => simp

end Verif.Py

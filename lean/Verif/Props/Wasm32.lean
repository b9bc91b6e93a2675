/-
C99: the arguments of the JavaScript constructor.
-/
import Verif.Model.Wasm32
import Verif.Props.Wasm

namespace Verif.Js
open Verif F64

/-- the JavaScript number `x` is the integer `n` -/
def Spec.IsInteger (x : F64) (n : ℤ) : Prop := isFin x ∧ toQ x = n

theorem trunc_integer {x : F64} {n : ℤ} (h : Spec.IsInteger x n) : trunc x = some n := by
  obtain ⟨h1, h2⟩ := h
  rcases x with _ | _ | ⟨_ | _, k⟩
  · exact h1.elim
  · exact h1.elim
  · have : mag k = n := h2
    show some (mag k).floor = some n
    rw [this, Rat.floor_intCast]
  · have : mag k = ((-n : ℤ) : ℚ) := by
      have : -mag k = n := h2
      push_cast; linarith
    show some (-(mag k).floor) = some n
    rw [this, Rat.floor_intCast, _root_.neg_neg]

theorem patch_capacity (s : Spot F64) (n : UInt64) (h : s.tail.peaks.container.capacity = n) :
    { s with tail := { s.tail with peaks := { s.tail.peaks with container := { s.tail.peaks.container with capacity := n } } } } = s := by
  subst h; rfl

/-- For integers, `new Spot({q, low, discardAnomalies, level, maxExcess})` initialises the library with exactly those values, provided
that the flags are integers of 32 bits and `1 ≤ maxExcess < 2^29`; an accepted detector keeps `maxExcess` excesses, in a block of that size.
Missing from the property: numbers that are not integers, and integers out of these ranges (`C99_false`). -/
theorem C99_partial (lib : Lib F64) (h : Heap F64) (g : Spot F64) (q level flow fdisc fme : F64) (low disc : ℤ) (me : ℕ)
    (hl : Spec.IsInteger flow low) (hd : Spec.IsInteger fdisc disc) (hm : Spec.IsInteger fme me)
    (hl' : -2 ^ 31 ≤ low ∧ low < 2 ^ 31) (hd' : -2 ^ 31 ≤ disc ∧ disc < 2 ^ 31) (hm1 : 1 ≤ me) (hm' : me < 2 ^ 29) :
    constructNumbers lib h g q flow fdisc level fme = construct lib h g q low disc level (UInt64.ofNat me) ∧
    ∀ s h1, constructNumbers lib h g q flow fdisc level fme = .ok (.value (), s, h1) →
      s.tail.peaks.container.capacity.toNat = me ∧ s.q = q ∧ s.level = level ∧ s.low = (if low ≠ 0 then 1 else 0) ∧
      s.discard_anomalies = (if disc ≠ 0 then 1 else 0) ∧
      ∃ a, s.tail.peaks.container.data = some a ∧ (h1 a).map List.length = some me := by
  have hconv : ∀ (f : F64) (n : ℤ), Spec.IsInteger f n → -2 ^ 31 ≤ n ∧ n < 2 ^ 31 → toInt32 f = n := by
    intro f n hf hn
    unfold toInt32 toUint32
    rw [trunc_integer hf]
    simp only
    split <;> omega
  have hme : toUint32 fme = me := by unfold toUint32; rw [trunc_integer hm]; simp only; omega
  have hblock : me * 8 % 2 ^ 32 / 8 = me := by omega
  have hn : (UInt64.ofNat me).toNat = me := by rw [UInt64.toNat_ofNat', Nat.mod_eq_of_lt (by omega)]
  have heq : spot_init32 lib h g q low disc level me = spot_init lib h g q low disc level (UInt64.ofNat me) := by
    unfold spot_init32
    simp only [hblock]
    split
    · next h0 =>
      obtain ⟨a, _, _, _, I⟩ := init_ok h0 (by omega) (by omega)
      rw [patch_capacity _ _ (UInt64.toNat_inj.mp (I.ring.cap.trans rfl)), ← h0]
    · rfl
  have hmain : constructNumbers lib h g q flow fdisc level fme = construct lib h g q low disc level (UInt64.ofNat me) := by
    unfold constructNumbers construct
    rw [hconv _ _ hl hl', hconv _ _ hd hd', hme, heq]
  refine ⟨hmain, fun s h1 hs => ?_⟩
  rw [hmain] at hs
  rcases construct_codes lib h g q level low disc (UInt64.ofNat me) with ⟨m, -, -, hc⟩ | ⟨h0, hc⟩
  · rw [hc] at hs; cases hs
  · rw [hc] at hs
    obtain ⟨a, _, _, hcore, I⟩ := init_ok h0 (by omega) (by omega)
    have hs2 : (spot_init lib h g q low disc level (UInt64.ofNat me)).2 = (s, h1) := (Prod.mk.inj (Except.ok.inj hs)).2
    rw [hs2] at I hcore
    refine ⟨I.ring.cap.trans hn, congrArg Core.q hcore, congrArg Core.level hcore, congrArg Core.low hcore, congrArg Core.discard hcore,
      a, I.ring.data, ?_⟩
    have hcells : h1 a = _ := I.ring.cells
    rw [hcells]
    have hsl : slots (UInt64.ofNat me).toNat ([] : List F64) = [] := rfl
    rw [hsl, hn]
    simp

/-- three excesses at most, lower tail -/
example : Spec.IsInteger (lit (-1)) (-1) ∧ Spec.IsInteger (lit 0) 0 ∧ Spec.IsInteger (lit 3) (3 : ℕ) ∧
    (constructNumbers Sample.lib Sample.emptyHeap Sample.zeroed (lit (1 / 1000)) (lit (-1)) (lit 0) (lit (98 / 100)) (lit 3)).map
      (fun r => (r.1, r.2.1.low, r.2.1.tail.peaks.container.capacity.toNat)) = .ok (.value (), 1, 3) := by
  refine ⟨⟨?_, ?_⟩, ⟨?_, ?_⟩, ⟨?_, ?_⟩, ?_⟩ <;> first | trivial | decide +kernel

/-- False of the code. `maxExcess = 2^29` is accepted although the block that is allocated is empty, `maxExcess = 1/2` although it is converted
to 0: the first fit writes out of bounds. `maxExcess = 2^32 + 3` gives a detector that keeps 3 excesses, `low = 1/2` one for the upper tail. -/
theorem C99_false :
    (∀ x ∈ [lit (2 ^ 29), lit (1 / 2)], Sample.errOf (do
      let r ← constructNumbers Sample.lib Sample.emptyHeap Sample.zeroed (lit (1 / 1000)) (lit 0) (lit 1) (lit (98 / 100)) x
      if r.1 = .value () then runOps (codeMath muslFU) r.2.2 r.2.1 [.fit [lit 1] 1] else .ok ([], r.2)) = some .outOfBounds) ∧
    (constructNumbers Sample.lib Sample.emptyHeap Sample.zeroed (lit (1 / 1000)) (lit (1 / 2)) (lit 1) (lit (98 / 100)) (lit (2 ^ 32 + 3))).map
      (fun r => (r.1, r.2.1.low, r.2.1.tail.peaks.container.capacity.toNat)) = .ok (.value (), 0, 3) := by
  decide +kernel

end Verif.Js

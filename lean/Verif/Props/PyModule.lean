/-
C112: importing the Python module, with failures inside of the interpreter
-/
import Verif.Model.PyModule
import Verif.Spec.Text
import Verif.Proofs.Text
import Verif.Props.PyRefs

namespace Verif.Py
open Verif Spec F64

/-! ### the contract of an import -/

/-- what a user of the module relies on: the names and their values (README and python/test) -/
structure Spec.Module (version : CStr) (m : Attrs) : Prop where
  version_text : m.get "__version__" = some (.text (version.take 63))
  normal : m.get "NORMAL" = some (.int 0)
  excess : m.get "EXCESS" = some (.int 1)
  anomaly : m.get "ANOMALY" = some (.int 2)
  spot : m.get "Spot" = some .spotType

/-- the whole contract: NULL exactly with an exception pending; NULL keeps no reference; a module is complete and the allocators are
registered -/
structure Spec.Import (version : CStr) (st : Interp) (r : Init) : Prop where
  null_iff : r.module = none ↔ r.st.err = true
  clean : r.module = none → r.st.live = st.live
  complete : ∀ m, r.module = some m → Spec.Module version m ∧ r.registered = true

/-- the bytes that the initialisation reads from its buffer, whatever was in it -/
theorem version_read (version : CStr) (junk : List UInt8) (hn : NoNul version) (hj : junk.length = 64) :
    (libspot_version version (some junk) 64).bind textOf = .ok (version.take 63) := by
  unfold libspot_version
  rw [strncpy_eq junk version 64 (by decide) (by rw [hj]; decide) hn]
  show textOf (some (stored version 64 junk)) = _
  have hz : (0 : UInt8) ∉ version.take 63 := fun h => hn 0 (List.mem_of_mem_take h) rfl
  have hl : (version.take 63).length ≤ 63 := by simp
  unfold textOf stored
  dsimp only
  obtain ⟨k, hk⟩ : ∃ k, 64 - (version.take 63).length = k + 1 := ⟨63 - (version.take 63).length, by omega⟩
  rw [show (64 : ℕ) - 1 = 63 from rfl, hk, List.replicate_succ, if_pos (by simp)]
  congr 1
  rw [List.append_assoc, List.takeWhile_append_of_pos (by
    intro a ha
    simp only [ne_eq, decide_not, Bool.not_eq_eq_eq_not, Bool.not_true, decide_eq_false_iff_not]
    exact fun e => hz (e ▸ ha))]
  simp

/-- the first part of the initialisation goes through: the type, its initialisation and the module object -/
theorem init_start (ok : ℕ → Bool) (version : CStr) (junk : List UInt8) (st : Interp) (hn : NoNul version) (hj : junk.length = 64)
    (h0 : ok st.clock = true) (h1 : ok (st.clock + 1) = true) (h2 : ok (st.clock + 2) = true) :
    PyInit_libspot ok version junk st =
      let c := addConstants ok (version.take 63) { live := st.live + 3, clock := st.clock + 3, err := st.err }
      .ok (if c.1 then ⟨some (addObject ok c.2.1 "Spot" .spotType c.2.2).2.1, (addObject ok c.2.1 "Spot" .spotType c.2.2).2.2, true⟩
        else ⟨none, c.2.2, false⟩) := by
  have hv := version_read version junk hn hj
  unfold PyInit_libspot
  simp only [create, attempt, h0, h1, h2, if_true]
  obtain ⟨b, hb, ht⟩ : ∃ b, libspot_version version (some junk) 64 = .ok b ∧ textOf b = .ok (version.take 63) := by
    cases hb : libspot_version version (some junk) 64 with
    | error e => rw [hb] at hv; cases hv
    | ok b => rw [hb] at hv; exact ⟨b, rfl, hv⟩
  rw [hb, C.ok_bind, ht, C.ok_bind]
  rw [show st.live + 1 + 1 + 1 = st.live + 3 by ring]
  split <;> rfl

/-- the constants: all of them, or a failure with an exception and without a reference kept by the failed request -/
theorem constants_spec (ok : ℕ → Bool) (text : List UInt8) (st : Interp) :
    (((addConstants ok text st).1 = true ∧ (∀ i < 8, ok (st.clock + i) = true) ∧ (addConstants ok text st).2.2 = { live := st.live + 4, clock := st.clock + 8, err := st.err }) ∨
      ((addConstants ok text st).1 = false ∧ ¬ (∀ i < 8, ok (st.clock + i) = true) ∧ (addConstants ok text st).2.2.err = true ∧
        st.live ≤ (addConstants ok text st).2.2.live)) ∧
    ((addConstants ok text st).1 = true → (addConstants ok text st).2.1 =
      [("__version__", .text text), ("NORMAL", .int 0), ("EXCESS", .int 1), ("ANOMALY", .int 2)]) := by
  have all (P : ℕ → Prop) : (∀ i < 8, P i) ↔ P 0 ∧ P 1 ∧ P 2 ∧ P 3 ∧ P 4 ∧ P 5 ∧ P 6 ∧ P 7 := by
    constructor
    · intro h
      exact ⟨h 0 (by omega), h 1 (by omega), h 2 (by omega), h 3 (by omega), h 4 (by omega), h 5 (by omega), h 6 (by omega), h 7 (by omega)⟩
    · rintro ⟨a, b, c, d, e, f, g, k⟩ i hi
      rcases i with _ | _ | _ | _ | _ | _ | _ | _ | i <;> first | assumption | omega
  rw [all]
  unfold addConstants addConstant create attempt
  cases a0 : ok st.clock
  · simp
  cases a1 : ok (st.clock + 1)
  · simp [a1, Interp.release]
  cases a2 : ok (st.clock + 2)
  · simp [a1, a2]
  cases a3 : ok (st.clock + 3)
  · simp [a1, a2, a3, Interp.release]
  cases a4 : ok (st.clock + 4)
  · simp [a1, a2, a3, a4]
    omega
  cases a5 : ok (st.clock + 5)
  · simp [a1, a2, a3, a4, a5, Interp.release]
    omega
  cases a6 : ok (st.clock + 6)
  · simp [a1, a2, a3, a4, a5, a6]
    omega
  cases a7 : ok (st.clock + 7)
  · simp [a1, a2, a3, a4, a5, a6, a7, Interp.release]
    omega
  simp [a1, a2, a3, a4, a5, a6, a7, NORMAL, EXCESS, ANOMALY]
  ring

/-- **C112_partial.** Whatever request to the interpreter fails after the creation of the type: the import has no undefined behaviour; NULL is
returned only with an exception pending and without registering an allocator; a module that is returned has the version (at most
63 bytes of it) and the three constants, the allocators are registered, and unless an exception is pending it has the type too. When no
request fails the import succeeds. Missing with respect to `Spec.Import`: the failure of the first request, NULL without references left
behind, and a module without exception in the case that the type cannot be added (C112_false). -/
theorem C112_partial (ok : ℕ → Bool) (version : CStr) (junk : List UInt8) (st : Interp) (hn : NoNul version) (hj : junk.length = 64)
    (hst : st.err = false) (h0 : ok st.clock = true) :
    ∃ r, PyInit_libspot ok version junk st = .ok r ∧
      (r.module = none → r.st.err = true ∧ r.registered = false) ∧
      (∀ m, r.module = some m → r.registered = true ∧ m.get "__version__" = some (.text (version.take 63)) ∧
        m.get "NORMAL" = some (.int 0) ∧ m.get "EXCESS" = some (.int 1) ∧ m.get "ANOMALY" = some (.int 2) ∧
        (r.st.err = false → Spec.Module version m)) ∧
      ((∀ i, ok i = true) → Spec.Import version st r ∧ r.module ≠ none) := by
  cases h1 : ok (st.clock + 1)
  · refine ⟨⟨none, ⟨st.live + 1, st.clock + 2, true⟩, false⟩, ?_, by simp, by simp, fun h => by rw [h] at h1; cases h1⟩
    unfold PyInit_libspot
    simp [create, attempt, h0, h1]
  cases h2 : ok (st.clock + 2)
  · refine ⟨⟨none, ⟨st.live + 1, st.clock + 3, true⟩, false⟩, ?_, by simp, by simp, fun h => by rw [h] at h2; cases h2⟩
    unfold PyInit_libspot
    simp [create, attempt, h0, h1, h2]
  refine ⟨_, init_start ok version junk st hn hj h0 h1 h2, ?_⟩
  obtain ⟨hc, ha⟩ := constants_spec ok (version.take 63) { live := st.live + 3, clock := st.clock + 3, err := st.err }
  generalize addConstants ok (version.take 63) { live := st.live + 3, clock := st.clock + 3, err := st.err } = c at hc ha ⊢
  rcases hc with ⟨c1, -, c3⟩ | ⟨c1, c2, c3, -⟩
  · rw [if_pos c1, ha c1, c3]
    refine ⟨by simp, ?_, ?_⟩
    · intro m hm
      unfold addObject attempt at hm ⊢
      cases h11 : ok (st.clock + 3 + 8)
      · simp only [h11] at hm ⊢
        simp at hm
        subst hm
        exact ⟨trivial, rfl, rfl, rfl, rfl, by simp⟩
      · simp only [h11] at hm ⊢
        simp at hm
        subst hm
        exact ⟨trivial, rfl, rfl, rfl, rfl, fun _ => ⟨rfl, rfl, rfl, rfl, rfl⟩⟩
    · intro h
      unfold addObject attempt
      simp only [h, if_true]
      refine ⟨⟨by simp [hst], by simp, ?_⟩, by simp⟩
      intro m hm
      simp at hm
      subst hm
      exact ⟨⟨rfl, rfl, rfl, rfl, rfl⟩, rfl⟩
  · rw [if_neg (by rw [c1]; decide)]
    exact ⟨fun _ => ⟨c3, rfl⟩, by simp, fun h => absurd (fun i _ => h _) c2⟩

/-- the hypotheses are met: a fresh interpreter in which nothing fails, and one in which the sixth request fails -/
example : NoNul (cstr "2.0b4") ∧ (List.replicate 64 (7 : UInt8)).length = 64 ∧ (fun i => decide (i ≠ 5)) 0 = true ∧
    (∃ r, PyInit_libspot (fun _ => true) (cstr "2.0b4") (List.replicate 64 7) ⟨0, 0, false⟩ = .ok r ∧
      (r.module.bind fun m => m.get "ANOMALY") = some (.int 2)) := by
  refine ⟨by decide +kernel, by decide, by decide, ?_⟩
  obtain ⟨r, h, -, hm, hs⟩ := C112_partial (fun _ => true) (cstr "2.0b4") (List.replicate 64 7) ⟨0, 0, false⟩ (by decide +kernel) (by decide) rfl rfl
  refine ⟨r, h, ?_⟩
  obtain ⟨-, hne⟩ := hs (fun _ => rfl)
  cases hr : r.module with
  | none => exact absurd hr hne
  | some m => exact (hm m hr).2.2.2.2.1

/-- **C112_false.** The full contract fails in three ways: when the type cannot be created NULL is passed on and read; when any later request
but the last fails, NULL is returned and references to the type are left behind; when the type cannot be added to the
module, the module is returned without it and with an exception pending. -/
theorem C112_false (version : CStr) (junk : List UInt8) (st : Interp) (hn : NoNul version) (hj : junk.length = 64) :
    (∀ ok : ℕ → Bool, ok st.clock = false → PyInit_libspot ok version junk st = .error .badPointer) ∧
    (∀ ok : ℕ → Bool, ok st.clock = true → (∃ i, 1 ≤ i ∧ i < 11 ∧ ok (st.clock + i) = false) →
      ∃ r, PyInit_libspot ok version junk st = .ok r ∧ r.module = none ∧ st.live < r.st.live) ∧
    (∀ ok : ℕ → Bool, (∀ i < 11, ok (st.clock + i) = true) → ok (st.clock + 11) = false →
      ∃ r m, PyInit_libspot ok version junk st = .ok r ∧ r.module = some m ∧ m.get "Spot" = none ∧ r.st.err = true) := by
  refine ⟨fun ok h => by unfold PyInit_libspot; simp [create, attempt, h], ?_, ?_⟩
  · rintro ok h0 ⟨i, hi1, hi2, hi⟩
    cases h1 : ok (st.clock + 1)
    · refine ⟨⟨none, ⟨st.live + 1, st.clock + 2, true⟩, false⟩, ?_, rfl, by simp⟩
      unfold PyInit_libspot
      simp [create, attempt, h0, h1]
    cases h2 : ok (st.clock + 2)
    · refine ⟨⟨none, ⟨st.live + 1, st.clock + 3, true⟩, false⟩, ?_, rfl, by simp⟩
      unfold PyInit_libspot
      simp [create, attempt, h0, h1, h2]
    refine ⟨_, init_start ok version junk st hn hj h0 h1 h2, ?_⟩
    obtain ⟨hc, -⟩ := constants_spec ok (version.take 63) { live := st.live + 3, clock := st.clock + 3, err := st.err }
    rcases hc with ⟨-, c2, -⟩ | ⟨c1, -, -, c4⟩
    · exfalso
      obtain ⟨j, rfl⟩ : ∃ j, i = 3 + j := by
        rcases i with _ | _ | _ | i
        · omega
        · rw [h1] at hi; cases hi
        · rw [h2] at hi; cases hi
        · exact ⟨i, by omega⟩
      have := c2 j (by omega)
      dsimp only at this
      rw [show st.clock + 3 + j = st.clock + (3 + j) by omega, hi] at this
      cases this
    · rw [if_neg (by rw [c1]; decide)]
      exact ⟨rfl, by dsimp only at c4 ⊢; omega⟩
  · intro ok h h11
    have e := init_start ok version junk st hn hj (h 0 (by omega)) (h 1 (by omega)) (h 2 (by omega))
    obtain ⟨hc, ha⟩ := constants_spec ok (version.take 63) { live := st.live + 3, clock := st.clock + 3, err := st.err }
    rcases hc with ⟨c1, -, c3⟩ | ⟨-, c2, -⟩
    · have h11' : ok (st.clock + 3 + 8) = false := h11
      dsimp only at e
      rw [if_pos c1, ha c1, c3] at e
      unfold addObject attempt at e
      simp only [h11'] at e
      exact ⟨_, _, e, rfl, rfl, rfl⟩
    · refine absurd (fun i hi => ?_) c2
      have := h (3 + i) (by omega)
      rwa [← Nat.add_assoc] at this

/-- the three ways can occur: the first request fails; the sixth; the twelfth -/
example : (decide (0 ≠ 0)) = false ∧ (∃ i, 1 ≤ i ∧ i < 11 ∧ decide (i ≠ 5) = false) ∧
    (∀ i < 11, decide (i ≠ 11) = true) ∧ decide (11 ≠ 11) = false := by
  refine ⟨by decide, ⟨5, by decide, by decide, by decide⟩, by decide, by decide⟩

end Verif.Py

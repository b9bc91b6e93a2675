/-
C142: the JavaScript binding when memory runs out.
-/
import Verif.Model.WasmAlloc
import Verif.Props.Wasm

namespace Verif.Js
open Verif F64

namespace Spec

/-- the parameters that `spot_init` accepts (C01; a NaN is not out of bounds) -/
def Accepted (q level : F64) : Prop := ¬ ((level <. lit 0) = true ∨ (lit 1 <=. level) = true) ∧ ¬ ((lit 1 -. level <=. q) = true ∨ (q <=. lit 0) = true)

/-- an exception without its message -/
def silent {β : Type} : Outcome β → Outcome β
  | .value v => .value v
  | .throw _ => .throw []

end Spec

/-- C142 as stated is false: the requests of the binding itself are not tested. If the structure is refused, the constructor writes through a null
pointer for all accepted parameters; for all other parameters it throws, and the finalizer reads through the null pointer. If the copy of the data is refused, `fit`
writes through a null pointer, for every detector and every array that is not empty. -/
theorem C142_false :
    (∀ (text : Bool) (lib : Lib F64) (h : Heap F64) (q level : F64) (low disc : ℤ) (me : UInt64), Spec.Accepted q level →
      constructAt text lib h none q low disc level me = .error .badPointer) ∧
    (∀ (lib : Lib F64) (h : Heap F64) (q level : F64) (low disc : ℤ) (me : UInt64), ¬ Spec.Accepted q level →
      ∃ msg, constructAt true lib h none q low disc level me = .ok (.throw msg, none, h) ∧ finalizeAt lib h none = .error .badPointer) ∧
    ∀ (text : Bool) (M : MathFns F64) (m : MallocFn F64) (h : Heap F64) (self : Spot F64) (data : Float64Array), data.buffer.length ≠ 0 →
      m h (UInt64.ofNat (data.length * 8)) = none → fitAt text M m h self data = .error .badPointer := by
  refine ⟨?_, ?_, ?_⟩
  · intro text lib h q level low disc me ⟨a, b⟩
    unfold constructAt initAt
    dsimp only
    rw [if_neg (by simpa using a), if_neg (by simpa using b)]
    rfl
  · intro lib h q level low disc me ha
    have e1 : libspotError 1001 = .ok (cstr "The level parameter is out of bounds (it must be between 0 and 1, but close to 1)") := by
      decide +kernel
    have e2 : libspotError 1002 = .ok (cstr "The q parameter must between 0 and 1-level") := by decide +kernel
    unfold constructAt initAt
    dsimp only
    by_cases a : (level <. lit 0 || level >=. lit 1) = true
    · rw [if_pos a]
      refine ⟨cstr "The level parameter is out of bounds (it must be between 0 and 1, but close to 1)", ?_, rfl⟩
      rw [C.ok_bind]
      dsimp only
      rw [if_pos (by decide)]
      unfold errorText
      rw [if_pos rfl, show (- -ERR_LEVEL_OUT_OF_BOUNDS : ℤ) = 1001 from rfl, e1, C.ok_bind]
    · rw [if_neg a]
      have b : (q >=. (lit 1 -. level) || q <=. lit 0) = true := by
        by_contra b
        exact ha ⟨by simpa using a, by simpa using b⟩
      rw [if_pos b]
      refine ⟨cstr "The q parameter must between 0 and 1-level", ?_, rfl⟩
      rw [C.ok_bind]
      dsimp only
      rw [if_pos (by decide)]
      unfold errorText
      rw [if_pos rfl, show (- -ERR_Q_OUT_OF_BOUNDS : ℤ) = 1002 from rfl, e2, C.ok_bind]
  · intro text M m h self data hd hm
    unfold fitAt cmalloc setBytes
    simp only [hm]
    rw [if_neg hd]
    rfl

/-- `libspotError` never fails when its buffer is granted -/
theorem libspotError_ok (code : ℤ) : ∃ msg, libspotError code = .ok msg := by
  unfold libspotError
  obtain ⟨-, -, e⟩ := C48_text [] (by simp [Verif.Spec.NoNul]) (List.replicate 256 0) 256 (by decide) (List.length_replicate ..).symm.le
  rcases e code.toNat with e | ⟨m, -, e⟩ <;> exact ⟨_, by rw [e, C.ok_bind]⟩

theorem errorText_false (code : ℤ) : errorText false code = .ok [] := by
  unfold errorText
  rw [if_neg (by simp), (C48_null [] 256 code.toNat).2.2, C.ok_bind]
  decide +kernel

/-- **C142** (partial). When the structure is granted, a refusal of the block of the excesses is reported by an exception, leaves the memory as it was, and the
finalizer can run; the message is "Memory allocation failed", or nothing if the text buffer is refused too. With a text buffer the constructor, `fit` and `step` are those of C62, C71 and C72;
without one they do the same, the exceptions they throw have no message. Missing: the structure and the copy of the data (`C142_false`). -/
theorem C142_partial :
    (∀ (text : Bool) (lib : Lib F64) (h : Heap F64) (g : Spot F64) (q level : F64) (low disc : ℤ) (me : UInt64), Spec.Accepted q level →
      (lib.malloc = none ∨ ∃ m, lib.malloc = some m ∧ m h (me * 8) = none) →
      ∃ s, constructAt text lib h (some g) q low disc level me = .ok (.throw (if text then cstr "Memory allocation failed" else []), some s, h) ∧
        finalizeAt lib h (some s) = .ok h) ∧
    (∀ (lib : Lib F64) (h : Heap F64) (g : Spot F64) (q level : F64) (low disc : ℤ) (me : UInt64),
      constructAt true lib h (some g) q low disc level me = (construct lib h g q low disc level me).map (fun r => (r.1, some r.2.1, r.2.2)) ∧
      constructAt false lib h (some g) q low disc level me = (construct lib h g q low disc level me).map (fun r => (Spec.silent r.1, some r.2.1, r.2.2))) ∧
    (∀ (M : MathFns F64) (m : MallocFn F64) (h : Heap F64) (self : Spot F64) (data : Float64Array), fitAt true M m h self data = fit M m h self data ∧
      fitAt false M m h self data = (fit M m h self data).map (fun r => (Spec.silent r.1, r.2))) ∧
    ∀ (M : MathFns F64) (h : Heap F64) (self : Spot F64) (x : F64), stepAt true M h self x = step M h self x ∧
      stepAt false M h self x = (step M h self x).map (fun r => (Spec.silent r.1, r.2)) := by
  have eq : ∀ (lib : Lib F64) (h : Heap F64) (g : Spot F64) (q level : F64) (low disc : ℤ) (me : UInt64),
      constructAt true lib h (some g) q low disc level me = (construct lib h g q low disc level me).map (fun r => (r.1, some r.2.1, r.2.2)) ∧
      constructAt false lib h (some g) q low disc level me = (construct lib h g q low disc level me).map (fun r => (Spec.silent r.1, some r.2.1, r.2.2)) := by
    intro lib h g q level low disc me
    unfold constructAt initAt construct
    dsimp only
    rw [C.ok_bind, C.ok_bind]
    obtain ⟨msg, hmsg⟩ := libspotError_ok (-(spot_init lib h g q low disc level me).1)
    split
    · rw [errorText_false, show errorText true (-(spot_init lib h g q low disc level me).1) = libspotError (-(spot_init lib h g q low disc level me).1) from rfl, hmsg]
      exact ⟨rfl, rfl⟩
    · exact ⟨rfl, rfl⟩
  refine ⟨?_, eq, ?_, ?_⟩
  · intro text lib h g q level low disc me ⟨a, b⟩ hm
    have hx : xmalloc lib h (me * 8) = (none, h) := by
      unfold xmalloc
      rcases hm with hm | ⟨m, hm, hn⟩
      · rw [hm]
      · simp only [hm, hn]
        split <;> rfl
    have hi : (spot_init lib h g q low disc level me).1 = -1000 := by
      unfold spot_init
      rw [if_neg (by simpa using a), if_neg (by simpa using b)]
      unfold tail_init peaks_init ubend_init
      simp only [hx]
      rfl
    have e0 : libspotError 1000 = .ok (cstr "Memory allocation failed") := by decide +kernel
    rcases Py.init_codes lib h g q level low disc me with g0 | ⟨-, gh, gs⟩ | ⟨g0 | g0, -⟩
    · rw [hi] at g0; cases g0
    · refine ⟨(spot_init lib h g q low disc level me).2.1, ?_, ?_⟩
      · have hc : construct lib h g q low disc level me = .ok (.throw (cstr "Memory allocation failed"), (spot_init lib h g q low disc level me).2.1, h) := by
          unfold construct
          simp only [hi]
          rw [if_pos (by decide)]
          change (libspotError 1000 >>= _ : C _) = _
          rw [e0]
          change Except.ok (_, _, (spot_init lib h g q low disc level me).2.2) = _
          rw [gh]
        cases text with
        | false => rw [(eq ..).2, hc]; rfl
        | true => rw [(eq ..).1, hc]; rfl
      · obtain ⟨s'', hs⟩ := free_null (lib := lib) (h := h) gs
        unfold finalizeAt finalize
        dsimp only
        rw [hs]
        rfl
    · rw [hi] at g0; cases g0
    · rw [hi] at g0; cases g0
  · intro M m h self data
    refine ⟨rfl, ?_⟩
    unfold fitAt fit
    dsimp only
    cases setBytes (cmalloc m h (UInt64.ofNat (data.length * 8))).2 (cmalloc m h (UInt64.ofNat (data.length * 8))).1 (data.length * 8) data.buffer with
    | error e => rfl
    | ok h1 =>
      rw [C.ok_bind, C.ok_bind]
      cases bufferOf h1 (cmalloc m h (UInt64.ofNat (data.length * 8))).1 data.length with
      | error e => rfl
      | ok b =>
        rw [C.ok_bind, C.ok_bind]
        cases spot_fit M h1 self b (UInt64.ofNat data.length) with
        | error e => rfl
        | ok r =>
          rw [C.ok_bind, C.ok_bind]
          obtain ⟨msg, hmsg⟩ := libspotError_ok (-r.1)
          split
          · rw [errorText_false, hmsg]
            rfl
          · cases cfree r.2.2 (cmalloc m h (UInt64.ofNat (data.length * 8))).1 <;> rfl
  · intro M h self x
    refine ⟨rfl, ?_⟩
    unfold stepAt step
    cases spot_step M h self x with
    | error e => rfl
    | ok r =>
      rw [C.ok_bind, C.ok_bind]
      obtain ⟨msg, hmsg⟩ := libspotError_ok (-r.1)
      split
      · rw [errorText_false, hmsg]
        rfl
      · rfl

/-- the cases of `C142_false` and `C142_partial` occur: accepted and refused parameters, an array that is not empty, a fit that fails, an allocator without memory -/
example : Spec.Accepted (lit (1 / 100)) (lit (9 / 10)) ∧ ¬ Spec.Accepted (lit 2) (lit (9 / 10)) ∧ Sample.array.buffer.length ≠ 0 ∧
    (∃ msg s' h', fitAt true (codeMath muslFU) (Sample.alloc F64) Sample.heap Sample.spot Sample.constant = .ok (.throw msg, s', h')) ∧
    (∃ v s' h', fitAt true (codeMath muslFU) (Sample.alloc F64) Sample.heap Sample.spot Sample.array = .ok (.value v, s', h')) ∧
    ∃ lib : Lib F64, ∃ m, lib.malloc = some m ∧ m Sample.emptyHeap (20 * 8) = none := by
  have e : ∀ d : Float64Array, fitAt true (codeMath muslFU) (Sample.alloc F64) Sample.heap Sample.spot d = fit (codeMath muslFU) (Sample.alloc F64) Sample.heap Sample.spot d := fun _ => rfl
  have ex : ∀ (d : Float64Array) (o : Outcome ℤ), (fit (codeMath muslFU) (Sample.alloc F64) Sample.heap Sample.spot d).map (·.1) = .ok o →
      ∃ s' h', fitAt true (codeMath muslFU) (Sample.alloc F64) Sample.heap Sample.spot d = .ok (o, s', h') := by
    intro d o a
    rw [e]
    cases hr : fit (codeMath muslFU) (Sample.alloc F64) Sample.heap Sample.spot d with
    | error _ => rw [hr] at a; cases a
    | ok r =>
      rw [hr] at a
      cases a
      exact ⟨_, _, rfl⟩
  refine ⟨by unfold Spec.Accepted; decide +kernel, by unfold Spec.Accepted; decide +kernel, by decide +kernel,
    ⟨cstr "The anomaly threshold has not been initialized", ex _ _ (by decide +kernel)⟩, ⟨0, ex _ _ (by decide +kernel)⟩,
    ⟨some fun _ _ => none, true, muslFU⟩, _, rfl, rfl⟩

end Verif.Js

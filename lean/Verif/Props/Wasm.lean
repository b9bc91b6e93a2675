/-
C62, C63, C71–C73: the JavaScript interface.
-/
import Verif.Proofs.Wasm
import Verif.Props.Python
import Verif.Props.Text
import Verif.Props.Init

namespace Verif.Js
open Verif F64

/-! ### C63 -/

/-- For every structure stored in memory with the C layout of wasm32, the accessors return its thresholds. -/
theorem C63_accessors (mem : Bytes) (ptr : ℕ) (s : Spot F64) (h : Stores mem ptr s) :
    anomaly_threshold mem ptr = s.anomaly_threshold ∧ excess_threshold mem ptr = s.excess_threshold := by
  have h1 := h ["anomaly_threshold"] (.double s.anomaly_threshold) (by simp [members]) 32 rfl
  have h2 := h ["excess_threshold"] (.double s.excess_threshold) (by simp [members]) 40 rfl
  unfold anomaly_threshold excess_threshold getFloat64
  rw [List.reverse_reverse, List.reverse_reverse]
  exact ⟨h1, h2⟩

/-- every structure can be stored: `image s` is such a memory -/
example (s : Spot F64) : ∃ mem, Stores mem 0 s := ⟨image s, stores_image s⟩

/-- through the image of a fitted detector -/
example : anomaly_threshold (image Sample.fitted) 0 = lit 5 ∧ excess_threshold (image Sample.fitted) 0 = lit 4 := by
  obtain ⟨h1, h2⟩ := C63_accessors _ _ _ (stores_image Sample.fitted)
  exact ⟨h1, h2⟩

/-- The structure takes 128 bytes (wasm/libspot.test.ts:22) and the pointer `container.data` is at 124: the table in the comment
wasm/index.ts:135-156, which puts it at 128, after a gap, is wrong. -/
theorem C63_layout : SpotT.layout wasm32 = (128, 8) ∧
    SpotT.offset wasm32 ["tail", "peaks", "container", "data"] = some 124 := ⟨rfl, rfl⟩

/-! ### C62 -/

/-- For an array that covers its whole buffer, on a reachable detector, with an allocator that provides the block: `fit` is exactly
`spot_fit` on the elements; if the code is not negative it is returned, and the temporary block is released, no other is touched. Missing:
views (`C62_false_view`), failed fits (`C62_false_leak`). -/
theorem C62_partial (lib : Lib F64) (q level : F64) (low disc : ℤ) (me : UInt64) (self : Spot F64) (h : Heap F64)
    (R : Reaches (codeMath lib.fu) lib q low disc level me self h) (m : MallocFn F64) (data : Float64Array)
    (hoff : data.byteOffset = 0) (hfull : data.buffer.length = data.length * 8) (hlen : data.length < 2 ^ 61)
    (p : ℕ) (hm : m h (UInt64.ofNat (data.length * 8)) = some p) (hfresh : h p = none) :
    (∀ e, spot_fit (codeMath lib.fu) h self data.toList (UInt64.ofNat data.length) = .error e →
      fit (codeMath lib.fu) m h self data = .error e) ∧
    (∀ code s' h', spot_fit (codeMath lib.fu) h self data.toList (UInt64.ofNat data.length) = .ok (code, s', h') → 0 ≤ code →
      fit (codeMath lib.fu) m h self data = .ok (.value code, s', h')) ∧
    ∀ code s' h', spot_fit (codeMath lib.fu) h self data.toList (UInt64.ofNat data.length) = .ok (code, s', h') → code < 0 →
      ∃ msg, Spec.message (-code).toNat = some msg ∧ fit (codeMath lib.fu) m h self data =
        .ok (.throw (cstr msg), s', Function.update h' p (some (data.toList.map some))) := by
  obtain ⟨a, xs, I, _⟩ := R.inv
  have hl := toList_length data
  have hsz : (UInt64.ofNat data.length).toNat = data.length := by
    rw [UInt64.toNat_ofNat', Nat.mod_eq_of_lt (by omega)]
  obtain ⟨g1, g2⟩ := fit_frame (M := codeMath lib.fu) I hfresh (data.toList.map some) data.toList (UInt64.ofNat data.length)
    (by omega)
  have hbuf : bufferOf (Function.update h p (some (data.toList.map some))) (some p) data.length = .ok data.toList := by
    rw [bufferOf_py, Py.bufferOf_eq _ p data.toList data.length (by omega) (by simp), ← hl, List.take_length]
  have hmain : fit (codeMath lib.fu) m h self data = (do
      let r ← (spot_fit (codeMath lib.fu) h self data.toList (UInt64.ofNat data.length)).map
        (fun r => (r.1, r.2.1, Function.update r.2.2 p (some (data.toList.map some))))
      if r.1 < 0 then do
        let msg ← libspotError (-r.1)
        .ok (.throw msg, r.2.1, r.2.2)
      else do
        let h ← cfree r.2.2 (some p)
        .ok (.value r.1, r.2.1, h)) := by
    unfold fit cmalloc
    simp only [hm]
    rw [setBytes_full _ p data hoff hfull, C.ok_bind, Function.update_idem, hbuf, C.ok_bind, g1]
  refine ⟨fun e he => by rw [hmain, he]; rfl, fun code s' h' hfit hc => ?_, fun code s' h' hfit hc => ?_⟩
  · have hp := g2 _ hfit
    rw [hmain, hfit]
    simp only [Except.map, C.ok_bind]
    rw [if_neg (by omega)]
    have hcf : cfree (Function.update h' p (some (data.toList.map some))) (some p) = .ok h' := by
      unfold cfree xfree
      simp only [if_true, Function.update_self, Function.update_idem]
      congr 1
      rw [← hp]
      exact Function.update_eq_self p h'
    rw [hcf, C.ok_bind]
  · have hcode : code = -1003 ∨ code = -1004 := by
      obtain ⟨et, _, hc'⟩ := fit_cases I (by omega) hfit
      rcases hc' with ⟨_, h3, _⟩ | ⟨_, _, _, _, h3⟩
      · left; exact h3
      · split at h3
        · right; exact h3
        · omega
    have hmsg : ∃ msg, Spec.message (-code).toNat = some msg ∧ libspotError (-code) = .ok (cstr msg) := by
      rcases hcode with rfl | rfl
      · exact ⟨"The excess threshold has not been initialized", rfl, by decide +kernel⟩
      · exact ⟨"The anomaly threshold has not been initialized", rfl, by decide +kernel⟩
    obtain ⟨msg, hm1, hmsg⟩ := hmsg
    refine ⟨msg, hm1, ?_⟩
    rw [hmain, hfit]
    simp only [Except.map, C.ok_bind]
    rw [if_pos hc, hmsg, C.ok_bind]

/-- bytes of an array of doubles -/
def bytesOfList (l : List F64) : List UInt8 := l.flatMap (fun v => leBytes 8 (toBits v).toNat)

/-- five doubles in a buffer of their own -/
def Sample.array : Float64Array := ⟨bytesOfList [lit 1, lit 2, lit 3, lit 4, lit 5], 0, 5, by decide, by decide +kernel⟩

/-- the hypotheses are met (with `Py.sample_reached`), and the fit gives what C gives -/
example : Sample.array.buffer.length = Sample.array.length * 8 ∧ Sample.array.toList = [lit 1, lit 2, lit 3, lit 4, lit 5] ∧
    (fit (codeMath muslFU) (Sample.alloc F64) Sample.heap Sample.spot Sample.array).map
      (fun r => (r.1, r.2.1.excess_threshold, r.2.1.Nt, (r.2.2 8192).isSome)) = .ok (.value 0, lit 3, 2, false) := by
  decide +kernel

/-- False of the code: any array that does not cover the whole of its buffer (a subarray for instance) makes `fit` write the whole buffer in
a block that is too small, whatever the detector. -/
theorem C62_false_view (M : MathFns F64) (m : MallocFn F64) (h : Heap F64) (self : Spot F64) (data : Float64Array)
    (hv : data.length * 8 < data.buffer.length) (p : ℕ) (hm : m h (UInt64.ofNat (data.length * 8)) = some p) :
    fit M m h self data = .error .outOfBounds := by
  unfold fit cmalloc
  simp only [hm]
  unfold setBytes
  simp only
  rw [if_pos hv]
  rfl

/-- the same buffer, without the first element -/
def Sample.view : Float64Array := ⟨Sample.array.buffer, 8, 4, by decide, by decide +kernel⟩

example : Sample.view.length * 8 < Sample.view.buffer.length ∧ Sample.view.toList = [lit 2, lit 3, lit 4, lit 5] := by decide +kernel

/-- False of the code: when the fit fails, the exception leaves before the temporary block is released. -/
theorem C62_false_leak (lib : Lib F64) (q level : F64) (low disc : ℤ) (me : UInt64) (self : Spot F64) (h : Heap F64)
    (R : Reaches (codeMath lib.fu) lib q low disc level me self h) (m : MallocFn F64) (data : Float64Array)
    (hoff : data.byteOffset = 0) (hfull : data.buffer.length = data.length * 8) (hlen : data.length < 2 ^ 61)
    (p : ℕ) (hm : m h (UInt64.ofNat (data.length * 8)) = some p) (hfresh : h p = none) (code : ℤ) (s' : Spot F64) (h' : Heap F64)
    (hfit : spot_fit (codeMath lib.fu) h self data.toList (UInt64.ofNat data.length) = .ok (code, s', h')) (hc : code < 0) :
    ∃ msg h'', fit (codeMath lib.fu) m h self data = .ok (.throw msg, s', h'') ∧ h'' p ≠ none := by
  obtain ⟨msg, -, hf⟩ := (C62_partial lib q level low disc me self h R m data hoff hfull hlen p hm hfresh).2.2 code s' h' hfit hc
  exact ⟨_, _, hf, by simp⟩

/-- five equal data: the fit fails, the block at 8192 stays -/
def Sample.constant : Float64Array := ⟨bytesOfList [lit 1, lit 1, lit 1, lit 1, lit 1], 0, 5, by decide, by decide +kernel⟩

example : (fit (codeMath muslFU) (Sample.alloc F64) Sample.heap Sample.spot Sample.constant).map
      (fun r => (r.1, (r.2.2 8192).isSome)) = .ok (.throw (cstr "The anomaly threshold has not been initialized"), true) := by
  decide +kernel

/-! ### C71 -/

theorem construct_codes (lib : Lib F64) (h : Heap F64) (g : Spot F64) (q level : F64) (low disc : ℤ) (me : UInt64) :
    (∃ m, Spec.message (-(spot_init lib h g q low disc level me).1).toNat = some m ∧ (spot_init lib h g q low disc level me).1 < 0 ∧
      construct lib h g q low disc level me = .ok (.throw (cstr m), (spot_init lib h g q low disc level me).2)) ∨
    ((spot_init lib h g q low disc level me).1 = 0 ∧
      construct lib h g q low disc level me = .ok (.value (), (spot_init lib h g q low disc level me).2)) := by
  have e0 : libspotError 1000 = .ok (cstr "Memory allocation failed") := by decide +kernel
  have e1 : libspotError 1001 = .ok (cstr "The level parameter is out of bounds (it must be between 0 and 1, but close to 1)") := by
    decide +kernel
  have e2 : libspotError 1002 = .ok (cstr "The q parameter must between 0 and 1-level") := by decide +kernel
  unfold construct
  rcases Py.init_codes lib h g q level low disc me with g0 | ⟨g0, -, -⟩ | ⟨g0 | g0, -⟩
  · right
    refine ⟨g0, ?_⟩
    simp only [g0]
    rw [if_neg (by decide)]
  · left
    refine ⟨_, by rw [g0]; rfl, by rw [g0]; decide, ?_⟩
    simp only [g0]
    rw [if_pos (by decide)]
    simp only [_root_.neg_neg, e0, C.ok_bind]
  · left
    refine ⟨_, by rw [g0]; rfl, by rw [g0]; decide, ?_⟩
    simp only [g0]
    rw [if_pos (by decide)]
    simp only [_root_.neg_neg, e1, C.ok_bind]
  · left
    refine ⟨_, by rw [g0]; rfl, by rw [g0]; decide, ?_⟩
    simp only [g0]
    rw [if_pos (by decide)]
    simp only [_root_.neg_neg, e2, C.ok_bind]

/-- A constructed object (1 ≤ maxExcess < 2^61) can be finalized after any history, and everything it allocated is released. A constructor
that throws because the allocation failed leaves an object that can be finalized. Missing: a constructor that throws because of its
parameters (`C71_false`). -/
theorem C71_partial (lib : Lib F64) (hm : MallocOK lib) (hf : lib.freeSet = true) (h : Heap F64) (g : Spot F64)
    (q level : F64) (low disc : ℤ) (me : UInt64) (h1 : 1 ≤ me.toNat) (h2 : me.toNat < 2 ^ 61) :
    (∀ s h1, construct lib h g q low disc level me = .ok (.value (), s, h1) → ∀ ops outs s' h', (∀ op ∈ ops, op.valid) →
      runOps (codeMath lib.fu) h1 s ops = .ok (outs, s', h') → ∃ s'', finalize lib h' s' = .ok (s'', h)) ∧
    (∀ s h1, construct lib h g q low disc level me = .ok (.throw (cstr "Memory allocation failed"), s, h1) →
      ∃ s'', finalize lib h1 s = .ok (s'', h)) := by
  constructor
  · intro s h1' hcon ops outs s' h' hv hrun
    rcases construct_codes lib h g q level low disc me with ⟨m, -, -, hc⟩ | ⟨h0, hc⟩
    · rw [hc] at hcon; cases hcon
    · rw [hc] at hcon
      simp only [Except.ok.injEq, Prod.mk.injEq, true_and] at hcon
      rw [Prod.ext_iff] at hcon
      obtain ⟨rfl, rfl⟩ := hcon
      obtain ⟨-, s'', hs, -⟩ := C07_free_releases lib h g q level low disc me h1 h2 hm hf _ rfl h0 ops hv outs s' h' hrun
      exact ⟨s'', hs⟩
  · intro s h1' hcon
    rcases construct_codes lib h g q level low disc me with ⟨m, hmsg, -, hc⟩ | ⟨h0, hc⟩
    · rw [hc] at hcon
      simp only [Except.ok.injEq, Prod.mk.injEq, Outcome.throw.injEq] at hcon
      obtain ⟨hm', hcon⟩ := hcon
      rw [Prod.ext_iff] at hcon
      obtain ⟨rfl, rfl⟩ := hcon
      rcases Py.init_codes lib h g q level low disc me with g0 | ⟨g0, gh, gs⟩ | ⟨g0 | g0, -⟩
      · rw [g0] at hmsg; cases hmsg
      · rw [gh]; exact free_null gs
      · rw [g0] at hmsg; cases hmsg; exact absurd hm' (by decide +kernel)
      · rw [g0] at hmsg; cases hmsg; exact absurd hm' (by decide +kernel)
    · rw [hc] at hcon; cases hcon

/-- the three outcomes of the constructor occur, and one is followed by a history (`Sample.ops_ok`) -/
example : (construct Sample.lib Sample.emptyHeap Sample.zeroed (lit (1 / 100)) 0 1 (lit (9 / 10)) 20).map (·.1) = .ok (.value ()) ∧
    (construct ⟨none, true, muslFU⟩ Sample.emptyHeap Sample.zeroed (lit (1 / 100)) 0 1 (lit (9 / 10)) 20).map (·.1) =
      .ok (.throw (cstr "Memory allocation failed")) ∧
    (construct Sample.lib Sample.emptyHeap Sample.zeroed (lit (1 / 2)) 0 1 (lit (9 / 10)) 20).map (·.1) =
      .ok (.throw (cstr "The q parameter must between 0 and 1-level")) ∧ MallocOK Sample.lib :=
  ⟨by decide +kernel, by decide +kernel, by decide +kernel, sample_mallocOK⟩

/-- False of the code: the finalizer is registered before `spot_init`, which leaves the memory of the structure as it found it when it
rejects the parameters. If that memory was used by a former detector, whose pointer `spot_free` does not reset, the finalizer of the new
object frees the buffer of the former one a second time. -/
theorem C71_false (lib : Lib F64) (hf : lib.freeSet = true) (h : Heap F64) (g : Spot F64)
    (q level : F64) (low disc : ℤ) (me : UInt64) (h1 : 1 ≤ me.toNat) (h2 : me.toNat < 2 ^ 61)
    (s1 : Spot F64) (hp1 : Heap F64) (hcon : construct lib h g q low disc level me = .ok (.value (), s1, hp1))
    (ops : List (Op F64)) (hv : ∀ op ∈ ops, op.valid) (outs : List (Out F64)) (s2 : Spot F64) (hp2 : Heap F64)
    (hrun : runOps (codeMath lib.fu) hp1 s1 ops = .ok (outs, s2, hp2)) :
    ∃ s3 hp3, finalize lib hp2 s2 = .ok (s3, hp3) ∧ ∀ q' level' low' disc' me',
      ((spot_init lib hp3 s3 q' low' disc' level' me').1 = -1001 ∨ (spot_init lib hp3 s3 q' low' disc' level' me').1 = -1002) →
      ∃ msg, construct lib hp3 s3 q' low' disc' level' me' = .ok (.throw msg, s3, hp3) ∧ finalize lib hp3 s3 = .error .badFree := by
  rcases construct_codes lib h g q level low disc me with ⟨m, -, -, hc⟩ | ⟨h0, hc⟩
  · rw [hc] at hcon; cases hcon
  · rw [hc] at hcon
    simp only [Except.ok.injEq, Prod.mk.injEq, true_and] at hcon
    rw [Prod.ext_iff] at hcon
    obtain ⟨rfl, rfl⟩ := hcon
    obtain ⟨a, _, _, _, I⟩ := init_ok h0 h1 h2
    obtain ⟨ys, _, I', _⟩ := run_iff I ops hv hrun
    refine ⟨_, _, free_inv I' hf, fun q' level' low' disc' me' hrej => ?_⟩
    have hbad := free_freed (lib := lib) (h := Function.update hp2 a none) (a := a) (s := ⟨cNAN, cNAN, -1, -1, cNAN, cNAN, cNAN, 0, 0,
      ⟨cNAN, cNAN, ⟨cNAN, cNAN, cNAN, cNAN, ⟨0, 0, cNAN, -1, some a⟩⟩⟩⟩) hf rfl (by simp)
    rcases construct_codes lib (Function.update hp2 a none) ⟨cNAN, cNAN, -1, -1, cNAN, cNAN, cNAN, 0, 0,
      ⟨cNAN, cNAN, ⟨cNAN, cNAN, cNAN, cNAN, ⟨0, 0, cNAN, -1, some a⟩⟩⟩⟩ q' level' low' disc' me' with ⟨m, -, -, hc'⟩ | ⟨h0', -⟩
    · refine ⟨cstr m, ?_, hbad⟩
      rw [hc', C03_rejected _ _ _ _ _ _ _ _ hrej]
    · rw [h0'] at hrej; simp at hrej

/-- the second constructor of this scenario: q = 1/2 is rejected for the level 9/10 -/
example (h : Heap F64) (s : Spot F64) : (spot_init Sample.lib h s (lit (1 / 2)) 0 1 (lit (9 / 10)) 20).1 = -1002 := by
  unfold spot_init
  rw [if_neg (by decide +kernel), if_pos (by decide +kernel)]
  rfl

/-! ### C72 -/

theorem error_1005 : libspotError 1005 = .ok [] := by decide +kernel

theorem step_throws (M : MathFns F64) (h : Heap F64) (self : Spot F64) (x : F64) (code : ℤ) (s' : Spot F64) (h' : Heap F64)
    (hs : spot_step M h self x = .ok (code, s', h')) (hc : code < 0) : code = -1005 := by
  rcases step_cases hs with ⟨_, hr, _⟩ | ⟨_, _, hr, _⟩ | ⟨_, _, _, hr, _⟩ | ⟨_, _, _, hr, _⟩
  · exact hr
  · rw [hr] at hc; exact absurd hc (by decide)
  · rw [hr] at hc; exact absurd hc (by decide)
  · rw [hr] at hc; exact absurd hc (by decide)

/-- False of the code: the error thrown by `step`, which happens exactly for NaN, has no message. -/
theorem C72_false (M : MathFns F64) (h : Heap F64) (self : Spot F64) :
    step M h self F64.nan = .ok (.throw [], self, h) ∧ Spec.message 1005 = some "The input data is NaN" := by
  refine ⟨?_, rfl⟩
  have hs : spot_step M h self F64.nan = .ok (-1005, self, h) := rfl
  unfold step
  rw [hs, C.ok_bind, if_pos (by norm_num)]
  simp only [_root_.neg_neg, error_1005, C.ok_bind]

/-- The constructor and `fit` throw exactly when the library returns a negative code, with the documented message of that code. Missing:
`step` (`C72_false`). -/
theorem C72_partial (lib : Lib F64) (h : Heap F64) (g : Spot F64) (q level : F64) (low disc : ℤ) (me : UInt64) :
    (((spot_init lib h g q low disc level me).1 < 0 ∧ ∃ m s' h', Spec.message (-(spot_init lib h g q low disc level me).1).toNat = some m ∧
        construct lib h g q low disc level me = .ok (.throw (cstr m), s', h')) ∨
      ((spot_init lib h g q low disc level me).1 = 0 ∧ ∃ s' h', construct lib h g q low disc level me = .ok (.value (), s', h'))) ∧
    ∀ (self : Spot F64) (h1 : Heap F64), Reaches (codeMath lib.fu) lib q low disc level me self h1 →
      ∀ (m : MallocFn F64) (data : Float64Array) (o : Outcome ℤ) (s' : Spot F64) (h' : Heap F64), data.byteOffset = 0 →
      data.buffer.length = data.length * 8 → data.length < 2 ^ 61 →
      (∃ p, m h1 (UInt64.ofNat (data.length * 8)) = some p ∧ h1 p = none) → fit (codeMath lib.fu) m h1 self data = .ok (o, s', h') →
      ∃ code s1 h2, spot_fit (codeMath lib.fu) h1 self data.toList (UInt64.ofNat data.length) = .ok (code, s1, h2) ∧
        ((0 ≤ code ∧ o = .value code) ∨ (code < 0 ∧ ∃ m, Spec.message (-code).toNat = some m ∧ o = .throw (cstr m))) := by
  constructor
  · rcases construct_codes lib h g q level low disc me with ⟨m, hm, hlt, hc⟩ | ⟨h0, hc⟩
    · exact .inl ⟨hlt, m, _, _, hm, hc⟩
    · exact .inr ⟨h0, _, _, hc⟩
  · intro self h1 R m data o s' h' hoff hfull hlen ⟨p, hm, hp⟩ hfit
    obtain ⟨c1, c2, c3⟩ := C62_partial lib q level low disc me self h1 R m data hoff hfull hlen p hm hp
    cases hr : spot_fit (codeMath lib.fu) h1 self data.toList (UInt64.ofNat data.length) with
    | error e => rw [c1 e hr] at hfit; cases hfit
    | ok r =>
      obtain ⟨code, s1, h2⟩ := r
      refine ⟨code, s1, h2, rfl, ?_⟩
      by_cases hc : code < 0
      · right
        obtain ⟨msg, hmsg, hf⟩ := c3 code s1 h2 hr hc
        rw [hf] at hfit
        simp only [Except.ok.injEq, Prod.mk.injEq] at hfit
        obtain ⟨rfl, -, -⟩ := hfit
        exact ⟨hc, msg, hmsg, rfl⟩
      · left
        rw [c2 code s1 h2 hr (by omega)] at hfit
        simp only [Except.ok.injEq, Prod.mk.injEq] at hfit
        exact ⟨by omega, hfit.1.symm⟩

example : (construct Sample.lib Sample.emptyHeap Sample.zeroed (lit (1 / 100)) 0 1 (lit 1) 20).map (·.1) =
    .ok (.throw (cstr "The level parameter is out of bounds (it must be between 0 and 1, but close to 1)")) := by decide +kernel

/-! ### C73 -/

theorem filter_noNul (l : List UInt8) (h : Spec.NoNul l) : l.filter (· ≠ 0) = l :=
  List.filter_eq_self.mpr (fun c hc => by simpa using h c hc)

/-- `libspotVersion()` returns the version string, for every version of at most 23 characters, whatever the content of the memory that
it gets. -/
theorem C73_version (version : CStr) (hv : Spec.NoNul version) (hl : version.length ≤ 23) (garbage : List UInt8)
    (hg : garbage.length = 24) : libspotVersion version garbage = .ok version := by
  obtain ⟨h1, -, -⟩ := C48_text version hv garbage 24 (by decide) (by rw [hg]; decide)
  unfold libspotVersion
  rw [h1, C.ok_bind]
  simp only
  congr 1
  unfold Spec.stored stringify
  rw [show (24 : UInt64).toNat = 24 from rfl]
  simp only
  rw [List.take_of_length_le (by omega : version.length ≤ 24 - 1), List.take_append_of_le_length (by simp; omega),
    List.take_of_length_le (by simp; omega), List.filter_append, filter_noNul _ hv]
  simp

/-- the version of the Makefile -/
example : Spec.NoNul (cstr "2.0b2") ∧ (cstr "2.0b2").length ≤ 23 ∧
    libspotVersion (cstr "2.0b2") (List.replicate 24 0x58) = .ok (cstr "2.0b2") := by decide +kernel

end Verif.Js

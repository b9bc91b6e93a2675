/-
C05–C10, C58: memory.
-/
import Verif.Proofs.Two
import Verif.Props.SampleRun

namespace Verif

/-- In all theorems of this file the detector is initialised with
`spot_init lib h s0 q low disc level me` (return code, structure, heap). -/
abbrev Init := ℤ × Spot F64 × Heap F64

/-! ### C05 -/

/-- After a successful `spot_init` with `1 ≤ max_excess < 2^61`, no sequence of calls (buffers passed to `spot_fit` having
at least the announced size) has an out-of-bounds access, an access through a bad pointer, a read of an uninitialised cell
or a bad free: the only undefined behaviour left is the conversion of a double to an integer in `xexp`. -/
theorem C05_memory_safe (lib : Lib F64) (h : Heap F64) (s0 : Spot F64) (q level : F64) (low disc : ℤ) (me : UInt64)
    (h1 : 1 ≤ me.toNat) (h2 : me.toNat < 2 ^ 61) (r : Init) (hr : r = spot_init lib h s0 q low disc level me)
    (h0 : r.1 = 0) (ops : List (Op F64)) (hv : ∀ op ∈ ops, op.valid) (e : UB)
    (he : runOps (codeMath lib.fu) r.2.2 r.2.1 ops = .error e) : e = .floatConv := by
  subst hr
  obtain ⟨a, _, _, _, I⟩ := init_ok h0 h1 h2
  have := run_refines (M := codeMath lib.fu) I ops hv
  cases hp : runC (codeMath lib.fu) me.toNat (spot_init lib h s0 q low disc level me).2.1.core [] ops with
  | error e' =>
    simp only [hp, RefinesO] at this
    rw [this] at he
    cases he
    exact runC_conv (codeMath_expConv lib.fu) _ ops hv _ hp
  | ok p =>
    simp only [hp, RefinesO] at this
    obtain ⟨s', h', e1, _⟩ := this
    rw [e1] at he; cases he

example : Sample.init.1 = 0 ∧ 1 ≤ (20 : UInt64).toNat ∧ (20 : UInt64).toNat < 2 ^ 61 := by decide +kernel
/-- a history with steps of each kind, a fit and queries; `Sample.ops_run` evaluates it -/
example : ∀ op ∈ Sample.ops, op.valid := Sample.ops_valid

/-! ### C06 -/

/-- C06 does not hold: with `max_excess = 0`, `spot_init` succeeds and `spot_fit` writes out of bounds. -/
theorem C06_false_zero :
    let r := spot_init Sample.lib Sample.emptyHeap Sample.zeroed (lit (1 / 100)) 0 1 (lit (9 / 10)) 0
    r.1 = 0 ∧ Sample.errOf (runOps (codeMath muslFU) r.2.2 r.2.1 [.fit [lit 1] 1]) = some .outOfBounds := by
  decide +kernel

/-- Same with `max_excess = 2^61`: the byte count `max_excess * 8` wraps to 0. -/
theorem C06_false_wrap :
    let r := spot_init Sample.lib Sample.emptyHeap Sample.zeroed (lit (1 / 100)) 0 1 (lit (9 / 10)) (2 ^ 61)
    r.1 = 0 ∧ Sample.errOf (runOps (codeMath muslFU) r.2.2 r.2.1 [.fit [lit 1] 1]) = some .outOfBounds := by
  decide +kernel

theorem C06_false : ¬ ∀ (lib : Lib F64) (h : Heap F64) (s0 : Spot F64) (q level : F64) (low disc : ℤ) (me : UInt64)
    (ops : List (Op F64)), (∀ op ∈ ops, op.valid) →
    (spot_init lib h s0 q low disc level me).1 = 0 →
    runOps (codeMath lib.fu) (spot_init lib h s0 q low disc level me).2.2
      (spot_init lib h s0 q low disc level me).2.1 ops ≠ .error .outOfBounds := by
  intro H
  have h1 := C06_false_zero
  refine H Sample.lib Sample.emptyHeap Sample.zeroed (lit (1 / 100)) (lit (9 / 10)) 0 1 0 [.fit [lit 1] 1] ?_ h1.1 ?_
  · intro op hop
    simp only [List.mem_singleton] at hop
    subst hop
    show (1 : UInt64).toNat ≤ 1
    decide
  · exact Sample.errOf_some h1.2

/-- What holds instead of C06: memory safety for `1 ≤ max_excess < 2^61`. Missing from C06: `max_excess = 0` and
`max_excess ≥ 2^61`, where it is false. -/
theorem C06_partial (lib : Lib F64) (h : Heap F64) (s0 : Spot F64) (q level : F64) (low disc : ℤ) (me : UInt64)
    (h1 : 1 ≤ me.toNat) (h2 : me.toNat < 2 ^ 61) (ops : List (Op F64)) (hv : ∀ op ∈ ops, op.valid)
    (h0 : (spot_init lib h s0 q low disc level me).1 = 0) :
    runOps (codeMath lib.fu) (spot_init lib h s0 q low disc level me).2.2
      (spot_init lib h s0 q low disc level me).2.1 ops ≠ .error .outOfBounds := by
  intro he
  have := C05_memory_safe lib h s0 q level low disc me h1 h2 _ rfl h0 ops hv _ he
  cases this

example : Sample.init.1 = 0 ∧ 1 ≤ (20 : UInt64).toNat ∧ (20 : UInt64).toNat < 2 ^ 61 := by decide +kernel

/-! ### C07 -/

/-- init, any history, free: the heap is exactly what it was before (the buffer is released, nothing else changed), and the
structure holds no usable value. -/
theorem C07_free_releases (lib : Lib F64) (h : Heap F64) (s0 : Spot F64) (q level : F64) (low disc : ℤ) (me : UInt64)
    (h1 : 1 ≤ me.toNat) (h2 : me.toNat < 2 ^ 61) (hm : MallocOK lib) (hf : lib.freeSet = true)
    (r : Init) (hr : r = spot_init lib h s0 q low disc level me) (h0 : r.1 = 0)
    (ops : List (Op F64)) (hv : ∀ op ∈ ops, op.valid) (outs : List (Out F64)) (s' : Spot F64) (h' : Heap F64)
    (hrun : runOps (codeMath lib.fu) r.2.2 r.2.1 ops = .ok (outs, s', h')) :
    (∃ a, h a = none ∧ (∃ cells, h' a = some cells) ∧ ∀ b, b ≠ a → h' b = h b) ∧
    ∃ s'', spot_free lib h' s' = .ok (s'', h) ∧
      s''.q = F64.nan ∧ s''.level = F64.nan ∧ s''.up_down = F64.nan ∧ s''.anomaly_threshold = F64.nan ∧
      s''.excess_threshold = F64.nan ∧ s''.Nt = 0 ∧ s''.n = 0 ∧ s''.tail.gamma = F64.nan ∧ s''.tail.sigma = F64.nan ∧
      s''.tail.peaks.e = F64.nan ∧ s''.tail.peaks.e2 = F64.nan ∧ s''.tail.peaks.min = F64.nan ∧
      s''.tail.peaks.max = F64.nan ∧ ubend_size s''.tail.peaks.container = 0 := by
  subst hr
  obtain ⟨a, ha, hh, _, I⟩ := init_ok h0 h1 h2
  obtain ⟨ys, _, I', fr⟩ := run_iff I ops hv hrun
  have hfree : h a = none := by
    unfold xmalloc at ha
    cases hm' : lib.malloc with
    | none => simp [hm'] at ha
    | some m =>
      simp only [hm'] at ha
      split at ha
      · simp at ha
      · cases hx : m h (me * 8) with
        | none => simp [hx] at ha
        | some b =>
          simp only [hx, Option.some.injEq] at ha
          subst ha
          exact hm m hm' h _ _ hx
  have hother : ∀ b, b ≠ a → h' b = h b := by
    intro b hb
    rw [fr.1 b hb, hh, Function.update_of_ne hb]
  obtain ⟨cells, hcells, _⟩ := fr.2
  have hheap : Function.update h' a none = h := by
    funext b
    by_cases hb : b = a
    · subst hb; rw [Function.update_self, hfree]
    · rw [Function.update_of_ne hb, hother b hb]
  have hspot := free_inv I' hf
  rw [hheap] at hspot
  refine ⟨⟨a, hfree, ⟨cells, hcells⟩, hother⟩, _, hspot, ?_⟩
  · have hn : (cNAN : F64) = F64.nan := by decide +kernel
    simp only [hn]
    exact ⟨trivial, trivial, trivial, trivial, trivial, trivial, trivial, trivial, trivial, trivial, trivial, trivial,
      trivial, rfl⟩

theorem sample_mallocOK : MallocOK Sample.lib := by
  intro m hm h n a ha
  simp only [Sample.lib, Option.some.injEq] at hm
  subst hm
  unfold Sample.alloc at ha
  split at ha
  · next h1 => cases ha; simpa using h1
  · split at ha
    · next h1 => cases ha; simpa using h1
    · cases ha

example : MallocOK Sample.lib ∧ Sample.lib.freeSet = true ∧ Sample.init.1 = 0 :=
  ⟨sample_mallocOK, rfl, by decide +kernel⟩
example : ∃ outs s' h', runOps (codeMath Sample.lib.fu) Sample.init.2.2 Sample.init.2.1 Sample.ops = .ok (outs, s', h') :=
  Sample.ops_ok

/-! ### C08 -/

/-- C08 does not hold: a second `spot_free` is always undefined behaviour (double free), after every history. -/
theorem C08_false (lib : Lib F64) (h : Heap F64) (s0 : Spot F64) (q level : F64) (low disc : ℤ) (me : UInt64)
    (h1 : 1 ≤ me.toNat) (h2 : me.toNat < 2 ^ 61) (hf : lib.freeSet = true)
    (r : Init) (hr : r = spot_init lib h s0 q low disc level me) (h0 : r.1 = 0)
    (ops : List (Op F64)) (hv : ∀ op ∈ ops, op.valid) (outs : List (Out F64)) (s' : Spot F64) (h' : Heap F64)
    (hrun : runOps (codeMath lib.fu) r.2.2 r.2.1 ops = .ok (outs, s', h'))
    (s'' : Spot F64) (h'' : Heap F64) (hfree : spot_free lib h' s' = .ok (s'', h'')) :
    spot_free lib h'' s'' = .error .badFree := by
  subst hr
  obtain ⟨a, ha, hh, _, I⟩ := init_ok h0 h1 h2
  obtain ⟨ys, _, I', fr⟩ := run_iff I ops hv hrun
  rw [free_inv I' hf] at hfree
  cases hfree
  exact free_freed hf rfl (Function.update_self ..)

/-- concrete double free: init, free, free -/
example : Sample.errOf (do
    let r ← spot_free Sample.lib Sample.heap Sample.spot
    spot_free Sample.lib r.2 r.1) = some .badFree := by decide +kernel

/-- What holds instead of C08: the first `spot_free` after a successful `spot_init` and any history is defined, and so is
`spot_free` after a `spot_init` rejected on a zero-initialised structure, after one that failed for lack of memory, or
without registered free function. Missing from C08: the second `spot_free`, where it is false. -/
theorem C08_partial (lib : Lib F64) (h : Heap F64) (s0 : Spot F64) (q level : F64) (low disc : ℤ) (me : UInt64)
    (r : Init) (hr : r = spot_init lib h s0 q low disc level me) :
    -- after a history
    (∀ (ops : List (Op F64)) (outs : List (Out F64)) (s' : Spot F64) (h' : Heap F64),
      1 ≤ me.toNat → me.toNat < 2 ^ 61 → r.1 = 0 → (∀ op ∈ ops, op.valid) →
      runOps (codeMath lib.fu) r.2.2 r.2.1 ops = .ok (outs, s', h') → ∃ x, spot_free lib h' s' = .ok x) ∧
    -- rejected on a structure with a null pointer
    (s0.tail.peaks.container.data = none → r.1 = -1001 ∨ r.1 = -1002 → ∃ x, spot_free lib r.2.2 r.2.1 = .ok x) ∧
    -- out of memory
    (r.1 = -1000 → ∃ x, spot_free lib r.2.2 r.2.1 = .ok x) ∧
    -- no free function
    (lib.freeSet = false → ∀ s' h', ∃ x, spot_free lib h' s' = .ok x) := by
  subst hr
  refine ⟨?_, ?_, ?_, ?_⟩
  · intro ops outs s' h' h1 h2 h0 hv hrun
    obtain ⟨a, ha, hh, _, I⟩ := init_ok h0 h1 h2
    obtain ⟨ys, _, I', fr⟩ := run_iff I ops hv hrun
    by_cases hf : lib.freeSet = true
    · exact ⟨_, free_inv I' hf⟩
    · obtain ⟨s'', hs⟩ := free_unset (lib := lib) (h := h') (s := s') (by simpa using hf)
      exact ⟨_, hs⟩
  · intro hd hr
    have : (spot_init lib h s0 q low disc level me).2 = (s0, h) := by
      by_cases h1 : (level <. lit 0 || level >=. lit 1) = true
      · unfold spot_init; rw [if_pos h1]
      · by_cases h2 : (q >=. (lit 1 -. level) || q <=. lit 0) = true
        · unfold spot_init; rw [if_neg h1, if_pos h2]
        · exfalso
          have hc : initChecks q level = true := by
            unfold initChecks
            simp only [Bool.not_eq_true] at h1 h2
            rw [h1, h2]; rfl
          obtain ⟨g1, g2⟩ := init_of_checks (lib := lib) (h := h) (s0 := s0) (low := low) (disc := disc) (me := me) hc
          cases hx : (xmalloc lib h (me * 8)).1 with
          | none => rw [(g1 hx).1] at hr; simp [ERR_MEMORY_ALLOCATION_FAILED] at hr
          | some a => rw [(g2 a hx).1] at hr; simp at hr
    rw [this]
    obtain ⟨s'', hs⟩ := free_null (lib := lib) (h := h) (s := s0) hd
    exact ⟨_, hs⟩
  · intro hr
    have hd : (spot_init lib h s0 q low disc level me).2.1.tail.peaks.container.data = none := by
      by_cases h1 : (level <. lit 0 || level >=. lit 1) = true
      · unfold spot_init at hr; rw [if_pos h1] at hr; simp [ERR_LEVEL_OUT_OF_BOUNDS] at hr
      · by_cases h2 : (q >=. (lit 1 -. level) || q <=. lit 0) = true
        · unfold spot_init at hr; rw [if_neg h1, if_pos h2] at hr; simp [ERR_Q_OUT_OF_BOUNDS] at hr
        · have hc : initChecks q level = true := by
            unfold initChecks
            simp only [Bool.not_eq_true] at h1 h2
            rw [h1, h2]; rfl
          obtain ⟨g1, g2⟩ := init_of_checks (lib := lib) (h := h) (s0 := s0) (low := low) (disc := disc) (me := me) hc
          cases hx : (xmalloc lib h (me * 8)).1 with
          | some a => rw [(g2 a hx).1] at hr; simp at hr
          | none =>
            unfold spot_init tail_init peaks_init ubend_init
            rw [if_neg h1, if_neg h2]
            have hm : -ERR_MEMORY_ALLOCATION_FAILED < 0 := by unfold ERR_MEMORY_ALLOCATION_FAILED; norm_num
            simp only [hx, Option.isSome_none, Bool.false_eq_true, if_false, hm, if_true]
    obtain ⟨s'', hs⟩ := free_null (lib := lib) (h := (spot_init lib h s0 q low disc level me).2.2) hd
    exact ⟨_, hs⟩
  · intro hf s' h'
    obtain ⟨s'', hs⟩ := free_unset (lib := lib) (h := h') (s := s') hf
    exact ⟨_, hs⟩

example : Sample.zeroed.tail.peaks.container.data = none := rfl
example : (spot_init Sample.lib Sample.emptyHeap Sample.zeroed (lit (1 / 2)) 0 1 (lit (9 / 10)) 20).1 = -1002 := by
  decide +kernel

/-! ### C09 -/

/-- An operation history on a detector changes no block but its own buffer. -/
theorem C09_frame (lib : Lib F64) (h : Heap F64) (s0 : Spot F64) (q level : F64) (low disc : ℤ) (me : UInt64)
    (h1 : 1 ≤ me.toNat) (h2 : me.toNat < 2 ^ 61) (r : Init) (hr : r = spot_init lib h s0 q low disc level me)
    (h0 : r.1 = 0) (ops : List (Op F64)) (hv : ∀ op ∈ ops, op.valid) (outs : List (Out F64)) (s' : Spot F64)
    (h' : Heap F64) (hrun : runOps (codeMath lib.fu) r.2.2 r.2.1 ops = .ok (outs, s', h')) :
    ∃ a, r.2.1.tail.peaks.container.data = some a ∧ ∀ b, b ≠ a → h' b = r.2.2 b := by
  subst hr
  obtain ⟨a, ha, hh, _, I⟩ := init_ok h0 h1 h2
  obtain ⟨ys, _, I', fr⟩ := run_iff I ops hv hrun
  exact ⟨a, I.ring.data, fr.1⟩

/-- Interleaving: two detectors initialised one after the other with a conforming malloc and then used in any interleaving
`prog`. The interleaved program runs without undefined behaviour iff both separate programs do; then each detector returns
the same values, and ends in the same state with the same buffer, as if the other one did not exist. The first one alone is
run from the heap before the second one is initialised. -/
theorem C09_no_interference (lib : Lib F64) (h : Heap F64) (s01 s02 : Spot F64) (q1 level1 q2 level2 : F64)
    (low1 disc1 low2 disc2 : ℤ) (me1 me2 : UInt64)
    (b1 : 1 ≤ me1.toNat) (b1' : me1.toNat < 2 ^ 61) (b2 : 1 ≤ me2.toNat) (b2' : me2.toNat < 2 ^ 61)
    (hm : MallocOK lib)
    (r1 : Init) (hr1 : r1 = spot_init lib h s01 q1 low1 disc1 level1 me1) (h01 : r1.1 = 0)
    (r2 : Init) (hr2 : r2 = spot_init lib r1.2.2 s02 q2 low2 disc2 level2 me2) (h02 : r2.1 = 0)
    (prog : List (Bool × Op F64)) (hv : ∀ p ∈ prog, p.2.valid) :
    (∀ o1 s1 h1 o2 s2 h2,
      runOps (codeMath lib.fu) r1.2.2 r1.2.1 (callsOf true prog) = .ok (o1, s1, h1) →
      runOps (codeMath lib.fu) r2.2.2 r2.2.1 (callsOf false prog) = .ok (o2, s2, h2) →
      ∃ h' a1 a2, runTwo (codeMath lib.fu) r2.2.2 r1.2.1 r2.2.1 prog = .ok ((o1, o2), s1, s2, h') ∧
        s1.tail.peaks.container.data = some a1 ∧ s2.tail.peaks.container.data = some a2 ∧ a1 ≠ a2 ∧
        h' a1 = h1 a1 ∧ h' a2 = h2 a2) ∧
    (∀ x, runTwo (codeMath lib.fu) r2.2.2 r1.2.1 r2.2.1 prog = .ok x →
      (∃ y, runOps (codeMath lib.fu) r1.2.2 r1.2.1 (callsOf true prog) = .ok y) ∧
      (∃ y, runOps (codeMath lib.fu) r2.2.2 r2.2.1 (callsOf false prog) = .ok y)) := by
  subst hr1
  obtain ⟨a1, ha1, hh1, _, I1⟩ := init_ok h01 b1 b1'
  subst hr2
  set r1 := spot_init lib h s01 q1 low1 disc1 level1 me1 with hr1
  obtain ⟨a2, ha2, hh2, _, I2⟩ := init_ok h02 b2 b2'
  have hfree : r1.2.2 a2 = none := by
    unfold xmalloc at ha2
    cases hm' : lib.malloc with
    | none => simp [hm'] at ha2
    | some m =>
      simp only [hm'] at ha2
      split at ha2
      · simp at ha2
      · cases hx : m r1.2.2 (me2 * 8) with
        | none => simp [hx] at ha2
        | some b =>
          simp only [hx, Option.some.injEq] at ha2
          subst ha2
          exact hm m hm' _ _ _ hx
  have hne : a1 ≠ a2 := by
    intro heq
    rw [← heq, hh1, Function.update_self] at hfree
    cases hfree
  set r2 := spot_init lib r1.2.2 s02 q2 low2 disc2 level2 me2 with hr2
  have I1' : SpotInv r2.2.2 r1.2.1 a1 me1.toNat [] := by
    refine I1.of_frame (b := a2) (c' := me2.toNat) ⟨?_, _, by rw [hh2, Function.update_self], by simp⟩ hne
    intro b hb
    rw [hh2, Function.update_of_ne hb]
  have hv1 : ∀ op ∈ callsOf true prog, op.valid := by
    intro op hop
    simp only [callsOf, List.mem_map, List.mem_filter] at hop
    obtain ⟨p, ⟨hp, _⟩, rfl⟩ := hop
    exact hv p hp
  have hv2 : ∀ op ∈ callsOf false prog, op.valid := by
    intro op hop
    simp only [callsOf, List.mem_map, List.mem_filter] at hop
    obtain ⟨p, ⟨hp, _⟩, rfl⟩ := hop
    exact hv p hp
  constructor
  · intro o1 s1 h1 o2 s2 h2 e1 e2
    obtain ⟨ys1, p1, J1, _⟩ := run_iff I1 _ hv1 e1
    obtain ⟨ys2, p2, J2, _⟩ := run_iff I2 _ hv2 e2
    obtain ⟨t1, t2, h', e, k1, k2, K1, K2⟩ := two_of_pure I1' I2 hne prog hv p1 p2
    obtain ⟨u1, u2⟩ := K1.unique J1 k1
    obtain ⟨w1, w2⟩ := K2.unique J2 k2
    subst u1 w1
    exact ⟨h', a1, a2, e, K1.ring.data, K2.ring.data, hne, u2, w2⟩
  · intro x hx
    obtain ⟨⟨p1, g1⟩, p2, g2⟩ := pure_of_two I1' I2 hne prog hv hx
    have k1 := run_refines (M := codeMath lib.fu) I1 _ hv1
    have k2 := run_refines (M := codeMath lib.fu) I2 _ hv2
    rw [g1] at k1
    rw [g2] at k2
    obtain ⟨s', h', e, _⟩ := k1
    obtain ⟨s'', h'', e', _⟩ := k2
    exact ⟨⟨_, e⟩, _, e'⟩

/-- two detectors of the sample allocator -/
example :
    let r2 := spot_init Sample.lib Sample.heap Sample.zeroed (lit (1 / 100)) 1 0 (lit (9 / 10)) 3
    MallocOK Sample.lib ∧ Sample.init.1 = 0 ∧ r2.1 = 0 ∧
      (runTwo (codeMath muslFU) r2.2.2 Sample.spot r2.2.1 [(true, .step (lit 1)), (false, .step (lit 2))]).isOk = true :=
  ⟨sample_mallocOK, by decide +kernel, by decide +kernel, by decide +kernel⟩

/-! ### C10 -/

/-- No call allocates or releases memory: every address holds a block of the same size before and after, and the
detector's own block has `max_excess` cells. -/
theorem C10_no_allocation (lib : Lib F64) (h : Heap F64) (s0 : Spot F64) (q level : F64) (low disc : ℤ) (me : UInt64)
    (h1 : 1 ≤ me.toNat) (h2 : me.toNat < 2 ^ 61) (r : Init) (hr : r = spot_init lib h s0 q low disc level me)
    (h0 : r.1 = 0) (ops : List (Op F64)) (hv : ∀ op ∈ ops, op.valid) (outs : List (Out F64)) (s' : Spot F64)
    (h' : Heap F64) (hrun : runOps (codeMath lib.fu) r.2.2 r.2.1 ops = .ok (outs, s', h')) :
    (∀ b, (h' b).map List.length = (r.2.2 b).map List.length) ∧
    ∃ a, s'.tail.peaks.container.data = some a ∧ (h' a).map List.length = some me.toNat := by
  subst hr
  obtain ⟨a, ha, hh, _, I⟩ := init_ok h0 h1 h2
  obtain ⟨ys, _, I', fr⟩ := run_iff I ops hv hrun
  obtain ⟨cells, hc, hl⟩ := fr.2
  refine ⟨fun b => ?_, a, I'.ring.data, by rw [hc]; simp [hl]⟩
  by_cases hb : b = a
  · subst hb
    rw [hc, hh, Function.update_self]
    simp [hl]
  · rw [fr.1 b hb]

example : Sample.init.1 = 0 := by decide +kernel
example : ∃ outs s' h', runOps (codeMath Sample.lib.fu) Sample.init.2.2 Sample.init.2.1 Sample.ops = .ok (outs, s', h') :=
  Sample.ops_ok

/-! ### C58 -/

/-- Same parameters and same calls give the same returned values and the same scalars, whatever the heap, the malloc function,
and the previous content of the structure. -/
theorem C58_address_independent (fu : FloatUtils F64) (m1 m2 : Option (MallocFn F64)) (f1 f2 : Bool)
    (h1 h2 : Heap F64) (s01 s02 : Spot F64) (q level : F64) (low disc : ℤ) (me : UInt64)
    (b1 : 1 ≤ me.toNat) (b2 : me.toNat < 2 ^ 61)
    (r1 : Init) (hr1 : r1 = spot_init ⟨m1, f1, fu⟩ h1 s01 q low disc level me) (h01 : r1.1 = 0)
    (r2 : Init) (hr2 : r2 = spot_init ⟨m2, f2, fu⟩ h2 s02 q low disc level me) (h02 : r2.1 = 0)
    (ops : List (Op F64)) (hv : ∀ op ∈ ops, op.valid) :
    let obs : List (Out F64) × Spot F64 × Heap F64 → List (Out F64) × F64 × F64 × UInt64 × UInt64 × F64 × F64 := fun x =>
      (x.1, x.2.1.anomaly_threshold, x.2.1.excess_threshold, x.2.1.Nt, x.2.1.n, x.2.1.tail.gamma, x.2.1.tail.sigma)
    (runOps (codeMath fu) r1.2.2 r1.2.1 ops).map obs = (runOps (codeMath fu) r2.2.2 r2.2.1 ops).map obs := by
  intro obs
  subst hr1 hr2
  obtain ⟨a1, _, _, k1, I1⟩ := init_ok h01 b1 b2
  obtain ⟨a2, _, _, k2, I2⟩ := init_ok h02 b1 b2
  have g1 := run_refines (M := codeMath fu) I1 ops hv
  have g2 := run_refines (M := codeMath fu) I2 ops hv
  rw [k1] at g1
  rw [k2] at g2
  cases hp : runC (codeMath fu) me.toNat (initCore q low disc level) [] ops with
  | error e =>
    simp only [hp, RefinesO] at g1 g2
    rw [g1, g2]
  | ok p =>
    obtain ⟨o, k, ys⟩ := p
    simp only [hp, RefinesO] at g1 g2
    obtain ⟨s1, h1', e1, c1, _⟩ := g1
    obtain ⟨s2, h2', e2, c2, _⟩ := g2
    rw [e1, e2]
    have hc : s1.core = s2.core := by rw [c1, c2]
    unfold Spot.core at hc
    simp only [Core.mk.injEq] at hc
    show Except.ok _ = Except.ok _
    congr 1
    simp only [obs, hc]

/-- a second environment: another allocator, another previous content -/
example : (spot_init ⟨some (fun _ _ => some 77), false, muslFU⟩ Sample.emptyHeap Sample.fitted (lit (1 / 100)) 0 1
    (lit (9 / 10)) 20).1 = 0 ∧ Sample.init.1 = 0 := by decide +kernel

end Verif

/-
C61, C68–C70: the Python extension.
-/
import Verif.Proofs.Python
import Verif.Props.Memory

namespace Verif.Py
open Verif F64

deriving instance DecidableEq for Ubend, Peaks, Tail, Spot

/-- a computation whose result has the decidable property `f` -/
theorem of_map {β γ : Type} {x : C β} {f : β → γ} {v : γ} (h : x.map f = .ok v) : ∃ r, x = .ok r ∧ f r = v := by
  cases x with
  | error e => cases h
  | ok r => exact ⟨r, rfl, Except.ok.inj h⟩

theorem ofInt_natCast (n : ℕ) : UInt64.ofInt (n : ℤ) = UInt64.ofNat n := by
  unfold UInt64.ofInt
  apply UInt64.toNat_inj.mp
  rw [UInt64.toNat_ofNat', UInt64.toNat_ofNat']
  omega

/-! ### C61 -/

/-- `fit` on a list of numbers, from the invariant of the detector -/
theorem fit_call (fu : FloatUtils F64) {self : Spot F64} {h : Heap F64} {a c : ℕ} {xs : List F64} (I : SpotInv h self a c xs) (m : MallocFn F64)
    (items : List Obj) (vals : List F64) (hv : List.Forall₂ HasFloat items vals) (hlen : items.length < 2 ^ 61)
    (p : ℕ) (hm : m h (UInt64.ofNat (8 * items.length)) = some p) (hfresh : h p = none)
    (data : Arg) (hd : data = .list items ∨ data = .iterable items) :
    (∀ e, spot_fit (codeMath fu) h self vals (UInt64.ofNat vals.length) = .error e →
      Spot_fit (codeMath fu) m h self data = .error e) ∧
    ∀ code s' h', spot_fit (codeMath fu) h self vals (UInt64.ofNat vals.length) = .ok (code, s', h') →
      ∃ exc, Spot_fit (codeMath fu) m h self data = .ok ⟨some (), exc, s', h'⟩ ∧ (exc = none ↔ code = 0) := by
  have hl : items.length = vals.length := hv.length_eq
  have hsz : (UInt64.ofNat vals.length).toNat = vals.length := by
    rw [UInt64.toNat_ofNat', Nat.mod_eq_of_lt (by omega)]
  have hseq : PySequence_Fast data = some (.list items) := by rcases hd with rfl | rfl <;> rfl
  have hofint : UInt64.ofInt (items.length : ℤ) = UInt64.ofNat vals.length := by
    rw [hl]; exact ofInt_natCast _
  have hmul : UInt64.ofNat vals.length * 8 = UInt64.ofNat (8 * items.length) := by
    apply UInt64.toNat_inj.mp
    rw [UInt64.toNat_mul, hsz, UInt64.toNat_ofNat', hl, Nat.mul_comm]
    rfl
  have hb : (UInt64.ofNat (8 * items.length)).toNat / 8 = items.length := by
    rw [UInt64.toNat_ofNat', Nat.mod_eq_of_lt (by omega)]; omega
  obtain ⟨g1, g2⟩ := fit_frame (M := codeMath fu) I hfresh (vals.map some) vals (UInt64.ofNat vals.length) (by omega)
  have hmain : Spot_fit (codeMath fu) m h self data = (do
      let r ← (spot_fit (codeMath fu) h self vals (UInt64.ofNat vals.length)).map
        (fun r => (r.1, r.2.1, Function.update r.2.2 p (some (vals.map some))))
      let h ← cfree r.2.2 (some p)
      let e ← codeExc r.1
      .ok ⟨some (), pend none e, r.2.1, h⟩) := by
    unfold Spot_fit
    rw [hseq]
    simp only [PyList_Size, hofint, hmul]
    unfold cmalloc
    simp only [hm, hb, hsz]
    rw [← hl, copyLoop_prefix items vals hv h p items.length le_rfl]
    simp only [C.ok_bind, Nat.sub_self, List.replicate_zero, List.append_nil]
    rw [hl, List.take_length, bufferOf_eq _ p vals vals.length le_rfl (by simp)]
    simp only [C.ok_bind, List.take_length]
    rw [g1]
  refine ⟨fun e he => by rw [hmain, he]; rfl, fun code s' h' hfit => ?_⟩
  have hp := g2 _ hfit
  have hcode : code = 0 ∨ code = -1003 ∨ code = -1004 := by
    obtain ⟨et, _, hc⟩ := fit_cases I (by omega) hfit
    rcases hc with ⟨_, h3, _⟩ | ⟨_, _, _, _, h3⟩
    · right; left; exact h3
    · split at h3
      · right; right; exact h3
      · left; exact h3
  obtain ⟨e, he, hiff⟩ := codeExc_eq hcode
  refine ⟨e, ?_, hiff⟩
  rw [hmain, hfit]
  simp only [Except.map, C.ok_bind]
  have hcf : cfree (Function.update h' p (some (vals.map some))) (some p) = .ok h' := by
    unfold cfree xfree
    simp only [if_true, Function.update_self, Function.update_idem]
    congr 1
    rw [← hp]
    exact Function.update_eq_self p h'
  rw [hcf]
  simp only [C.ok_bind, he, pend]
  cases e <;> rfl

/-- `fit` on a list, or on an iterable that is neither a list nor a tuple, of numbers: the call is exactly `spot_fit` on their
values; it returns None, with no exception pending if and only if the fit succeeded; the temporary buffer is released and no
other block is touched. Missing from the property: tuples (undefined behaviour), elements that are not numbers, and the
exception of a failed fit, which is not raised properly (`C61_false`). -/
theorem C61_partial (lib : Lib F64) (q level : F64) (low disc : ℤ) (me : UInt64) (self : Spot F64) (h : Heap F64)
    (R : Reaches (codeMath lib.fu) lib q low disc level me self h) (m : MallocFn F64)
    (items : List Obj) (vals : List F64) (hv : List.Forall₂ HasFloat items vals) (hlen : items.length < 2 ^ 61)
    (p : ℕ) (hm : m h (UInt64.ofNat (8 * items.length)) = some p) (hfresh : h p = none)
    (data : Arg) (hd : data = .list items ∨ data = .iterable items) :
    (∀ e, spot_fit (codeMath lib.fu) h self vals (UInt64.ofNat vals.length) = .error e →
      Spot_fit (codeMath lib.fu) m h self data = .error e) ∧
    ∀ code s' h', spot_fit (codeMath lib.fu) h self vals (UInt64.ofNat vals.length) = .ok (code, s', h') →
      ∃ exc, Spot_fit (codeMath lib.fu) m h self data = .ok ⟨some (), exc, s', h'⟩ ∧ (exc = none ↔ code = 0) := by
  obtain ⟨a, xs, I, _⟩ := R.inv
  exact fit_call lib.fu I m items vals hv hlen p hm hfresh data hd

/-- the sample detector, just initialised -/
theorem sample_reached : Reaches (codeMath Sample.lib.fu) Sample.lib (lit (1 / 100)) 0 1 (lit (9 / 10)) 20 Sample.spot Sample.heap :=
  ⟨by decide, by decide, Sample.emptyHeap, Sample.zeroed, by decide +kernel, [], [], by simp, rfl⟩

/-- the hypotheses are met: a reachable detector, an allocator that gives a fresh block, floats and integers -/
example : List.Forall₂ HasFloat [.float (lit (1 / 2)), .int (10 ^ 300)] [lit (1 / 2), ofRat false (10 ^ 300 : ℤ)] ∧
    Sample.alloc F64 Sample.heap (UInt64.ofNat (8 * 2)) = some 8192 ∧ Sample.heap 8192 = none :=
  ⟨.cons (.float _) (.cons (.int _ (by decide +kernel)) .nil), by decide +kernel, by decide +kernel⟩

/-- a fit on five numbers from Python: None, no exception, threshold 3, two excesses, the temporary buffer is gone -/
example : (Spot_fit (codeMath muslFU) (Sample.alloc F64) Sample.heap Sample.spot
      (.list [.int 1, .float (lit 2), .int 3, .int 4, .float (lit 5)])).map
      (fun r => (r.value.isSome, r.exc, r.self.excess_threshold, r.self.Nt, (r.heap 8192).isSome)) = .ok (true, none, lit 3, 2, false) := by
  decide +kernel

/-- the detector fitted on 1, 2, -1, 4, 5 -/
def Sample.odd : Spot F64 := match spot_fit (codeMath muslFU) Sample.heap Sample.spot
    [lit 1, lit 2, lit (-1), lit 4, lit 5] 5 with
  | .ok r => r.2.1
  | .error _ => Sample.zeroed

theorem range_succ_head (n : ℕ) : ∃ l, List.range (n + 1) = 0 :: l := ⟨_, List.range_succ_eq_map⟩

/-- False of the code. A tuple, of any content, makes `fit` write through a null pointer: `PyList_Size` fails with -1, which is
converted to the size 2^64 - 1, no allocator provides that block, and the result of `malloc` is not checked. A failed fit on a
list returns None while the exception is pending, which the interpreter does not accept (it reports a SystemError instead). An
element that is not a number is fitted as -1.0. -/
theorem C61_false :
    (∀ (M : MathFns F64) (m : MallocFn F64) (h : Heap F64) (self : Spot F64) (items : List Obj),
      m h (0 - 8) = none → Spot_fit M m h self (.tuple items) = .error .badPointer) ∧
    (∃ r, Spot_fit (codeMath muslFU) (Sample.alloc F64) Sample.heap Sample.spot (.list [.int 1, .int 1, .int 1, .int 1, .int 1]) = .ok r ∧ ¬ r.ok) ∧
    (∃ r r', Spot_fit (codeMath muslFU) (Sample.alloc F64) Sample.heap Sample.spot
        (.list [.int 1, .int 2, .other, .int 4, .int 5]) = .ok r ∧ ¬ r.ok ∧
      Spot_fit (codeMath muslFU) (Sample.alloc F64) Sample.heap Sample.spot
        (.list [.int 1, .int 2, .int (-1), .int 4, .int 5]) = .ok r' ∧ r'.ok ∧ r.self = r'.self) := by
  refine ⟨fun M m h self items hm => ?_, ?_, ?_⟩
  · unfold Spot_fit
    simp only [PySequence_Fast, PyList_Size]
    have e1 : UInt64.ofInt (-1) * 8 = 0 - 8 := by decide
    have e2 : (UInt64.ofInt (-1)).toNat = 18446744073709551614 + 1 := by decide
    unfold cmalloc
    rw [e1, hm, e2]
    unfold copyLoop
    obtain ⟨l, hl⟩ := range_succ_head 18446744073709551614
    rw [hl]
    rfl
  · obtain ⟨r, h1, h2⟩ := of_map (x := Spot_fit (codeMath muslFU) (Sample.alloc F64) Sample.heap Sample.spot
      (.list [.int 1, .int 1, .int 1, .int 1, .int 1])) (f := fun r => (r.value.isSome, r.exc.isSome)) (v := (true, true)) (by decide +kernel)
    refine ⟨r, h1, ?_⟩
    simp only [Prod.mk.injEq] at h2
    unfold Ret.ok
    cases hv : r.value <;> cases he : r.exc <;> simp_all
  · obtain ⟨r, h1, h2⟩ := of_map (x := Spot_fit (codeMath muslFU) (Sample.alloc F64) Sample.heap Sample.spot
      (.list [.int 1, .int 2, .other, .int 4, .int 5])) (f := fun r => (r.value.isSome, r.exc.isSome, r.self))
      (v := (true, true, Sample.odd)) (by decide +kernel)
    obtain ⟨r', h1', h2'⟩ := of_map (x := Spot_fit (codeMath muslFU) (Sample.alloc F64) Sample.heap Sample.spot
      (.list [.int 1, .int 2, .int (-1), .int 4, .int 5])) (f := fun r => (r.value.isSome, r.exc.isSome, r.self))
      (v := (true, false, Sample.odd)) (by decide +kernel)
    refine ⟨r, r', h1, ?_, h1', ?_, ?_⟩
    · simp only [Prod.mk.injEq] at h2
      unfold Ret.ok
      cases hv : r.value <;> cases he : r.exc <;> simp_all
    · simp only [Prod.mk.injEq] at h2'
      unfold Ret.ok
      cases hv : r'.value <;> cases he : r'.exc <;> simp_all
    · simp only [Prod.mk.injEq] at h2 h2'
      rw [h2.2.2, h2'.2.2]

/-! ### C68 -/

/-- For an argument that converts to the double `v`, `step`, `quantile` and `probability` are exactly the C functions on `v`: the
value is returned, no exception is pending. Missing: arguments that do not convert, and NaN for `step` (`C68_false`). -/
theorem C68_partial (M : MathFns F64) (h : Heap F64) (self : Spot F64) (o : Obj) (v : F64) (hv : HasFloat o v) :
    (∀ r, Spot_step M h self o = .ok r ↔
      ∃ code s' h', spot_step M h self v = .ok (code, s', h') ∧ r = ⟨some code, none, s', h'⟩) ∧
    (∀ r, Spot_quantile M h self o = .ok r ↔ ∃ z, spot_quantile M self v = .ok z ∧ r = ⟨some z, none, self, h⟩) ∧
    (∀ r, Spot_probability M h self o = .ok r ↔ ∃ z, spot_probability M self v = .ok z ∧ r = ⟨some z, none, self, h⟩) := by
  unfold Spot_step Spot_quantile Spot_probability
  simp only [hv.asDouble]
  refine ⟨fun r => ?_, fun r => ?_, fun r => ?_⟩
  · cases hs : spot_step M h self v with
    | error e => simp
    | ok p => obtain ⟨c, s', h'⟩ := p; simp [eq_comm]
  · cases hs : spot_quantile M self v with
    | error e => simp
    | ok z => simp [eq_comm]
  · cases hs : spot_probability M self v with
    | error e => simp
    | ok z => simp [eq_comm]

theorem no_float (n : ℤ) (hn : ¬ isFin (ofRat false n)) : ¬ ∃ v, HasFloat (.int n) v := by
  rintro ⟨v, hv⟩
  cases hv with
  | int _ h => exact hn h

/-- an integer too large for a double does not convert -/
example : HasFloat (.int (2 ^ 70)) (lit (2 ^ 70)) ∧ ¬ ∃ v, HasFloat (.int (2 ^ 256 * 2 ^ 256 * (2 ^ 256 * 2 ^ 256))) v := by
  constructor
  · have e : (lit (2 ^ 70) : F64) = ofRat false ((2 ^ 70 : ℤ) : ℚ) := by decide +kernel
    rw [e]
    exact .int _ (by decide +kernel)
  · exact no_float _ (by decide +kernel)

/-- False of the code: an argument that is not a number is processed as -1.0. Whatever the detector, if `step(-1.0)` is defined
then `step` of a string returns its code and leaves the detector it leaves, with a TypeError pending; `quantile` and `probability`
return a value with a TypeError pending. And `step(nan)` returns the code -1005 without an exception. -/
theorem C68_false (M : MathFns F64) (h : Heap F64) (self : Spot F64) :
    (∀ code s' h', spot_step M h self (lit (-1)) = .ok (code, s', h') →
      Spot_step M h self .other = .ok ⟨some code, some .typeError, s', h'⟩) ∧
    (∀ z, spot_quantile M self (lit (-1)) = .ok z → Spot_quantile M h self .other = .ok ⟨some z, some .typeError, self, h⟩) ∧
    (∀ z, spot_probability M self (lit (-1)) = .ok z →
      Spot_probability M h self .other = .ok ⟨some z, some .typeError, self, h⟩) ∧
    Spot_step M h self (.float F64.nan) = .ok ⟨some (-1005), none, self, h⟩ := by
  unfold Spot_step Spot_quantile Spot_probability
  refine ⟨fun code s' h' hs => ?_, fun z hz => ?_, fun z hz => ?_, rfl⟩
  · simp only [PyFloat_AsDouble, hs, C.ok_bind]
  · simp only [PyFloat_AsDouble, hz, C.ok_bind]
  · simp only [PyFloat_AsDouble, hz, C.ok_bind]

/-- the detector changes: on a fitted detector for the lower tail, `step("x")` counts one more observation -/
example : (Spot_step (codeMath muslFU) Sample.heap Sample.spot .other).map (fun r => (r.value, r.exc, r.self.n)) =
    .ok (some 0, some .typeError, 1) := by decide +kernel

/-! ### C69 -/

/-- the excess of an observation over the threshold, rounded to a double -/
def excessOf (low : ℤ) (et x : F64) : F64 := if low ≠ 0 then F64.neg (F64.sub x et) else F64.sub x et

/-- `Recorded … s h xs`: the detector `s` in heap `h` was initialised with these parameters and `xs` are the excesses recorded
since, oldest first: a fit that finds an excess threshold records the training values strictly beyond it, a step records its
observation if it returns EXCESS (1). -/
inductive Recorded (lib : Lib F64) (q : F64) (low disc : ℤ) (level : F64) (me : UInt64) : Spot F64 → Heap F64 → List F64 → Prop where
  | init (h0 : Heap F64) (s0 : Spot F64) (hi : (spot_init lib h0 s0 q low disc level me).1 = 0) :
      Recorded lib q low disc level me (spot_init lib h0 s0 q low disc level me).2.1
        (spot_init lib h0 s0 q low disc level me).2.2 []
  | fit {s h xs} (data : List F64) (size : UInt64) (hsz : size.toNat ≤ data.length) (code : ℤ) (s' : Spot F64) (h' : Heap F64) :
      Recorded lib q low disc level me s h xs → spot_fit (codeMath lib.fu) h s data size = .ok (code, s', h') →
      Recorded lib q low disc level me s' h'
        (if code = -1003 then xs else xs ++ Spec.excesses low s'.excess_threshold (data.take size.toNat))
  | step {s h xs} (x : F64) (code : ℤ) (s' : Spot F64) (h' : Heap F64) :
      Recorded lib q low disc level me s h xs → spot_step (codeMath lib.fu) h s x = .ok (code, s', h') →
      Recorded lib q low disc level me s' h' (if code = 1 then xs ++ [excessOf low s.excess_threshold x] else xs)

theorem Recorded.inv {lib : Lib F64} {q : F64} {low disc : ℤ} {level : F64} {me : UInt64} {s : Spot F64} {h : Heap F64}
    {xs : List F64} (h1 : 1 ≤ me.toNat) (h2 : me.toNat < 2 ^ 61) (R : Recorded lib q low disc level me s h xs) :
    ∃ a, SpotInv h s a me.toNat xs ∧ Params q level low disc s.core := by
  induction R with
  | init h0 s0 hi =>
    obtain ⟨a, _, _, hc, I⟩ := init_ok hi h1 h2
    refine ⟨a, I, ?_⟩
    rw [hc]
    exact ⟨rfl, rfl, rfl, rfl, rfl⟩
  | @fit s h xs data size hsz code s' h' _ hf ih =>
    obtain ⟨a, I, P⟩ := ih
    have P' : Params q level low disc s'.core := by
      have href := exec_refines (M := codeMath lib.fu) I (.fit data size) hsz
      cases hq : execC (codeMath lib.fu) me.toNat s.core xs (.fit data size) with
      | error e => simp only [hq, RefinesO, exec, hf, C.ok_bind] at href; cases href
      | ok p =>
        obtain ⟨o, k, ys⟩ := p
        simp only [hq, RefinesO, exec, hf, C.ok_bind, Except.ok.injEq, Prod.mk.injEq] at href
        obtain ⟨s1, h1, ⟨_, rfl, rfl⟩, e2, _⟩ := href
        rw [e2]
        exact execC_params P hq
    obtain ⟨et, _, hcase⟩ := fit_cases I hsz hf
    rcases hcase with ⟨_, hr, hs', hh⟩ | ⟨hn, ⟨t', hs1⟩, I', _, hr⟩
    · refine ⟨a, ?_, P'⟩
      rw [if_pos (by rw [hr]; rfl), hs', hh]
      exact I
    · refine ⟨a, ?_, P'⟩
      have hne : code ≠ -1003 := by
        rw [hr]; split <;> decide
      have hud : s.up_down = if low ≠ 0 then lit (-1) else lit 1 := P.pud
      have e1 : s'.excess_threshold = et := by rw [hs1]
      rw [if_neg hne, e1, ← fitExcesses_eq _ _ _ ((F64.is_nan_false et).mp hn), ← hud]
      exact I'
  | @step s h xs x code s' h' _ hs ih =>
    obtain ⟨a, I, P⟩ := ih
    have P' : Params q level low disc s'.core := by
      have href := exec_refines (M := codeMath lib.fu) I (.step x) trivial
      cases hq : execC (codeMath lib.fu) me.toNat s.core xs (.step x) with
      | error e => simp only [hq, RefinesO, exec, hs, C.ok_bind] at href; cases href
      | ok p =>
        obtain ⟨o, k, ys⟩ := p
        simp only [hq, RefinesO, exec, hs, C.ok_bind, Except.ok.injEq, Prod.mk.injEq] at href
        obtain ⟨s1, h1, ⟨_, rfl, rfl⟩, e2, _⟩ := href
        rw [e2]
        exact execC_params P hq
    refine ⟨a, ?_, P'⟩
    have href := step_refines (M := codeMath lib.fu) I x
    have hud : s.core.up_down = if low ≠ 0 then lit (-1) else lit 1 := P.pud
    have hex : s.core.up_down *. (x -. s.core.et) = excessOf low s.excess_threshold x := by
      rw [hud, ud_mul]; rfl
    unfold stepC at href
    rw [hs] at href
    split at href
    · obtain ⟨s1, h1, e1, _, I', _⟩ := href
      cases e1
      rw [if_neg (by decide)]; exact I'
    · split at href
      · obtain ⟨s1, h1, e1, _, I', _⟩ := href
        cases e1
        rw [if_neg (by decide)]; exact I'
      · simp only [hex] at href
        split at href
        · generalize quantileC (codeMath lib.fu) _ _ = Z at href
          cases Z with
          | error e => cases href
          | ok z =>
            obtain ⟨s1, h1, e1, _, I', _⟩ := href
            cases e1
            rw [if_pos (by decide)]; exact I'
        · obtain ⟨s1, h1, e1, _, I', _⟩ := href
          cases e1
          rw [if_neg (by decide)]; exact I'

/-- the list of the excesses, in the order of the slots of the buffer -/
theorem Recorded.excesses_eq {lib : Lib F64} {q : F64} {low disc : ℤ} {level : F64} {me : UInt64} {s : Spot F64} {h : Heap F64}
    {xs : List F64} (h1 : 1 ≤ me.toNat) (h2 : me.toNat < 2 ^ 61) (R : Recorded lib q low disc level me s h xs) :
    Spot_excesses h s = .ok (slots me.toNat xs) := by
  obtain ⟨a, I, _⟩ := R.inv h1 h2
  have hst := I.ring.stored
  unfold Spot_excesses to_python_list
  have hsz : (if s.tail.peaks.container.filled ≠ 0 then s.tail.peaks.container.capacity else s.tail.peaks.container.cursor).toNat =
      (slots me.toNat xs).length := hst.size
  simp only
  rw [hsz]
  unfold bufferOf
  have hgen : ∀ n, n ≤ (slots me.toNat xs).length →
      (List.range n).mapM (load h s.tail.peaks.container.data) = .ok ((slots me.toNat xs).take n) := by
    intro n hn
    induction n with
    | zero => rfl
    | succ n ih =>
      rw [List.range_succ, List.mapM_append, ih (by omega), C.ok_bind, List.mapM_cons, hst.read n (by omega)]
      rw [List.take_add_one, List.getElem?_eq_getElem (by omega : n < (slots me.toNat xs).length)]
      rfl
  rw [hgen _ le_rfl, List.take_length]

/-- `excesses()` has no undefined behaviour on a detector in use, and returns the last `max_excess` excesses recorded (all of them
if there are fewer), in some order. -/
theorem C69_excesses (lib : Lib F64) (q : F64) (low disc : ℤ) (level : F64) (me : UInt64) (s : Spot F64) (h : Heap F64)
    (xs : List F64) (h1 : 1 ≤ me.toNat) (h2 : me.toNat < 2 ^ 61) (R : Recorded lib q low disc level me s h xs) :
    ∃ l, Spot_excesses h s = .ok l ∧ l.Perm (Spec.lastN me.toNat xs) := by
  exact ⟨slots me.toNat xs, R.excesses_eq h1 h2, slots_perm h1 xs⟩

/-- a detector of capacity 3, fitted on seven data (four excesses), then a step that records another one -/
def Sample.small : C (List F64 × ℤ × List F64) := do
  let r := spot_init Sample.lib Sample.emptyHeap Sample.zeroed (lit (1 / 100)) 0 0 (lit (9 / 10)) 3
  let f ← spot_fit (codeMath muslFU) r.2.2 r.2.1 Sample.data 7
  let l ← Spot_excesses f.2.2 f.2.1
  let t ← spot_step (codeMath muslFU) f.2.2 f.2.1 (lit 9)
  let l' ← Spot_excesses t.2.2 t.2.1
  .ok (l, t.1, l')

example : Sample.small = .ok ([lit 8, lit 2, lit 4], 1, [lit 8, lit 6, lit 4]) := by decide +kernel

example : (spot_init Sample.lib Sample.emptyHeap Sample.zeroed (lit (1 / 100)) 0 0 (lit (9 / 10)) 3).1 = 0 := by decide +kernel

/-! ### C70 -/

theorem init_codes (lib : Lib F64) (h : Heap F64) (s0 : Spot F64) (q level : F64) (low disc : ℤ) (me : UInt64) :
    (spot_init lib h s0 q low disc level me).1 = 0 ∨
    ((spot_init lib h s0 q low disc level me).1 = -1000 ∧ (spot_init lib h s0 q low disc level me).2.2 = h ∧
      (spot_init lib h s0 q low disc level me).2.1.tail.peaks.container.data = none) ∨
    (((spot_init lib h s0 q low disc level me).1 = -1001 ∨ (spot_init lib h s0 q low disc level me).1 = -1002) ∧
      (spot_init lib h s0 q low disc level me).2 = (s0, h)) := by
  by_cases h1 : (level <. lit 0 || level >=. lit 1) = true
  · right; right; unfold spot_init; rw [if_pos h1]; exact ⟨.inl rfl, rfl⟩
  · by_cases h2 : (q >=. (lit 1 -. level) || q <=. lit 0) = true
    · right; right; unfold spot_init; rw [if_neg h1, if_pos h2]; exact ⟨.inr rfl, rfl⟩
    · have hc : initChecks q level = true := by
        unfold initChecks
        simp only [Bool.not_eq_true] at h1 h2
        rw [h1, h2]; rfl
      obtain ⟨g1, g2⟩ := init_of_checks (lib := lib) (h := h) (s0 := s0) (low := low) (disc := disc) (me := me) hc
      cases hx : (xmalloc lib h (me * 8)).1 with
      | some a => left; exact (g2 a hx).1
      | none =>
        right; left
        refine ⟨(g1 hx).1, (g1 hx).2, ?_⟩
        have hm : 0 < ERR_MEMORY_ALLOCATION_FAILED := by unfold ERR_MEMORY_ALLOCATION_FAILED; norm_num
        unfold spot_init tail_init peaks_init ubend_init
        rw [if_neg h1, if_neg h2]
        simp [hx, hm]

theorem codeExc_init {code : ℤ} (hc : code = 0 ∨ code = -1000 ∨ code = -1001 ∨ code = -1002) :
    ∃ e, codeExc code = .ok e ∧ (e = none ↔ code = 0) := by
  rcases hc with rfl | rfl | rfl | rfl
  · exact ⟨none, rfl, by simp⟩
  · obtain ⟨e, h1, h2⟩ := of_map (x := codeExc (-1000)) (f := Option.isSome) (v := true) (by decide +kernel)
    exact ⟨e, h1, by cases e <;> simp_all⟩
  · obtain ⟨e, h1, h2⟩ := of_map (x := codeExc (-1001)) (f := Option.isSome) (v := true) (by decide +kernel)
    exact ⟨e, h1, by cases e <;> simp_all⟩
  · obtain ⟨e, h1, h2⟩ := of_map (x := codeExc (-1002)) (f := Option.isSome) (v := true) (by decide +kernel)
    exact ⟨e, h1, by cases e <;> simp_all⟩

/-- Life cycle of an object whose `__init__` is called at most once. Never initialised: it can be deallocated. `__init__` fails:
an exception is pending, deallocating the object is safe and nothing is left allocated. `__init__` succeeds: no exception, and after
any history, deallocating releases the buffer, nothing else. Missing: a second call of `__init__` (`C70_false`), and sizes outside of
`[1, 2^61)`, for which the calls themselves are undefined. -/
theorem C70_partial (m : MallocFn F64) (hm : ∀ h n a, m h n = some a → h a = none) (fu : FloatUtils F64) (h : Heap F64)
    (q level : F64) (low disc : ℤ) (me : UInt64) :
    Spot_dealloc m fu h newObject = .ok h ∧
    ∃ r, Spot_init m fu h newObject q low disc level me = .ok r ∧
      ((r.exc = none ∧ r.value = some 0) ∨
        (r.exc ≠ none ∧ (∃ c, r.value = some c ∧ c < 0) ∧ Spot_dealloc m fu r.heap r.self = .ok h)) ∧
      (r.exc = none → 1 ≤ me.toNat → me.toNat < 2 ^ 61 → ∀ ops outs s' h', (∀ op ∈ ops, op.valid) →
        runOps (codeMath fu) r.heap r.self ops = .ok (outs, s', h') → Spot_dealloc m fu h' s' = .ok h) := by
  have hnew : Spot_dealloc m fu h newObject = .ok h := by
    obtain ⟨s', hs⟩ := free_null (lib := ⟨some m, true, fu⟩) (h := h) (s := newObject) rfl
    unfold Spot_dealloc
    rw [hs]; rfl
  refine ⟨hnew, ?_⟩
  have hcodes := init_codes ⟨some m, true, fu⟩ h newObject q level low disc me
  obtain ⟨e, he, hiff⟩ := codeExc_init (code := (spot_init ⟨some m, true, fu⟩ h newObject q low disc level me).1)
    (by rcases hcodes with g | ⟨g, -⟩ | ⟨g, -⟩; exacts [.inl g, .inr (.inl g), .inr (.inr g)])
  refine ⟨⟨some (spot_init ⟨some m, true, fu⟩ h newObject q low disc level me).1, e,
    (spot_init ⟨some m, true, fu⟩ h newObject q low disc level me).2.1,
    (spot_init ⟨some m, true, fu⟩ h newObject q low disc level me).2.2⟩, ?_, ?_, ?_⟩
  · unfold Spot_init
    simp only [he, C.ok_bind]
  · rcases hcodes with g | ⟨g, gh, gs⟩ | ⟨g, gs⟩
    · left; exact ⟨hiff.mpr g, by rw [g]⟩
    · right
      refine ⟨fun hn => ?_, ⟨_, rfl, by rw [g]; decide⟩, ?_⟩
      · have := hiff.mp hn
        rw [g] at this; exact absurd this (by decide)
      · simp only [gh]
        obtain ⟨s', hs⟩ := free_null (lib := ⟨some m, true, fu⟩) (h := h) gs
        unfold Spot_dealloc
        rw [hs]; rfl
    · right
      refine ⟨fun hn => ?_, ⟨_, rfl, by rcases g with g | g <;> rw [g] <;> decide⟩, ?_⟩
      · have := hiff.mp hn
        rcases g with g | g <;> rw [g] at this <;> exact absurd this (by decide)
      · rw [gs]; exact hnew
  · intro hn h1 h2 ops outs s' h' hv hrun
    obtain ⟨-, s'', hs, -⟩ := C07_free_releases ⟨some m, true, fu⟩ h newObject q level low disc me h1 h2
      (fun m' hm' => by cases hm'; exact hm) rfl _ rfl (hiff.mp hn) ops hv outs s' h' hrun
    unfold Spot_dealloc
    rw [hs]; rfl

example : ∀ h n a, Sample.alloc F64 h n = some a → h a = none := sample_mallocOK _ rfl

/-- the three cases occur: rejected parameters, allocation failure, success -/
example : (Spot_init (Sample.alloc F64) muslFU Sample.emptyHeap newObject (lit (1 / 2)) 0 1 (lit (9 / 10)) 20).map
      (fun r => (r.value, r.exc.isSome)) = .ok (some (-1002), true) ∧
    (Spot_init (fun _ _ => none) muslFU Sample.emptyHeap newObject (lit (1 / 100)) 0 1 (lit (9 / 10)) 20).map
      (fun r => (r.value, r.exc.isSome)) = .ok (some (-1000), true) ∧
    (Spot_init (Sample.alloc F64) muslFU Sample.emptyHeap newObject (lit (1 / 100)) 0 1 (lit (9 / 10)) 20).map
      (fun r => (r.value, r.exc.isSome)) = .ok (some 0, false) := by decide +kernel

/-- False of the code: calling `__init__` again on an object in use loses its buffer. The second block is released with the
object, the first one never is. -/
theorem C70_false : (do
    let r ← Spot_init (Sample.alloc F64) muslFU Sample.emptyHeap newObject (lit (1 / 100)) 0 1 (lit (9 / 10)) 20
    let r' ← Spot_init (Sample.alloc F64) muslFU r.heap r.self (lit (1 / 100)) 0 1 (lit (9 / 10)) 20
    let h ← Spot_dealloc (Sample.alloc F64) muslFU r'.heap r'.self
    .ok (r.value, r'.value, (h 4096).isSome, (h 8192).isSome) : C _) = .ok (some 0, some 0, true, false) := by decide +kernel

end Verif.Py

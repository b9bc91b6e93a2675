/-
C111: arguments whose conversion calls the detector
-/
import Verif.Model.PyReentry
import Verif.Props.Python

namespace Verif.Py
open Verif F64

/-- the call of the library behind a call of a method -/
def Spec.op : Call → Op F64
  | .step x => .step x
  | .fit l => .fit l (UInt64.ofNat l.length)
  | .quantile q => .quantile q
  | .probability z => .probability z

/-- the calls of the library made by the conversions of a list of objects, in order -/
def Spec.inner (objs : List UObj) : List (Op F64) := objs.flatMap fun o => o.calls.map Spec.op

/-- lists that fit in memory -/
def Call.fits : Call → Prop
  | .fit l => l.length < 2 ^ 61
  | _ => True

theorem Call.valid {c : Call} (h : c.fits) : (Spec.op c).valid := by
  cases c with
  | fit l =>
    show (UInt64.ofNat l.length).toNat ≤ l.length
    have : l.length < 2 ^ 61 := h
    rw [UInt64.toNat_ofNat', Nat.mod_eq_of_lt (by omega)]
  | _ => trivial

theorem runOps_append (M : MathFns F64) (l l' : List (Op F64)) : ∀ (h : Heap F64) (s : Spot F64), runOps M h s (l ++ l') = (do
    let r ← runOps M h s l
    let r' ← runOps M r.2.2 r.2.1 l'
    .ok (r.1 ++ r'.1, r'.2)) := by
  induction l with
  | nil =>
    intro h s
    simp only [List.nil_append, runOps, C.ok_bind]
    cases runOps M h s l' <;> rfl
  | cons op l ih =>
    intro h s
    rw [List.cons_append, runOps, runOps]
    cases exec M h s op with
    | error e => rfl
    | ok r =>
      simp only [C.ok_bind, ih]
      cases runOps M r.2.2 r.2.1 l with
      | error e => rfl
      | ok r2 =>
        simp only [C.ok_bind]
        cases runOps M r2.2.2 r2.2.1 l' <;> rfl

/-- there are free addresses, however far one looks -/
def Spec.Room (h : Heap F64) : Prop := ∀ n, ∃ p, n ≤ p ∧ h p = none

/-- `malloc` does not fail as long as there are free addresses -/
def Spec.Allocates (m : MallocFn F64) : Prop := ∀ h n, Spec.Room h → ∃ p, m h n = some p ∧ h p = none

/-- two heaps that differ at one address -/
theorem Spec.Room.of_ne {h h' : Heap F64} {a : ℕ} (r : Spec.Room h) (e : ∀ b, b ≠ a → h' b = h b) : Spec.Room h' := by
  intro n
  obtain ⟨p, hp, hf⟩ := r (max n (a + 1))
  exact ⟨p, le_trans (le_max_left _ _) hp, by rw [e p (by have := le_trans (le_max_right n (a + 1)) hp; omega)]; exact hf⟩

/-- another block in the heap changes nothing to a sequence of calls; it keeps its address free otherwise -/
theorem runOps_frame {M : MathFns F64} {h : Heap F64} {s : Spot F64} {a c p : ℕ} {xs : List F64} (I : SpotInv h s a c xs)
    (hp : h p = none) (blk : List (Option F64)) (ops : List (Op F64)) (hv : ∀ op ∈ ops, op.valid) :
    runOps M (Function.update h p (some blk)) s ops =
      (runOps M h s ops).map (fun r => (r.1, r.2.1, Function.update r.2.2 p (some blk))) ∧
    ∀ r, runOps M h s ops = .ok r → r.2.2 p = none ∧ (∀ b, b ≠ a → r.2.2 b = h b) ∧ ∃ ys, SpotInv r.2.2 r.2.1 a c ys := by
  have hne : p ≠ a := by
    rintro rfl
    rw [I.ring.cells] at hp
    cases hp
  have I' : SpotInv (Function.update h p (some blk)) s a c xs := by
    refine I.of_frame (b := p) (c' := blk.length) ⟨fun b hb => Function.update_of_ne hb _ _, blk, by simp, rfl⟩ hne.symm
  have f1 := run_refines (M := M) I ops hv
  have f2 := run_refines (M := M) I' ops hv
  cases hq : runC M c s.core xs ops with
  | error e =>
    simp only [hq, RefinesO] at f1 f2
    rw [f1, f2]
    exact ⟨rfl, fun r hr => nomatch hr⟩
  | ok q =>
    obtain ⟨out, k, ys⟩ := q
    simp only [hq, RefinesO] at f1 f2
    obtain ⟨s1, h1, e1, c1, I1, F1⟩ := f1
    obtain ⟨s2, h2, e2, c2, I2, F2⟩ := f2
    obtain ⟨hu, hcell⟩ := I1.unique I2 (c1.trans c2.symm)
    rw [e1, e2, ← hu]
    refine ⟨?_, ?_⟩
    · simp only [Except.map]
      congr 3
      funext b
      by_cases hb : b = p
      · subst hb; rw [F2.1 b hne]; simp
      · rw [Function.update_of_ne hb]
        by_cases hba : b = a
        · subst hba; exact hcell.symm
        · rw [F2.1 b hba, F1.1 b hba, Function.update_of_ne hb]
    · rintro r hr
      cases hr
      exact ⟨(F1.1 p hne).trans hp, F1.1, ys, I1⟩

/-- a call of a method is the call of the library -/
theorem runCall_eq (fu : FloatUtils F64) {s : Spot F64} {h : Heap F64} {a c : ℕ} {xs : List F64} (I : SpotInv h s a c xs) (m : MallocFn F64)
    (hm : Spec.Allocates m) (hr : Spec.Room h) (items : List UObj)
    (call : Call) (hc : call.fits) :
    runCall (codeMath fu) m ⟨s, h, items⟩ call = (exec (codeMath fu) h s (Spec.op call)).map (fun r => ⟨r.2.1, r.2.2, items⟩) := by
  cases call with
  | step x =>
    simp only [runCall, Spot_step, Spec.op, exec, PyFloat_AsDouble]
    cases spot_step (codeMath fu) h s x <;> rfl
  | quantile x =>
    simp only [runCall, Spot_quantile, Spec.op, exec, PyFloat_AsDouble]
    cases spot_quantile (codeMath fu) s x <;> rfl
  | probability x =>
    simp only [runCall, Spot_probability, Spec.op, exec, PyFloat_AsDouble]
    cases spot_probability (codeMath fu) s x <;> rfl
  | fit l =>
    obtain ⟨p, hp, hf⟩ := hm h (UInt64.ofNat (8 * (l.map Obj.float).length)) hr
    have hv : List.Forall₂ HasFloat (l.map Obj.float) l := by
      rw [List.forall₂_map_left_iff, List.forall₂_same]
      exact fun x _ => .float x
    obtain ⟨f1, f2⟩ := fit_call fu I m (l.map .float) l hv (by rw [List.length_map]; exact hc) p hp hf _ (Or.inl rfl)
    simp only [runCall, Spec.op, exec]
    cases hq : spot_fit (codeMath fu) h s l (UInt64.ofNat l.length) with
    | error e => rw [f1 e hq]; rfl
    | ok r =>
      obtain ⟨exc, he, -⟩ := f2 r.1 r.2.1 r.2.2 hq
      rw [he]; rfl

/-- the calls made by a conversion -/
theorem calls_eq (fu : FloatUtils F64) (m : MallocFn F64) (hm : Spec.Allocates m) (items : List UObj) {a c : ℕ}
    (calls : List Call) : ∀ {s : Spot F64} {h : Heap F64} {xs : List F64}, SpotInv h s a c xs → Spec.Room h →
    (∀ x ∈ calls, x.fits) →
    calls.foldlM (runCall (codeMath fu) m) ⟨s, h, items⟩ =
      (runOps (codeMath fu) h s (calls.map Spec.op)).map (fun r => ⟨r.2.1, r.2.2, items⟩) := by
  induction calls with
  | nil => intro s h xs I hr hc; rfl
  | cons x calls ih =>
    intro s h xs I hroom hc
    have hx := hc x (by simp)
    rw [List.foldlM_cons, runCall_eq fu I m hm hroom items x hx, List.map_cons, runOps]
    have hr := exec_refines (M := codeMath fu) I (Spec.op x) (Call.valid hx)
    cases hq : exec (codeMath fu) h s (Spec.op x) with
    | error e => rfl
    | ok r =>
      have : Spec.Room r.2.2 ∧ ∃ ys, SpotInv r.2.2 r.2.1 a c ys := by
        cases hk : execC (codeMath fu) c s.core xs (Spec.op x) with
        | error e => simp only [hk, RefinesO] at hr; rw [hq] at hr; cases hr
        | ok k =>
          obtain ⟨o, k, ys⟩ := k
          simp only [hk, RefinesO] at hr
          obtain ⟨s', h', e1, -, I', F⟩ := hr
          rw [hq] at e1
          cases e1
          exact ⟨hroom.of_ne F.1, ys, I'⟩
      obtain ⟨hroom', ys, I'⟩ := this
      simp only [Except.map, C.ok_bind]
      rw [ih I' hroom' (fun y hy => hc y (by simp [hy]))]
      cases runOps (codeMath fu) r.2.2 r.2.1 (calls.map Spec.op) <;> rfl

/-- the temporary buffer after `i` conversions -/
def cells (items : List UObj) (i : ℕ) : List (Option F64) :=
  ((items.map UObj.value).take i).map some ++ List.replicate (items.length - i) none

theorem cells_set (items : List UObj) (i : ℕ) (hi : i < items.length) : (cells items i).set i (some items[i].value) = cells items (i + 1) := by
  unfold cells
  have e : items.length - i = (items.length - (i + 1)) + 1 := by omega
  rw [e, List.replicate_succ, List.set_append_right _ _ (by simp)]
  simp only [List.length_map, List.length_take, show min i items.length = i by omega, Nat.sub_self, List.set_cons_zero]
  rw [List.take_add_one, List.getElem?_eq_getElem (by simpa using hi), List.map_append, List.append_assoc]
  simp

theorem cells_length (items : List UObj) (i : ℕ) (hi : i ≤ items.length) : (cells items i).length = items.length := by
  unfold cells
  simp
  omega

theorem loop_eq (fu : FloatUtils F64) (m : MallocFn F64) (hm : Spec.Allocates m) (items : List UObj)
    (hk : ∀ o ∈ items, o.keep = none ∧ ∀ c ∈ o.calls, c.fits) (p : ℕ) {a c : ℕ} (n : ℕ) :
    ∀ (i : ℕ) {s : Spot F64} {h : Heap F64} {xs : List F64}, i + n = items.length → SpotInv h s a c xs → Spec.Room h → h p = none →
      copyLoopU (codeMath fu) m (some p) (List.range' i n) (⟨s, Function.update h p (some (cells items i)), items⟩, none) =
        (runOps (codeMath fu) h s (Spec.inner (items.drop i))).map
          (fun r => (⟨r.2.1, Function.update r.2.2 p (some (cells items items.length)), items⟩, none)) := by
  induction n with
  | zero =>
    intro i s h xs hi I hroom hp
    have : i = items.length := by omega
    subst this
    simp [copyLoopU, Spec.inner, runOps, Except.map]
  | succ n ih =>
    intro i s h xs hi I hroom hp
    have hlt : i < items.length := by omega
    have hne : p ≠ a := by
      rintro rfl
      rw [I.ring.cells] at hp
      cases hp
    have I' : SpotInv (Function.update h p (some (cells items i))) s a c xs := by
      refine I.of_frame (b := p) (c' := (cells items i).length) ⟨fun b hb => Function.update_of_ne hb _ _, cells items i, by simp, rfl⟩ hne.symm
    have ho := hk items[i] (List.getElem_mem hlt)
    have hv : ∀ op ∈ items[i].calls.map Spec.op, op.valid := by
      intro op hop
      obtain ⟨x, hx, rfl⟩ := List.mem_map.mp hop
      exact Call.valid (ho.2 x hx)
    obtain ⟨g1, g2⟩ := runOps_frame (M := codeMath fu) I hp (cells items i) (items[i].calls.map Spec.op) hv
    have hinner : Spec.inner (items.drop i) = items[i].calls.map Spec.op ++ Spec.inner (items.drop (i + 1)) := by
      unfold Spec.inner
      rw [List.drop_eq_getElem_cons hlt, List.flatMap_cons]
    rw [hinner, runOps_append]
    have hstep : copyLoopU (codeMath fu) m (some p) (List.range' i (n + 1))
        (⟨s, Function.update h p (some (cells items i)), items⟩, none) = (do
          let v ← (runOps (codeMath fu) h s (items[i].calls.map Spec.op)).map (fun r => (r.2.1, r.2.2))
          copyLoopU (codeMath fu) m (some p) (List.range' (i + 1) n)
            (⟨v.1, Function.update v.2 p (some (cells items (i + 1))), items⟩, none)) := by
      rw [List.range'_succ]
      unfold copyLoopU
      rw [List.foldlM_cons]
      simp only [List.getElem?_eq_getElem hlt]
      unfold convert
      rw [calls_eq fu m hm items items[i].calls I' (hroom.of_ne (a := p) fun b hb => Function.update_of_ne hb _ _) ho.2, g1, ho.1]
      cases runOps (codeMath fu) h s (items[i].calls.map Spec.op) with
      | error e => rfl
      | ok r =>
        simp only [Except.map, C.ok_bind]
        have hst : store (Function.update r.2.2 p (some (cells items i))) (some p) i items[i].value =
            .ok (Function.update r.2.2 p (some (cells items (i + 1)))) := by
          unfold store
          simp only [Function.update_self]
          rw [if_pos (by rw [cells_length items i (by omega)]; exact hlt), cells_set items i hlt, Function.update_idem]
        rw [hst]
        rfl
    rw [hstep]
    cases hq : runOps (codeMath fu) h s (items[i].calls.map Spec.op) with
    | error e => rfl
    | ok r =>
      obtain ⟨hp', hfr, ys, I''⟩ := g2 r hq
      simp only [Except.map, C.ok_bind]
      rw [ih (i + 1) (by omega) I'' (hroom.of_ne hfr) hp']
      cases runOps (codeMath fu) r.2.2 r.2.1 (Spec.inner (items.drop (i + 1))) <;> rfl

/-- **C111_partial.** Arguments whose `__float__` method calls the detector. A call of `fit` with a list of such objects is the same as
making the calls of all conversions first, in order, and then fitting the values that the conversions returned: same detector, same memory,
same undefined behaviour if any; no exception is pending if and only if the code of this last fit is 0. `step`, `quantile` and `probability` likewise. Missing from the
property: conversions that shorten the list (`C111_false`), and conversions that raise (`C61_false`, `C68_false`). -/
theorem C111_partial (lib : Lib F64) (q level : F64) (low disc : ℤ) (me : UInt64) (self : Spot F64) (h : Heap F64)
    (R : Reaches (codeMath lib.fu) lib q low disc level me self h) (m : MallocFn F64) (hm : Spec.Allocates m)
    (hroom : Spec.Room h) :
    (∀ items : List UObj, (∀ o ∈ items, o.keep = none ∧ ∀ c ∈ o.calls, c.fits) → items.length < 2 ^ 61 →
      (∀ e, runOps (codeMath lib.fu) h self (Spec.inner items ++ [.fit (items.map UObj.value) (UInt64.ofNat items.length)]) = .error e →
        fitU (codeMath lib.fu) m h self items = .error e) ∧
      ∀ outs s' h', runOps (codeMath lib.fu) h self (Spec.inner items ++ [.fit (items.map UObj.value) (UInt64.ofNat items.length)]) =
          .ok (outs, s', h') →
        ∃ exc, fitU (codeMath lib.fu) m h self items = .ok ⟨some (), exc, s', h'⟩ ∧ (exc = none ↔ outs.getLast? = some (.code 0))) ∧
    ∀ o : UObj, (∀ c ∈ o.calls, c.fits) →
      (stepU (codeMath lib.fu) m h self o = (runOps (codeMath lib.fu) h self (o.calls.map Spec.op)).bind fun r =>
        (spot_step (codeMath lib.fu) r.2.2 r.2.1 o.value).map fun t => ⟨some t.1, none, t.2.1, t.2.2⟩) ∧
      (quantileU (codeMath lib.fu) m h self o = (runOps (codeMath lib.fu) h self (o.calls.map Spec.op)).bind fun r =>
        (spot_quantile (codeMath lib.fu) r.2.1 o.value).map fun t => ⟨some t, none, r.2.1, r.2.2⟩) ∧
      (probabilityU (codeMath lib.fu) m h self o = (runOps (codeMath lib.fu) h self (o.calls.map Spec.op)).bind fun r =>
        (spot_probability (codeMath lib.fu) r.2.1 o.value).map fun t => ⟨some t, none, r.2.1, r.2.2⟩) := by
  obtain ⟨a, xs, I, _⟩ := R.inv
  refine ⟨fun items hk hlen => ?_, fun o hc => ?_⟩
  · have hsz : (UInt64.ofNat items.length).toNat = items.length := by
      rw [UInt64.toNat_ofNat', Nat.mod_eq_of_lt (by omega)]
    have hb : (UInt64.ofNat items.length * 8).toNat / 8 = items.length := by
      rw [UInt64.toNat_mul, hsz, show (8 : UInt64).toNat = 8 from rfl, Nat.mod_eq_of_lt (by omega)]; omega
    obtain ⟨p, hmp, hp⟩ := hm h (UInt64.ofNat items.length * 8) hroom
    have hcells : List.replicate items.length (none : Option F64) = cells items 0 := by simp [cells]
    have hvals : cells items items.length = (items.map UObj.value).map some := by simp [cells]
    have hvalid : ∀ op ∈ Spec.inner items, op.valid := by
      intro op hop
      obtain ⟨o, ho, hop⟩ := List.mem_flatMap.mp hop
      obtain ⟨x, hx, rfl⟩ := List.mem_map.mp hop
      exact Call.valid ((hk o ho).2 x hx)
    have hrun := runOps_append (codeMath lib.fu) (Spec.inner items) [.fit (items.map UObj.value) (UInt64.ofNat items.length)] h self
    have hloop := loop_eq lib.fu m hm items hk p (a := a) items.length 0 (by omega) I hroom hp
    rw [List.drop_zero] at hloop
    obtain ⟨-, g2⟩ := runOps_frame (M := codeMath lib.fu) I hp [] (Spec.inner items) hvalid
    have hmain : fitU (codeMath lib.fu) m h self items = (do
        let st ← (runOps (codeMath lib.fu) h self (Spec.inner items)).map
          (fun r => ((⟨r.2.1, Function.update r.2.2 p (some (cells items items.length)), items⟩ : World), (none : Option Exc)))
        let buf ← bufferOf st.1.heap (some p) items.length
        let r ← spot_fit (codeMath lib.fu) st.1.heap st.1.self buf (UInt64.ofNat items.length)
        let h ← cfree r.2.2 (some p)
        let e ← codeExc r.1
        .ok ⟨some (), pend st.2 e, r.2.1, h⟩) := by
      unfold fitU cmalloc
      simp only [hmp, hb, hsz, hcells]
      rw [List.range_eq_range', hloop]
    rw [hrun, hmain]
    cases hq : runOps (codeMath lib.fu) h self (Spec.inner items) with
    | error e => exact ⟨fun e' he => by cases he; rfl, fun outs s' h' he => nomatch he⟩
    | ok r =>
      obtain ⟨hp', -, ys, I'⟩ := g2 r hq
      obtain ⟨f1, f2⟩ := fit_frame (M := codeMath lib.fu) I' hp' (cells items items.length) (items.map UObj.value) (UInt64.ofNat items.length)
        (by rw [hsz, List.length_map])
      have hbuf : bufferOf (Function.update r.2.2 p (some (cells items items.length))) (some p) items.length = .ok (items.map UObj.value) := by
        rw [bufferOf_eq _ p (items.map UObj.value) items.length (by simp) (by simp [hvals]), List.take_of_length_le (by simp)]
      simp only [Except.map, C.ok_bind, hbuf]
      rw [f1]
      simp only [runOps, exec]
      cases hf : spot_fit (codeMath lib.fu) r.2.2 r.2.1 (items.map UObj.value) (UInt64.ofNat items.length) with
      | error e => exact ⟨fun e' he => by cases he; rfl, fun outs s' h' he => nomatch he⟩
      | ok t =>
        refine ⟨fun e' he => (nomatch he), fun outs s' h' he => ?_⟩
        simp only [Except.map, C.ok_bind, Except.ok.injEq, Prod.mk.injEq] at he ⊢
        obtain ⟨rfl, rfl, rfl⟩ := he
        have hcode : t.1 = 0 ∨ t.1 = -1003 ∨ t.1 = -1004 := by
          obtain ⟨et, _, hc⟩ := fit_cases I' (by rw [hsz, List.length_map]) hf
          rcases hc with ⟨_, h3, _⟩ | ⟨_, _, _, _, h3⟩
          · right; left; exact h3
          · split at h3
            · right; right; exact h3
            · left; exact h3
        obtain ⟨e, he, hiff⟩ := codeExc_eq hcode
        have hcf : cfree (Function.update t.2.2 p (some (cells items items.length))) (some p) = .ok t.2.2 := by
          unfold cfree xfree
          simp only [if_true, Function.update_self, Function.update_idem]
          congr 1
          rw [← f2 t hf]
          exact Function.update_eq_self p t.2.2
        refine ⟨e, ?_, ?_⟩
        · rw [hcf]
          simp only [C.ok_bind, he, pend]
          cases e <;> rfl
        · rw [hiff]; simp
  · have hcalls := calls_eq lib.fu m hm [] o.calls I hroom hc
    unfold stepU quantileU probabilityU convert
    rw [hcalls]
    cases runOps (codeMath lib.fu) h self (o.calls.map Spec.op) with
    | error e => exact ⟨rfl, rfl, rfl⟩
    | ok r =>
      simp only [Except.map, C.ok_bind, Except.bind]
      cases o.keep <;>
      exact ⟨by cases spot_step (codeMath lib.fu) r.2.2 r.2.1 o.value <;> rfl,
        by cases spot_quantile (codeMath lib.fu) r.2.1 o.value <;> rfl, by cases spot_probability (codeMath lib.fu) r.2.1 o.value <;> rfl⟩

open Classical in
/-- the hypotheses are met: an allocator that takes the first free address, the sample detector, and a list whose third element makes two
calls of the detector -/
example : ∃ m : MallocFn F64, Spec.Allocates m ∧ Spec.Room Sample.heap ∧
    Reaches (codeMath Sample.lib.fu) Sample.lib (lit (1 / 100)) 0 1 (lit (9 / 10)) 20 Sample.spot Sample.heap ∧
    ∀ o ∈ ([⟨[], none, lit 1⟩, ⟨[], none, lit 2⟩, ⟨[.fit Sample.data, .step (lit 9)], none, lit 3⟩, ⟨[], none, lit 4⟩, ⟨[], none, lit 7⟩] : List UObj),
      o.keep = none ∧ ∀ c ∈ o.calls, c.fits := by
  refine ⟨fun h _ => if hx : ∃ p, h p = none then some (Nat.find hx) else none, ?_, ?_, sample_reached, ?_⟩
  · intro h n r
    obtain ⟨p, -, hp⟩ := r 0
    have hx : ∃ p, h p = none := ⟨p, hp⟩
    exact ⟨Nat.find hx, by simp only [dif_pos hx], Nat.find_spec hx⟩
  · obtain ⟨a, -, ha, -, -⟩ := init_ok (lib := Sample.lib) (h := Sample.emptyHeap) (s0 := Sample.zeroed) (q := lit (1 / 100)) (low := 0)
      (disc := 1) (level := lit (9 / 10)) (me := 20) (by decide +kernel) (by decide) (by decide)
    intro n
    refine ⟨n + a + 1, by omega, ?_⟩
    show (spot_init Sample.lib Sample.emptyHeap Sample.zeroed (lit (1 / 100)) 0 1 (lit (9 / 10)) 20).2.2 _ = none
    rw [ha, Function.update_of_ne (by omega)]
    rfl
  · simp [Call.fits, Sample.data]

/-- False of the code: the conversion of the second of five elements removes the last three from the list; the fit goes on with -1.0 in
their place and returns None with an exception pending. The detector is that of the fit of [1, 4, -1, -1, -1], so its excess threshold is -1. -/
theorem C111_false : ∃ (items : List UObj) (r r' : Ret Unit),
    items = [⟨[], none, lit 1⟩, ⟨[], some 2, lit 4⟩, ⟨[], none, lit 5⟩, ⟨[], none, lit 5⟩, ⟨[], none, lit 6⟩] ∧
    fitU (codeMath muslFU) (Sample.alloc F64) Sample.heap Sample.spot items = .ok r ∧ r.value = some () ∧ r.exc = some .typeError ∧
    Spot_fit (codeMath muslFU) (Sample.alloc F64) Sample.heap Sample.spot (.list [.int 1, .int 4, .int (-1), .int (-1), .int (-1)]) = .ok r' ∧
    r.self = r'.self ∧ r.self.n = 5 ∧ r.self.excess_threshold = lit (-1) := by
  obtain ⟨r, h1, h2⟩ := of_map (x := fitU (codeMath muslFU) (Sample.alloc F64) Sample.heap Sample.spot
      [⟨[], none, lit 1⟩, ⟨[], some 2, lit 4⟩, ⟨[], none, lit 5⟩, ⟨[], none, lit 5⟩, ⟨[], none, lit 6⟩])
    (f := fun r => (r.value, r.exc, r.self, r.self.n, r.self.excess_threshold)) (v := (some (), some .typeError,
      ((Spot_fit (codeMath muslFU) (Sample.alloc F64) Sample.heap Sample.spot (.list [.int 1, .int 4, .int (-1), .int (-1), .int (-1)])).map
        (·.self)).toOption.get (by decide +kernel), 5, lit (-1))) (by decide +kernel)
  obtain ⟨r', h3, h4⟩ := of_map (x := Spot_fit (codeMath muslFU) (Sample.alloc F64) Sample.heap Sample.spot
      (.list [.int 1, .int 4, .int (-1), .int (-1), .int (-1)])) (f := fun r => r.self) (v :=
      ((Spot_fit (codeMath muslFU) (Sample.alloc F64) Sample.heap Sample.spot (.list [.int 1, .int 4, .int (-1), .int (-1), .int (-1)])).map
        (·.self)).toOption.get (by decide +kernel)) (by decide +kernel)
  simp only [Prod.mk.injEq] at h2
  exact ⟨_, r, r', rfl, h1, h2.1, h2.2.1, h3, h2.2.2.1.trans h4.symm, h2.2.2.2⟩

end Verif.Py

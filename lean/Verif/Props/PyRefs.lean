/-
C107, C108: references to Python objects, failures to create them.
-/
import Verif.Model.PyRefs
import Verif.Props.PyObject

namespace Verif.Py
open Verif F64

/-- the references held by what a function returns; NULL holds none -/
def Spec.held : Option Value → ℕ
  | none => 0
  | some v => v.refs

/-! ### creations -/

theorem create_ok {ok : ℕ → Bool} {st : Interp} (h : (create ok st).1 = true) :
    (create ok st).2.live = st.live + 1 ∧ (create ok st).2.err = st.err := by
  unfold create attempt at h ⊢
  cases hk : ok st.clock <;> simp [hk] at h ⊢

theorem create_fail {ok : ℕ → Bool} {st : Interp} (h : (create ok st).1 ≠ true) :
    (create ok st).2.live = st.live ∧ (create ok st).2.err = true := by
  unfold create attempt at h ⊢
  cases hk : ok st.clock <;> simp [hk] at h ⊢

theorem attempt_ok {ok : ℕ → Bool} {st : Interp} (h : (attempt ok st).1 = true) :
    (attempt ok st).2.live = st.live ∧ (attempt ok st).2.err = st.err := by
  unfold attempt at h ⊢
  cases hk : ok st.clock <;> simp [hk] at h ⊢

theorem attempt_fail {ok : ℕ → Bool} {st : Interp} (h : (attempt ok st).1 ≠ true) :
    (attempt ok st).2.live = st.live ∧ (attempt ok st).2.err = true := by
  unfold attempt at h ⊢
  cases hk : ok st.clock <;> simp [hk] at h ⊢

theorem create_all {ok : ℕ → Bool} (h : ∀ i, ok i = true) (st : Interp) : (create ok st).1 = true := by
  unfold create attempt; simp [h]

theorem attempt_all {ok : ℕ → Bool} (h : ∀ i, ok i = true) (st : Interp) : (attempt ok st).1 = true := by
  unfold attempt; simp [h]

/-! ### lists -/

/-- what is known of a function that returns a new object or NULL: `base` references are given back or handed over -/
structure Outcome (ok : ℕ → Bool) (st : Interp) (base : ℕ) (C : Prop) (V : Value → Prop) (r : Option Value × Interp) : Prop where
  live : r.2.live = st.live - base + Spec.held r.1
  fail : r.1 = none → r.2.err = true
  good : r.1 ≠ none → r.2.err = st.err
  value : ∀ v, r.1 = some v → V v
  all : (∀ i, ok i = true) → C → r.1 ≠ none

theorem listLoop_spec (ok : ℕ → Bool) (h : Heap F64) (p : Ptr) (l : List F64) (hl : ∀ i (hi : i < l.length), load h p i = .ok l[i]) :
    ∀ k i st, i + k = l.length →
      ∃ r, listLoop ok h p k i (l.take i) st = .ok r ∧ Outcome ok st (1 + i) True (fun v => v = .list l) r
  | 0, i, st, hk => by
    refine ⟨(some (.list (l.take i)), st), rfl, ?_, by simp, by simp, ?_, by simp⟩
    · simp [Spec.held, Value.refs]; omega
    · intro v hv
      injection hv with hv
      rw [← hv, List.take_of_length_le (by omega)]
  | k + 1, i, st, hk => by
    have hi : i < l.length := by omega
    unfold listLoop
    rw [hl i hi]
    simp only [C.ok_bind]
    by_cases hc : (create ok st).1 = true
    · rw [if_pos hc]
      obtain ⟨c1, c2⟩ := create_ok hc
      have ht : l.take i ++ [l[i]] = l.take (i + 1) := by simp
      rw [ht]
      obtain ⟨r, hr, O⟩ := listLoop_spec ok h p l hl k (i + 1) (create ok st).2 (by omega)
      refine ⟨r, hr, ?_, O.fail, fun h => (O.good h).trans c2, O.value, O.all⟩
      rw [O.live, c1]; push_cast; ring
    · rw [if_neg hc]
      obtain ⟨c1, c2⟩ := create_fail hc
      refine ⟨_, rfl, ?_, fun _ => c2, by simp, by simp, fun ha => absurd (create_all ha st) hc⟩
      simp [Interp.release, Spec.held, Value.refs, c1]; omega

theorem listRefs_spec (ok : ℕ → Bool) (h : Heap F64) (p : Ptr) (size : UInt64) (l : List F64) (hs : size.toNat = l.length)
    (hl : ∀ i (hi : i < l.length), load h p i = .ok l[i]) (st : Interp) :
    ∃ r, listRefs ok h p size st = .ok r ∧ Outcome ok st 0 True (fun v => v = .list l) r := by
  unfold listRefs
  dsimp only
  by_cases hc : (create ok st).1 = true
  · rw [if_pos hc]
    obtain ⟨c1, c2⟩ := create_ok hc
    obtain ⟨r, hr, O⟩ := listLoop_spec ok h p l hl size.toNat 0 (create ok st).2 (by omega)
    refine ⟨r, by simpa using hr, ?_, O.fail, fun h => (O.good h).trans c2, O.value, O.all⟩
    rw [O.live, c1]; push_cast; ring
  · rw [if_neg hc]
    obtain ⟨c1, c2⟩ := create_fail hc
    exact ⟨_, rfl, by simp [Spec.held, c1], fun _ => c2, by simp, by simp, fun ha => absurd (create_all ha st) hc⟩

/-! ### dictionaries -/

/-- the argument has the type that the format unit reads -/
def Match : Char → RArg → Prop
  | 'd', .double _ => True
  | 'i', .int _ => True
  | 'k', .ulong _ => True
  | 'N', .object _ => True
  | _, _ => False

/-- the references that come with an argument -/
def owned : RArg → ℕ
  | .object v => Spec.held v
  | _ => 0

/-- the argument is not a null pointer -/
def nonNull : RArg → Prop
  | .object v => v ≠ none
  | _ => True

/-- the argument of the model without failures -/
def lower : RArg → CArg
  | .string s => .string s
  | .double v => .double v
  | .int n => .int n
  | .ulong n => .ulong n
  | .object (some v) => .object v
  | .object none => .string ""

theorem mkvalue_spec (ok : ℕ → Bool) (f : Char) (a : RArg) (h : Match f a) (st : Interp) :
    ∃ r, mkvalue ok f a st = .ok r ∧ Outcome ok st (owned a) (nonNull a) (fun v => buildItem f (lower a) = .ok v) r ∧ (r.1 ≠ none → nonNull a) := by
  have key : ∀ v : Value, v.refs = 1 → ∀ B : Prop, B →
      Outcome ok st 0 True (fun w => w = v) (if (create ok st).1 then some v else none, (create ok st).2) := by
    intro v hv _ _
    by_cases hc : (create ok st).1 = true
    · obtain ⟨c1, c2⟩ := create_ok hc
      rw [if_pos hc]
      exact ⟨by simp [Spec.held, hv, c1], by simp, fun _ => c2, by simp, by simp⟩
    · obtain ⟨c1, c2⟩ := create_fail hc
      rw [if_neg hc]
      exact ⟨by simp [Spec.held, c1], fun _ => c2, by simp, by simp, fun ha => absurd (create_all ha st) hc⟩
  unfold Match at h
  split at h
  · next v =>
    obtain ⟨o1, o2, o3, o4, o5⟩ := key (.float v) (by simp [Value.refs]) True trivial
    exact ⟨_, rfl, ⟨o1, o2, o3, fun w hw => by rw [o4 w hw]; rfl, o5⟩, fun _ => trivial⟩
  · next n =>
    obtain ⟨o1, o2, o3, o4, o5⟩ := key (.int n) (by simp [Value.refs]) True trivial
    exact ⟨_, rfl, ⟨o1, o2, o3, fun w hw => by rw [o4 w hw]; rfl, o5⟩, fun _ => trivial⟩
  · next n =>
    obtain ⟨o1, o2, o3, o4, o5⟩ := key (.int n.toNat) (by simp [Value.refs]) True trivial
    exact ⟨_, rfl, ⟨o1, o2, o3, fun w hw => by rw [o4 w hw]; rfl, o5⟩, fun _ => trivial⟩
  · next v =>
    rcases v with _ | v
    · exact ⟨_, rfl, ⟨by simp [owned, Spec.held], by simp, by simp, by simp, fun _ h => absurd rfl h⟩, by simp⟩
    · exact ⟨_, rfl, ⟨by simp [owned, Spec.held], by simp, by simp, fun w hw => by injection hw with hw; rw [← hw]; rfl, by simp⟩, fun _ => by simp [nonNull]⟩
  · exact h.elim

/-- key, format unit and argument of each entry -/
abbrev Entries := List (String × Char × RArg)

def fmt : Entries → List Char
  | [] => []
  | e :: es => 's' :: e.2.1 :: fmt es

def arg : Entries → List RArg
  | [] => []
  | e :: es => .string e.1 :: e.2.2 :: arg es

def total : Entries → ℕ
  | [] => 0
  | e :: es => owned e.2.2 + total es

theorem ignore_value (ok : ℕ → Bool) (f : Char) (a : RArg) (h : Match f a) (fs : List Char) (as : List RArg) (st : Interp) :
    ∃ st', ignore ok (f :: fs) (a :: as) st = ignore ok fs as st' ∧ st'.live = st.live - owned a ∧ st'.err = st.err := by
  obtain ⟨r, hr, O, -⟩ := mkvalue_spec ok f a h st
  have hs : f ≠ 's' := by rintro rfl; unfold Match at h; split at h <;> simp_all
  refine ⟨{ (match r.1 with | some w => r.2.release w.refs | none => r.2) with err := st.err }, ?_, ?_, rfl⟩
  · rw [ignore]
    · rw [hr]; rfl
    · intro s hf _
      exact hs hf
  · have := O.live
    rcases hr1 : r.1 with _ | w
    · rw [hr1] at this; simpa [Spec.held] using this
    · rw [hr1] at this; simp only [Spec.held] at this; simp only [Interp.release]; linarith

theorem ignore_spec (ok : ℕ → Bool) : ∀ (es : Entries) (st : Interp), (∀ e ∈ es, Match e.2.1 e.2.2) →
    ∃ st', ignore ok (fmt es) (arg es) st = .ok st' ∧ st'.live = st.live - total es ∧ st'.err = st.err
  | [], st, _ => ⟨st, by simp [fmt, arg, ignore], by simp [total], rfl⟩
  | e :: es, st, h => by
    obtain ⟨st1, h1, l1, e1⟩ := ignore_value ok e.2.1 e.2.2 (h e (by simp)) (fmt es) (arg es)
      { (if (create ok st).1 then (create ok st).2.release 1 else (create ok st).2) with err := st.err }
    obtain ⟨st2, h2, l2, e2⟩ := ignore_spec ok es st1 (fun e he => h e (by simp [he]))
    refine ⟨st2, ?_, ?_, ?_⟩
    · unfold fmt arg
      rw [ignore]
      dsimp only
      rw [h1, h2]
    · rw [show total (e :: es) = owned e.2.2 + total es from rfl, l2, l1]
      by_cases hc : (create ok st).1 = true
      · rw [if_pos hc]; simp only [Interp.release]; rw [(create_ok hc).1]; push_cast; ring
      · rw [if_neg hc]; simp only; rw [(create_fail hc).1]; push_cast; ring
    · rw [e2, e1]

theorem itemsRefs_append (xs ys : List (String × Value)) : itemsRefs (xs ++ ys) = itemsRefs xs + itemsRefs ys := by
  induction xs with
  | nil => simp [itemsRefs]
  | cons x xs ih => simp only [List.cons_append, itemsRefs, ih]; ring

theorem mkitems_spec (ok : ℕ → Bool) : ∀ (es : Entries) (items : List (String × Value)) (st : Interp), (∀ e ∈ es, Match e.2.1 e.2.2) →
    ∃ r, mkitems ok (fmt es) (arg es) items st = .ok r ∧
      Outcome ok st (total es + (Value.dict items).refs) (∀ e ∈ es, nonNull e.2.2)
        (fun v => ∃ its, v = .dict (items ++ its) ∧ buildItems (fmt es) ((arg es).map lower) = .ok its) r ∧
      (r.1 ≠ none → ∀ e ∈ es, nonNull e.2.2)
  | [], items, st, _ => by
    refine ⟨(some (.dict items), st), by simp [fmt, arg, mkitems], ⟨by simp [total, Spec.held], by simp, by simp, ?_, by simp⟩, by simp⟩
    intro v hv
    injection hv with hv
    exact ⟨[], by simp [hv], by simp [fmt, arg, buildItems]⟩
  | e :: es, items, st, h => by
    unfold fmt arg
    rw [mkitems]
    dsimp only
    have hes : ∀ e ∈ es, Match e.2.1 e.2.2 := fun e he => h e (by simp [he])
    by_cases hc : (create ok st).1 = true
    · rw [if_pos hc]
      obtain ⟨c1, c2⟩ := create_ok hc
      obtain ⟨v, hv, O, N⟩ := mkvalue_spec ok e.2.1 e.2.2 (h e (by simp)) (create ok st).2
      rw [hv]
      simp only [C.ok_bind]
      rcases hv1 : v.1 with _ | w
      · dsimp only
        obtain ⟨st1, h1, l1, e1⟩ := ignore_spec ok es v.2 hes
        rw [h1]
        have := O.live
        rw [hv1] at this
        refine ⟨_, rfl, ⟨?_, fun _ => ?_, by simp, by simp, ?_⟩, by simp⟩
        · simp only [Interp.release, Spec.held, total] at this ⊢
          rw [l1, this, c1]; push_cast; ring
        · simp only [Interp.release]; rw [e1]; exact O.fail hv1
        · intro ha hn
          exact absurd hv1 (O.all ha (hn e (by simp)))
      · dsimp only
        have Ol := O.live
        have Og := O.good (by simp [hv1])
        rw [hv1] at Ol
        simp only [Spec.held] at Ol
        by_cases ha : (attempt ok v.2).1 = true
        · rw [if_pos ha]
          obtain ⟨a1, a2⟩ := attempt_ok ha
          obtain ⟨r, hr, O', N'⟩ := mkitems_spec ok es (items ++ [(e.1, w)]) (attempt ok v.2).2 hes
          refine ⟨r, hr, ⟨?_, O'.fail, fun hn => ?_, ?_, ?_⟩, ?_⟩
          · rw [O'.live, a1, Ol, c1]
            simp only [total, Value.refs, itemsRefs_append, itemsRefs]
            push_cast; ring
          · rw [O'.good hn, a2, Og, c2]
          · intro x hx
            obtain ⟨its, hi, hb⟩ := O'.value x hx
            refine ⟨(e.1, w) :: its, by rw [hi]; simp, ?_⟩
            simp only [List.map_cons]
            change buildItems ('s' :: e.2.1 :: fmt es) (.string e.1 :: lower e.2.2 :: (arg es).map lower) = _
            rw [buildItems, O.value w hv1, C.ok_bind, hb]
            rfl
          · intro hall hn
            exact O'.all hall (fun e he => hn e (by simp [he]))
          · intro hn e' he'
            rcases List.mem_cons.mp he' with rfl | he'
            · exact N (by simp [hv1])
            · exact N' hn e' he'
        · rw [if_neg ha]
          obtain ⟨a1, a2⟩ := attempt_fail ha
          obtain ⟨st1, h1, l1, e1⟩ := ignore_spec ok es (attempt ok v.2).2 hes
          rw [h1]
          refine ⟨_, rfl, ⟨?_, fun _ => ?_, by simp, by simp, fun hall => absurd (attempt_all hall _) ha⟩, by simp⟩
          · simp only [Interp.release, Spec.held, total]
            rw [l1, a1, Ol, c1]; push_cast; ring
          · simp only [Interp.release]; rw [e1]; exact a2
    · rw [if_neg hc]
      obtain ⟨c1, c2⟩ := create_fail hc
      obtain ⟨st0, h0, l0, e0⟩ := ignore_value ok e.2.1 e.2.2 (h e (by simp)) (fmt es) (arg es) (create ok st).2
      obtain ⟨st1, h1, l1, e1⟩ := ignore_spec ok es st0 hes
      rw [h0, h1]
      refine ⟨_, rfl, ⟨?_, fun _ => ?_, by simp, by simp, fun hall => absurd (create_all hall _) hc⟩, by simp⟩
      · simp only [Interp.release, Spec.held, total]
        rw [l1, l0, c1]; push_cast; ring
      · simp only [Interp.release]; rw [e1, e0]; exact c2

theorem buildRefs_spec (ok : ℕ → Bool) (format : String) (args : List RArg) (es : Entries) (hf : format.toList = '{' :: (fmt es ++ ['}']))
    (ha : args = arg es) (hm : ∀ e ∈ es, Match e.2.1 e.2.2) (st : Interp) :
    ∃ r, buildRefs ok format args st = .ok r ∧
      Outcome ok st (total es) (∀ e ∈ es, nonNull e.2.2) (fun v => Py_BuildValue format (args.map lower) = .ok v) r ∧
      (r.1 ≠ none → ∀ e ∈ es, nonNull e.2.2) := by
  have e1 : buildRefs ok format args st = (if (create ok st).1 then mkitems ok (fmt es) args [] (create ok st).2 else do
      let st ← ignore ok (fmt es) args (create ok st).2
      .ok (none, st)) := by
    unfold buildRefs; rw [hf]; simp only [List.dropLast_concat]
  have e2 : Py_BuildValue format (args.map lower) = (do
      let r ← buildItems (fmt es) (args.map lower)
      .ok (.dict r)) := by
    unfold Py_BuildValue; rw [hf]; simp only [List.dropLast_concat]
  rw [e1, e2, ha]
  by_cases hc : (create ok st).1 = true
  · rw [if_pos hc]
    obtain ⟨c1, c2⟩ := create_ok hc
    obtain ⟨r, hr, O, N⟩ := mkitems_spec ok es [] (create ok st).2 hm
    refine ⟨r, hr, ⟨?_, O.fail, fun h => (O.good h).trans c2, ?_, O.all⟩, N⟩
    · rw [O.live, c1]; simp only [Value.refs, itemsRefs]; push_cast; ring
    · intro v hv
      obtain ⟨its, hi, hb⟩ := O.value v hv
      rw [hb, hi]
      rfl
  · rw [if_neg hc]
    obtain ⟨c1, c2⟩ := create_fail hc
    obtain ⟨st1, h1, l1, e1⟩ := ignore_spec ok es (create ok st).2 hm
    rw [h1]
    refine ⟨_, rfl, ⟨?_, fun _ => ?_, by simp, by simp, fun hall => absurd (create_all hall _) hc⟩, by simp⟩
    · simp only [Spec.held]; rw [l1, c1]; simp
    · simp only; rw [e1]; exact c2

/-- a dictionary of scalars whose last entry is an object that was just built -/
theorem nest {ok : ℕ → Bool} {st : Interp} {V : Value → Prop} {d : Option Value × Interp} (O : Outcome ok st 0 True V d) (format : String)
    (args : List RArg) (es : Entries) (key : String) (hf : format.toList = '{' :: (fmt (es ++ [(key, 'N', .object d.1)]) ++ ['}']))
    (ha : args = arg (es ++ [(key, 'N', .object d.1)])) (hm : ∀ e ∈ es, Match e.2.1 e.2.2)
    (ht : total (es ++ [(key, 'N', .object d.1)]) = Spec.held d.1) (hn : ∀ e ∈ es, nonNull e.2.2) :
    ∃ r, buildRefs ok format args d.2 = .ok r ∧
      Outcome ok st 0 True (fun v => ∃ w, d.1 = some w ∧ V w ∧ Py_BuildValue format (args.map lower) = .ok v) r := by
  obtain ⟨r, hr, O', N⟩ := buildRefs_spec ok format args (es ++ [(key, 'N', .object d.1)]) hf ha
    (by intro e he; rcases List.mem_append.mp he with he | he; exact hm e he; rw [List.mem_singleton.mp he]; exact trivial) d.2
  have hd : r.1 ≠ none → d.1 ≠ none := fun hr => N hr (key, 'N', .object d.1) (by simp)
  refine ⟨r, hr, ?_, O'.fail, ?_, ?_, ?_⟩
  · rw [O'.live, O.live, ht]; push_cast; ring
  · intro hn
    rw [O'.good hn, O.good (hd hn)]
  · intro v hv
    obtain ⟨w, hw⟩ := Option.ne_none_iff_exists'.mp (hd (by simp [hv]))
    exact ⟨w, hw, O.value w hw, O'.value v hv⟩
  · intro hall _
    refine O'.all hall ?_
    intro e he
    rcases List.mem_append.mp he with he | he
    · exact hn e he
    · rw [List.mem_singleton.mp he]; exact O.all hall trivial

theorem asDictRefs_spec (ok : ℕ → Bool) (h : Heap F64) (s : Spot F64) (l : List F64)
    (hs : (ubend_size s.tail.peaks.container).toNat = l.length) (hl : ∀ i (hi : i < l.length), load h s.tail.peaks.container.data i = .ok l[i])
    (hv : Spot_excesses h s = .ok l) (st : Interp) :
    ∃ r, asDictRefs ok h s st = .ok r ∧ Outcome ok st 0 True (fun v => Spot_as_dict h s = .ok v) r := by
  obtain ⟨d, hd, O⟩ := listRefs_spec ok h s.tail.peaks.container.data
    (if s.tail.peaks.container.filled ≠ 0 then s.tail.peaks.container.capacity else s.tail.peaks.container.cursor) l hs hl st
  unfold asDictRefs tailRefs peaksRefs ubendRefs excessesRefs
  rw [hd]
  simp only [C.ok_bind]
  obtain ⟨r1, hr1, O1⟩ := nest O "{sksksdsisN}" [.string "cursor", .ulong s.tail.peaks.container.cursor, .string "capacity", .ulong s.tail.peaks.container.capacity,
      .string "last_erased_data", .double s.tail.peaks.container.last_erased_data, .string "filled", .int s.tail.peaks.container.filled,
      .string "data", .object d.1]
    [("cursor", 'k', .ulong s.tail.peaks.container.cursor), ("capacity", 'k', .ulong s.tail.peaks.container.capacity),
      ("last_erased_data", 'd', .double s.tail.peaks.container.last_erased_data), ("filled", 'i', .int s.tail.peaks.container.filled)] "data"
    (by rfl) rfl (by simp [Match]) (by simp [total, owned]) (by simp [nonNull])
  rw [hr1]
  simp only [C.ok_bind]
  obtain ⟨r2, hr2, O2⟩ := nest O1 "{sdsdsdsdsN}" [.string "e", .double s.tail.peaks.e, .string "e2", .double s.tail.peaks.e2, .string "min", .double s.tail.peaks.min,
      .string "max", .double s.tail.peaks.max, .string "container", .object r1.1]
    [("e", 'd', .double s.tail.peaks.e), ("e2", 'd', .double s.tail.peaks.e2), ("min", 'd', .double s.tail.peaks.min),
      ("max", 'd', .double s.tail.peaks.max)] "container" (by rfl) rfl (by simp [Match]) (by simp [total, owned]) (by simp [nonNull])
  rw [hr2]
  simp only [C.ok_bind]
  obtain ⟨r3, hr3, O3⟩ := nest O2 "{sdsdsN}" [.string "gamma", .double s.tail.gamma, .string "sigma", .double s.tail.sigma, .string "peaks", .object r2.1] [("gamma", 'd', .double s.tail.gamma), ("sigma", 'd', .double s.tail.sigma)] "peaks"
    (by rfl) rfl (by simp [Match]) (by simp [total, owned]) (by simp [nonNull])
  rw [hr3]
  simp only [C.ok_bind]
  obtain ⟨r4, hr4, O4⟩ := nest O3 "{sdsdsisisdsdsksksN}" [.string "q", .double s.q, .string "level", .double s.level,
      .string "discard_anomalies", .int s.discard_anomalies, .string "low", .int s.low,
      .string "anomaly_threshold", .double s.anomaly_threshold, .string "excess_threshold", .double s.excess_threshold,
      .string "Nt", .ulong s.Nt, .string "n", .ulong s.n, .string "tail", .object r3.1]
    [("q", 'd', .double s.q), ("level", 'd', .double s.level), ("discard_anomalies", 'i', .int s.discard_anomalies), ("low", 'i', .int s.low),
      ("anomaly_threshold", 'd', .double s.anomaly_threshold), ("excess_threshold", 'd', .double s.excess_threshold), ("Nt", 'k', .ulong s.Nt),
      ("n", 'k', .ulong s.n)] "tail" (by rfl) rfl (by simp [Match]) (by simp [total, owned]) (by simp [nonNull])
  refine ⟨r4, hr4, O4.live, O4.fail, O4.good, ?_, O4.all⟩
  intro v hv4
  obtain ⟨w3, e3, ⟨w2, e2, ⟨w1, e1, ⟨w0, e0, rfl, b1⟩, b2⟩, b3⟩, b4⟩ := O4.value v hv4
  unfold Spot_as_dict Tail_as_dict Peaks_as_dict Ubend_as_dict
  rw [show Verif.Py.excesses h s.tail.peaks.container = .ok l from hv, C.ok_bind]
  rw [e0] at b1
  rw [e1] at b2
  rw [e2] at b3
  rw [e3] at b4
  simp only [List.map, lower] at b1 b2 b3 b4
  rw [b1, C.ok_bind, b2, C.ok_bind, b3, C.ok_bind, b4]

/-! ### C107 -/

/-- Whatever creations of Python objects fail: `excesses()` and `as_dict()` return either the value that they have without failures
(C69, C95), or NULL with an exception pending; the references owned afterwards are those owned before and those held by the result; and
without failures they do return the value. -/
theorem C107_failures (lib : Lib F64) (q : F64) (low disc : ℤ) (level : F64) (me : UInt64) (s : Spot F64) (h : Heap F64)
    (xs : List F64) (h1 : 1 ≤ me.toNat) (h2 : me.toNat < 2 ^ 61) (R : Recorded lib q low disc level me s h xs) (ok : ℕ → Bool)
    (st : Interp) (hst : st.err = false) :
    (∃ r st', asDictRefs ok h s st = .ok (r, st') ∧ (r = none ↔ st'.err = true) ∧ st'.live = st.live + Spec.held r ∧
      (∀ v, r = some v → Spot_as_dict h s = .ok v) ∧ ((∀ i, ok i = true) → r ≠ none)) ∧
    (∃ r st', excessesRefs ok h s.tail.peaks.container st = .ok (r, st') ∧ (r = none ↔ st'.err = true) ∧ st'.live = st.live + Spec.held r ∧
      (∀ v, r = some v → ∃ l, v = .list l ∧ Spot_excesses h s = .ok l) ∧ ((∀ i, ok i = true) → r ≠ none)) := by
  obtain ⟨a, I, -⟩ := R.inv h1 h2
  have S := I.ring.stored
  obtain ⟨l, hl, -⟩ := C69_excesses lib q low disc level me s h xs h1 h2 R
  have hl' : l = slots me.toNat xs := by
    have := Recorded.excesses_eq h1 h2 R
    rw [hl] at this
    injection this
  have key : ∀ {V : Value → Prop} {r : Option Value × Interp}, Outcome ok st 0 True V r →
      (r.1 = none ↔ r.2.err = true) ∧ r.2.live = st.live + Spec.held r.1 := by
    intro V r O
    refine ⟨⟨O.fail, fun he => ?_⟩, by simpa using O.live⟩
    by_contra hn
    rw [O.good hn, hst] at he
    cases he
  constructor
  · obtain ⟨r, hr, O⟩ := asDictRefs_spec ok h s (slots me.toNat xs) S.size S.read (hl' ▸ hl) st
    obtain ⟨k1, k2⟩ := key O
    exact ⟨r.1, r.2, hr, k1, k2, O.value, fun ha => O.all ha trivial⟩
  · obtain ⟨r, hr, O⟩ := listRefs_spec ok h s.tail.peaks.container.data
      (if s.tail.peaks.container.filled ≠ 0 then s.tail.peaks.container.capacity else s.tail.peaks.container.cursor) (slots me.toNat xs) S.size S.read st
    obtain ⟨k1, k2⟩ := key O
    exact ⟨r.1, r.2, hr, k1, k2, fun v hv => ⟨l, by rw [hl']; exact O.value v hv, hl⟩, fun ha => O.all ha trivial⟩

/-- the fitted detector of C95 (two excesses) -/
theorem Sample.recorded3 : ∃ xs, Recorded Sample.lib (lit (1 / 100)) 5 0 (lit (9 / 10)) 3 Sample.fitted3.1 Sample.fitted3.2 xs := by
  refine ⟨_, Recorded.fit Sample.data 7 (by decide +kernel) 0 _ _ (Recorded.init Sample.emptyHeap Sample.zeroed (by decide +kernel)) ?_⟩
  have h : ∃ r, spot_fit (codeMath muslFU) (spot_init Sample.lib Sample.emptyHeap Sample.zeroed (lit (1 / 100)) 5 0 (lit (9 / 10)) 3).2.2
      (spot_init Sample.lib Sample.emptyHeap Sample.zeroed (lit (1 / 100)) 5 0 (lit (9 / 10)) 3).2.1 Sample.data 7 = .ok r ∧ r.1 = 0 :=
    of_map (f := Prod.fst) (v := 0) (by decide +kernel)
  obtain ⟨r, hr, h0⟩ := h
  have e : Sample.fitted3 = r.2 := by unfold Sample.fitted3; simp only [hr]
  show spot_fit (codeMath muslFU) _ _ _ _ = _
  rw [hr, e, ← h0]

/-- non-vacuity: without failures the result holds 47 references (a list of two floats, four dictionaries with 5, 5, 3 and 9 entries);
if one of the 69 attempts fails (insertions in dictionaries included), NULL is returned and nothing is left -/
example : (asDictRefs (fun _ => true) Sample.fitted3.2 Sample.fitted3.1 ⟨7, 0, false⟩).map (fun r => (r.1.isSome, r.2.live, r.2.err)) =
      .ok (true, 7 + 47, false) ∧
    (asDictRefs (fun i => i != 40) Sample.fitted3.2 Sample.fitted3.1 ⟨7, 0, false⟩).map (fun r => (r.1.isSome, r.2.live, r.2.err)) =
      .ok (false, 7, true) ∧
    (excessesRefs (fun i => i != 2) Sample.fitted3.2 Sample.fitted3.1.tail.peaks.container ⟨7, 0, false⟩).map
      (fun r => (r.1.isSome, r.2.live, r.2.err)) = .ok (false, 7, true) := by decide +kernel

/-! ### C108 -/

/-- `step` keeps no reference, whether or not the creation of its result fails: the references owned afterwards are those owned before
and the one to the result. The same holds for `excesses()` and `as_dict()` (C107), and for a `fit` that is refused because its argument
is not iterable or cannot be copied. Missing: the other calls of `fit`, for which it is false (`C108_false`). -/
theorem C108_partial (M : MathFns F64) (m : MallocFn F64) (ok : ℕ → Bool) (h : Heap F64) (s : Spot F64) (st : Interp) :
    (∀ x r st', stepRefs M ok h s x st = .ok (r, st') → st'.live = st.live + (if r.value = none then 0 else 1)) ∧
    (∀ data r st', fitRefs M m ok h s data st = .ok (r, st') → r.value = none → st'.live = st.live) := by
  constructor
  · intro x r st' hs
    unfold stepRefs at hs
    obtain ⟨w, hw, hs⟩ := C.bind_ok hs
    have hv : w.value ≠ none := by
      unfold Spot_step at hw
      obtain ⟨y, -, hw⟩ := C.bind_ok hw
      injection hw with hw
      rw [← hw]; simp
    injection hs with hs
    injection hs with e1 e2
    subst e1 e2
    dsimp only
    by_cases hc : (create ok { st with err := st.err || w.exc.isSome }).1 = true
    · rw [if_pos hc, if_neg hv]; exact (create_ok hc).1
    · rw [if_neg hc, if_pos rfl]; simpa using (create_fail hc).1
  · intro data r st' hs hr
    unfold fitRefs at hs
    dsimp only at hs
    split at hs
    · next hq =>
      obtain ⟨w, hw, hs⟩ := C.bind_ok hs
      injection hs with hs
      injection hs with e1 e2
      subst e1
      exfalso
      unfold Spot_fit at hw
      rcases data with l | l | l | _
      · simp only [PySequence_Fast] at hw
        obtain ⟨_, -, hw⟩ := C.bind_ok hw
        obtain ⟨_, -, hw⟩ := C.bind_ok hw
        obtain ⟨_, -, hw⟩ := C.bind_ok hw
        obtain ⟨_, -, hw⟩ := C.bind_ok hw
        obtain ⟨_, -, hw⟩ := C.bind_ok hw
        injection hw with hw
        rw [← hw] at hr; cases hr
      · simp only [PySequence_Fast] at hw
        obtain ⟨_, -, hw⟩ := C.bind_ok hw
        obtain ⟨_, -, hw⟩ := C.bind_ok hw
        obtain ⟨_, -, hw⟩ := C.bind_ok hw
        obtain ⟨_, -, hw⟩ := C.bind_ok hw
        obtain ⟨_, -, hw⟩ := C.bind_ok hw
        injection hw with hw
        rw [← hw] at hr; cases hr
      · simp only [PySequence_Fast] at hw
        obtain ⟨_, -, hw⟩ := C.bind_ok hw
        obtain ⟨_, -, hw⟩ := C.bind_ok hw
        obtain ⟨_, -, hw⟩ := C.bind_ok hw
        obtain ⟨_, -, hw⟩ := C.bind_ok hw
        obtain ⟨_, -, hw⟩ := C.bind_ok hw
        injection hw with hw
        rw [← hw] at hr; cases hr
      · cases hq
    · next hq =>
      injection hs with hs
      injection hs with e1 e2
      subst e2
      unfold sequenceRefs at hq ⊢
      rcases data with l | l | l | _
      · exact absurd rfl hq
      · exact absurd rfl hq
      · dsimp only at hq ⊢
        by_cases ha : (attempt ok st).1 = true
        · rw [if_pos ha] at hq; exact absurd rfl hq
        · rw [if_neg ha]; exact (attempt_fail ha).1
      · rfl

/-- False of the code for every other `fit`: each call with a list that returns `None` leaves one more reference to the list behind, so
that it is never released; a call with another iterable leaves a copy of all its items. -/
theorem C108_false (M : MathFns F64) (m : MallocFn F64) (ok : ℕ → Bool) (h : Heap F64) (s : Spot F64) (st : Interp) (l : List Obj) :
    (∀ r st', fitRefs M m ok h s (.list l) st = .ok (r, st') → st'.live = st.live + 1 + 1) ∧
    (∀ r st', fitRefs M m ok h s (.iterable l) st = .ok (r, st') → r.value ≠ none → st'.live = st.live + 1 + (1 + l.length)) := by
  constructor
  · intro r st' hs
    unfold fitRefs sequenceRefs at hs
    dsimp only at hs
    rw [if_pos rfl] at hs
    obtain ⟨w, -, hs⟩ := C.bind_ok hs
    injection hs with hs
    injection hs with e1 e2
    rw [← e2]
  · intro r st' hs hr
    unfold fitRefs sequenceRefs at hs
    dsimp only at hs
    by_cases ha : (attempt ok st).1 = true
    · rw [if_pos ha, if_pos rfl] at hs
      obtain ⟨w, -, hs⟩ := C.bind_ok hs
      injection hs with hs
      injection hs with e1 e2
      rw [← e2]
      simp only
      rw [(attempt_ok ha).1]; ring
    · rw [if_neg ha, if_neg ha] at hs
      injection hs with hs
      injection hs with e1 e2
      rw [← e1] at hr
      exact absurd rfl hr

/-- such calls exist: a fit of five integers returns `None` and two references are gone (one of them is that to `None`); a generator of
five items costs seven -/
example : (fitRefs (codeMath muslFU) (Sample.alloc F64) (fun _ => true) Sample.heap Sample.spot (.list [.int 1, .int 2, .int 3, .int 4, .int 6])
      ⟨0, 0, false⟩).map (fun r => (r.1.value, r.2.live)) = .ok (some (), 2) ∧
    (fitRefs (codeMath muslFU) (Sample.alloc F64) (fun _ => true) Sample.heap Sample.spot (.iterable [.int 1, .int 2, .int 3, .int 4, .int 6])
      ⟨0, 0, false⟩).map (fun r => (r.1.value, r.2.live)) = .ok (some (), 7) ∧
    (stepRefs (codeMath muslFU) (fun _ => true) Sample.heap Sample.spot (.int 1) ⟨0, 0, false⟩).map (fun r => (r.1.value, r.2.live)) =
      .ok (some 0, 1) := by decide +kernel

end Verif.Py

/-
C95–C98: what a Python object shows of its detector, the arguments of the constructor, the memory of the objects, objects that were
not initialised.
-/
import Verif.Model.PyObject
import Verif.Props.Python

namespace Verif.Py
open Verif F64

/-! ### C95 -/

theorem format_ubend : "{sksksdsisN}".toList = ['{', 's', 'k', 's', 'k', 's', 'd', 's', 'i', 's', 'N', '}'] := by decide +kernel
theorem format_peaks : "{sdsdsdsdsN}".toList = ['{', 's', 'd', 's', 'd', 's', 'd', 's', 'd', 's', 'N', '}'] := by decide +kernel
theorem format_tail : "{sdsdsN}".toList = ['{', 's', 'd', 's', 'd', 's', 'N', '}'] := by decide +kernel
theorem format_spot : "{sdsdsisisdsdsksksN}".toList =
    ['{', 's', 'd', 's', 'd', 's', 'i', 's', 'i', 's', 'd', 's', 'd', 's', 'k', 's', 'k', 's', 'N', '}'] := by decide +kernel

/-- the dictionary, when the list of the excesses can be read -/
theorem as_dict_eq (h : Heap F64) (s : Spot F64) (l : List F64) (hl : Spot_excesses h s = .ok l) :
    Spot_as_dict h s = .ok (.dict [("q", .float s.q), ("level", .float s.level), ("discard_anomalies", .int s.discard_anomalies),
      ("low", .int s.low), ("anomaly_threshold", .float s.anomaly_threshold), ("excess_threshold", .float s.excess_threshold),
      ("Nt", .int s.Nt.toNat), ("n", .int s.n.toNat),
      ("tail", .dict [("gamma", .float s.tail.gamma), ("sigma", .float s.tail.sigma),
        ("peaks", .dict [("e", .float s.tail.peaks.e), ("e2", .float s.tail.peaks.e2), ("min", .float s.tail.peaks.min),
          ("max", .float s.tail.peaks.max),
          ("container", .dict [("cursor", .int s.tail.peaks.container.cursor.toNat),
            ("capacity", .int s.tail.peaks.container.capacity.toNat),
            ("last_erased_data", .float s.tail.peaks.container.last_erased_data), ("filled", .int s.tail.peaks.container.filled),
            ("data", .list l)])])])]) := by
  have h1 : Ubend_as_dict h s.tail.peaks.container = .ok (.dict [("cursor", .int s.tail.peaks.container.cursor.toNat),
      ("capacity", .int s.tail.peaks.container.capacity.toNat),
      ("last_erased_data", .float s.tail.peaks.container.last_erased_data), ("filled", .int s.tail.peaks.container.filled),
      ("data", .list l)]) := by
    unfold Ubend_as_dict
    rw [show excesses h s.tail.peaks.container = .ok l from hl]
    simp only [C.ok_bind, Py_BuildValue, format_ubend, List.dropLast]
    rfl
  unfold Spot_as_dict Tail_as_dict Peaks_as_dict
  rw [h1]
  simp only [C.ok_bind, Py_BuildValue, format_peaks, format_tail, format_spot, List.dropLast]
  rfl

theorem slice_raw (mem : Js.Bytes) (p o n : ℕ) (h : o + n ≤ 152) :
    Js.slice (fun i => (Spot_raw mem p).getD i 0) o n = Js.slice mem (p + o) n := by
  have hs : (Js.SpotT.layout lp64).1 = 152 := by decide +kernel
  unfold Js.slice Spot_raw
  rw [hs]
  apply List.map_congr_left
  intro i hi
  have := List.mem_range.mp hi
  show ((List.range 152).map (fun i => mem (p + i))).getD (o + i) 0 = _
  rw [List.getD_eq_getElem?_getD, List.getElem?_map, List.getElem?_range (by omega)]
  simp [Nat.add_assoc]

/-- On a detector in use, initialised with the given parameters and with the excesses `xs` recorded since (oldest first):
* `as_dict()` has no undefined behaviour; it shows the parameters as they were given (the flags as 0 or 1), both thresholds, both counters, and behind
  `tail` the parameters of the tail, the statistics, the capacity and the last `max_excess` excesses;
* each attribute of the object (`q`, `level`, `anomaly_threshold`, `excess_threshold`, `Nt`, `n`, `gamma`, `sigma`) is the entry of the
  same name of that dictionary;
* `raw()` has 152 bytes; they are the structure, member by member at the offsets of the C layout. -/
theorem C95_attributes (lib : Lib F64) (q : F64) (low disc : ℤ) (level : F64) (me : UInt64) (s : Spot F64) (h : Heap F64)
    (xs : List F64) (h1 : 1 ≤ me.toNat) (h2 : me.toNat < 2 ^ 61) (R : Recorded lib q low disc level me s h xs) :
    ∃ d, Spot_as_dict h s = .ok d ∧
      d.get ["q"] = some (.float q) ∧ d.get ["level"] = some (.float level) ∧ d.get ["low"] = some (.int (if low ≠ 0 then 1 else 0)) ∧
      d.get ["discard_anomalies"] = some (.int (if disc ≠ 0 then 1 else 0)) ∧
      d.get ["anomaly_threshold"] = some (.float s.anomaly_threshold) ∧
      d.get ["excess_threshold"] = some (.float s.excess_threshold) ∧
      d.get ["Nt"] = some (.int s.Nt.toNat) ∧ d.get ["n"] = some (.int s.n.toNat) ∧
      d.get ["tail", "gamma"] = some (.float s.tail.gamma) ∧ d.get ["tail", "sigma"] = some (.float s.tail.sigma) ∧
      d.get ["tail", "peaks", "e"] = some (.float s.tail.peaks.e) ∧ d.get ["tail", "peaks", "e2"] = some (.float s.tail.peaks.e2) ∧
      d.get ["tail", "peaks", "min"] = some (.float s.tail.peaks.min) ∧
      d.get ["tail", "peaks", "max"] = some (.float s.tail.peaks.max) ∧
      d.get ["tail", "peaks", "container", "capacity"] = some (.int me.toNat) ∧
      (∃ l, d.get ["tail", "peaks", "container", "data"] = some (.list l) ∧ l.Perm (Spec.lastN me.toNat xs)) ∧
      ∀ (mem : Js.Bytes) (p : ℕ), Stores mem p s →
        (getattr mem p "q" = d.get ["q"] ∧ getattr mem p "level" = d.get ["level"] ∧
          getattr mem p "anomaly_threshold" = d.get ["anomaly_threshold"] ∧
          getattr mem p "excess_threshold" = d.get ["excess_threshold"] ∧
          getattr mem p "Nt" = d.get ["Nt"] ∧ getattr mem p "n" = d.get ["n"] ∧
          getattr mem p "gamma" = d.get ["tail", "gamma"] ∧ getattr mem p "sigma" = d.get ["tail", "sigma"]) ∧
        (Spot_raw mem p).length = 152 ∧ Stores (fun i => (Spot_raw mem p).getD i 0) 0 s := by
  obtain ⟨l, hl, hp⟩ := C69_excesses lib q low disc level me s h xs h1 h2 R
  obtain ⟨a, I, P⟩ := R.inv h1 h2
  have hcap : s.tail.peaks.container.capacity.toNat = me.toNat := I.ring.cap
  have P1 : s.q = q := P.pq
  have P2 : s.level = level := P.plevel
  have P3 : s.low = if low ≠ 0 then 1 else 0 := P.plow
  have P4 : s.discard_anomalies = if disc ≠ 0 then 1 else 0 := P.pdisc
  refine ⟨_, as_dict_eq h s l hl, ?_, ?_, ?_, ?_, rfl, rfl, rfl, rfl, rfl, rfl, rfl, rfl, rfl, rfl, ?_, ⟨l, rfl, hp⟩, ?_⟩
  · rw [← P1]; rfl
  · rw [← P2]; rfl
  · rw [← P3]; rfl
  · rw [← P4]; rfl
  · rw [← hcap]; rfl
  · intro mem p hS
    have hd : ∀ path v o, (path, Scalar.double v) ∈ members s → Js.SpotT.offset lp64 path = some o →
        readMember mem (p + o) .T_DOUBLE = .float v := fun path v o hm ho => congrArg Value.float (hS _ _ hm o ho)
    have hu : ∀ path v o, (path, Scalar.ulong v) ∈ members s → Js.SpotT.offset lp64 path = some o →
        readMember mem (p + o) .T_ULONG = .int v.toNat := fun path v o hm ho => by
      have : Js.leNat (Js.slice mem (p + o) 8) = v.toNat := hS _ _ hm o ho
      show Value.int _ = _
      rw [this]
    refine ⟨⟨?_, ?_, ?_, ?_, ?_, ?_, ?_, ?_⟩, ?_, ?_⟩
    · exact congrArg some (hd ["q"] s.q 0 (by simp [members]) (by decide +kernel))
    · exact congrArg some (hd ["level"] s.level 8 (by simp [members]) (by decide +kernel))
    · exact congrArg some (hd ["anomaly_threshold"] s.anomaly_threshold 32 (by simp [members]) (by decide +kernel))
    · exact congrArg some (hd ["excess_threshold"] s.excess_threshold 40 (by simp [members]) (by decide +kernel))
    · exact congrArg some (hu ["Nt"] s.Nt 48 (by simp [members]) (by decide +kernel))
    · exact congrArg some (hu ["n"] s.n 56 (by simp [members]) (by decide +kernel))
    · exact congrArg some (hd ["tail", "gamma"] s.tail.gamma 64 (by simp [members]) (by decide +kernel))
    · exact congrArg some (hd ["tail", "sigma"] s.tail.sigma 72 (by simp [members]) (by decide +kernel))
    · have hs : (Js.SpotT.layout lp64).1 = 152 := by decide +kernel
      unfold Spot_raw Js.slice
      rw [hs]; simp
    · intro path v hm o ho
      have hold := hS path v hm o ho
      have hbound : (∀ x, v = .int x → o + 4 ≤ 152) ∧ ((∀ x, v ≠ .int x) → o + 8 ≤ 152) := by
        have hall : ∀ e ∈ members s, ∃ o, Js.SpotT.offset lp64 e.1 = some o ∧ o + 8 ≤ 152 := by
          unfold members
          simp only [List.forall_mem_cons]
          refine ⟨⟨0, by decide +kernel, by norm_num⟩, ⟨8, by decide +kernel, by norm_num⟩, ⟨16, by decide +kernel, by norm_num⟩,
            ⟨20, by decide +kernel, by norm_num⟩, ⟨24, by decide +kernel, by norm_num⟩, ⟨32, by decide +kernel, by norm_num⟩,
            ⟨40, by decide +kernel, by norm_num⟩, ⟨48, by decide +kernel, by norm_num⟩, ⟨56, by decide +kernel, by norm_num⟩,
            ⟨64, by decide +kernel, by norm_num⟩, ⟨72, by decide +kernel, by norm_num⟩, ⟨80, by decide +kernel, by norm_num⟩,
            ⟨88, by decide +kernel, by norm_num⟩, ⟨96, by decide +kernel, by norm_num⟩, ⟨104, by decide +kernel, by norm_num⟩,
            ⟨112, by decide +kernel, by norm_num⟩, ⟨120, by decide +kernel, by norm_num⟩, ⟨128, by decide +kernel, by norm_num⟩,
            ⟨136, by decide +kernel, by norm_num⟩, ⟨144, by decide +kernel, by norm_num⟩, by simp⟩
        obtain ⟨o', ho', hle⟩ := hall _ hm
        have : o = o' := Option.some.inj (ho.symm.trans ho')
        subst this
        exact ⟨fun _ _ => by omega, fun _ => hle⟩
      rw [Nat.zero_add]
      cases v <;> simp only [Holds] at hold ⊢
      · rwa [slice_raw _ _ _ _ (hbound.2 (by simp))]
      · rwa [slice_raw _ _ _ _ (hbound.1 _ rfl)]
      · rwa [slice_raw _ _ _ _ (hbound.2 (by simp))]
      · rwa [slice_raw _ _ _ _ (hbound.2 (by simp))]

/-- the small detector of capacity 3 of `Sample.small`, fitted on seven data -/
def Sample.fitted3 : Spot F64 × Heap F64 :=
  let r := spot_init Sample.lib Sample.emptyHeap Sample.zeroed (lit (1 / 100)) 5 0 (lit (9 / 10)) 3
  match spot_fit (codeMath muslFU) r.2.2 r.2.1 Sample.data 7 with
  | .ok f => f.2
  | .error _ => (Sample.zeroed, Sample.emptyHeap)

/-- what `as_dict()` shows of it -/
def Sample.shown (path : List String) : Option Value :=
  match Spot_as_dict Sample.fitted3.2 Sample.fitted3.1 with
  | .ok d => d.get path
  | .error _ => none

/-- projections with decidable equality -/
def Value.asFloat : Value → Option F64 | .float v => some v | _ => none
def Value.asInt : Value → Option ℤ | .int n => some n | _ => none
def Value.asList : Value → Option (List F64) | .list l => some l | _ => none

/-- the bytes of a word, least significant first -/
def Sample.bytes (n k : ℕ) : List UInt8 := (List.range n).map (fun i => UInt8.ofNat (k / 256 ^ i % 256))

/-- the bytes of a structure on LP64 -/
def Sample.image (s : Spot F64) : List UInt8 :=
  let d := fun (v : F64) => Sample.bytes 8 (toBits v).toNat
  let i := fun (n : ℤ) => Sample.bytes 4 (n % 2 ^ 32).toNat
  let u := fun (n : UInt64) => Sample.bytes 8 n.toNat
  let c := s.tail.peaks.container
  d s.q ++ d s.level ++ i s.discard_anomalies ++ i s.low ++ d s.up_down ++ d s.anomaly_threshold ++ d s.excess_threshold ++ u s.Nt ++
    u s.n ++ d s.tail.gamma ++ d s.tail.sigma ++ d s.tail.peaks.e ++ d s.tail.peaks.e2 ++ d s.tail.peaks.min ++ d s.tail.peaks.max ++
    u c.cursor ++ u c.capacity ++ d c.last_erased_data ++ i c.filled ++ [(0 : UInt8), 0, 0, 0] ++
    Sample.bytes 8 (address c.data)

/-- a memory with the structure at address 1000 -/
def Sample.memory (s : Spot F64) : Js.Bytes := fun a => (Sample.image s).getD (a - 1000) 0

/-- decidable form of `Stores` -/
def Sample.storesB (mem : Js.Bytes) (p : ℕ) (s : Spot F64) : Bool :=
  (members s).all fun e => match Js.SpotT.offset lp64 e.1 with
    | none => true
    | some o => match e.2 with
      | .double v => ofBits (UInt64.ofNat (Js.leNat (Js.slice mem (p + o) 8))) = v
      | .int n => (Js.leNat (Js.slice mem (p + o) 4) : ℤ) = n % 2 ^ 32
      | .ulong n => Js.leNat (Js.slice mem (p + o) 8) = n.toNat
      | .ptr a => Js.leNat (Js.slice mem (p + o) 8) = address a

theorem Sample.stores_of {mem : Js.Bytes} {p : ℕ} {s : Spot F64} (h : Sample.storesB mem p s = true) : Stores mem p s := by
  intro path v hm o ho
  have := List.all_eq_true.mp h _ hm
  simp only [ho] at this
  cases v <;> simpa [Holds] using this

/-- the hypotheses are met: a detector for the lower tail (`low = 5`), capacity 3, fitted on 1, 2, 3, ...: two excesses -/
example : ∃ xs, Recorded Sample.lib (lit (1 / 100)) 5 0 (lit (9 / 10)) 3 Sample.fitted3.1 Sample.fitted3.2 xs ∧
    Stores (Sample.memory Sample.fitted3.1) 1000 Sample.fitted3.1 := by
  refine ⟨_, Recorded.fit Sample.data 7 (by decide +kernel) 0 _ _
    (Recorded.init Sample.emptyHeap Sample.zeroed (by decide +kernel)) ?_, Sample.stores_of (by decide +kernel)⟩
  have h : ∃ r, spot_fit (codeMath muslFU) (spot_init Sample.lib Sample.emptyHeap Sample.zeroed (lit (1 / 100)) 5 0 (lit (9 / 10)) 3).2.2
      (spot_init Sample.lib Sample.emptyHeap Sample.zeroed (lit (1 / 100)) 5 0 (lit (9 / 10)) 3).2.1 Sample.data 7 = .ok r ∧ r.1 = 0 :=
    of_map (f := Prod.fst) (v := 0) (by decide +kernel)
  obtain ⟨r, hr, h0⟩ := h
  have e : Sample.fitted3 = r.2 := by unfold Sample.fitted3; simp only [hr]
  show spot_fit (codeMath muslFU) _ _ _ _ = _
  rw [hr, e, ← h0]

example : (Sample.shown ["tail", "peaks", "container", "data"]).bind Value.asList = some [lit 2, lit 1] ∧
    (Sample.shown ["excess_threshold"]).bind Value.asFloat = some (lit 3) ∧ (Sample.shown ["Nt"]).bind Value.asInt = some 2 ∧
    (Sample.shown ["low"]).bind Value.asInt = some 1 ∧
    (getattr (Sample.memory Sample.fitted3.1) 1000 "excess_threshold").bind Value.asFloat = some (lit 3) ∧
    (getattr (Sample.memory Sample.fitted3.1) 1000 "Nt").bind Value.asInt = some 2 := by decide +kernel

/-! ### C96 -/

/-- What a call `Spot(*args, **kw)` asks for: `q` is the positional argument or the keyword of that name, a number; `low` and
`discard_anomalies` are integers of 32 bits, 0 and 1 if absent; `level` is a number, 0.98 if absent; `max_excess` is an integer, 500 if
absent; there is no other argument. -/
structure Spec.Call (args : List Obj) (kw : List (String × Obj)) (q : F64) (low disc : ℤ) (level : F64) (me : ℤ) : Prop where
  q : (∃ o, args = [o] ∧ (∀ o', ("q", o') ∉ kw) ∧ HasFloat o q) ∨ (args = [] ∧ ∃ o, ("q", o) ∈ kw ∧ HasFloat o q)
  low : ("low", .int low) ∈ kw ∧ -2 ^ 31 ≤ low ∧ low < 2 ^ 31 ∨ (∀ o, ("low", o) ∉ kw) ∧ low = 0
  disc : ("discard_anomalies", .int disc) ∈ kw ∧ -2 ^ 31 ≤ disc ∧ disc < 2 ^ 31 ∨ (∀ o, ("discard_anomalies", o) ∉ kw) ∧ disc = 1
  level : (∃ o, ("level", o) ∈ kw ∧ HasFloat o level) ∨ (∀ o, ("level", o) ∉ kw) ∧ level = lit (98 / 100)
  me : ("max_excess", .int me) ∈ kw ∨ (∀ o, ("max_excess", o) ∉ kw) ∧ me = 500
  known : ∀ p ∈ kw, p.1 = "q" ∨ p.1 = "low" ∨ p.1 = "discard_anomalies" ∨ p.1 = "level" ∨ p.1 = "max_excess"

theorem find_key (kw : List (String × Obj)) (name : String) :
    (∃ o, (name, o) ∈ kw ∧ kw.find? (fun p => p.1 == name) = some (name, o)) ∨
    ((∀ o, (name, o) ∉ kw) ∧ kw.find? (fun p => p.1 == name) = none) := by
  cases hf : kw.find? (fun p => p.1 == name) with
  | none =>
    right
    refine ⟨fun o ho => ?_, rfl⟩
    have := List.find?_eq_none.mp hf _ ho
    simp at this
  | some p =>
    left
    have h1 := List.mem_of_find?_eq_some hf
    have h2 := List.find?_some hf
    simp only [beq_iff_eq] at h2
    obtain ⟨k, o⟩ := p
    simp only at h2
    subst h2
    exact ⟨o, h1, rfl⟩

theorem key_unique {kw : List (String × Obj)} (hd : (kw.map Prod.fst).Nodup) {name : String} {o o' : Obj} (h : (name, o) ∈ kw)
    (h' : (name, o') ∈ kw) : o = o' :=
  (Prod.mk.inj (List.inj_on_of_nodup_map hd h h' rfl)).2

theorem optional_iff {β : Type} {kw : List (String × Obj)} (hd : (kw.map Prod.fst).Nodup) (name : String) (parse : Obj → Except Exc β)
    (dflt v : β) :
    optional kw name parse dflt = .ok v ↔ (∃ o, (name, o) ∈ kw ∧ parse o = .ok v) ∨ ((∀ o, (name, o) ∉ kw) ∧ v = dflt) := by
  unfold optional
  rcases find_key kw name with ⟨o, hm, hf⟩ | ⟨hn, hf⟩
  · rw [hf]
    constructor
    · intro h; exact Or.inl ⟨o, hm, h⟩
    · rintro (⟨o', hm', h⟩ | ⟨hn, -⟩)
      · rw [key_unique hd hm hm']; exact h
      · exact absurd hm (hn o)
  · rw [hf]
    constructor
    · intro h; exact Or.inr ⟨hn, (Except.ok.inj h).symm⟩
    · rintro (⟨o', hm', h⟩ | ⟨-, h⟩)
      · exact absurd hm' (hn o')
      · rw [h]

theorem parseDouble_iff (o : Obj) (v : F64) : parseDouble o = .ok v ↔ HasFloat o v := by
  constructor
  · intro h
    cases o with
    | float w => cases h; exact .float _
    | int n =>
      unfold parseDouble PyFloat_AsDouble at h
      dsimp only at h
      cases hr : ofRat false n with
      | nan => rw [hr] at h; cases h
      | inf b => rw [hr] at h; cases h
      | fin b k =>
        rw [hr] at h
        have hv : v = ofRat false n := by rw [hr]; exact (Except.ok.inj h).symm
        rw [hv]
        exact .int n (by rw [hr]; trivial)
    | other => cases h
  · intro h
    unfold parseDouble
    rw [h.asDouble]

theorem parseInt_iff (o : Obj) (n : ℤ) : parseInt o = .ok n ↔ o = .int n ∧ -2 ^ 31 ≤ n ∧ n < 2 ^ 31 := by
  cases o with
  | float w => simp [parseInt]
  | other => simp [parseInt]
  | int k =>
    show (if -2 ^ 31 ≤ k ∧ k < 2 ^ 31 then Except.ok k else .error Exc.overflowError) = Except.ok n ↔ _
    by_cases h : -2 ^ 31 ≤ k ∧ k < 2 ^ 31
    · rw [if_pos h]
      constructor
      · intro e; cases e; exact ⟨rfl, h⟩
      · rintro ⟨e, -⟩; cases e; rfl
    · rw [if_neg h]
      constructor
      · intro e; cases e
      · rintro ⟨e, he⟩; cases e; exact absurd he h

theorem parseULong_iff (o : Obj) (me : UInt64) : parseULong o = .ok me ↔ ∃ n, o = .int n ∧ me = UInt64.ofInt n := by
  cases o with
  | float w => simp [parseULong]
  | other => simp [parseULong]
  | int k =>
    constructor
    · intro e; exact ⟨k, rfl, (Except.ok.inj e).symm⟩
    · rintro ⟨n, e, rfl⟩; cases e; rfl

/-- the arguments that are accepted, and what is passed to the library -/
theorem parseArgs_iff (args : List Obj) (kw : List (String × Obj)) (hd : (kw.map Prod.fst).Nodup) (q : F64) (low disc : ℤ)
    (level : F64) (me : UInt64) :
    parseArgs args kw = .ok (q, low, disc, level, me) ↔ ∃ n, Spec.Call args kw q low disc level n ∧ me = UInt64.ofInt n := by
  have hall : (kw.all (fun p => p.1 ∈ ["q", "low", "discard_anomalies", "level", "max_excess"]) = true) ↔
      ∀ p ∈ kw, p.1 = "q" ∨ p.1 = "low" ∨ p.1 = "discard_anomalies" ∨ p.1 = "level" ∨ p.1 = "max_excess" := by
    rw [List.all_eq_true]; simp
  have hq : ∀ r, parseQ args kw = Except.ok r ↔
      (∃ o, args = [o] ∧ (∀ o', ("q", o') ∉ kw) ∧ HasFloat o r) ∨ (args = [] ∧ ∃ o, ("q", o) ∈ kw ∧ HasFloat o r) := by
    intro r
    unfold parseQ
    rcases find_key kw "q" with ⟨o, hm, hf⟩ | ⟨hn, hf⟩
    · rw [hf]
      rcases args with _ | ⟨a, _ | ⟨b, as⟩⟩
      · simp only [parseDouble_iff]
        constructor
        · intro h; exact Or.inr ⟨trivial, o, hm, h⟩
        · rintro (⟨o', h, -⟩ | ⟨-, o', hm', h⟩)
          · cases h
          · rw [key_unique hd hm hm']; exact h
      · constructor
        · intro h; cases h
        · rintro (⟨o', -, h, -⟩ | ⟨h, -⟩)
          · exact absurd hm (h o)
          · cases h
      · constructor
        · intro h; cases h
        · rintro (⟨o', h, -⟩ | ⟨h, -⟩) <;> cases h
    · rw [hf]
      rcases args with _ | ⟨a, _ | ⟨b, as⟩⟩
      · constructor
        · intro h; cases h
        · rintro (⟨o', h, -⟩ | ⟨-, o', hm', h⟩)
          · cases h
          · exact absurd hm' (hn o')
      · simp only [parseDouble_iff]
        constructor
        · intro h; exact Or.inl ⟨a, rfl, hn, h⟩
        · rintro (⟨o', h, -, h'⟩ | ⟨h, -⟩)
          · cases h; exact h'
          · cases h
      · constructor
        · intro h; cases h
        · rintro (⟨o', h, -⟩ | ⟨h, -⟩) <;> cases h
  unfold parseArgs
  constructor
  · intro h
    generalize hQ : parseQ args kw = Q at h
    cases Q with
    | error e => cases h
    | ok q0 =>
    generalize hL : optional kw "low" parseInt 0 = L at h
    cases L with
    | error e => cases h
    | ok low0 =>
    generalize hD : optional kw "discard_anomalies" parseInt 1 = D at h
    cases D with
    | error e => cases h
    | ok disc0 =>
    generalize hV : optional kw "level" parseDouble (lit (98 / 100)) = V at h
    cases V with
    | error e => cases h
    | ok level0 =>
    generalize hM : optional kw "max_excess" parseULong 500 = M at h
    cases M with
    | error e => cases h
    | ok me0 =>
    replace h : (if kw.all (fun p => p.1 ∈ ["q", "low", "discard_anomalies", "level", "max_excess"])
      then Except.ok (q0, low0, disc0, level0, me0) else .error Exc.typeError) = .ok (q, low, disc, level, me) := h
    split at h
    · next hk =>
      cases h
      have c1 := (hq _).mp hQ
      have c2 := (optional_iff hd _ _ _ _).mp hL
      have c3 := (optional_iff hd _ _ _ _).mp hD
      have c4 := (optional_iff hd _ _ _ _).mp hV
      have c5 := (optional_iff hd _ _ _ _).mp hM
      have c2' : ("low", Obj.int low) ∈ kw ∧ -2 ^ 31 ≤ low ∧ low < 2 ^ 31 ∨ (∀ o, ("low", o) ∉ kw) ∧ low = 0 := by
        rcases c2 with ⟨o, h1, h2⟩ | c2
        · obtain ⟨rfl, h3⟩ := (parseInt_iff _ _).mp h2; exact Or.inl ⟨h1, h3⟩
        · exact Or.inr c2
      have c3' : ("discard_anomalies", Obj.int disc) ∈ kw ∧ -2 ^ 31 ≤ disc ∧ disc < 2 ^ 31 ∨
          (∀ o, ("discard_anomalies", o) ∉ kw) ∧ disc = 1 := by
        rcases c3 with ⟨o, h1, h2⟩ | c3
        · obtain ⟨rfl, h3⟩ := (parseInt_iff _ _).mp h2; exact Or.inl ⟨h1, h3⟩
        · exact Or.inr c3
      have c4' : (∃ o, ("level", o) ∈ kw ∧ HasFloat o level) ∨ (∀ o, ("level", o) ∉ kw) ∧ level = lit (98 / 100) := by
        rcases c4 with ⟨o, h1, h2⟩ | c4
        · exact Or.inl ⟨o, h1, (parseDouble_iff _ _).mp h2⟩
        · exact Or.inr c4
      rcases c5 with ⟨o, h1, h2⟩ | ⟨h1, h2⟩
      · obtain ⟨n, rfl, h3⟩ := (parseULong_iff _ _).mp h2
        exact ⟨n, ⟨c1, c2', c3', c4', Or.inl h1, hall.mp hk⟩, h3⟩
      · exact ⟨500, ⟨c1, c2', c3', c4', Or.inr ⟨h1, rfl⟩, hall.mp hk⟩, h2⟩
    · cases h
  · rintro ⟨n, hc, rfl⟩
    have e1 := (hq q).mpr hc.q
    have e2 : optional kw "low" parseInt 0 = .ok low := (optional_iff hd _ _ _ _).mpr (by
      rcases hc.low with ⟨h1, h2⟩ | h
      · exact Or.inl ⟨_, h1, (parseInt_iff _ _).mpr ⟨rfl, h2⟩⟩
      · exact Or.inr h)
    have e3 : optional kw "discard_anomalies" parseInt 1 = .ok disc := (optional_iff hd _ _ _ _).mpr (by
      rcases hc.disc with ⟨h1, h2⟩ | h
      · exact Or.inl ⟨_, h1, (parseInt_iff _ _).mpr ⟨rfl, h2⟩⟩
      · exact Or.inr h)
    have e4 : optional kw "level" parseDouble (lit (98 / 100)) = .ok level := (optional_iff hd _ _ _ _).mpr (by
      rcases hc.level with ⟨o, h1, h2⟩ | h
      · exact Or.inl ⟨_, h1, (parseDouble_iff _ _).mpr h2⟩
      · exact Or.inr h)
    have e5 : optional kw "max_excess" parseULong 500 = .ok (UInt64.ofInt n) := (optional_iff hd _ _ _ _).mpr (by
      rcases hc.me with h | ⟨h1, h2⟩
      · exact Or.inl ⟨_, h, rfl⟩
      · exact Or.inr ⟨h1, by rw [h2]; rfl⟩)
    rw [e1, e2, e3, e4, e5]
    show (if _ then _ else _) = _
    rw [if_pos (hall.mpr hc.known)]

/-- `Spot(*args, **kw)`: if the call makes sense (`Spec.Call`) with a `max_excess` that an `unsigned long` can represent, the library is
initialised with exactly those parameters; if it does not, an exception is set, -1 is returned and nothing has changed. Missing from
the property: values of `max_excess` outside of [0, 2^64), which are not rejected (`C96_false`). `kw` is a dictionary: its keys
are distinct. -/
theorem C96_partial (m : MallocFn F64) (fu : FloatUtils F64) (h : Heap F64) (self : Spot F64) (args : List Obj)
    (kw : List (String × Obj)) (hd : (kw.map Prod.fst).Nodup) :
    (∀ q low disc level me, Spec.Call args kw q low disc level me → 0 ≤ me → me < 2 ^ 64 →
      ∃ n : UInt64, n.toNat = me ∧ Spot_init_args m fu h self args kw = Spot_init m fu h self q low disc level n) ∧
    ((¬ ∃ q low disc level me, Spec.Call args kw q low disc level me) →
      ∃ e, Spot_init_args m fu h self args kw = .ok ⟨some (-1), some e, self, h⟩) := by
  constructor
  · intro q low disc level me hc h0 h1
    refine ⟨UInt64.ofInt me, ?_, ?_⟩
    · obtain ⟨k, rfl⟩ := Int.eq_ofNat_of_zero_le h0
      rw [ofInt_natCast, UInt64.toNat_ofNat', Nat.mod_eq_of_lt (by omega)]
    · unfold Spot_init_args
      rw [(parseArgs_iff args kw hd q low disc level _).mpr ⟨me, hc, rfl⟩]
  · intro hn
    unfold Spot_init_args
    cases hp : parseArgs args kw with
    | error e => exact ⟨e, rfl⟩
    | ok a =>
      obtain ⟨q, low, disc, level, me⟩ := a
      obtain ⟨n, hc, -⟩ := (parseArgs_iff args kw hd q low disc level me).mp hp
      exact absurd ⟨q, low, disc, level, n, hc⟩ hn

/-- `Spot(1/1000, level=9/10, low=1)` makes sense; `Spot(1/1000, 1)` does not (`low` is a keyword-only argument) -/
example : Spec.Call [.float (lit (1 / 1000))] [("level", .float (lit (9 / 10))), ("low", .int 1)] (lit (1 / 1000)) 1 1 (lit (9 / 10)) 500 ∧
    ¬ ∃ q low disc level me, Spec.Call [.float (lit (1 / 1000)), .int 1] [] q low disc level me := by
  constructor
  · exact ⟨Or.inl ⟨_, rfl, by simp, .float _⟩, Or.inl (by simp), Or.inr (by simp), Or.inl ⟨_, by simp, .float _⟩, Or.inr (by simp), by simp⟩
  · rintro ⟨q, low, disc, level, me, hc⟩
    rcases hc.q with ⟨o, h, -⟩ | ⟨h, -⟩ <;> cases h

/-- False of the code: `max_excess = 2^64 + 3` and `max_excess = 3 - 2^64` are accepted and give a detector that keeps 3 excesses. -/
theorem C96_false : ∀ n ∈ [(2 : ℤ) ^ 64 + 3, 3 - 2 ^ 64],
    (Spot_init_args (Sample.alloc F64) muslFU Sample.emptyHeap newObject [.float (lit (1 / 1000))] [("max_excess", .int n)]).map
      (fun r => (r.value, r.exc, r.self.tail.peaks.container.capacity.toNat)) = .ok (some 0, none, 3) := by
  decide +kernel

/-! ### C97 -/

/-- Creating an object, initialising it (successfully, or not, or not at all), using it and deleting it: deleting is defined, and every
block but that of the object itself is afterwards as it was before. Missing from the property: the block of the object (`C97_false`). -/
theorem C97_partial (m : MallocFn F64) (hm : ∀ h n a, m h n = some a → h a = none) (fu : FloatUtils F64) (h h1 : Heap F64) (p : ℕ)
    (ha : tp_alloc m h = some (p, h1)) (q level : F64) (low disc : ℤ) (me : UInt64) (hme : 1 ≤ me.toNat) (hme' : me.toNat < 2 ^ 61) :
    (∃ h2, dealloc m fu h1 newObject p = .ok h2 ∧ ∀ b, b ≠ p → h2 b = h b) ∧
    ∃ r, Spot_init m fu h1 newObject q low disc level me = .ok r ∧
      (r.exc ≠ none → ∃ h2, dealloc m fu r.heap r.self p = .ok h2 ∧ ∀ b, b ≠ p → h2 b = h b) ∧
      (r.exc = none → ∀ ops outs s' h', (∀ op ∈ ops, op.valid) → runOps (codeMath fu) r.heap r.self ops = .ok (outs, s', h') →
        ∃ h2, dealloc m fu h' s' p = .ok h2 ∧ ∀ b, b ≠ p → h2 b = h b) := by
  have hframe : ∀ b, b ≠ p → h1 b = h b := by
    intro b hb
    unfold tp_alloc at ha
    split at ha
    · cases ha
    · cases ha; exact Function.update_of_ne hb _ _
  obtain ⟨g0, r, hr, g1, g2⟩ := C70_partial m hm fu h1 q level low disc me
  refine ⟨⟨h1, g0, hframe⟩, r, hr, fun he => ?_, fun he ops outs s' h' hv hrun => ⟨h1, g2 he hme hme' ops outs s' h' hv hrun, hframe⟩⟩
  rcases g1 with ⟨h0, -⟩ | ⟨-, -, g⟩
  · exact absurd h0 he
  · exact ⟨h1, g, hframe⟩

/-- False of the code, for every object: its own block is still allocated after it was deleted (`tp_free` is not called). -/
theorem C97_false (m : MallocFn F64) (hm : ∀ h n a, m h n = some a → h a = none) (fu : FloatUtils F64) (h h1 : Heap F64) (p : ℕ)
    (ha : tp_alloc m h = some (p, h1)) (q level : F64) (low disc : ℤ) (me : UInt64) (hme : 1 ≤ me.toNat) (hme' : me.toNat < 2 ^ 61) :
    h p = none ∧ (∃ h2, dealloc m fu h1 newObject p = .ok h2 ∧ h2 p ≠ none) ∧
    ∃ r, Spot_init m fu h1 newObject q low disc level me = .ok r ∧
      (r.exc ≠ none → ∃ h2, dealloc m fu r.heap r.self p = .ok h2 ∧ h2 p ≠ none) ∧
      (r.exc = none → ∀ ops outs s' h', (∀ op ∈ ops, op.valid) → runOps (codeMath fu) r.heap r.self ops = .ok (outs, s', h') →
        ∃ h2, dealloc m fu h' s' p = .ok h2 ∧ h2 p ≠ none) := by
  have hp : h p = none ∧ h1 p ≠ none := by
    unfold tp_alloc at ha
    split at ha
    · cases ha
    · next a hma =>
      cases ha
      exact ⟨hm _ _ _ hma, by rw [Function.update_self]; simp⟩
  obtain ⟨g0, r, hr, g1, g2⟩ := C70_partial m hm fu h1 q level low disc me
  refine ⟨hp.1, ⟨h1, g0, hp.2⟩, r, hr, fun he => ?_, fun he ops outs s' h' hv hrun => ⟨h1, g2 he hme hme' ops outs s' h' hv hrun, hp.2⟩⟩
  rcases g1 with ⟨h0, -⟩ | ⟨-, -, g⟩
  · exact absurd h0 he
  · exact ⟨h1, g, hp.2⟩

/-- an allocator with which objects can be created: 21 words, then the buffer of the detector -/
example : (tp_alloc (Sample.alloc F64) Sample.emptyHeap).map (fun r => (r.1, (r.2 r.1).map List.length)) = some (4096, some 21) ∧
    (match tp_alloc (Sample.alloc F64) Sample.emptyHeap with
      | none => none
      | some (_, h1) => some ((Spot_init (Sample.alloc F64) muslFU h1 newObject (lit (1 / 100)) 0 1 (lit (9 / 10)) 20).map
          (fun r => (r.value, r.exc, (r.heap 8192).map List.length)))) = some (.ok (some 0, none, some 20)) := by decide +kernel

/-! ### C98 -/

/-- 0 times anything is a zero or NaN, hence not positive -/
theorem zero_mul_not_pos (y : F64) : ((lit 0 : F64) *. y >. lit 0) = false := by
  have h0 : (lit 0 : F64) = zero false := by decide +kernel
  rw [h0]
  show F64.lt (zero false) (F64.mul (zero false) y) = false
  rcases y with _ | t | ⟨t, b⟩
  · rfl
  · cases t <;> rfl
  · have : F64.mul (zero false) (fin t b) = zero (false != t) := by
      show ofRat (false != t) (toQ (zero false) * toQ (fin t b)) = _
      rw [show toQ (zero false) = 0 from toQ_eq_zero.mpr rfl, zero_mul, ofRat_zero]
    rw [this]
    cases t <;> decide +kernel

/-- the quantile of the tail for a ratio `q/s` that is NaN -/
theorem tail_quantile_nan (fu : FloatUtils F64) (t : Tail F64) (s q : F64) (h : q /. s = nan) :
    tail_quantile (codeMath fu) t s q = .ok nan := by
  have hl : (codeMath fu).log nan = nan := rfl
  have hm : ∀ y : F64, y *. nan = nan := fun y => by cases y <;> rfl
  have he : (codeMath fu).exp nan = .ok nan := rfl
  unfold tail_quantile
  rw [h]
  dsimp only
  split
  · simp only [hl, hm]
  · unfold xpow
    simp only [hl, hm, he, C.ok_bind, show (nan : F64) -. lit 1 = nan from rfl]

/-- A fit of an object that was not initialised stores nothing, since `up_down` is 0, and fails. -/
theorem fit_new (fu : FloatUtils F64) (vals : List F64) (hlen : vals.length < 2 ^ 61) :
    ∃ code s', (code = -1003 ∨ code = -1004) ∧ s'.tail.peaks.container = newObject.tail.peaks.container ∧
      ∀ h : Heap F64, spot_fit (codeMath fu) h newObject vals (UInt64.ofNat vals.length) = .ok (code, s', h) := by
  have hsz : (UInt64.ofNat vals.length).toNat = vals.length := by
    rw [UInt64.toNat_ofNat', Nat.mod_eq_of_lt (by omega)]
  obtain ⟨et, het⟩ := p2_quantile_ok (lit 0 : F64) vals (UInt64.ofNat vals.length) (by omega)
  have hlow : newObject.low = 0 := rfl
  have hlev : newObject.level = lit 0 := rfl
  by_cases hn : is_nan et = true
  · refine ⟨-1003, { newObject with Nt := 0, n := UInt64.ofNat vals.length }, Or.inl rfl, rfl, fun h => ?_⟩
    unfold spot_fit
    simp only [hlow, hlev, ne_eq, not_true_eq_false, if_false, het, C.ok_bind, hn, if_true]
    rfl
  have hn' : is_nan et = false := by simpa using hn
  set s1 : Spot F64 := { newObject with Nt := 0, n := UInt64.ofNat vals.length, excess_threshold := et } with hs1
  have hfold : ∀ h : Heap F64, (List.range vals.length).foldlM (fun st i => do
      let x ← loadBuf vals i
      fit_body et st x) (s1, h) = .ok (s1, h) := by
    intro h
    have : ∀ is : List ℕ, (∀ i ∈ is, i < vals.length) → is.foldlM (fun st i => do
        let x ← loadBuf vals i
        fit_body et st x) (s1, h) = .ok (s1, h) := by
      intro is his
      induction is with
      | nil => rfl
      | cons i is ih =>
        have hi : loadBuf vals i = .ok (vals[i]'(his i (by simp))) := by
          have := his i (by simp)
          unfold loadBuf
          simp [this]
        have hb : fit_body et (s1, h) (vals[i]'(his i (by simp))) = .ok (s1, h) := by
          unfold fit_body
          have : s1.up_down = lit 0 := rfl
          simp only [this, zero_mul_not_pos]
          rfl
        rw [List.foldlM_cons, hi]
        simp only [C.ok_bind, hb]
        exact ih fun j hj => his j (by simp [hj])
    exact this _ (by simp)
  have S : ∀ h : Heap F64, Stored h s1.tail.peaks.container ([] : List F64) := fun h => ⟨rfl, by simp⟩
  have hz : ∀ f : F64 × Tail F64, spot_quantile (codeMath fu) { s1 with tail := f.2 } (lit 0) = .ok nan := by
    intro f
    have h1 : (lit 0 : F64) /. (lit (({ s1 with tail := f.2 } : Spot F64).Nt.toNat : ℚ) /. lit (({ s1 with tail := f.2 } : Spot F64).n.toNat : ℚ)) = nan := by
      have h0 : (lit (({ s1 with tail := f.2 } : Spot F64).Nt.toNat : ℚ) : F64) = zero false := by
        show (lit (((0 : UInt64).toNat : ℕ) : ℚ) : F64) = _
        decide +kernel
      have h0' : (lit 0 : F64) = zero false := by decide +kernel
      rw [h0, h0']
      generalize (lit (({ s1 with tail := f.2 } : Spot F64).n.toNat : ℚ) : F64) = w
      have : (zero false /. w = nan) ∨ ∃ t, zero false /. w = zero t := by
        rcases w with _ | t | ⟨t, b⟩
        · exact Or.inl rfl
        · exact Or.inr ⟨_, rfl⟩
        · show F64.div (zero false) (fin t b) = nan ∨ _
          by_cases hb : b.val = 0
          · left; unfold F64.div zero; simp [hb]
          · right
            refine ⟨false != t, ?_⟩
            show F64.div (zero false) (fin t b) = _
            unfold F64.div
            simp only [zero]
            rw [if_neg hb]
            rw [show toQ (fin false ⟨0, by decide⟩) = 0 from toQ_eq_zero.mpr rfl, zero_div, ofRat_zero]
            rfl
      rcases this with e | ⟨t, e⟩
      · rw [e]; rfl
      · rw [e]; cases t <;> decide +kernel
    unfold spot_quantile
    simp only [tail_quantile_nan fu f.2 _ _ h1, C.ok_bind]
    have hm : ∀ y : F64, y *. nan = nan := fun y => by cases y <;> rfl
    have ha : ∀ y : F64, y +. nan = nan := fun y => by cases y <;> rfl
    rw [hm, ha]
  refine ⟨-1004, { s1 with tail := (tailFitL (codeMath fu) s1.tail []).2, anomaly_threshold := nan }, Or.inr rfl, ?_, fun h => ?_⟩
  · exact congrArg Peaks.container (tailFitL_peaks (M := codeMath fu) (l := []) s1.tail)
  unfold spot_fit
  simp only [hlow, hlev, ne_eq, not_true_eq_false, if_false, het, C.ok_bind, hn', Bool.false_eq_true, hsz]
  refine (congrArg (fun x => Except.bind x _) (hfold h)).trans ?_
  simp only [Except.bind]
  rw [tail_fit_eq (S h)]
  simp only [C.ok_bind]
  refine (congrArg (fun x => Except.bind x _) (hz (tailFitL (codeMath fu) s1.tail []))).trans ?_
  rfl

/-- An object whose `__init__` did not run (`Spot.__new__(Spot)`, a subclass that does not call it) or raised before the library
initialised anything (its memory is that of `tp_alloc`): `excesses()` is the empty list, `as_dict()` is defined, `quantile` and `probability` return NaN, `step(nan)` is
rejected, `fit` of a list of numbers stores nothing and leaves an exception pending, and the object can be deleted. Missing from the
property: `step` of the other numbers (`C98_false`), and what is missing from `C61_partial`. -/
theorem C98_partial (m : MallocFn F64) (fu : FloatUtils F64) (h : Heap F64) :
    (∀ p h1, tp_alloc m h = some (p, h1) → objectAt h1 p = some newObject) ∧
    Spot_excesses h newObject = .ok [] ∧ (∃ d, Spot_as_dict h newObject = .ok d) ∧
    (∀ q, Spot_quantile (codeMath fu) h newObject (.float q) = .ok ⟨some nan, none, newObject, h⟩) ∧
    (∀ z, Spot_probability (codeMath fu) h newObject (.float z) = .ok ⟨some nan, none, newObject, h⟩) ∧
    Spot_step (codeMath fu) h newObject (.float nan) = .ok ⟨some (-1005), none, newObject, h⟩ ∧
    (∀ (items : List Obj) (vals : List F64) (p : ℕ) (data : Arg), List.Forall₂ HasFloat items vals → items.length < 2 ^ 61 →
      m h (UInt64.ofNat (8 * items.length)) = some p → h p = none → data = .list items ∨ data = .iterable items →
      ∃ exc s', Spot_fit (codeMath fu) m h newObject data = .ok ⟨some (), some exc, s', h⟩ ∧ Spot_excesses h s' = .ok []) ∧
    Spot_dealloc m fu h newObject = .ok h := by
  have hx : Spot_excesses h newObject = .ok [] := rfl
  have hal : ∀ p h1, tp_alloc m h = some (p, h1) → objectAt h1 p = some newObject := by
    intro p h1 ha
    unfold tp_alloc at ha
    split at ha
    · cases ha
    · cases ha
      unfold objectAt
      rw [if_pos]
      rw [List.all_eq_true]
      intro i hi
      have h19 : (Js.SpotT.layout lp64).1 / 8 = 19 := by decide +kernel
      have hw : objectWords = 21 := by decide +kernel
      rw [List.mem_range, h19] at hi
      rw [decide_eq_true_iff, hw]
      unfold load
      have hr : (List.replicate 21 (some (lit 0 : F64)))[2 + i]? = some (some (lit 0)) := by
        rw [List.getElem?_replicate, if_pos (by omega)]
      simp only [Function.update_self, hr]
  refine ⟨hal, hx, ⟨_, as_dict_eq h newObject [] hx⟩, fun q => ?_, fun z => ?_, rfl, ?_, ?_⟩
  · have hdiv : (lit ((0 : UInt64).toNat : ℚ) : F64) /. lit ((0 : UInt64).toNat : ℚ) = nan := by decide +kernel
    have hq : q /. nan = nan := by cases q <;> rfl
    have hg : ((lit 0 : F64) ==. lit 0) = true := by decide +kernel
    unfold Spot_quantile
    show (do let z ← spot_quantile (codeMath fu) newObject q; Except.ok (⟨some z, none, newObject, h⟩ : Ret F64)) = _
    unfold spot_quantile tail_quantile
    simp only [newObject, hdiv, hq, hg, if_true]
    simp only [codeMath, xlog, C.ok_bind]
    rfl
  · have hg : ((lit 0 : F64) ==. lit 0) = true := by decide +kernel
    have h0 : (lit 0 : F64) = zero false := by decide +kernel
    -- 0 * y is a zero or NaN
    have hm : ∀ y : F64, F64.mul (zero false) y = nan ∨ ∃ t, F64.mul (zero false) y = zero t := by
      intro y
      rcases y with _ | t | ⟨t, b⟩
      · exact Or.inl rfl
      · exact Or.inl rfl
      · right
        refine ⟨false != t, ?_⟩
        show ofRat (false != t) (toQ (zero false) * toQ (fin t b)) = _
        rw [show toQ (zero false) = 0 from toQ_eq_zero.mpr rfl, zero_mul, ofRat_zero]
    have harg : (-. ((lit 0 : F64) *. (z -. lit 0))) /. lit 0 = nan := by
      rw [h0]
      show F64.div (F64.neg (F64.mul (zero false) (F64.sub z (zero false)))) (zero false) = nan
      rcases hm (F64.sub z (zero false)) with h | ⟨t, h⟩
      · rw [h]; rfl
      · rw [h]; cases t <;> decide +kernel
    unfold Spot_probability
    show (do let z ← spot_probability (codeMath fu) newObject z; Except.ok (⟨some z, none, newObject, h⟩ : Ret F64)) = _
    unfold spot_probability tail_probability
    simp only [newObject, hg, if_true]
    rw [harg]
    have he : (codeMath fu).exp nan = .ok nan := rfl
    have hdiv : (lit ((0 : UInt64).toNat : ℚ) : F64) /. lit ((0 : UInt64).toNat : ℚ) = nan := by decide +kernel
    simp only [he, C.ok_bind, hdiv]
    rfl
  · intro items vals p data hv hlen hm hfresh hd
    have hl : items.length = vals.length := hv.length_eq
    have hsz : (UInt64.ofNat vals.length).toNat = vals.length := by
      rw [UInt64.toNat_ofNat', Nat.mod_eq_of_lt (by omega)]
    have hseq : PySequence_Fast data = some (.list items) := by rcases hd with rfl | rfl <;> rfl
    have hofint : UInt64.ofInt (items.length : ℤ) = UInt64.ofNat vals.length := by
      rw [hl]; exact ofInt_natCast _
    have hmul : UInt64.ofNat vals.length * 8 = UInt64.ofNat (8 * items.length) := by
      apply UInt64.toNat_inj.mp
      rw [UInt64.toNat_mul, hsz, UInt64.toNat_ofNat', hl, Nat.mul_comm]
      rfl
    have hb : (UInt64.ofNat (8 * items.length)).toNat / 8 = items.length := by
      rw [UInt64.toNat_ofNat', Nat.mod_eq_of_lt (by omega)]; omega
    obtain ⟨code, s', hcode, hc, hfit⟩ := fit_new fu vals (by omega)
    obtain ⟨e, he, hiff⟩ := codeExc_eq (code := code) (by tauto)
    obtain ⟨exc, rfl⟩ : ∃ exc, e = some exc := by
      rcases e with _ | exc
      · have := hiff.mp rfl
        rcases hcode with h | h <;> rw [h] at this <;> cases this
      · exact ⟨exc, rfl⟩
    refine ⟨exc, s', ?_, ?_⟩
    · unfold Spot_fit
      rw [hseq]
      simp only [PyList_Size, hofint, hmul]
      unfold cmalloc
      simp only [hm, hb, hsz]
      rw [← hl, copyLoop_prefix items vals hv h p items.length le_rfl]
      simp only [C.ok_bind, Nat.sub_self, List.replicate_zero, List.append_nil]
      rw [hl, List.take_length, bufferOf_eq _ p vals vals.length le_rfl (by simp)]
      simp only [C.ok_bind, List.take_length]
      rw [hfit]
      simp only [C.ok_bind]
      have hcf : cfree (Function.update h p (some (vals.map some))) (some p) = .ok h := by
        unfold cfree xfree
        simp only [if_true, Function.update_self, Function.update_idem]
        congr 1
        rw [← hfresh]
        exact Function.update_eq_self p h
      rw [hcf]
      simp only [C.ok_bind, he, pend]
    · unfold Spot_excesses
      rw [hc]
      rfl
  · obtain ⟨s', hs⟩ := free_null (lib := ⟨some m, true, fu⟩) (h := h) (s := newObject) rfl
    unfold Spot_dealloc
    rw [hs]; rfl

/-- False of the code: `step` of any finite number on such an object writes through a null pointer. -/
theorem C98_false (fu : FloatUtils F64) (h : Heap F64) (x : F64) (hx : isFin x) :
    Spot_step (codeMath fu) h newObject (.float x) = .error .badPointer := by
  have hn : is_nan x = false := (is_nan_false x).mpr (isFin_iff_val.mp hx).1
  have h0 : (lit 0 : F64) = zero false := by decide +kernel
  have hex : ((lit 0 : F64) *. (x -. lit 0) >=. lit 0) = true := by
    rw [h0]
    have hsub : isFin (sub x (zero false)) := by
      obtain ⟨z, hz⟩ := sub_fin hx (y := zero false) trivial
      rw [hz, ofRat_isFin, show toQ x - toQ (zero false) = toQ x by
        rw [show toQ (zero false) = 0 from toQ_eq_zero.mpr rfl, sub_zero]]
      exact noOverflow_toQ x
    show le (zero false) (mul (zero false) (sub x (zero false))) = true
    generalize sub x (zero false) = y at hsub
    rcases y with _ | _ | ⟨t, b⟩
    · exact hsub.elim
    · exact hsub.elim
    · have : mul (zero false) (fin t b) = zero (false != t) := by
        show ofRat (false != t) (toQ (zero false) * toQ (fin t b)) = _
        rw [show toQ (zero false) = 0 from toQ_eq_zero.mpr rfl, zero_mul, ofRat_zero]
      rw [this]
      cases t <;> decide +kernel
  unfold Spot_step
  show (do let r ← spot_step (codeMath fu) h newObject x; _) = _
  unfold spot_step
  rw [hn]
  simp [newObject, hex, tail_push, peaks_push, ubend_push, store]

end Verif.Py

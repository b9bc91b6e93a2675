/-
C140: the figure of the Python example.
-/
import Verif.Model.Figure
import Verif.Props.PyObject
import Verif.Props.Python
import Verif.Props.Step

namespace Verif
open F64

/-- What the figure says: `z0` is the anomaly threshold after the fit, `u` the excess threshold, `X` the stream. The line has one value for
every observation; the marks are in the order of the stream, each at its observation. With `z` the line before an observation and `z'` the
line at it: the observation is marked exactly when it is above `z`; the line then stays; and the line only moves at observations between
`u` and `z`. -/
structure Spec.Figure (z0 u : F64) (X : List F64) (p : Figure.Plot) : Prop where
  line : p.THRESHOLD.length = X.length
  increasing : p.Ax.Pairwise (· < ·)
  values : p.Ay.map some = p.Ax.map (X[·]?)
  point : ∀ i x, X[i]? = some x → ∃ z z', (z0 :: p.THRESHOLD)[i]? = some z ∧ p.THRESHOLD[i]? = some z' ∧
    (i ∈ p.Ax ↔ notNaN z ∧ notNaN x ∧ z.val < x.val) ∧
    (i ∈ p.Ax → z' = z) ∧
    (z' ≠ z → notNaN x ∧ (notNaN z → x.val ≤ z.val) ∧ (isFin u → u.val ≤ x.val))

namespace Figure
open Py

theorem reaches_safe {lib : Lib F64} {q level : F64} {low disc : ℤ} {me : UInt64} {s : Spot F64} {h : Heap F64}
    (R : Reaches (codeMath lib.fu) lib q low disc level me s h) {op : Op F64} (hv : op.valid) {e : UB}
    (he : exec (codeMath lib.fu) h s op = .error e) : e = .floatConv := by
  obtain ⟨h1, h2, h0, s0, hi, ops, outs, hops, hrun⟩ := R
  refine C05_memory_safe lib h0 s0 q level low disc me h1 h2 _ rfl hi (ops ++ [op]) (fun o ho => ?_) e ?_
  · rcases List.mem_append.mp ho with g | g
    · exact hops o g
    · rw [List.mem_singleton.mp g]; exact hv
  · rw [runOps_append, hrun]
    unfold runOps
    rw [C.ok_bind, he]
    rfl

theorem reaches_exec {lib : Lib F64} {q level : F64} {low disc : ℤ} {me : UInt64} {s s' : Spot F64} {h h' : Heap F64}
    (R : Reaches (codeMath lib.fu) lib q low disc level me s h) {op : Op F64} (hv : op.valid) {o : Out F64}
    (he : exec (codeMath lib.fu) h s op = .ok (o, s', h')) : Reaches (codeMath lib.fu) lib q low disc level me s' h' := by
  refine R.run (ops := [op]) (outs := [o]) (fun x hx => by rw [List.mem_singleton.mp hx]; exact hv) ?_
  unfold runOps
  rw [he]
  rfl

theorem Ax_lt {z0 u : F64} {X : List F64} {p : Plot} (G : Spec.Figure z0 u X p) {i : ℕ} (hi : i ∈ p.Ax) : i < X.length := by
  have : X[i]? ∈ p.Ax.map (X[·]?) := List.mem_map_of_mem hi
  rw [← G.values] at this
  obtain ⟨y, -, hy⟩ := List.mem_map.mp this
  exact (List.getElem?_eq_some_iff.mp hy.symm).1

/-- one more observation -/
theorem snoc {z0 u : F64} {X : List F64} {p : Plot} (G : Spec.Figure z0 u X p) (x z z' : F64) (hz : (z0 :: p.THRESHOLD).getLast? = some z)
    (mark : Bool) (h1 : mark = true ↔ notNaN z ∧ notNaN x ∧ z.val < x.val) (h2 : mark = true → z' = z)
    (h3 : z' ≠ z → notNaN x ∧ (notNaN z → x.val ≤ z.val) ∧ (isFin u → u.val ≤ x.val)) :
    Spec.Figure z0 u (X ++ [x]) ⟨if mark then p.Ax ++ [X.length] else p.Ax, if mark then p.Ay ++ [x] else p.Ay, p.THRESHOLD ++ [z']⟩ := by
  have hA : ∀ i, i ∈ (if mark then p.Ax ++ [X.length] else p.Ax) ↔ i ∈ p.Ax ∨ (mark = true ∧ i = X.length) := by
    intro i
    cases mark <;> simp
  have hval : p.Ax.map ((X ++ [x])[·]?) = p.Ax.map (X[·]?) := by
    apply List.map_congr_left
    intro i hi
    exact List.getElem?_append_left (Ax_lt G hi)
  refine ⟨by simp [G.line], ?_, ?_, ?_⟩
  · dsimp only
    cases mark with
    | false => exact G.increasing
    | true =>
      rw [if_pos rfl, List.pairwise_append]
      exact ⟨G.increasing, by simp, fun a ha b hb => by rw [List.mem_singleton.mp hb]; exact Ax_lt G ha⟩
  · dsimp only
    cases mark with
    | false => simpa [hval] using G.values
    | true =>
      simp only [if_true, List.map_append, hval, G.values]
      simp
  · intro i y hy
    dsimp only
    rcases Nat.lt_trichotomy i X.length with hi | hi | hi
    · rw [List.getElem?_append_left hi] at hy
      obtain ⟨w, w', g1, g2, g3, g4, g5⟩ := G.point i y hy
      have hne : i ≠ X.length := by omega
      refine ⟨w, w', ?_, ?_, ?_, ?_, g5⟩
      · rw [← List.cons_append, List.getElem?_append_left (by rw [List.length_cons, G.line]; omega)]; exact g1
      · rw [List.getElem?_append_left (by rw [G.line]; omega)]; exact g2
      · rw [hA]; simpa [hne] using g3
      · rw [hA]; simpa [hne] using g4
    · subst hi
      have hy' : y = x := by simpa using hy.symm
      subst hy'
      have hnot : X.length ∉ p.Ax := fun h => absurd (Ax_lt G h) (lt_irrefl _)
      refine ⟨z, z', ?_, ?_, ?_, ?_, h3⟩
      · rw [← List.cons_append, List.getElem?_append_left (by rw [List.length_cons, G.line]; omega)]
        rw [List.getLast?_eq_getElem?, List.length_cons, G.line] at hz
        exact hz
      · rw [← G.line]; simp
      · rw [hA, ← h1]; simp [hnot]
      · rw [hA]; simpa [hnot] using h2
    · rw [List.getElem?_eq_none (by rw [List.length_append]; simp; omega)] at hy
      cases hy

theorem loop_spec {lib : Lib F64} {q level : F64} {me : UInt64} {z0 u : F64} : ∀ (xs X : List F64) (p : Plot) (T : List F64) (s : Spot F64)
    (h : Heap F64), Reaches (codeMath lib.fu) lib q 0 1 level me s h → p.THRESHOLD = T ++ List.replicate xs.length (lit 0) →
    Spec.Figure z0 u X ⟨p.Ax, p.Ay, T⟩ → (z0 :: T).getLast? = some s.anomaly_threshold → s.excess_threshold = u →
    match loop (codeMath lib.fu) X.length p s h xs with
    | .error e => e = .floatConv
    | .ok .raised => False
    | .ok (.drawn p' s' h') => Spec.Figure z0 u (X ++ xs) p' ∧ (z0 :: p'.THRESHOLD).getLast? = some s'.anomaly_threshold ∧ s'.excess_threshold = u ∧
        Reaches (codeMath lib.fu) lib q 0 1 level me s' h' := by
  intro xs
  induction xs with
  | nil =>
    intro X p T s h R hT G hl hu
    unfold loop
    dsimp only
    rw [List.length_nil, List.replicate_zero, List.append_nil] at hT
    rw [List.append_nil]
    subst hT
    exact ⟨G, hl, hu, R⟩
  | cons x xs ih =>
    intro X p T s h R hT G hl hu
    unfold loop
    obtain ⟨-, -, -, P⟩ := R.inv
    have hstep := (C68_partial (codeMath lib.fu) h s (.float x) x (.float x)).1
    cases hs : spot_step (codeMath lib.fu) h s x with
    | error e =>
      have e1 : Spot_step (codeMath lib.fu) h s (.float x) = .error e := by
        unfold Spot_step
        simp only [PyFloat_AsDouble]
        rw [hs]
        rfl
      rw [e1]
      have e2 : exec (codeMath lib.fu) h s (.step x) = .error e := by
        unfold exec
        dsimp only
        rw [hs]
        rfl
      exact reaches_safe R (op := .step x) trivial e2
    | ok r =>
      obtain ⟨code, s1, h1⟩ := r
      rw [(hstep _).mpr ⟨code, s1, h1, hs, rfl⟩, C.ok_bind]
      dsimp only
      rw [if_neg (by simp)]
      have e2 : exec (codeMath lib.fu) h s (.step x) = .ok (.code code, s1, h1) := by
        unfold exec
        dsimp only
        rw [hs]
        rfl
      have R1 := reaches_exec R (op := .step x) trivial e2
      have an := anomTest_iff P x
      rw [if_neg (by simp)] at an
      have key : (decide (code = 2) = true ↔ notNaN s.anomaly_threshold ∧ notNaN x ∧ s.anomaly_threshold.val < x.val) ∧
          (decide (code = 2) = true → s1.anomaly_threshold = s.anomaly_threshold) ∧
          (s1.anomaly_threshold ≠ s.anomaly_threshold → notNaN x ∧ (notNaN s.anomaly_threshold → x.val ≤ s.anomaly_threshold.val) ∧ (isFin u → u.val ≤ x.val)) ∧
          s1.excess_threshold = s.excess_threshold := by
        rcases step_cases hs with ⟨n, e, rfl, -⟩ | ⟨-, a, rfl, rfl, -⟩ | ⟨n, a, t, rfl, t', e', -⟩ | ⟨-, a, -, rfl, e', -⟩
        · have hn : ¬ notNaN x := fun g => g ((F64.is_nan_iff x).mp n)
          have hc : code ≠ 2 := by rw [e]; decide
          simp [hc, hn]
        · have := an.mp a
          exact ⟨by simp [ANOMALY, this.2.1, this.2.2.1, this.2.2.2], fun _ => rfl, fun h => absurd rfl h, rfl⟩
        · have hx : notNaN x := by
            intro hx
            rw [(F64.is_nan_iff x).mpr hx] at n
            cases n
          have hna : ¬ (notNaN s.anomaly_threshold ∧ notNaN x ∧ s.anomaly_threshold.val < x.val) := by
            intro ⟨g1, g2, g3⟩
            rw [an.mpr ⟨by decide, g2, g1, g3⟩] at a
            cases a
          refine ⟨by simpa [EXCESS] using hna, by simp [EXCESS], fun _ => ⟨hx, ?_, fun hf => ?_⟩, by rw [e']⟩
          · intro hz
            exact not_lt.mp fun hlt => hna ⟨hz, hx, hlt⟩
          · have := ((exTest_iff P x (hu ▸ hf)).mp t).2
            rw [if_neg (by simp), hu] at this
            exact this
        · have hna : ¬ (notNaN s.anomaly_threshold ∧ notNaN x ∧ s.anomaly_threshold.val < x.val) := by
            intro ⟨g1, g2, g3⟩
            rw [an.mpr ⟨by decide, g2, g1, g3⟩] at a
            cases a
          subst e'
          exact ⟨by simpa [NORMAL] using hna, by simp [NORMAL], fun h => absurd rfl h, rfl⟩
      obtain ⟨k1, k2, k3, k4⟩ := key
      have G1 := snoc G x _ s1.anomaly_threshold hl _ k1 k2 k3
      have hlast : (z0 :: (T ++ [s1.anomaly_threshold])).getLast? = some s1.anomaly_threshold := by
        rw [← List.cons_append, List.getLast?_append]
        rfl
      have hlen : T.length = X.length := G.line
      have hset : p.THRESHOLD.set X.length s1.anomaly_threshold = (T ++ [s1.anomaly_threshold]) ++ List.replicate xs.length (lit 0) := by
        rw [hT, ← hlen, List.set_append_right _ _ le_rfl, Nat.sub_self, List.length_cons, List.replicate_succ, List.set_cons_zero,
          List.append_assoc]
        rfl
      have := ih (X ++ [x]) ⟨if decide (code = 2) = true then p.Ax ++ [X.length] else p.Ax, if decide (code = 2) = true then p.Ay ++ [x] else p.Ay,
        p.THRESHOLD.set X.length s1.anomaly_threshold⟩ (T ++ [s1.anomaly_threshold]) s1 h1 R1 hset G1 hlast (k4.trans hu)
      rw [List.length_append, List.length_singleton, List.append_assoc, List.singleton_append] at this
      have hp : ({ (if some code = some ANOMALY then { p with Ax := p.Ax ++ [X.length], Ay := p.Ay ++ [x] } else p) with
          THRESHOLD := (if some code = some ANOMALY then { p with Ax := p.Ax ++ [X.length], Ay := p.Ay ++ [x] } else p).THRESHOLD.set X.length s1.anomaly_threshold } : Plot) =
          ⟨if decide (code = 2) = true then p.Ax ++ [X.length] else p.Ax, if decide (code = 2) = true then p.Ay ++ [x] else p.Ay,
            p.THRESHOLD.set X.length s1.anomaly_threshold⟩ := by
        by_cases hc : code = 2
        · rw [if_pos (by rw [hc]; rfl)]; simp [hc]
        · rw [if_neg (by intro e; exact hc (Option.some.inj e))]; simp [hc]
      rw [hp]
      exact this

end Figure

/-- **C140**. The script examples/basic.py with any data, any arguments and any allocator that gives fresh blocks, memory for the copy of the
training data being available. It draws a figure, or raises the exception of a failed initialisation or of a failed fit, or converts a double
that does not fit (the defect of `xexp`, C17). If it draws, the figure is correct in the sense of `Spec.Figure`, with a line that starts from
the anomaly threshold of the fit, which is not NaN, and ends at the detector's. -/
theorem C140_figure (m : MallocFn F64) (fu : FloatUtils F64) (h : Heap F64) (q level : F64) (max_excess : UInt64) (TRAIN STREAM : List F64)
    (fresh : ∀ h n p, m h n = some p → h p = none)
    (h1 : 1 ≤ max_excess.toNat) (h2 : max_excess.toNat < 2 ^ 61) (hT : TRAIN.length < 2 ^ 61)
    (i : Init) (hi : i = spot_init ⟨some m, true, fu⟩ h Py.newObject q 0 1 level max_excess)
    (memory : m i.2.2 (UInt64.ofNat (8 * TRAIN.length)) ≠ none) :
    match Figure.script m fu h q max_excess.toNat level TRAIN STREAM with
    | .error e => e = .floatConv
    | .ok .raised => i.1 ≠ 0 ∨ ∃ r, spot_fit (codeMath fu) i.2.2 i.2.1 TRAIN (UInt64.ofNat TRAIN.length) = .ok r ∧ r.1 ≠ 0
    | .ok (.drawn p s _) => i.1 = 0 ∧ ∃ s0 h0, spot_fit (codeMath fu) i.2.2 i.2.1 TRAIN (UInt64.ofNat TRAIN.length) = .ok (0, s0, h0) ∧
        notNaN s0.anomaly_threshold ∧ s.excess_threshold = s0.excess_threshold ∧
        Spec.Figure s0.anomaly_threshold s0.excess_threshold STREAM p ∧
        (s0.anomaly_threshold :: p.THRESHOLD).getLast? = some s.anomaly_threshold := by
  unfold Figure.script
  obtain ⟨n, hn, hinit⟩ := (Py.C96_partial m fu h Py.newObject [] [("q", .float q), ("max_excess", .int max_excess.toNat), ("level", .float level)]
    (by simp)).1 q 0 1 level max_excess.toNat ⟨Or.inr ⟨rfl, _, by simp, .float _⟩, Or.inr (by simp), Or.inr (by simp),
      Or.inl ⟨_, by simp, .float _⟩, Or.inl (by simp), by simp⟩ (by omega) (by omega)
  have hn : n = max_excess := UInt64.toNat_inj.mp (by exact_mod_cast hn)
  subst hn
  rw [hinit]
  have hcodes := Py.init_codes ⟨some m, true, fu⟩ h Py.newObject q level 0 1 n
  rw [← hi] at hcodes
  obtain ⟨e, he, hiff⟩ := Py.codeExc_init (code := i.1)
    (by rcases hcodes with g | ⟨g, -⟩ | ⟨g, -⟩; exacts [.inl g, .inr (.inl g), .inr (.inr g)])
  have hI : Py.Spot_init m fu h Py.newObject q 0 1 level n = .ok ⟨some i.1, e, i.2.1, i.2.2⟩ := by
    unfold Py.Spot_init
    rw [← hi]
    simp only [he, C.ok_bind]
  rw [hI, C.ok_bind]
  dsimp only
  by_cases h0 : i.1 = 0
  swap
  · rw [if_pos (fun g => h0 (hiff.mp g))]
    exact .inl h0
  rw [if_neg (fun g => g (hiff.mpr h0))]
  have R : Reaches (codeMath fu) ⟨some m, true, fu⟩ q 0 1 level n i.2.1 i.2.2 :=
    ⟨h1, h2, h, Py.newObject, by rw [← hi]; exact h0, [], [], by simp, by rw [← hi]; rfl⟩
  obtain ⟨a, xs, I, -⟩ := R.inv
  obtain ⟨b, hb⟩ := Option.ne_none_iff_exists'.mp memory
  have hlen : (TRAIN.map Py.Obj.float).length = TRAIN.length := List.length_map _
  have hfl : List.Forall₂ Py.HasFloat (TRAIN.map Py.Obj.float) TRAIN := by
    clear memory hb hT hlen
    induction TRAIN with
    | nil => exact .nil
    | cons x l ih => exact .cons (.float x) ih
  obtain ⟨g1, g2⟩ := Py.fit_call fu I m (TRAIN.map .float) TRAIN hfl (by rw [hlen]; exact hT) b (by rw [hlen]; exact hb) (fresh _ _ _ hb)
    (.iterable (TRAIN.map .float)) (.inr rfl)
  have hsz : (UInt64.ofNat TRAIN.length).toNat ≤ TRAIN.length := by
    rw [UInt64.toNat_ofNat', Nat.mod_eq_of_lt (by omega)]
  cases hf : spot_fit (codeMath fu) i.2.2 i.2.1 TRAIN (UInt64.ofNat TRAIN.length) with
  | error e =>
    rw [g1 e hf]
    refine Figure.reaches_safe R (op := .fit TRAIN (UInt64.ofNat TRAIN.length)) hsz (e := e) ?_
    unfold exec
    dsimp only
    rw [hf]
    rfl
  | ok r =>
    obtain ⟨code, s0, h0'⟩ := r
    obtain ⟨exc, k1, k2⟩ := g2 code s0 h0' hf
    rw [k1, C.ok_bind]
    dsimp only
    by_cases hc : code = 0
    swap
    · rw [if_pos (fun g => hc (k2.mp g))]
      exact .inr ⟨_, rfl, hc⟩
    rw [if_neg (fun g => g (k2.mpr hc))]
    subst hc
    have R0 : Reaches (codeMath fu) ⟨some m, true, fu⟩ q 0 1 level n s0 h0' := by
      refine Figure.reaches_exec R (op := .fit TRAIN (UInt64.ofNat TRAIN.length)) hsz (o := .code 0) ?_
      unfold exec
      dsimp only
      rw [hf]
      rfl
    have hnan : notNaN s0.anomaly_threshold := by
      obtain ⟨et, -, hcs⟩ := fit_cases I hsz hf
      rcases hcs with ⟨-, g, -⟩ | ⟨-, -, -, -, g⟩
      · exact absurd g (by decide)
      · intro g'
        rw [if_pos ((F64.is_nan_iff _).mpr g')] at g
        exact absurd g (by decide)
    have := Figure.loop_spec (lib := ⟨some m, true, fu⟩) (z0 := s0.anomaly_threshold) (u := s0.excess_threshold) STREAM []
      ⟨[], [], List.replicate STREAM.length (lit 0)⟩ [] s0 h0' R0 rfl ⟨rfl, .nil, rfl, fun i x hx => by simp at hx⟩ rfl rfl
    rw [List.length_nil, List.nil_append] at this
    split at this
    · next e heq => rw [heq]; exact this
    · exact this.elim
    · next p' s' h'' heq =>
      rw [heq]
      exact ⟨h0, s0, h0', rfl, hnan, this.2.2.1, this.1, this.2.1⟩

/-- the figure, if one is drawn -/
def Figure.Outcome.plot : Figure.Outcome → Option Figure.Plot
  | .raised => none
  | .drawn p _ _ => some p

/-- Non-vacuity: the sample allocator meets the hypotheses. Trained on -2, -1, 0, 1, 3 with q = 1/5 and level = 1/2, the script draws a figure
for the stream 100, -7, 2, 50: the points 0 and 3 are marked, the line moves at the point 2 only. With level = 2 it raises. -/
example : (∀ h n p, Sample.alloc F64 h n = some p → h p = none) ∧
    Sample.alloc F64 (spot_init ⟨some (Sample.alloc F64), true, muslFU⟩ Sample.emptyHeap Py.newObject (lit (1 / 5)) 0 1 (lit (1 / 2)) 20).2.2 40 = some 8192 ∧
    (Figure.script (Sample.alloc F64) muslFU Sample.emptyHeap (lit (1 / 5)) 20 (lit (1 / 2)) [lit (-2), lit (-1), lit 0, lit 1, lit 3]
      [lit 100, lit (-7), lit 2, lit 50]).map (fun o => (o.plot.map (fun p => (p.Ax, p.Ay,
        p.THRESHOLD.map (fun z => z <. lit 2), decide (p.THRESHOLD[0]? = p.THRESHOLD[1]?))))) =
      .ok (some ([0, 3], [lit 100, lit 50], [false, false, true, true], true)) ∧
    (Figure.script (Sample.alloc F64) muslFU Sample.emptyHeap (lit (1 / 5)) 20 (lit 2) [lit (-2), lit (-1), lit 0, lit 1, lit 3] []).map
      (fun o => o.plot.isSome) = .ok false :=
  ⟨sample_mallocOK _ rfl, by decide +kernel, by decide +kernel, by decide +kernel⟩

/-- The reading of the figure that the code does not support: every point above the line is marked. With the training data above and the
observation 2 alone, nothing is marked, although 2 is above the line at 2: it was accepted as an excess, and the new fit has a lower threshold.
(`C140_figure` says what holds: the marks are the points above the line at the previous position.) -/
theorem C140_limit : ∃ p : Figure.Plot, (∃ s h', Figure.script (Sample.alloc F64) muslFU Sample.emptyHeap (lit (1 / 5)) 20 (lit (1 / 2))
      [lit (-2), lit (-1), lit 0, lit 1, lit 3] [lit 2] = .ok (.drawn p s h')) ∧ p.Ax = [] ∧
    ∃ z, p.THRESHOLD = [z] ∧ notNaN z ∧ z.val < (lit 2 : F64).val := by
  obtain ⟨o, e1, e2⟩ := Py.of_map (x := Figure.script (Sample.alloc F64) muslFU Sample.emptyHeap (lit (1 / 5)) 20 (lit (1 / 2))
      [lit (-2), lit (-1), lit 0, lit 1, lit 3] [lit 2])
    (f := fun o => o.plot.map (fun p => (p.Ax, p.THRESHOLD.length, p.THRESHOLD.all (fun z => F64.lt z (lit 2))))) (v := some ([], 1, true)) (by decide +kernel)
  cases o with
  | raised => cases e2
  | drawn p s h' =>
    simp only [Figure.Outcome.plot, Option.map_some, Option.some.injEq, Prod.mk.injEq] at e2
    obtain ⟨g1, g2, g3⟩ := e2
    refine ⟨p, ⟨s, h', e1⟩, g1, ?_⟩
    obtain ⟨z, hz⟩ := List.length_eq_one_iff.mp g2
    rw [hz] at g3
    simp only [List.all_cons, List.all_nil, Bool.and_true] at g3
    have := (F64.lt_iff _ _).mp g3
    exact ⟨z, hz, this.1, this.2.2⟩

end Verif

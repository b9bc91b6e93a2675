/-
Property theorems: the effect of a change of origin (C83) and of a change of unit (C84) of the data.
-/
import Verif.XR.Scale
import Verif.Props.P2
import Verif.Props.SampleRun
import Verif.Props.Tail
import Verif.Props.Gpd
import Verif.Proofs.Units

namespace Verif

/-! ### C83: change of origin -/

/-- the detector with both thresholds moved by `c` -/
noncomputable def Spec.shiftSpot (c : ℝ) (s : Spot XR) : Spot XR :=
  { s with anomaly_threshold := s.anomaly_threshold +. .fin c, excess_threshold := s.excess_threshold +. .fin c }

/-- the same call with all data moved by `c` (a probability level is not a datum) -/
noncomputable def Spec.shiftOp (c : ℝ) : Op XR → Op XR
  | .fit data size => .fit (data.map (· +. .fin c)) size
  | .step x => .step (x +. .fin c)
  | .quantile q => .quantile q
  | .probability z => .probability (z +. .fin c)

/-- what the moved call must return, given what the original call returns -/
noncomputable def Spec.shiftOut (c : ℝ) : Op XR → Out XR → Out XR
  | .quantile _, .value v => .value (v +. .fin c)
  | _, o => o

/-- fits on at least five real numbers; any steps and queries -/
def Spec.shiftable : Op XR → Prop
  | .fit data size => 5 ≤ size.toNat ∧ size.toNat ≤ data.length ∧ ∀ x ∈ data, ∃ r, x = .fin r
  | _ => True

variable {M : MathFns XR}

theorem quantile_shift (s : Spot XR) (c : ℝ) (q : XR) :
    spot_quantile M (Spec.shiftSpot c s) q = (spot_quantile M s q).map (· +. .fin c) := by
  unfold spot_quantile Spec.shiftSpot
  dsimp only
  cases tail_quantile M s.tail (lit s.Nt.toNat /. lit s.n.toNat) q with
  | error e => rfl
  | ok t => simp only [C.ok_bind, Except.map, XR.shift_add]

theorem probability_shift (s : Spot XR) (c : ℝ) (z : XR) :
    spot_probability M (Spec.shiftSpot c s) (z +. .fin c) = spot_probability M s z := by
  unfold spot_probability Spec.shiftSpot
  dsimp only
  rw [XR.shift_sub]

theorem step_shift (h : Heap XR) (s : Spot XR) (c : ℝ) (x : XR) :
    spot_step M h (Spec.shiftSpot c s) (x +. .fin c) =
      (spot_step M h s x).map (fun r => (r.1, Spec.shiftSpot c r.2.1, r.2.2)) := by
  unfold spot_step
  rw [XR.shift_nan]
  by_cases h1 : is_nan x = true
  · rw [if_pos h1, if_pos h1]; rfl
  rw [if_neg h1, if_neg h1]
  have e1 : (Spec.shiftSpot c s).up_down *. ((x +. .fin c) -. (Spec.shiftSpot c s).anomaly_threshold) =
      s.up_down *. (x -. s.anomaly_threshold) := by
    show s.up_down *. ((x +. .fin c) -. (s.anomaly_threshold +. .fin c)) = _
    rw [XR.shift_sub]
  have e2 : (Spec.shiftSpot c s).up_down *. ((x +. .fin c) -. (Spec.shiftSpot c s).excess_threshold) =
      s.up_down *. (x -. s.excess_threshold) := by
    show s.up_down *. ((x +. .fin c) -. (s.excess_threshold +. .fin c)) = _
    rw [XR.shift_sub]
  rw [e1]
  show (if (s.discard_anomalies ≠ 0 && s.up_down *. (x -. s.anomaly_threshold) >. lit 0) = true then _ else _) = _
  by_cases h2 : (s.discard_anomalies ≠ 0 && s.up_down *. (x -. s.anomaly_threshold) >. lit 0) = true
  · rw [if_pos h2, if_pos h2]; rfl
  rw [if_neg h2, if_neg h2]
  dsimp only
  rw [e2]
  by_cases h3 : (s.up_down *. (x -. s.excess_threshold) >=. lit 0) = true
  · rw [if_pos h3, if_pos h3]
    show (tail_push h s.tail (s.up_down *. (x -. s.excess_threshold)) >>= _) = _
    cases tail_push h s.tail (s.up_down *. (x -. s.excess_threshold)) with
    | error e => rfl
    | ok r =>
      simp only [C.ok_bind]
      cases tail_fit M r.2 r.1 with
      | error e => rfl
      | ok f =>
        simp only [C.ok_bind]
        have := quantile_shift (M := M) { s with n := s.n + 1, Nt := s.Nt + 1, tail := f.2 } c s.q
        unfold Spec.shiftSpot at this ⊢
        dsimp only at this ⊢
        rw [this]
        cases spot_quantile M { s with n := s.n + 1, Nt := s.Nt + 1, tail := f.2 } s.q with
        | error e => rfl
        | ok z => rfl
  · rw [if_neg h3, if_neg h3]; rfl

/-- the loop of `spot_fit` -/
theorem loop_shift (et : XR) (c : ℝ) (data : List XR) (is : List ℕ) (s : Spot XR) (h : Heap XR) :
    is.foldlM (m := C) (fun st i => do let x ← loadBuf (data.map (· +. XR.fin c)) i; fit_body (et +. .fin c) st x)
        (Spec.shiftSpot c s, h) =
      (is.foldlM (m := C) (fun st i => do let x ← loadBuf data i; fit_body et st x) (s, h)).map
        (fun st => (Spec.shiftSpot c st.1, st.2)) := by
  induction is generalizing s h with
  | nil => rfl
  | cons i is ih =>
    rw [List.foldlM_cons, List.foldlM_cons]
    have hl : loadBuf (data.map (· +. XR.fin c)) i = (loadBuf data i).map (· +. .fin c) := by
      unfold loadBuf
      rw [List.getElem?_map]
      cases data[i]? <;> rfl
    rw [hl]
    cases loadBuf data i with
    | error e => rfl
    | ok x =>
      simp only [Except.map, C.ok_bind]
      have hb : fit_body (et +. .fin c) (Spec.shiftSpot c s, h) (x +. .fin c) =
          (fit_body et (s, h) x).map (fun st => (Spec.shiftSpot c st.1, st.2)) := by
        unfold fit_body
        dsimp only
        rw [XR.shift_sub]
        show (if (s.up_down *. (x -. et) >. lit 0) = true then _ else _) = _
        by_cases hx : (s.up_down *. (x -. et) >. lit 0) = true
        · rw [if_pos hx, if_pos hx]
          show (tail_push h s.tail (s.up_down *. (x -. et)) >>= _) = _
          cases tail_push h s.tail (s.up_down *. (x -. et)) with
          | error e => rfl
          | ok r => rfl
        · rw [if_neg hx, if_neg hx]; rfl
      rw [hb]
      cases fit_body et (s, h) x with
      | error e => rfl
      | ok st =>
        simp only [Except.map, C.ok_bind]
        exact ih st.1 st.2

theorem fit_shift (h : Heap XR) (s : Spot XR) (c : ℝ) (data : List ℝ) (size : UInt64) (h5 : 5 ≤ size.toNat)
    (hs : size.toNat ≤ data.length) :
    spot_fit M h (Spec.shiftSpot c s) ((data.map XR.fin).map (· +. .fin c)) size =
      (spot_fit M h s (data.map XR.fin) size).map (fun r => (r.1, Spec.shiftSpot c r.2.1, r.2.2)) := by
  have eq : ∀ p : XR, ∃ r : ℝ, p2_quantile p (data.map XR.fin) size = .ok (.fin r) ∧
      p2_quantile p ((data.map XR.fin).map (· +. .fin c)) size = .ok (.fin r +. .fin c) := by
    intro p
    obtain ⟨r, a, b⟩ := C46_equivariant p data size h5 hs 1 c one_pos
    refine ⟨r, a, ?_⟩
    rw [List.map_map]
    rw [one_mul] at b
    have : ((fun x => x +. XR.fin c) ∘ XR.fin) = fun x => XR.fin (1 * x + c) := by
      funext x; rw [one_mul]; rfl
    rw [this, b]; rfl
  unfold spot_fit
  dsimp only
  have hp : ∃ r : ℝ, (if s.low ≠ 0 then p2_quantile (lit 1 -. s.level) (data.map XR.fin) size
        else p2_quantile s.level (data.map XR.fin) size) = .ok (.fin r) ∧
      (if (Spec.shiftSpot c s).low ≠ 0 then p2_quantile (lit 1 -. (Spec.shiftSpot c s).level) ((data.map XR.fin).map (· +. .fin c)) size
        else p2_quantile (Spec.shiftSpot c s).level ((data.map XR.fin).map (· +. .fin c)) size) = .ok (.fin r +. .fin c) := by
    show ∃ r : ℝ, _ ∧ (if s.low ≠ 0 then p2_quantile (lit 1 -. s.level) ((data.map XR.fin).map (· +. .fin c)) size
        else p2_quantile s.level ((data.map XR.fin).map (· +. .fin c)) size) = .ok (.fin r +. .fin c)
    by_cases hl : s.low ≠ 0
    · obtain ⟨r, a, b⟩ := eq (lit 1 -. s.level)
      exact ⟨r, by rw [if_pos hl, a], by rw [if_pos hl, b]⟩
    · obtain ⟨r, a, b⟩ := eq s.level
      exact ⟨r, by rw [if_neg hl, a], by rw [if_neg hl, b]⟩
  obtain ⟨r, a, b⟩ := hp
  rw [a, b]
  simp only [C.ok_bind]
  rw [XR.shift_nan, XR.nan_f, if_neg Bool.false_ne_true, if_neg Bool.false_ne_true]
  have L := loop_shift (.fin r) c (data.map XR.fin) (List.range size.toNat)
    { s with Nt := 0, n := size, excess_threshold := .fin r } h
  have e : Spec.shiftSpot c { s with Nt := 0, n := size, excess_threshold := .fin r } =
      { Spec.shiftSpot c s with Nt := 0, n := size, excess_threshold := .fin r +. .fin c } := rfl
  rw [e] at L
  rw [L]
  cases (List.range size.toNat).foldlM (m := C) (fun st i => do let x ← loadBuf (data.map XR.fin) i; fit_body (.fin r) st x)
      ({ s with Nt := 0, n := size, excess_threshold := .fin r }, h) with
  | error e => rfl
  | ok st =>
    simp only [Except.map, C.ok_bind]
    show (tail_fit M st.2 st.1.tail >>= _) = _
    cases tail_fit M st.2 st.1.tail with
    | error e => rfl
    | ok f =>
      simp only [C.ok_bind]
      have := quantile_shift (M := M) { st.1 with tail := f.2 } c st.1.q
      unfold Spec.shiftSpot at this ⊢
      dsimp only at this ⊢
      rw [this]
      cases spot_quantile M { st.1 with tail := f.2 } st.1.q with
      | error e => rfl
      | ok z =>
        simp only [Except.map, C.ok_bind]
        rw [XR.shift_nan]
        by_cases hz : is_nan z = true
        · rw [if_pos hz, if_pos hz]
        · rw [if_neg hz, if_neg hz]

theorem exec_shift (h : Heap XR) (s : Spot XR) (c : ℝ) (op : Op XR) (ho : Spec.shiftable op) :
    exec M h (Spec.shiftSpot c s) (Spec.shiftOp c op) =
      (exec M h s op).map (fun r => (Spec.shiftOut c op r.1, Spec.shiftSpot c r.2.1, r.2.2)) := by
  cases op with
  | fit data size =>
    obtain ⟨h5, hs, hf⟩ := ho
    obtain ⟨l, rfl⟩ : ∃ l : List ℝ, data = l.map XR.fin := by
      clear hs
      induction data with
      | nil => exact ⟨[], rfl⟩
      | cons x data ih =>
        obtain ⟨r, rfl⟩ := hf x (by simp)
        obtain ⟨l, rfl⟩ := ih fun y hy => hf y (by simp [hy])
        exact ⟨r :: l, rfl⟩
    rw [List.length_map] at hs
    unfold exec Spec.shiftOp
    dsimp only
    rw [fit_shift h s c l size h5 hs]
    cases spot_fit M h s (l.map XR.fin) size <;> rfl
  | step x =>
    unfold exec Spec.shiftOp
    dsimp only
    rw [step_shift]
    cases spot_step M h s x <;> rfl
  | quantile q =>
    unfold exec Spec.shiftOp
    dsimp only
    rw [quantile_shift]
    cases spot_quantile M s q <;> rfl
  | probability z =>
    unfold exec Spec.shiftOp
    dsimp only
    rw [probability_shift]
    cases spot_probability M s z <;> rfl

/-- **C83**. In exact arithmetic the detector does not depend on the origin of the data: take any state of the structure and of
the memory, and any history of fits (on at least five real numbers), steps and queries. If all data and both thresholds are moved
by `c`, then all result codes and probabilities are the same, quantiles and thresholds are moved by `c`, and everything else
(counters, tail parameters, stored excesses) is the same. For all mathematical functions `M`, including cases of undefined
behaviour. -/
theorem C83_origin (M : MathFns XR) (h : Heap XR) (s : Spot XR) (c : ℝ) (ops : List (Op XR))
    (ho : ∀ op ∈ ops, Spec.shiftable op) :
    runOps M h (Spec.shiftSpot c s) (ops.map (Spec.shiftOp c)) =
      (runOps M h s ops).map
        (fun r => (List.zipWith (Spec.shiftOut c) ops r.1, Spec.shiftSpot c r.2.1, r.2.2)) := by
  induction ops generalizing h s with
  | nil => rfl
  | cons op ops ih =>
    rw [List.map_cons]
    unfold runOps
    rw [exec_shift h s c op (ho op (by simp))]
    cases exec M h s op with
    | error e => rfl
    | ok r =>
      simp only [Except.map, C.ok_bind]
      rw [ih r.2.2 r.2.1 fun o ho' => ho o (by simp [ho'])]
      cases runOps M r.2.2 r.2.1 ops with
      | error e => rfl
      | ok rs => rfl

/-- **C83** from the initialisation: the same initialised detector fed with the original or with the moved data. -/
theorem C83_from_init (M : MathFns XR) (lib : Lib XR) (h h' : Heap XR) (s0 s : Spot XR) (q level : XR) (low disc : ℤ) (me : UInt64)
    (i : spot_init lib h s0 q low disc level me = (0, s, h')) (c : ℝ) (ops : List (Op XR)) (ho : ∀ op ∈ ops, Spec.shiftable op) :
    runOps M h' s (ops.map (Spec.shiftOp c)) =
      (runOps M h' s ops).map
        (fun r => (List.zipWith (Spec.shiftOut c) ops r.1, Spec.shiftSpot c r.2.1, r.2.2)) := by
  have e : Spec.shiftSpot c s = s := by
    have hn : s.anomaly_threshold = XR.nan ∧ s.excess_threshold = XR.nan := by
      unfold spot_init at i
      split at i
      · simp [ERR_LEVEL_OUT_OF_BOUNDS] at i
      split at i
      · simp [ERR_Q_OUT_OF_BOUNDS] at i
      dsimp only at i
      split at i
      · simp [ERR_MEMORY_ALLOCATION_FAILED] at i
      · obtain ⟨-, rfl, -⟩ := i
        exact ⟨XR.cNAN_eq, XR.cNAN_eq⟩
    unfold Spec.shiftSpot
    rw [hn.1, hn.2]
    obtain ⟨a, b⟩ := hn
    cases s
    dsimp only at a b
    subst a b
    rfl
  have := C83_origin M h' s c ops ho
  rwa [e] at this

/-- the hypotheses of `C83_from_init` can be met: a successful initialisation, and a history with a fit -/
example : (∃ s h, spot_init Sample.xlib Sample.emptyHeap (Spec.shiftSpot 0 Sample.xfitted) (lit (1 / 100)) 0 1 (lit (9 / 10)) 3 = (0, s, h)) ∧
    ∀ op ∈ [Op.step (.fin 2), .fit [.fin 1, .fin 5, .fin 2, .fin 3, .fin 4, .fin 9] 6, .step .pinf, .quantile (lit (1 / 1000)),
      .probability (.fin 7)], Spec.shiftable op := by
  constructor
  · have hm : ¬ (((3 : UInt64) * 8).toNat > SIZE_MAX) := by decide
    unfold spot_init
    simp only [XR.lit_fin, XR.sub_ff, XR.lt_ff, XR.le_ff]
    norm_num
    unfold tail_init peaks_init ubend_init xmalloc Sample.xlib
    simp only [hm, if_false]
    exact ⟨_, _, rfl⟩
  · intro op hop
    simp only [List.mem_cons, List.not_mem_nil, or_false] at hop
    rcases hop with rfl | rfl | rfl | rfl | rfl
    · trivial
    · refine ⟨by decide, by decide, ?_⟩
      intro x hx
      simp only [List.mem_cons, List.not_mem_nil, or_false] at hx
      rcases hx with rfl | rfl | rfl | rfl | rfl | rfl <;> exact ⟨_, rfl⟩
    · trivial
    · trivial
    · trivial

/-- With fewer than five data the excess threshold is 0 whatever the data, so the bound on the size is needed. -/
example : p2_quantile (lit (1 / 2)) [XR.fin 10, .fin 11] 2 = .ok (lit 0) ∧ p2_quantile (lit (1 / 2)) [XR.fin 0, .fin 1] 2 = .ok (lit 0) :=
  ⟨rfl, rfl⟩

/-! ### C84: change of unit -/

/-- the same call with all data multiplied exactly by `a` -/
def Spec.ScaledOp (a : ℚ) : Op F64 → Op F64 → Prop
  | .fit d n, .fit d' n' => n' = n ∧ List.Forall₂ (fun x y => F64.isFin x ∧ F64.isFin y ∧ F64.toQ y = a * F64.toQ x) d d'
  | .step x, .step y => F64.isFin x ∧ F64.isFin y ∧ F64.toQ y = a * F64.toQ x
  | .quantile q, .quantile q' => q' = q
  | .probability x, .probability y => F64.isFin x ∧ F64.isFin y ∧ F64.toQ y = a * F64.toQ x
  | _, _ => False

/-- the sample data in another unit: divided by 2^40 -/
def Sample.tiny (x : ℚ) : F64 := lit (x / 2 ^ 40)
def Sample.tinyData : List F64 := [tiny 1, tiny 2, tiny 3, tiny 4, tiny 5, tiny 7, tiny 11]
def Sample.unitOps : List (Op F64) := [.fit data 7, .step (lit 6), .step (lit (7 / 2))]
def Sample.tinyOps : List (Op F64) := [.fit tinyData 7, .step (tiny 6), .step (tiny (7 / 2))]

/-- **C84** is false of the code. The detector fitted on 1, 2, 3, 4, 5, 7, 11 takes 6 and 7/2 for mere excesses. Fitted on the same
data divided (exactly) by 2^40 ≈ 10^12, it takes the same observations in the new unit for anomalies: the root search of Grimshaw's
estimator works with absolute steps of 2·10^-8, below which no excess is distinguished from 0; it yields the scale parameter −0 with an
infinite likelihood, and the anomaly threshold is the excess threshold itself. -/
theorem C84_false : ¬ ∀ (lib : Lib F64) (h h' : Heap F64) (s0 s : Spot F64) (q level : F64) (low disc : ℤ) (me : UInt64) (a : ℚ)
    (ops ops' : List (Op F64)) (r r' : List (Out F64) × Spot F64 × Heap F64),
    1 ≤ me.toNat → me.toNat < 2 ^ 61 → spot_init lib h s0 q low disc level me = (0, s, h') → 0 < a →
    (∀ op ∈ ops, op.valid) → List.Forall₂ (Spec.ScaledOp a) ops ops' →
    runOps (codeMath lib.fu) h' s ops = .ok r → runOps (codeMath lib.fu) h' s ops' = .ok r' →
    ∀ (i : ℕ) (c : ℤ), r.1[i]? = some (.code c) → r'.1[i]? = some (.code c) := by
  intro H
  have e1 : (runOps (codeMath muslFU) Sample.heap Sample.spot Sample.unitOps).map (fun r => r.1) =
      .ok [.code 0, .code 1, .code 1] := by decide +kernel
  have e2 : (runOps (codeMath muslFU) Sample.heap Sample.spot Sample.tinyOps).map
      (fun r => (r.1, r.2.1.excess_threshold == r.2.1.anomaly_threshold)) = .ok ([.code 0, .code 2, .code 2], true) := by
    decide +kernel
  have i0 : Sample.init.1 = 0 := by decide +kernel
  cases h1 : runOps (codeMath muslFU) Sample.heap Sample.spot Sample.unitOps with
  | error e => rw [h1] at e1; cases e1
  | ok r =>
    cases h2 : runOps (codeMath muslFU) Sample.heap Sample.spot Sample.tinyOps with
    | error e => rw [h2] at e2; cases e2
    | ok r' =>
      rw [h1] at e1
      rw [h2] at e2
      simp only [Except.map, Except.ok.injEq] at e1 e2
      have := H Sample.lib Sample.emptyHeap Sample.heap Sample.zeroed Sample.spot (lit (1 / 100)) (lit (9 / 10)) 0 1 20
        (1 / 2 ^ 40) Sample.unitOps Sample.tinyOps r r' (by decide) (by decide)
        (by show Sample.init = (0, Sample.init.2.1, Sample.init.2.2); rw [← i0])
        (by norm_num) ?_ ?_ h1 h2 1 1 (by rw [e1]; rfl)
      · rw [(Prod.mk.inj e2).1] at this
        revert this; decide
      · intro op hop
        simp only [Sample.unitOps, List.mem_cons, List.not_mem_nil, or_false] at hop
        rcases hop with rfl | rfl | rfl
        · show (7 : UInt64).toNat ≤ 7; decide
        · trivial
        · trivial
      · unfold Sample.unitOps Sample.tinyOps
        refine .cons ⟨rfl, ?_⟩ (.cons (by unfold Spec.ScaledOp; decide +kernel) (.cons (by unfold Spec.ScaledOp; decide +kernel) .nil))
        unfold Sample.data Sample.tinyData
        repeat (first | exact .nil | refine .cons (by decide +kernel) ?_)

/-- two detectors of which the second works in another unit: thresholds and scale parameter multiplied by `a`, the rest equal -/
structure Spec.ScaledSpot (a : ℝ) (s s' : Spot XR) : Prop where
  q : s'.q = s.q
  level : s'.level = s.level
  discard : s'.discard_anomalies = s.discard_anomalies
  low : s'.low = s.low
  up_down : s'.up_down = s.up_down
  Nt : s'.Nt = s.Nt
  n : s'.n = s.n
  anomaly : s'.anomaly_threshold = .fin a *. s.anomaly_threshold
  excess : s'.excess_threshold = .fin a *. s.excess_threshold
  gamma : s'.tail.gamma = s.tail.gamma
  sigma : s'.tail.sigma = .fin a *. s.tail.sigma

/-- **C84**, the queries: in exact arithmetic, for detectors that differ by the unit (factor `a`), quantiles are multiplied by `a` and
probabilities are the same, for all functions `M`. -/
theorem C84_query_partial (M : MathFns XR) (a : ℝ) (ha : 0 < a) (s s' : Spot XR) (S : Spec.ScaledSpot a s s') (q z : XR) :
    spot_quantile M s' q = (spot_quantile M s q).map (.fin a *. ·) ∧
    spot_probability M s' (.fin a *. z) = spot_probability M s z := by
  have hs : s'.tail.sigma = XR.scale a s.tail.sigma := S.sigma
  have he : s'.excess_threshold = XR.scale a s.excess_threshold := S.excess
  constructor
  · unfold spot_quantile tail_quantile
    dsimp only
    rw [S.Nt, S.n, S.gamma, hs, he, S.up_down]
    generalize q /. (lit s.Nt.toNat /. lit s.n.toNat) = r
    by_cases hg : (s.tail.gamma ==. lit 0) = true
    · rw [if_pos hg, if_pos hg]
      simp only [C.ok_bind, Except.map]
      rw [XR.scale_neg ha, XR.scale_mul ha, XR.mul_scale ha, XR.scale_add ha]
      rfl
    · rw [if_neg hg, if_neg hg]
      cases xpow M r (-. s.tail.gamma) with
      | error e => rfl
      | ok y =>
        simp only [C.ok_bind, Except.map]
        rw [XR.scale_div ha, XR.scale_mul ha, XR.mul_scale ha, XR.scale_add ha]
        rfl
  · unfold spot_probability tail_probability
    dsimp only
    rw [S.Nt, S.n, S.gamma, hs, he, S.up_down]
    show (if (s.tail.gamma ==. lit 0) = true then do
        let y ← M.exp ((-. (s.up_down *. (XR.scale a z -. XR.scale a s.excess_threshold))) /. XR.scale a s.tail.sigma)
        .ok ((lit s.Nt.toNat /. lit s.n.toNat) *. y)
      else do
        let y ← xpow M (lit 1 +. (s.up_down *. (XR.scale a z -. XR.scale a s.excess_threshold)) *.
          (s.tail.gamma /. XR.scale a s.tail.sigma)) (lit (-1) /. s.tail.gamma)
        .ok ((lit s.Nt.toNat /. lit s.n.toNat) *. y)) = _
    rw [XR.scale_sub ha, XR.mul_scale ha, XR.scale_neg ha, XR.scale_div_scale ha, XR.scale_ratio ha]

/-- **C84**, the steps: in exact arithmetic, a step on detectors that differ by the unit has the same result code, and the detectors
still differ only by the unit unless the code is EXCESS. After an EXCESS the counters and excess thresholds still correspond; missing:
the tail parameters and the anomaly threshold, which are estimated again (see `C84_refit_partial` and `C84_false`). -/
theorem C84_step_partial (M : MathFns XR) (a : ℝ) (ha : 0 < a) (s s' : Spot XR) (S : Spec.ScaledSpot a s s') (h h' : Heap XR) (x : XR)
    (r r' : ℤ × Spot XR × Heap XR) (e : spot_step M h s x = .ok r) (e' : spot_step M h' s' (.fin a *. x) = .ok r') :
    r'.1 = r.1 ∧ r'.2.1.Nt = r.2.1.Nt ∧ r'.2.1.n = r.2.1.n ∧
      r'.2.1.excess_threshold = .fin a *. r.2.1.excess_threshold ∧ (r.1 ≠ 1 → Spec.ScaledSpot a r.2.1 r'.2.1) := by
  have hx : (XR.fin a *. x) = XR.scale a x := rfl
  have hs : s'.anomaly_threshold = XR.scale a s.anomaly_threshold := S.anomaly
  have he : s'.excess_threshold = XR.scale a s.excess_threshold := S.excess
  rw [hx] at e'
  unfold spot_step at e e'
  rw [XR.scale_nan ha] at e'
  by_cases h1 : is_nan x = true
  · rw [if_pos h1] at e e'
    cases e; cases e'
    exact ⟨rfl, S.Nt, S.n, S.excess, fun _ => S⟩
  rw [if_neg h1] at e e'
  rw [S.discard, S.up_down, hs, XR.scale_sub ha, XR.mul_scale ha, XR.scale_val_pos ha] at e'
  by_cases h2 : (s.discard_anomalies ≠ 0 && s.up_down *. (x -. s.anomaly_threshold) >. lit 0) = true
  · rw [if_pos h2] at e e'
    cases e; cases e'
    exact ⟨rfl, S.Nt, S.n, S.excess, fun _ => S⟩
  rw [if_neg h2] at e e'
  dsimp only at e e'
  rw [he, XR.scale_sub ha, XR.mul_scale ha, XR.scale_val_nonneg ha] at e'
  by_cases h3 : (s.up_down *. (x -. s.excess_threshold) >=. lit 0) = true
  · rw [if_pos h3] at e e'
    obtain ⟨p, -, e⟩ := C.bind_ok e
    obtain ⟨p', -, e'⟩ := C.bind_ok e'
    obtain ⟨f, -, e⟩ := C.bind_ok e
    obtain ⟨f', -, e'⟩ := C.bind_ok e'
    obtain ⟨z, -, e⟩ := C.bind_ok e
    obtain ⟨z', -, e'⟩ := C.bind_ok e'
    cases e; cases e'
    exact ⟨rfl, by show s'.Nt + 1 = s.Nt + 1; rw [S.Nt], by show s'.n + 1 = s.n + 1; rw [S.n], rfl, fun h => absurd rfl h⟩
  · rw [if_neg h3] at e e'
    cases e; cases e'
    have hn : s'.n + 1 = s.n + 1 := by rw [S.n]
    exact ⟨rfl, S.Nt, hn, rfl, fun _ => ⟨S.q, S.level, rfl, S.low, rfl, S.Nt, hn, rfl, rfl, S.gamma, S.sigma⟩⟩

theorem loop_scale {a : ℝ} (ha : 0 < a) (et : XR) (data : List XR) (is : List ℕ) (st st' r r' : Spot XR × Heap XR)
    (hu : st'.1.up_down = st.1.up_down) (hn : st'.1.Nt = st.1.Nt)
    (e : is.foldlM (m := C) (fun st i => do let x ← loadBuf data i; fit_body et st x) st = .ok r)
    (e' : is.foldlM (m := C) (fun st i => do let x ← loadBuf (data.map (XR.scale a)) i; fit_body (XR.scale a et) st x) st' = .ok r') :
    r'.1.Nt = r.1.Nt ∧ r.1.n = st.1.n ∧ r'.1.n = st'.1.n ∧ r.1.excess_threshold = st.1.excess_threshold ∧
      r'.1.excess_threshold = st'.1.excess_threshold := by
  induction is generalizing st st' with
  | nil =>
    cases e; cases e'
    exact ⟨hn, rfl, rfl, rfl, rfl⟩
  | cons i is ih =>
    rw [List.foldlM_cons] at e e'
    obtain ⟨s1, b, e⟩ := C.bind_ok e
    obtain ⟨s1', b', e'⟩ := C.bind_ok e'
    obtain ⟨x, hx, b⟩ := C.bind_ok b
    obtain ⟨x', hx', b'⟩ := C.bind_ok b'
    have hxx : x' = XR.scale a x := by
      unfold loadBuf at hx hx'
      rw [List.getElem?_map] at hx'
      cases hd : data[i]? with
      | none => rw [hd] at hx; cases hx
      | some v => rw [hd] at hx hx'; cases hx; cases hx'; rfl
    subst hxx
    unfold fit_body at b b'
    dsimp only at b b'
    rw [hu, XR.scale_sub ha, XR.mul_scale ha, XR.scale_val_pos ha] at b'
    by_cases hc : (st.1.up_down *. (x -. et) >. lit 0) = true
    · rw [if_pos hc] at b b'
      obtain ⟨t, -, b⟩ := C.bind_ok b
      obtain ⟨t', -, b'⟩ := C.bind_ok b'
      cases b; cases b'
      obtain ⟨k1, k2, k3, k4, k5⟩ := ih ({ st.1 with Nt := st.1.Nt + 1, tail := t.1 }, t.2)
        ({ st'.1 with up_down := st.1.up_down, Nt := st'.1.Nt + 1, tail := t'.1 }, t'.2) rfl (by show st'.1.Nt + 1 = st.1.Nt + 1; rw [hn]) e e'
      exact ⟨k1, k2, k3, k4, k5⟩
    · rw [if_neg hc] at b b'
      cases b; cases b'
      exact ih _ _ hu hn e e'

/-- **C84**, the fit: in exact arithmetic, fits on at least five data that differ by the unit give excess thresholds that differ by the
unit, and record the same number of excesses. Missing: tail parameters and anomaly threshold. -/
theorem C84_fit_partial (M : MathFns XR) (a : ℝ) (ha : 0 < a) (s s' : Spot XR) (hlow : s'.low = s.low) (hlev : s'.level = s.level)
    (hud : s'.up_down = s.up_down) (h h' : Heap XR) (data : List ℝ) (size : UInt64) (h5 : 5 ≤ size.toNat)
    (hs : size.toNat ≤ data.length) (r r' : ℤ × Spot XR × Heap XR) (e : spot_fit M h s (data.map XR.fin) size = .ok r)
    (e' : spot_fit M h' s' (data.map fun x => XR.fin (a * x)) size = .ok r') :
    r'.2.1.excess_threshold = .fin a *. r.2.1.excess_threshold ∧ r'.2.1.Nt = r.2.1.Nt ∧ r'.2.1.n = r.2.1.n := by
  have hd : (data.map fun x => XR.fin (a * x)) = (data.map XR.fin).map (XR.scale a) := by
    rw [List.map_map]; rfl
  have eq : ∀ p : XR, ∃ t : ℝ, p2_quantile p (data.map XR.fin) size = .ok (.fin t) ∧
      p2_quantile p (data.map fun x => XR.fin (a * x)) size = .ok (.fin (a * t)) := by
    intro p
    obtain ⟨t, k, b⟩ := C46_equivariant p data size h5 hs a 0 ha
    simp only [add_zero] at b
    exact ⟨t, k, b⟩
  unfold spot_fit at e e'
  dsimp only at e e'
  rw [hlow, hlev] at e'
  obtain ⟨t, k, k'⟩ : ∃ t : ℝ, (if s.low ≠ 0 then p2_quantile (lit 1 -. s.level) (data.map XR.fin) size
        else p2_quantile s.level (data.map XR.fin) size) = .ok (.fin t) ∧
      (if s.low ≠ 0 then p2_quantile (lit 1 -. s.level) (data.map fun x => XR.fin (a * x)) size
        else p2_quantile s.level (data.map fun x => XR.fin (a * x)) size) = .ok (.fin (a * t)) := by
    by_cases hl : s.low ≠ 0
    · obtain ⟨t, k, b⟩ := eq (lit 1 -. s.level)
      exact ⟨t, by rw [if_pos hl, k], by rw [if_pos hl, b]⟩
    · obtain ⟨t, k, b⟩ := eq s.level
      exact ⟨t, by rw [if_neg hl, k], by rw [if_neg hl, b]⟩
  rw [k] at e
  rw [k', hd] at e'
  simp only [C.ok_bind] at e e'
  rw [XR.nan_f, if_neg Bool.false_ne_true] at e e'
  obtain ⟨st, l, e⟩ := C.bind_ok e
  obtain ⟨st', l', e'⟩ := C.bind_ok e'
  obtain ⟨f, -, e⟩ := C.bind_ok e
  obtain ⟨f', -, e'⟩ := C.bind_ok e'
  obtain ⟨z, -, e⟩ := C.bind_ok e
  obtain ⟨z', -, e'⟩ := C.bind_ok e'
  obtain ⟨g1, g2, g3, g4, g5⟩ := loop_scale ha (.fin t) (data.map XR.fin) (List.range size.toNat)
    ({ s with Nt := 0, n := size, excess_threshold := .fin t }, h)
    ({ s' with level := s.level, low := s.low, Nt := 0, n := size, excess_threshold := .fin (a * t) }, h') st st' hud rfl l l'
  have fin : r.2.1.excess_threshold = st.1.excess_threshold ∧ r.2.1.Nt = st.1.Nt ∧ r.2.1.n = st.1.n := by
    by_cases hz : is_nan z = true
    · rw [if_pos hz] at e; cases e; exact ⟨rfl, rfl, rfl⟩
    · rw [if_neg hz] at e; cases e; exact ⟨rfl, rfl, rfl⟩
  have fin' : r'.2.1.excess_threshold = st'.1.excess_threshold ∧ r'.2.1.Nt = st'.1.Nt ∧ r'.2.1.n = st'.1.n := by
    by_cases hz : is_nan z' = true
    · rw [if_pos hz] at e'; cases e'; exact ⟨rfl, rfl, rfl⟩
    · rw [if_neg hz] at e'; cases e'; exact ⟨rfl, rfl, rfl⟩
  rw [fin.1, fin.2.1, fin.2.2, fin'.1, fin'.2.1, fin'.2.2, g1, g2, g3, g4, g5]
  exact ⟨rfl, rfl, rfl⟩

/-- two root searches succeed or fail together, and their roots differ by the unit -/
def Spec.SameSearch (a : ℝ) (r r' : C (Bool × XR)) : Prop :=
  ∃ b x x', r = .ok (b, x) ∧ r' = .ok (b, x') ∧ (b = true → x' = .fin a⁻¹ *. x)

/-- **C84**, the estimation: in exact arithmetic (also of the logarithm), the root searches are the only obstacle to the
independence of the unit. Take two tails that hold the same excesses in different units, with correspondingly different statistics, and
suppose that the two searches of Grimshaw's estimator (src/estimator.c:72-92) give corresponding results. Then `tail_fit`
gives the same shape and corresponding scales. -/
theorem C84_refit_partial (a : ℝ) (ha : 0 < a) (h h' : Heap XR) (t t' : Tail XR) (l : List XR)
    (hl : (peaks_size t.peaks).toNat = l.length) (hl' : (peaks_size t'.peaks).toNat = l.length)
    (hr : ∀ i (hi : i < l.length), load h t.peaks.container.data i = .ok l[i])
    (hr' : ∀ i (hi : i < l.length), load h' t'.peaks.container.data i = .ok (.fin a *. l[i]))
    (he : t'.peaks.e = .fin a *. t.peaks.e) (he2 : t'.peaks.e2 = .fin (a * a) *. t.peaks.e2)
    (hmin : t'.peaks.min = .fin a *. t.peaks.min) (hmax : t'.peaks.max = .fin a *. t.peaks.max)
    (left : Spec.SameSearch a
      (brent (grimshaw_w XR.exactMath h t.peaks) (lit (-1) /. t.peaks.max +. grimshaw_eps t.peaks) (-. grimshaw_eps t.peaks) BRENT_DEFAULT_EPSILON)
      (brent (grimshaw_w XR.exactMath h' t'.peaks) (lit (-1) /. t'.peaks.max +. grimshaw_eps t'.peaks) (-. grimshaw_eps t'.peaks) BRENT_DEFAULT_EPSILON))
    (right : Spec.SameSearch a
      (brent (grimshaw_w XR.exactMath h t.peaks) (grimshaw_eps t.peaks)
        (lit 2 *. (peaks_mean t.peaks -. t.peaks.min) /. (t.peaks.min *. t.peaks.min)) BRENT_DEFAULT_EPSILON)
      (brent (grimshaw_w XR.exactMath h' t'.peaks) (grimshaw_eps t'.peaks)
        (lit 2 *. (peaks_mean t'.peaks -. t'.peaks.min) /. (t'.peaks.min *. t'.peaks.min)) BRENT_DEFAULT_EPSILON)) :
    ∃ f f', tail_fit XR.exactMath h t = .ok f ∧ tail_fit XR.exactMath h' t' = .ok f' ∧ f'.2.gamma = f.2.gamma ∧
      f'.2.sigma = .fin a *. f.2.sigma := by
  have H : Stored h t.peaks.container l := ⟨hl, hr⟩
  have H' : Stored h' t'.peaks.container (l.map (XR.scale a)) :=
    ⟨by rw [List.length_map]; exact hl', fun i hi => by rw [List.length_map] at hi; rw [hr' i hi, List.getElem_map]; rfl⟩
  refine ⟨_, _, tail_fit_eq H, tail_fit_eq H', ?_⟩
  have roots : RootScaled a (rootsL XR.exactMath t.peaks.e t.peaks.min t.peaks.max l).1
      (rootsL XR.exactMath t'.peaks.e t'.peaks.min t'.peaks.max (l.map (XR.scale a))).1 ∧
    RootScaled a (rootsL XR.exactMath t.peaks.e t.peaks.min t.peaks.max l).2
      (rootsL XR.exactMath t'.peaks.e t'.peaks.min t'.peaks.max (l.map (XR.scale a))).2 := by
    unfold rootsL
    dsimp only
    rw [peaks_mean_eq H, peaks_mean_eq H', brent_eq (grimshaw_w_eq H), brent_eq (grimshaw_w_eq H')] at right
    rw [brent_eq (grimshaw_w_eq H), brent_eq (grimshaw_w_eq H')] at left
    obtain ⟨b, x, x', k1, k2, k3⟩ := left
    obtain ⟨b1, x1, x1', j1, j2, j3⟩ := right
    unfold grimshaw_eps at k1 k2 j1 j2
    rw [Except.ok.inj k1, Except.ok.inj k2, Except.ok.inj j1, Except.ok.inj j2]
    exact ⟨⟨rfl, k3⟩, ⟨rfl, j3⟩⟩
  have he' : t'.peaks.e = XR.scale a t.peaks.e := he
  have he2' : t'.peaks.e2 = XR.scale (a * a) t.peaks.e2 := he2
  have hmin' : t'.peaks.min = XR.scale a t.peaks.min := hmin
  have hmax' : t'.peaks.max = XR.scale a t.peaks.max := hmax
  rw [he', hmin', hmax'] at roots
  have G := grimshaw_scale ha _ _ _ l roots.1 roots.2
  have Q := mom_scale ha t.peaks.e t.peaks.e2 l
  unfold tailFitL
  rw [he', he2', hmin', hmax']
  generalize momL XR.exactMath t.peaks.e t.peaks.e2 l = m at *
  generalize momL XR.exactMath (XR.scale a t.peaks.e) (XR.scale (a * a) t.peaks.e2) (l.map (XR.scale a)) = m' at *
  generalize grimshawL XR.exactMath t.peaks.e t.peaks.min t.peaks.max l = g at *
  generalize grimshawL XR.exactMath (XR.scale a t.peaks.e) (XR.scale a t.peaks.min) (XR.scale a t.peaks.max) (l.map (XR.scale a)) = g' at *
  have first : ∀ (t : Tail XR) (m : Est XR), tail_fit_step (cNAN, t) m = (m.llhood, { t with gamma := m.gamma, sigma := m.sigma }) := by
    intro t m
    unfold tail_fit_step
    rw [if_pos (by rw [XR.cNAN_eq, XR.nan_nan]; rfl)]
  rw [first, first]
  unfold tail_fit_step
  dsimp only
  rw [Q.llhood, G.llhood, XR.shift_nan, XR.shift_lt]
  split
  · exact ⟨G.gamma, G.sigma⟩
  · exact ⟨Q.gamma, Q.sigma⟩

/-- the hypotheses of `C84_query_partial` and `C84_step_partial` can be met: a fitted detector in two units, and a step -/
example : Spec.ScaledSpot 3 Sample.xfitted { Sample.xfitted with
      anomaly_threshold := .fin (-15), excess_threshold := .fin (-12), tail := { Sample.xfitted.tail with sigma := .fin 6 } } ∧
    ∃ r, spot_step XR.exactMath Sample.emptyHeap Sample.xfitted (.fin 0) = .ok r ∧ r.1 = 0 := by
  refine ⟨⟨rfl, rfl, rfl, rfl, rfl, rfl, rfl, ?_, ?_, rfl, ?_⟩, ?_⟩
  · show XR.fin _ = XR.fin _; norm_num
  · show XR.fin _ = XR.fin _; norm_num
  · show XR.fin _ = XR.fin _; norm_num
  · unfold spot_step Sample.xfitted
    simp only [XR.lit_fin, XR.sub_ff, XR.mul_ff, XR.lt_ff, XR.le_ff, XR.nan_f]
    norm_num
    rfl

/-- the hypotheses of `C84_fit_partial` can be met: fits of an initialised detector -/
example (s : Spot XR) (h : Heap XR) (c : ℕ) (i : SpotInv h s 1 c []) (data : List ℝ) (hd : data.length = 7) :
    ∃ r, spot_fit XR.exactMath h s (data.map XR.fin) 7 = .ok r := by
  have R := fit_refines (M := XR.exactMath) i (data.map XR.fin) 7 (by rw [List.length_map, hd]; decide)
  have hq : ∀ k q, ∃ z, quantileC XR.exactMath k q = .ok z := by
    intro k q
    unfold quantileC tail_quantile
    dsimp only
    split
    · exact ⟨_, rfl⟩
    · exact ⟨_, rfl⟩
  cases hf : fitC XR.exactMath c s.core [] (data.map XR.fin) 7 with
  | ok p =>
    rw [hf] at R
    obtain ⟨s', h', e, -⟩ := R
    exact ⟨_, e⟩
  | error e =>
    exfalso
    unfold fitC at hf
    dsimp only at hf
    obtain ⟨v, hv⟩ : ∃ v, (if s.core.low ≠ 0 then p2_quantile (lit 1 -. s.core.level) (data.map XR.fin) 7
        else p2_quantile s.core.level (data.map XR.fin) 7) = .ok v := by
      split <;> exact p2_quantile_ok _ _ _ (by rw [List.length_map, hd]; decide)
    rw [hv] at hf
    simp only [C.ok_bind] at hf
    split at hf
    · cases hf
    · obtain ⟨z, hz⟩ := hq (refit XR.exactMath c { s.core with n := 7, et := v, Nt := UInt64.ofNat (fitExcesses s.core.up_down v
        ((data.map XR.fin).take (7 : UInt64).toNat)).length } ([] ++ fitExcesses s.core.up_down v ((data.map XR.fin).take (7 : UInt64).toNat)))
        s.core.q
      rw [show (refit XR.exactMath c { s.core with n := 7, et := v, Nt := UInt64.ofNat (fitExcesses s.core.up_down v
        ((data.map XR.fin).take (7 : UInt64).toNat)).length } ([] ++ fitExcesses s.core.up_down v ((data.map XR.fin).take (7 : UInt64).toNat))).q
        = s.core.q from rfl, hz] at hf
      simp only [C.ok_bind] at hf
      split at hf <;> cases hf

section
open XR

/-- a tail that holds the single excess `y` -/
noncomputable def Sample.single (y : ℝ) : Tail XR := ⟨nan, nan, ⟨fin y, fin (y * y), fin y, fin y, ⟨1, 3, nan, 0, some 0⟩⟩⟩
noncomputable def Sample.singleHeap (y : ℝ) : Heap XR := fun _ => some [some (fin y)]

theorem single_w {y x : ℝ} (h : 0 < 1 + x * y) :
    grimshawWL exactMath [fin y] (fin x) = fin (1 / (1 + x * y) * (1 + Real.log (1 + x * y)) - 1) := by
  unfold grimshawWL
  simp only [List.foldl_cons, List.foldl_nil, List.length_cons, List.length_nil, lit_fin, mul_ff, add_ff]
  norm_num
  rw [div_ff h.ne', log_f h, add_ff, add_ff, div_ff one_ne_zero, div_ff one_ne_zero, add_ff, mul_ff, sub_ff]
  norm_num

theorem single_w_neg {y x : ℝ} (h : 0 < 1 + x * y) (h0 : x * y ≠ 0) : 1 / (1 + x * y) * (1 + Real.log (1 + x * y)) - 1 < 0 := by
  have := Real.log_lt_sub_one_of_pos h (by intro e; apply h0; linarith)
  rw [sub_neg, one_div, inv_mul_lt_iff₀ h]
  linarith

theorem single_search (y : ℝ) (h1 : 1 ≤ y) (h2 : y ≤ 2) :
    brent (grimshaw_w exactMath (Sample.singleHeap y) (Sample.single y).peaks)
      (lit (-1) /. (Sample.single y).peaks.max +. grimshaw_eps (Sample.single y).peaks) (-. grimshaw_eps (Sample.single y).peaks)
      BRENT_DEFAULT_EPSILON = .ok (false, fin 0) ∧
    brent (grimshaw_w exactMath (Sample.singleHeap y) (Sample.single y).peaks) (grimshaw_eps (Sample.single y).peaks)
      (lit 2 *. (peaks_mean (Sample.single y).peaks -. (Sample.single y).peaks.min) /.
        ((Sample.single y).peaks.min *. (Sample.single y).peaks.min)) BRENT_DEFAULT_EPSILON = .ok (true, fin 0) := by
  have y0 : y ≠ 0 := by linarith
  have H : Stored (Sample.singleHeap y) (Sample.single y).peaks.container [fin y] :=
    ⟨rfl, fun i hi => by
      obtain rfl : i = 0 := by simpa using hi
      rfl⟩
  have he : grimshaw_eps (Sample.single y).peaks = fin (2 / 10 ^ 8) := by
    unfold grimshaw_eps xmin BRENT_DEFAULT_EPSILON Sample.single
    dsimp only
    rw [lit_fin, lit_fin, div_ff y0, nan_f, nan_f, lt_ff]
    have : (2 / 10 ^ 8 : ℝ) < 1 / 2 / y := by rw [lt_div_iff₀ (by linarith)]; linarith
    push_cast
    simp
    intro h
    rw [show (1 : ℝ) / 2 = 2⁻¹ by norm_num] at this
    exact le_antisymm h this.le
  have hm : peaks_mean (Sample.single y).peaks = fin y := by
    rw [peaks_mean_eq H]
    unfold meanL Sample.single
    simp only [List.length_cons, List.length_nil, lit_fin]
    rw [div_ff (by norm_num)]; norm_num
  have hmx : (Sample.single y).peaks.max = fin y := rfl
  have hmn : (Sample.single y).peaks.min = fin y := rfl
  have inv1 : 1 / 2 ≤ 1 / y := by rw [div_le_div_iff₀ (by norm_num) (by linarith)]; linarith
  rw [brent_eq (grimshaw_w_eq H), brent_eq (grimshaw_w_eq H), he, hm, hmx, hmn]
  have eL : (lit (-1) : XR) /. fin y +. fin (2 / 10 ^ 8) = fin (((-1 : ℚ) : ℝ) / y + 2 / 10 ^ 8) := by
    rw [lit_fin, div_ff y0, add_ff]
  have eR : (lit 2 : XR) *. (fin y -. fin y) /. (fin y *. fin y) = fin 0 := by
    rw [lit_fin, sub_ff, mul_ff, mul_ff, div_ff (mul_ne_zero y0 y0)]; simp
  rw [eL, eR, neg_f]
  unfold brentP
  have p1 : 0 < 1 + ((((-1 : ℚ) : ℝ)) / y + 2 / 10 ^ 8) * y := by
    push_cast
    have : ((-1) / y + 2 / 10 ^ 8) * y = -1 + 2 / 10 ^ 8 * y := by field_simp
    rw [this]; nlinarith
  have p1' : ((((-1 : ℚ) : ℝ)) / y + 2 / 10 ^ 8) * y ≠ 0 := by
    push_cast
    have : ((-1) / y + 2 / 10 ^ 8) * y = -1 + 2 / 10 ^ 8 * y := by field_simp
    rw [this]; intro h; nlinarith
  have p2 : 0 < 1 + (-(2 / 10 ^ 8 : ℝ)) * y := by nlinarith
  have p3 : 0 < 1 + ((2 / 10 ^ 8 : ℝ)) * y := by nlinarith
  rw [single_w p1, single_w p2, single_w p3, single_w (by norm_num : (0 : ℝ) < 1 + 0 * y)]
  have n1 := single_w_neg p1 p1'
  have n2 := single_w_neg p2 (mul_ne_zero (by norm_num) y0)
  have n3 := single_w_neg p3 (mul_ne_zero (by norm_num) y0)
  generalize 1 / (1 + ((((-1 : ℚ) : ℝ)) / y + 2 / 10 ^ 8) * y) * (1 + Real.log (1 + ((((-1 : ℚ) : ℝ)) / y + 2 / 10 ^ 8) * y)) - 1 = v1 at *
  generalize 1 / (1 + (-(2 / 10 ^ 8 : ℝ)) * y) * (1 + Real.log (1 + (-(2 / 10 ^ 8 : ℝ)) * y)) - 1 = v2 at *
  generalize 1 / (1 + ((2 / 10 ^ 8 : ℝ)) * y) * (1 + Real.log (1 + ((2 / 10 ^ 8 : ℝ)) * y)) - 1 = v3 at *
  have v4 : 1 / (1 + 0 * y) * (1 + Real.log (1 + 0 * y)) - 1 = 0 := by norm_num
  rw [v4]
  constructor
  · rw [if_pos]
    · rw [lit_fin]; simp
    · unfold sameSign
      simp only [lit_fin, lt_ff]
      simp [n1, n2]
  · rw [if_neg]
    · unfold BRENT_ITMAX brentLoopP
      have ha : brentAdjust (⟨fin (2 / 10 ^ 8), fin 0, fin 0, lit 0, lit 0, fin v3, fin 0, fin 0⟩ : BrentSt XR) =
          ⟨fin (2 / 10 ^ 8), fin 0, fin 0, lit 0, lit 0, fin v3, fin 0, fin 0⟩ := by
        have f0 : fabs (fin 0 : XR) = fin 0 := by
          unfold fabs; rw [lit_fin, lt_ff]; simp
        unfold brentAdjust sameSign
        simp only [lit_fin, lt_ff, Rat.cast_zero, lt_irrefl, decide_false, Bool.and_false, Bool.or_false, Bool.false_eq_true, if_false, f0]
      dsimp only
      rw [ha, if_pos]
      unfold brentDone
      rw [Bool.or_eq_true]
      right
      simp only [lit_fin, eq_ff]
      norm_num
    · unfold sameSign
      simp only [lit_fin, lt_ff]
      simp

/-- the hypotheses of `C84_refit_partial` can be met: one excess, 1 in one unit and 2 in another -/
example : Spec.SameSearch 2
      (brent (grimshaw_w exactMath (Sample.singleHeap 1) (Sample.single 1).peaks)
        (lit (-1) /. (Sample.single 1).peaks.max +. grimshaw_eps (Sample.single 1).peaks) (-. grimshaw_eps (Sample.single 1).peaks)
        BRENT_DEFAULT_EPSILON)
      (brent (grimshaw_w exactMath (Sample.singleHeap 2) (Sample.single 2).peaks)
        (lit (-1) /. (Sample.single 2).peaks.max +. grimshaw_eps (Sample.single 2).peaks) (-. grimshaw_eps (Sample.single 2).peaks)
        BRENT_DEFAULT_EPSILON) ∧
    Spec.SameSearch 2
      (brent (grimshaw_w exactMath (Sample.singleHeap 1) (Sample.single 1).peaks) (grimshaw_eps (Sample.single 1).peaks)
        (lit 2 *. (peaks_mean (Sample.single 1).peaks -. (Sample.single 1).peaks.min) /.
          ((Sample.single 1).peaks.min *. (Sample.single 1).peaks.min)) BRENT_DEFAULT_EPSILON)
      (brent (grimshaw_w exactMath (Sample.singleHeap 2) (Sample.single 2).peaks) (grimshaw_eps (Sample.single 2).peaks)
        (lit 2 *. (peaks_mean (Sample.single 2).peaks -. (Sample.single 2).peaks.min) /.
          ((Sample.single 2).peaks.min *. (Sample.single 2).peaks.min)) BRENT_DEFAULT_EPSILON) ∧
    (Sample.single 2).peaks.e = fin 2 *. (Sample.single 1).peaks.e ∧ (Sample.single 2).peaks.e2 = fin (2 * 2) *. (Sample.single 1).peaks.e2 := by
  obtain ⟨a1, a2⟩ := single_search 1 le_rfl (by norm_num)
  obtain ⟨b1, b2⟩ := single_search 2 (by norm_num) le_rfl
  refine ⟨⟨false, _, _, a1, b1, by simp⟩, ⟨true, _, _, a2, b2, ?_⟩, ?_, ?_⟩
  · intro _; rw [mul_ff]; norm_num
  · show fin _ = fin _; norm_num
  · show fin _ = fin _; norm_num
end

end Verif

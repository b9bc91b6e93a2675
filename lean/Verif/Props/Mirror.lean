/-
Property theorems: the lower-tail mode is the mirror image of the upper-tail mode (C40), and how far this extends to
`spot_fit` (C74).
-/
import Verif.Proofs.MirrorRun
import Verif.Proofs.P2
import Verif.Props.SampleRun
import Mathlib.Data.List.Sort

namespace Verif

/-- a call of `spot_step` or `spot_quantile` -/
def Spec.stepOrQuantile : Op F64 → Prop
  | .step _ => True
  | .quantile _ => True
  | _ => False

/-- The two calls of `p2_quantile` made by a mirrored pair of `spot_fit` (src/spot.c:121-126) give opposite thresholds. -/
def Spec.OppositeThresholds (level : F64) (data : List F64) (size : UInt64) : Prop :=
  ∃ t t', p2_quantile level data size = .ok t ∧
    p2_quantile (lit 1 -. level) (data.map F64.neg) size = .ok t' ∧ Spec.SameNum t' (F64.neg t)

/-- calls for which a mirrored pair of detectors is compared: steps, quantiles, and fits with opposite thresholds -/
def Spec.mirrorable (level : F64) : Op F64 → Prop
  | .fit data size => size.toNat ≤ data.length ∧ Spec.OppositeThresholds level data size
  | .step _ => True
  | .quantile _ => True
  | .probability _ => False

theorem zeq_of_same {x y : F64} (h : Spec.SameNum x y) : F64.Zeq x y := by
  rcases h with h | h
  · exact Or.inl h
  · have h' := (CDoubleLaws.eq_iff x y).mp h
    exact F64.zeq_of_val (by rintro rfl; exact absurd h'.1 (by decide)) (by rintro rfl; exact absurd h'.2.1 (by decide)) h'.2.2

theorem p2Mirror_of {level : F64} {data : List F64} {size : UInt64} (h : Spec.OppositeThresholds level data size) :
    P2Mirror level data size := by
  obtain ⟨t, t', a, b, c⟩ := h
  exact ⟨t, t', a, b, zeq_of_same c⟩

/-- **C40**. Take any state an upper-tail detector can reach (any history of calls, whatever the results), and its mirror image:
lower tail, opposite thresholds. Feeding opposite observations to the mirror image gives, for every sequence of steps and
quantile queries, the same result codes, opposite quantiles, opposite thresholds, and the same counters, tail parameters and
stored excesses (as numbers). Holds for all floating-point functions that the library may use. -/
theorem C40_mirror {M : MathFns F64} {lib : Lib F64} {q level : F64} {disc : ℤ} {me : UInt64} {s : Spot F64} {h : Heap F64}
    (R : Reaches M lib q 0 disc level me s h) (ops : List (Op F64)) (ho : ∀ op ∈ ops, Spec.stepOrQuantile op) :
    Spec.MirroredRuns (runOps M h s ops) (runOps M h (Spec.mirrorSpot s) (ops.map Spec.mirrorOp)) := by
  obtain ⟨a, xs, I, P, hx⟩ := reaches_nonneg R
  refine run_mirror (a' := a) (ys := xs) (mirrorSpot_mirrorC P hx) rfl rfl I I ops ?_
  intro op hop
  have := ho op hop
  cases op with
  | step _ => trivial
  | quantile _ => trivial
  | fit _ _ => exact this.elim
  | probability _ => exact this.elim

/-- the hypotheses of `C40_mirror` can be met: a fitted detector, with a step of each kind -/
example : ∃ s h, Reaches (codeMath Sample.lib.fu) Sample.lib (lit (1 / 100)) 0 1 (lit (9 / 10)) 20 s h ∧ s.Nt = 5 ∧
    F64.notNaN s.anomaly_threshold ∧
    ∀ op ∈ [.step (lit 6), .step (lit 2), .step (lit 1000), .quantile (lit (1 / 1000))], Spec.stepOrQuantile op := by
  obtain ⟨s, h, R, _, h2, h3⟩ := Sample.reached
  exact ⟨s, h, R, h3, h2, by simp [Spec.stepOrQuantile]⟩

/-- **C40**, from the initialisation. Two detectors are initialised with the same parameters except for the tail (any allocators,
heaps, previous contents of the structures). They receive opposite calls: any number of steps, quantile queries and fits, the
fits being such that the two threshold estimates are opposite. Then all results and the final states mirror each other. -/
theorem C40_from_init {M : MathFns F64} {lib lib' : Lib F64} {q level : F64} {low disc : ℤ} {me : UInt64}
    {s0 s0' s s' : Spot F64} {h0 h0' h h' : Heap F64} (h1 : 1 ≤ me.toNat) (h2 : me.toNat < 2 ^ 61) (hlow : low ≠ 0)
    (i : spot_init lib h0 s0 q 0 disc level me = (0, s, h)) (i' : spot_init lib' h0' s0' q low disc level me = (0, s', h'))
    (ops : List (Op F64)) (ho : ∀ op ∈ ops, Spec.mirrorable level op) :
    Spec.MirroredRuns (runOps M h s ops) (runOps M h' s' (ops.map Spec.mirrorOp)) := by
  obtain ⟨a, _, _, hc, I⟩ := init_ok (lib := lib) (h := h0) (s0 := s0) (by rw [i]) h1 h2
  obtain ⟨a', _, _, hc', I'⟩ := init_ok (lib := lib') (h := h0') (s0 := s0') (by rw [i']) h1 h2
  rw [i] at hc I
  rw [i'] at hc' I'
  dsimp only at hc hc' I I'
  have hl : s.level = level := congrArg Core.level hc
  have hl' : s'.level = level := congrArg Core.level hc'
  refine run_mirror (by rw [hc, hc']; exact initCore_mirrorC q level hlow) ?_ (by rw [hl, hl']) I I' ops ?_
  · have : s'.low = (initCore q low disc level).low := congrArg Core.low hc'
    rw [this]; unfold initCore; simp [hlow]
  · intro op hop
    have := ho op hop
    rw [hl]
    cases op with
    | step _ => trivial
    | quantile _ => trivial
    | fit _ _ => exact ⟨this.1, p2Mirror_of this.2⟩
    | probability _ => exact this.elim

/-- the hypotheses of `C40_from_init` can be met, with a fit: the thresholds of the sample data are 3 and −3 -/
example : (spot_init Sample.lib Sample.emptyHeap Sample.zeroed (lit (1 / 100)) 0 1 (lit (9 / 10)) 20).1 = 0 ∧
    (spot_init Sample.lib Sample.emptyHeap Sample.zeroed (lit (1 / 100)) 1 1 (lit (9 / 10)) 20).1 = 0 ∧
    ∀ op ∈ [.step (lit 3), .fit Sample.data 7, .step (lit 6), .step (lit 1000), .quantile (lit (1 / 1000))],
      Spec.mirrorable (lit (9 / 10)) op := by
  refine ⟨by decide +kernel, by decide +kernel, ?_⟩
  intro op hop
  simp only [List.mem_cons, List.not_mem_nil, or_false] at hop
  rcases hop with rfl | rfl | rfl | rfl | rfl
  · trivial
  · refine ⟨by show (7 : UInt64).toNat ≤ 7; decide, lit 3, lit (-3), by decide +kernel, by decide +kernel, Or.inl (by decide +kernel)⟩
  · trivial
  · trivial
  · trivial

/-! ### C74: the fit -/

/-- **C74** is false of the code: the P² estimator does not treat the two tails alike. On 1, 5, 3, 2, 4, 3 with level 9/10 the
upper-tail threshold is 3 and the lower-tail threshold of the opposite data is −3.67 (bit patterns below), so after `spot_fit`
the two detectors are not mirrored. -/
theorem C74_false : ¬ ∀ (lib : Lib F64) (h0 : Heap F64) (s0 s s' : Spot F64) (h h' : Heap F64) (q level : F64) (me size : UInt64)
    (data : List F64), 1 ≤ me.toNat → me.toNat < 2 ^ 61 → size.toNat ≤ data.length →
    spot_init lib h0 s0 q 0 1 level me = (0, s, h) → spot_init lib h0 s0 q 1 1 level me = (0, s', h') →
    Spec.MirroredRuns (runOps (codeMath lib.fu) h s [.fit data size])
      (runOps (codeMath lib.fu) h' s' [.fit (data.map F64.neg) size]) := by
  intro H
  have := H Sample.lib Sample.emptyHeap Sample.zeroed _ _ _ _ (lit (1 / 100)) (lit (9 / 10)) 20 6
    [lit 1, lit 5, lit 3, lit 2, lit 4, lit 3] (by decide) (by decide) (by decide)
    (Prod.ext (by decide +kernel) rfl) (Prod.ext (by decide +kernel) rfl)
  have e1 : (runOps (codeMath Sample.lib.fu) Sample.init.2.2 Sample.init.2.1
      [.fit [lit 1, lit 5, lit 3, lit 2, lit 4, lit 3] 6]).map (fun r => r.2.1.excess_threshold) =
      .ok (F64.ofBits 4613937818241073152) := by decide +kernel
  have e2 : (runOps (codeMath Sample.lib.fu)
      (spot_init Sample.lib Sample.emptyHeap Sample.zeroed (lit (1 / 100)) 1 1 (lit (9 / 10)) 20).2.2
      (spot_init Sample.lib Sample.emptyHeap Sample.zeroed (lit (1 / 100)) 1 1 (lit (9 / 10)) 20).2.1
      [.fit ([lit 1, lit 5, lit 3, lit 2, lit 4, lit 3].map F64.neg) 6]).map (fun r => r.2.1.excess_threshold) =
      .ok (F64.ofBits 13838811054971639125) := by decide +kernel
  rcases this with ⟨e, a, _⟩ | ⟨o, s, h, o', t, h', a, b, _, m⟩
  · change runOps (codeMath Sample.lib.fu) Sample.init.2.2 Sample.init.2.1 _ = _ at a
    rw [a] at e1; cases e1
  · change runOps (codeMath Sample.lib.fu) Sample.init.2.2 Sample.init.2.1 _ = _ at a
    rw [a] at e1
    rw [b] at e2
    simp only [Except.map, Except.ok.injEq] at e1 e2
    have := m.et
    rw [e1, e2] at this
    revert this
    unfold Spec.SameNum
    decide +kernel

/-- the middle value of five in non-decreasing order is determined by the five values -/
theorem median_unique {a b : Arr5 F64} (ha : a.Sorted) (hb : b.Sorted)
    (hp : (a.toList.map CDoubleLaws.val).Perm (b.toList.map CDoubleLaws.val)) :
    CDoubleLaws.val a.a2 = CDoubleLaws.val b.a2 := by
  have key : ∀ c : Arr5 F64, c.Sorted → (c.toList.map (CDoubleLaws.val (α := F64))).Pairwise (· ≤ ·) := by
    intro c hc
    obtain ⟨h1, h2, h3, h4⟩ := hc
    have h12 := h1.trans h2
    have h23 := h2.trans h3
    have h34 := h3.trans h4
    have h13 := h12.trans h3
    have h24 := h23.trans h4
    have h14 := h13.trans h4
    simp [Arr5.toList, *]
  have := List.Perm.eq_of_pairwise' (key a ha) (key b hb) hp
  simp only [Arr5.toList, List.map_cons, List.map_nil, List.cons.injEq] at this
  exact this.2.2.1

/-- the median of five numbers and the median of their opposites -/
theorem median_neg (a : Arr5 F64) (h : a.NoNaN) :
    F64.Zeq (sort5 ⟨F64.neg a.a0, F64.neg a.a1, F64.neg a.a2, F64.neg a.a3, F64.neg a.a4⟩).a2 (F64.neg (sort5 a).a2) := by
  set b : Arr5 F64 := ⟨F64.neg a.a0, F64.neg a.a1, F64.neg a.a2, F64.neg a.a3, F64.neg a.a4⟩ with hb
  have nn : ∀ x : F64, is_nan (F64.neg x) = is_nan x := CDoubleLaws.nan_neg
  have hbn : b.NoNaN := by
    obtain ⟨h0, h1, h2, h3, h4⟩ := h
    exact ⟨by rw [nn, h0], by rw [nn, h1], by rw [nn, h2], by rw [nn, h3], by rw [nn, h4]⟩
  have hbl : b.toList = a.toList.map F64.neg := rfl
  set sb := sort5 b with hsb
  have hs := sort5_sorted b hbn
  rw [← hsb] at hs
  have vn : ∀ x : F64, CDoubleLaws.val (F64.neg x) = -CDoubleLaws.val x := F64.val_neg
  have key := median_unique (a := ⟨F64.neg sb.a4, F64.neg sb.a3, F64.neg sb.a2, F64.neg sb.a1, F64.neg sb.a0⟩) (b := sort5 a)
    (by
      obtain ⟨h1, h2, h3, h4⟩ := hs
      refine ⟨?_, ?_, ?_, ?_⟩ <;> simp only [vn] <;> rw [EReal.neg_le_neg_iff] <;> assumption)
    (sort5_sorted a h)
    (by
      have e : (⟨F64.neg sb.a4, F64.neg sb.a3, F64.neg sb.a2, F64.neg sb.a1, F64.neg sb.a0⟩ : Arr5 F64).toList =
          (sb.toList.map F64.neg).reverse := rfl
      rw [e]
      refine List.Perm.map _ ?_
      refine (List.reverse_perm _).trans ?_
      refine ((sort5_perm b).map F64.neg).trans ?_
      rw [hbl, List.map_map]
      have : (F64.neg ∘ F64.neg) = id := by funext x; exact F64.neg_neg x
      rw [this, List.map_id]
      exact (sort5_perm a).symm)
  dsimp only at key
  have n1 : is_nan sb.a2 = false := (noNaN_iff b).mp hbn _ ((sort5_perm b).mem_iff.mp (by simp [Arr5.toList, hsb]))
  have n2 : is_nan (sort5 a).a2 = false := (noNaN_iff a).mp h _ ((sort5_perm a).mem_iff.mp (by simp [Arr5.toList]))
  have z : F64.Zeq (F64.neg sb.a2) (sort5 a).a2 := by
    refine F64.zeq_of_val ?_ ?_ key
    · rw [F64.notNaN_neg]; intro e; rw [e] at n1; exact absurd n1 (by decide)
    · intro e; rw [e] at n2; exact absurd n2 (by decide)
  have := z.neg
  rwa [F64.neg_neg] at this

/-- **C74** holds for at most five data points without NaN. With fewer than five both thresholds are 0; with five both are the
middle value. Missing: more than five points, for which the claim is false in general (`C74_false`). -/
theorem C74_small_partial {level : F64} {data : List F64} {size : UInt64} (hs : size.toNat ≤ data.length)
    (h5 : size.toNat ≤ 5) (hn : ∀ v ∈ data, F64.notNaN v) : Spec.OppositeThresholds level data size := by
  by_cases hlt : size.toNat < 5
  · refine ⟨lit 0, lit 0, ?_, ?_, Or.inr (by decide +kernel)⟩ <;>
    · unfold p2_quantile quantile
      rw [if_pos hlt]
  · have he : size.toNat = 5 := by omega
    have nan : ∀ v ∈ data, is_nan v = false := fun v hv => (F64.is_nan_false v).mpr (hn v hv)
    unfold Spec.OppositeThresholds p2_quantile
    rw [quantile_eq _ _ _ (by omega) hs, quantile_eq _ _ _ (by omega) (by rw [List.length_map]; exact hs)]
    refine ⟨_, _, rfl, rfl, ?_⟩
    have d1 : (data.take size.toNat).drop 5 = [] := by
      rw [he]; apply List.drop_eq_nil_of_le; simp
    have d2 : ((data.map F64.neg).take size.toNat).drop 5 = [] := by
      rw [he]; apply List.drop_eq_nil_of_le; simp
    rw [d1, d2]
    simp only [List.foldl_nil, List.getElem_map]
    exact (median_neg ⟨data[0], data[1], data[2], data[3], data[4]⟩
      ⟨nan _ (List.getElem_mem _), nan _ (List.getElem_mem _), nan _ (List.getElem_mem _), nan _ (List.getElem_mem _),
        nan _ (List.getElem_mem _)⟩).same

/-- a case with five distinct values in no particular order -/
example : (5 : UInt64).toNat ≤ ([lit 4, lit (-1), lit 3, lit 7, lit 0] : List F64).length ∧
    ∀ v ∈ ([lit 4, lit (-1), lit 3, lit 7, lit 0] : List F64), F64.notNaN v := by decide +kernel

/-- **C74** at the level of the detector: a mirrored pair fitted on at most five opposite data points, then stepped, stays
mirrored. Missing: fits on more than five points (`C74_false`). -/
theorem C74_partial {M : MathFns F64} {lib lib' : Lib F64} {q level : F64} {low disc : ℤ} {me : UInt64}
    {s0 s0' s s' : Spot F64} {h0 h0' h h' : Heap F64} (h1 : 1 ≤ me.toNat) (h2 : me.toNat < 2 ^ 61) (hlow : low ≠ 0)
    (i : spot_init lib h0 s0 q 0 disc level me = (0, s, h)) (i' : spot_init lib' h0' s0' q low disc level me = (0, s', h'))
    {data : List F64} {size : UInt64} (hs : size.toNat ≤ data.length) (h5 : size.toNat ≤ 5)
    (hn : ∀ v ∈ data, F64.notNaN v) (ops : List (Op F64)) (ho : ∀ op ∈ ops, Spec.stepOrQuantile op) :
    Spec.MirroredRuns (runOps M h s (.fit data size :: ops))
      (runOps M h' s' (.fit (data.map F64.neg) size :: ops.map Spec.mirrorOp)) := by
  refine C40_from_init h1 h2 hlow i i' (.fit data size :: ops) ?_
  intro op hop
  rcases List.mem_cons.mp hop with rfl | hop
  · exact ⟨hs, C74_small_partial hs h5 hn⟩
  · have := ho op hop
    cases op with
    | step _ => trivial
    | quantile _ => trivial
    | fit _ _ => exact this.elim
    | probability _ => exact this.elim

end Verif

/-
C150: NaN among the training values.
-/
import Verif.Props.P2Count
import Verif.Props.Samples
import Verif.Props.Fit

namespace Verif
open F64 (isFin toQ notNaN)

namespace Spec

/-- Each NaN of `l` is replaced in `l'` by a smallest one of the values before it (`seen`, then those of `l'`); the rest is the same. -/
inductive FilledByMin : List F64 → List F64 → List F64 → Prop
  | nil (seen) : FilledByMin seen [] []
  | same {seen l l'} (x : F64) (hx : notNaN x) (h : FilledByMin (seen ++ [x]) l l') : FilledByMin seen (x :: l) (x :: l')
  | fill {seen l l'} (y : F64) (hy : y ∈ seen) (hmin : ∀ z ∈ seen, F64.le y z = true) (h : FilledByMin (seen ++ [y]) l l') :
      FilledByMin seen (F64.nan :: l) (y :: l')

end Spec

namespace TrainNaN
open P2Count

theorem upd_nan {s : P2 F64} {done : List F64} (h : Ends s done) (hd : ∀ x ∈ done, notNaN x) {y : F64} (hy : y ∈ done)
    (hmin : ∀ z ∈ done, F64.le y z = true) : upd s F64.nan = upd s y := by
  have n0 := hd _ h.lo
  have n4 := hd _ h.hi
  have ny := hd _ hy
  have c1 : ¬ (y <. s.q.a0) = true := (not_lt' ny n0).mpr (h.bet y hy).1
  have c2 : ¬ (s.q.a4 <. y) = true := (not_lt' n4 ny).mpr (h.bet y hy).2
  have c3 : ¬ (s.q.a0 <. y) = true := (not_lt' n0 ny).mpr (hmin _ h.lo)
  have d1 : ∀ z : F64, ¬ (F64.nan <. z) = true := fun z hc => by
    have := ((CDoubleLaws.lt_iff F64.nan z).mp hc).1
    exact absurd this (by decide)
  have d2 : ∀ z : F64, ¬ (z <. F64.nan) = true := fun z hc => by
    have := ((CDoubleLaws.lt_iff z F64.nan).mp hc).2.1
    exact absurd this (by decide)
  unfold upd
  rw [if_neg (d1 _), if_neg (d2 _), if_neg c1, if_neg c2]
  unfold firstNotBelow
  rw [if_neg (d2 _), if_neg c3]

theorem fold_nan {s : P2 F64} {done l l' : List F64} (F : Spec.FilledByMin done l l') (h : Ends s done) (hd : ∀ x ∈ done, notNaN x) :
    l.foldl upd s = l'.foldl upd s := by
  induction F generalizing s with
  | nil => rfl
  | same x hx _ ih =>
    rw [List.foldl_cons, List.foldl_cons]
    exact ih (h.upd hx) (fun y hy => by
      rcases List.mem_append.mp hy with hy | hy
      · exact hd y hy
      · rw [List.mem_singleton.mp hy]; exact hx)
  | fill y hy hmin _ ih =>
    rw [List.foldl_cons, List.foldl_cons, upd_nan h hd hy hmin]
    exact ih (h.upd (hd y hy)) (fun z hz => by
      rcases List.mem_append.mp hz with hz | hz
      · exact hd z hz
      · rw [List.mem_singleton.mp hz]; exact hd y hy)

theorem length_eq {seen l l' : List F64} (F : Spec.FilledByMin seen l l') : l.length = l'.length := by
  induction F with
  | nil => rfl
  | same _ _ _ ih => simp [ih]
  | fill _ _ _ _ ih => simp [ih]

end TrainNaN
open TrainNaN P2Count

/-- The full statement is that NaN training values are reported or have no influence. What holds of the threshold when the first five values are
numbers: a NaN is treated as one more observation of the smallest value seen so far, at every level. -/
theorem C150_partial (p : F64) (first rest rest' : List F64) (h5 : first.length = 5) (hn : ∀ x ∈ first, notNaN x)
    (F : Spec.FilledByMin first rest rest') (size : UInt64) (hs : size.toNat = (first ++ rest).length) :
    ∃ v, p2_quantile p (first ++ rest) size = .ok v ∧ p2_quantile p (first ++ rest') size = .ok v := by
  rcases first with _ | ⟨x0, _ | ⟨x1, _ | ⟨x2, _ | ⟨x3, _ | ⟨x4, _ | ⟨x5, l⟩⟩⟩⟩⟩⟩ <;>
    simp only [List.length_cons, List.length_nil] at h5 <;> try omega
  have hl := length_eq F
  simp only [List.length_append, List.length_cons, List.length_nil] at hs
  have e := p2_quantile_eq p x0 x1 x2 x3 x4 rest [] size (by omega)
  have e' := p2_quantile_eq p x0 x1 x2 x3 x4 rest' [] size (by omega)
  rw [List.append_nil] at e e'
  rw [← fold_nan F (Ends.start p x0 x1 x2 x3 x4 hn) hn] at e'
  exact ⟨_, e, e'⟩

/-- A NaN is never recorded as an excess by a fit (nor by a step, C28); it is counted in `n`. -/
theorem C150_not_stored (et : F64) (s : Spot F64) (h : Heap F64) : fit_body et (s, h) F64.nan = .ok (s, h) := by
  unfold fit_body
  have h1 : (F64.nan -. et : F64) = F64.nan := F64.nan_sub _
  have h2 : s.up_down *. (F64.nan : F64) = F64.nan := by cases s.up_down <;> rfl
  dsimp only
  rw [h1, h2, if_neg (by decide +kernel)]

/-- False of the code: with a NaN in front of ten training values the excess threshold is the smallest value instead of more than 3; the fit reports
success and has nine excesses. NaN values after the fifth change the threshold too. -/
theorem C150_false : ∃ data : List F64, data.length = 10 ∧ (∀ x ∈ data, isFin x) ∧
    (p2_quantile Sample.spot.level data 10).map (fun v => decide (3 < toQ v ∧ toQ v < 7 / 2)) = .ok true ∧
    p2_quantile Sample.spot.level (F64.nan :: data) 11 = .ok (lit 1) ∧
    p2_quantile Sample.spot.level (data.take 5 ++ List.replicate 4 F64.nan ++ data.drop 5) 14 = .ok (lit (7 / 2)) ∧
    (spot_fit (codeMath muslFU) Sample.heap Sample.spot (F64.nan :: data) 11).map (fun r => (r.1, r.2.1.n, r.2.1.Nt, r.2.1.excess_threshold)) =
      .ok (0, 11, 9, lit 1) :=
  ⟨[lit 1, lit 2, lit 3, lit 4, lit 5, lit 3, lit 4, lit 2, lit 10, lit 9], by decide +kernel, by decide +kernel, by decide +kernel,
    by decide +kernel, by decide +kernel, by decide +kernel⟩

/-- two NaN values among eight: they count as 1 and, after a smaller value, as 0 -/
example : Spec.FilledByMin [lit 1, lit 2, lit 3, lit 4, lit 5] [F64.nan, lit 0, F64.nan] [lit 1, lit 0, lit 0] ∧
    p2_quantile (lit (1 / 2) : F64) [lit 1, lit 2, lit 3, lit 4, lit 5, F64.nan, lit 0, F64.nan] 8 =
      p2_quantile (lit (1 / 2)) [lit 1, lit 2, lit 3, lit 4, lit 5, lit 1, lit 0, lit 0] 8 := by
  refine ⟨.fill _ (by decide +kernel) (by decide +kernel) (.same _ (by decide +kernel) (.fill _ (by decide +kernel) (by decide +kernel) (.nil _))),
    by decide +kernel⟩

end Verif

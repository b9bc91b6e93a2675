/-
C11–C15: the container of peaks and its statistics.
-/
import Verif.Proofs.Stats
import Verif.Props.SampleRun
import Mathlib.Tactic.NormNum
import Mathlib.Tactic.FieldSimp

namespace Verif
open F64 (notNaN)

/-! ### C11 -/

/-- After initialisation with capacity `c` and the insertions `xs`: the size is min(k,c); slot `i` holds the latest inserted
value whose index is `i` modulo `c`; read as a whole, the slots are the last `c` inserted values. -/
theorem C11_most_recent (lib : Lib F64) (h : Heap F64) (cap : UInt64) (h1 : 1 ≤ cap.toNat) (h2 : cap.toNat < 2 ^ 61)
    (h0 : (ubend_init lib h cap).1 = 0) (xs : List F64) :
    ∃ outs u' h', pushAll (ubend_init lib h cap).2.2 (ubend_init lib h cap).2.1 xs = .ok (outs, u', h') ∧
      (ubend_size u').toNat = min xs.length cap.toNat ∧
      (∀ i, i < min xs.length cap.toNat → ∃ v, load h' u'.data i = .ok v ∧ Spec.IsLatest cap.toNat xs i v) ∧
      ∃ l : List F64, l.length = min xs.length cap.toNat ∧ l.Perm (Spec.lastN cap.toNat xs) ∧
        ∀ i (hi : i < l.length), load h' u'.data i = .ok l[i] := by
  have hx : ∃ a, (xmalloc lib h (cap * 8)).1 = some a := by
    cases hx : (xmalloc lib h (cap * 8)).1 with
    | none => unfold ubend_init at h0; simp [hx, ERR_MEMORY_ALLOCATION_FAILED] at h0
    | some a => exact ⟨a, rfl⟩
  obtain ⟨a, hx⟩ := hx
  obtain ⟨_, _, R⟩ := Ring.init (lib := lib) (h := h) h1 h2 hx
  obtain ⟨outs, u', h', e, R', _, _⟩ := pushAll_ring R xs
  rw [List.nil_append] at R'
  refine ⟨outs, u', h', e, R'.size, ?_, slots cap.toNat xs, slots_length xs, slots_perm h1 xs, R'.stored.read⟩
  intro i hi
  have hi' : i < (slots cap.toNat xs).length := by rw [slots_length]; exact hi
  exact ⟨_, R'.stored.read i hi', slots_latest xs i hi'⟩

example : (ubend_init Sample.lib Sample.emptyHeap 3).1 = 0 ∧ 1 ≤ (3 : UInt64).toNat ∧ (3 : UInt64).toNat < 2 ^ 61 := by
  decide +kernel

/-! ### C12 -/

/-- The `j`-th insertion (from 0) returns NaN while `j < c`, and afterwards the value inserted `c` insertions before. -/
theorem C12_evicted (lib : Lib F64) (h : Heap F64) (cap : UInt64) (h1 : 1 ≤ cap.toNat) (h2 : cap.toNat < 2 ^ 61)
    (h0 : (ubend_init lib h cap).1 = 0) (xs : List F64) :
    ∃ outs u' h', pushAll (ubend_init lib h cap).2.2 (ubend_init lib h cap).2.1 xs = .ok (outs, u', h') ∧
      outs.length = xs.length ∧
      ∀ j, j < xs.length → outs[j]? = if j < cap.toNat then some F64.nan else xs[j - cap.toNat]? := by
  have hx : ∃ a, (xmalloc lib h (cap * 8)).1 = some a := by
    cases hx : (xmalloc lib h (cap * 8)).1 with
    | none => unfold ubend_init at h0; simp [hx, ERR_MEMORY_ALLOCATION_FAILED] at h0
    | some a => exact ⟨a, rfl⟩
  obtain ⟨a, hx⟩ := hx
  obtain ⟨_, _, R⟩ := Ring.init (lib := lib) (h := h) h1 h2 hx
  obtain ⟨outs, u', h', e, _, hl, ho⟩ := pushAll_ring R xs
  refine ⟨outs, u', h', e, hl, fun j hj => ?_⟩
  have hj' : j < outs.length := by omega
  rw [List.getElem?_eq_getElem hj', ho j hj']
  have hn : (cNAN : F64) = F64.nan := by decide +kernel
  simp only [List.length_nil, zero_add, List.nil_append]
  split
  · rw [hn]
  · rw [List.getElem?_eq_getElem (by omega)]; rfl

example : (ubend_init Sample.lib Sample.emptyHeap 3).1 = 0 := by decide +kernel
/-- capacity 2, four insertions -/
example : (pushAll (ubend_init Sample.lib Sample.emptyHeap 2).2.2 (ubend_init Sample.lib Sample.emptyHeap 2).2.1
    [lit 5, lit 6, lit 7, lit 8]).map Prod.fst = .ok [F64.nan, F64.nan, lit 5, lit 6] := by decide +kernel

/-! ### C13 -/

/-- After any non-empty sequence of insertions of non-NaN values, the tracked minimum and maximum are stored values, and
every stored value lies between them. -/
theorem C13_min_max (lib : Lib F64) (h : Heap F64) (cap : UInt64) (h1 : 1 ≤ cap.toNat) (h2 : cap.toNat < 2 ^ 61)
    (h0 : (peaks_init lib h cap).1 = 0) (xs : List F64) (hne : xs ≠ []) (hx : ∀ x ∈ xs, notNaN x) :
    ∃ p' h', peaksPushAll (peaks_init lib h cap).2.2 (peaks_init lib h cap).2.1 xs = .ok (p', h') ∧
      ∃ l : List F64, l.length = (peaks_size p').toNat ∧ l.Perm (Spec.lastN cap.toNat xs) ∧
        (∀ i (hi : i < l.length), load h' p'.container.data i = .ok l[i]) ∧
        p'.min ∈ l ∧ p'.max ∈ l ∧ ∀ v ∈ l, p'.min.val ≤ v.val ∧ v.val ≤ p'.max.val := by
  obtain ⟨a, I⟩ := peaks_init_inv h1 h2 h0
  obtain ⟨p', h', e, I'⟩ := peaksPushAll_inv I xs
  rw [List.nil_append] at I'
  have hx' : ∀ v ∈ xs, is_nan v = false := fun v hv => (F64.is_nan_false v).mpr (hx v hv)
  have hE := statsOf_extremes h1 h2 xs hx' hne
  rw [← I'.stats] at hE
  have hmem : ∀ v ∈ slots cap.toNat xs, is_nan v = false := fun v hv => hx' v (slots_mem h1 hv)
  refine ⟨p', h', e, slots cap.toNat xs, ?_, slots_perm h1 xs, I'.ring.stored.read, hE.1.1, hE.2.1, ?_⟩
  · unfold peaks_size; rw [I'.ring.size, slots_length]
  · intro v hv
    have g1 := hE.1.2 v hv
    have g2 := hE.2.2 v hv
    have n1 := hmem _ hE.1.1
    have n2 := hmem _ hE.2.1
    simp only at g1 g2
    rw [not_lt_iff_le (hmem v hv) n1] at g1
    rw [not_lt_iff_le n2 (hmem v hv)] at g2
    rw [CDoubleLaws.le_iff] at g1 g2
    exact ⟨g1.2.2, g2.2.2⟩

example : (peaks_init Sample.lib Sample.emptyHeap 2).1 = 0 ∧ (∀ x ∈ ([lit 9, lit 5, lit 7] : List F64), notNaN x) := by
  decide +kernel
/-- the maximum 9 has been evicted -/
example : (peaksPushAll (peaks_init Sample.lib Sample.emptyHeap 2).2.2 (peaks_init Sample.lib Sample.emptyHeap 2).2.1
    [lit 9, lit 5, lit 7]).map (fun r => (r.1.min, r.1.max)) = .ok (lit 5, lit 7) := by decide +kernel

/-! ### C14 -/

/-- exact-arithmetic library for the examples -/
def Sample.xlib : Lib XR := ⟨some (fun _ _ => some 1), true, ⟨fun x _ => x, fun x _ => (x, 0)⟩⟩

theorem Sample.xinit (cap : UInt64) : (peaks_init Sample.xlib Sample.emptyHeap cap).1 = 0 := by
  have : ¬ ((cap * 8).toNat > SIZE_MAX) := by
    have := (cap * 8).toNat_lt; unfold SIZE_MAX; omega
  unfold peaks_init ubend_init xmalloc Sample.xlib
  simp only [this, if_false]
  rfl

/-- In exact arithmetic `peaks_mean` is the arithmetic mean of the stored values, after any non-empty sequence of insertions
of real numbers. -/
theorem C14_mean (lib : Lib XR) (h : Heap XR) (cap : UInt64) (h1 : 1 ≤ cap.toNat) (h2 : cap.toNat < 2 ^ 61)
    (h0 : (peaks_init lib h cap).1 = 0) (xs : List ℝ) (hne : xs ≠ []) :
    ∃ p' h', peaksPushAll (peaks_init lib h cap).2.2 (peaks_init lib h cap).2.1 (xs.map XR.fin) = .ok (p', h') ∧
      peaks_mean p' = XR.fin (Spec.mean (Spec.lastN cap.toNat xs)) := by
  obtain ⟨a, I⟩ := peaks_init_inv h1 h2 h0
  obtain ⟨p', h', e, I'⟩ := peaksPushAll_inv I (xs.map XR.fin)
  rw [List.nil_append] at I'
  refine ⟨p', h', e, ?_⟩
  have he : p'.e = XR.fin (slots cap.toNat xs).sum := by
    have := I'.stats
    have h3 : p'.stats.e = (statsOf cap.toNat (xs.map XR.fin)).e := by rw [this]
    rw [statsOf_sum h1] at h3
    exact h3
  have hl : 0 < xs.length := List.length_pos_iff.mpr hne
  have hsz : (peaks_size p').toNat = (Spec.lastN cap.toNat xs).length := by
    unfold peaks_size Spec.lastN
    rw [I'.ring.size]; simp; omega
  have hpos : 0 < (Spec.lastN cap.toNat xs).length := by unfold Spec.lastN; simp; omega
  unfold peaks_mean
  rw [he, hsz, XR.lit_fin, XR.div_ff (by simpa using List.length_pos_iff.mp hpos)]
  unfold Spec.mean
  rw [(slots_perm h1 xs).sum_eq]
  simp

/-- In any arithmetic, in particular IEEE, `peaks_update_stats` leaves in the accumulator the left-to-right sum of the slots. -/
theorem C14_recomputed (h : Heap F64) (p : Peaks F64) (l : List F64) (hl : l.length = (peaks_size p).toNat)
    (hr : ∀ i (hi : i < l.length), load h p.container.data i = .ok l[i]) :
    ∃ p', peaks_update_stats h p = .ok p' ∧ p'.e = l.foldl F64.add (F64.ofRat false 0) := by
  obtain ⟨p', e, hs, _⟩ := update_stats_eq (h := h) (p := p) (l := l) ⟨hl.symm, hr⟩
  refine ⟨p', e, ?_⟩
  have : p'.stats.e = (Stats.recompute l).e := by rw [hs]
  rw [recompute_e] at this
  exact this

example : (peaks_init Sample.xlib Sample.emptyHeap 3).1 = 0 := Sample.xinit 3
example : load (fun _ => some [some (lit 2 : F64)]) (some 0) 0 = .ok (lit 2) ∧
    (peaks_size (⟨lit 2, lit 4, lit 2, lit 2, ⟨1, 3, cNAN, 0, some 0⟩⟩ : Peaks F64)).toNat = 1 := by decide +kernel

/-! ### C15 -/

/-- C15 does not hold: with capacity 2, after inserting 1, 2, 3 the stored values are 3 and 2 but the reported variance is
4/2 - (5/2)² = -17/4 (the variance is 1/4). -/
theorem C15_false : ¬ ∀ (lib : Lib XR) (h : Heap XR) (cap : UInt64), 1 ≤ cap.toNat → cap.toNat < 2 ^ 61 →
    (peaks_init lib h cap).1 = 0 → ∀ xs : List ℝ, xs ≠ [] →
    ∃ p' h', peaksPushAll (peaks_init lib h cap).2.2 (peaks_init lib h cap).2.1 (xs.map XR.fin) = .ok (p', h') ∧
      peaks_var p' = XR.fin (Spec.variance (Spec.lastN cap.toNat xs)) := by
  intro H
  obtain ⟨p', h', e, hv⟩ := H Sample.xlib Sample.emptyHeap 2 (by decide) (by decide) (Sample.xinit 2) [1, 2, 3] (by simp)
  obtain ⟨a, I⟩ := peaks_init_inv (lib := Sample.xlib) (h := Sample.emptyHeap) (cap := 2) (by decide) (by decide)
    (Sample.xinit 2)
  obtain ⟨p1, h1, e1, I'⟩ := peaksPushAll_inv I ([1, 2, 3].map XR.fin)
  rw [e] at e1
  cases e1
  rw [List.nil_append] at I'
  have hst := I'.stats
  have c2 : (2 : UInt64).toNat = 2 := rfl
  rw [c2] at hst
  have hsz : (peaks_size p').toNat = 2 := by
    unfold peaks_size; rw [I'.ring.size]; rfl
  have s1 : slots 2 ([XR.fin 1] : List XR) = [XR.fin 1] := rfl
  have s2 : slots 2 ([XR.fin 1, XR.fin 2] : List XR) = [XR.fin 1, XR.fin 2] := rfl
  have s3 : slots 2 ([XR.fin 1, XR.fin 2, XR.fin 3] : List XR) = [XR.fin 3, XR.fin 2] := rfl
  have he : p'.e = XR.fin 5 ∧ p'.e2 = XR.fin 4 := by
    have a1 : p'.stats = statsOf 2 [XR.fin 1, XR.fin 2, XR.fin 3] := hst
    have b1 : statsOf 2 ([] ++ [XR.fin 1]) = ⟨XR.fin 1, XR.fin 1, XR.fin 1, XR.fin 1⟩ := by
      rw [statsOf_snoc]
      have : erasedOf 2 ([] ++ [XR.fin 1]) = cNAN := rfl
      rw [this]
      simp [Stats.evict, Stats.incr, CDoubleLaws.nan_cNAN, statsOf, statsRev, XR.lit_fin, XR.add_ff, XR.mul_ff]
    have b2 : statsOf 2 ([XR.fin 1] ++ [XR.fin 2]) = ⟨XR.fin 3, XR.fin 5, XR.fin 1, XR.fin 2⟩ := by
      rw [statsOf_snoc]
      have hh : erasedOf 2 ([XR.fin 1] ++ [XR.fin 2]) = cNAN := rfl
      have hb : statsOf 2 [XR.fin 1] = ⟨XR.fin 1, XR.fin 1, XR.fin 1, XR.fin 1⟩ := b1
      have hu : ¬ (UInt64.ofNat (min ([XR.fin 1].length + 1) 2) = 1) := by decide
      rw [hh, hb]
      simp only [Stats.evict, Stats.incr, CDoubleLaws.nan_cNAN, XR.add_ff, XR.mul_ff, XR.lt_ff, hu, Bool.not_true]
      norm_num
    have b3 : statsOf 2 ([XR.fin 1, XR.fin 2] ++ [XR.fin 3]) = Stats.recompute [XR.fin 3, XR.fin 2] := by
      rw [statsOf_snoc]
      have hh : erasedOf 2 ([XR.fin 1, XR.fin 2] ++ [XR.fin 3]) = XR.fin 1 := rfl
      have hb : statsOf 2 [XR.fin 1, XR.fin 2] = ⟨XR.fin 3, XR.fin 5, XR.fin 1, XR.fin 2⟩ := b2
      have hu : ¬ (UInt64.ofNat (min ([XR.fin 1, XR.fin 2].length + 1) 2) = 1) := by decide
      rw [hh, hb]
      have hs3 : slots 2 ([XR.fin 1, XR.fin 2] ++ [XR.fin 3]) = [XR.fin 3, XR.fin 2] := s3
      rw [hs3]
      simp only [Stats.evict, Stats.incr, XR.nan_f, XR.add_ff, XR.mul_ff, XR.lt_ff, hu, Bool.not_false]
      norm_num [XR.le_ff]
    have a2 : p'.stats = Stats.recompute [XR.fin 3, XR.fin 2] := a1.trans b3
    have a3 : (Stats.recompute [XR.fin 3, XR.fin 2]).e = XR.fin 5 ∧
        (Stats.recompute [XR.fin 3, XR.fin 2]).e2 = XR.fin 4 := by
      simp only [Stats.recompute, List.foldl_cons, List.foldl_nil, Stats.body, XR.lit_fin, XR.add_ff, XR.mul_ff]
      norm_num
    rw [← a2] at a3
    exact a3
  unfold peaks_var at hv
  rw [hsz, he.1, he.2] at hv
  simp only [XR.lit_fin] at hv
  rw [XR.div_ff (by norm_num), XR.div_ff (by norm_num), XR.mul_ff, XR.sub_ff, XR.fin_inj, c2] at hv
  have hl : Spec.lastN 2 ([1, 2, 3] : List ℝ) = [2, 3] := rfl
  rw [hl] at hv
  norm_num [Spec.variance, Spec.mean] at hv

/-- What holds instead of C15: `peaks_var` is the population variance of the stored values as long as no extreme value
has been evicted (in particular while the container is filling), or with capacity 1. Missing from C15: histories in which
an evicted value is an extreme, where it is false: the sum of squares is then overwritten by the square of the last slot. -/
theorem C15_partial (lib : Lib XR) (h : Heap XR) (cap : UInt64) (h1 : 1 ≤ cap.toNat) (h2 : cap.toNat < 2 ^ 61)
    (h0 : (peaks_init lib h cap).1 = 0) (xs : List ℝ) (hne : xs ≠ [])
    (hx : cap.toNat = 1 ∨ Spec.NoExtremeEvicted cap.toNat xs) :
    ∃ p' h', peaksPushAll (peaks_init lib h cap).2.2 (peaks_init lib h cap).2.1 (xs.map XR.fin) = .ok (p', h') ∧
      peaks_var p' = XR.fin (Spec.variance (Spec.lastN cap.toNat xs)) := by
  obtain ⟨a, I⟩ := peaks_init_inv h1 h2 h0
  obtain ⟨p', h', e, I'⟩ := peaksPushAll_inv I (xs.map XR.fin)
  rw [List.nil_append] at I'
  refine ⟨p', h', e, ?_⟩
  have he : p'.e = XR.fin (slots cap.toNat xs).sum := by
    have h3 : p'.stats.e = (statsOf cap.toNat (xs.map XR.fin)).e := by rw [I'.stats]
    rw [statsOf_sum h1] at h3
    exact h3
  have he2 : p'.e2 = XR.fin ((slots cap.toNat xs).map (fun v => v * v)).sum := by
    have h3 : p'.stats.e2 = (statsOf cap.toNat (xs.map XR.fin)).e2 := by rw [I'.stats]
    rw [statsOf_sumsq h1 h2 xs hx] at h3
    exact h3
  have hl : 0 < xs.length := List.length_pos_iff.mpr hne
  set L := Spec.lastN cap.toNat xs with hL
  have hp := slots_perm h1 xs
  have hsz : (peaks_size p').toNat = L.length := by
    unfold peaks_size
    rw [I'.ring.size, hL]; unfold Spec.lastN; simp; omega
  have hpos : (0 : ℝ) < L.length := by
    rw [hL]; unfold Spec.lastN; simp; omega
  unfold peaks_var
  rw [he, he2, hsz]
  simp only [XR.lit_fin, Rat.cast_natCast]
  rw [XR.div_ff hpos.ne', XR.div_ff hpos.ne', XR.mul_ff, XR.sub_ff, XR.fin_inj,
    hp.sum_eq, (hp.map _).sum_eq]
  unfold Spec.variance
  have key : ∀ m : ℝ, (L.map fun v => (v - m) ^ 2).sum =
      (L.map fun v => v * v).sum - 2 * m * L.sum + L.length * m ^ 2 := by
    intro m
    clear_value L
    clear hp hsz hpos hL
    induction L with
    | nil => simp
    | cons v l ih =>
      simp only [List.map_cons, List.sum_cons, ih, List.length_cons]
      push_cast; ring
  unfold Spec.mean
  rw [key]
  simp only [List.length_map]
  field_simp
  ring

/-- filling a container of capacity 3 -/
example : Spec.NoExtremeEvicted 3 [1, 2, 4] := by
  intro j h1 h2
  simp at h2; omega
/-- with an eviction: 2 leaves while 1 and 4, 3 are present -/
example : Spec.NoExtremeEvicted 3 [2, 1, 4, 3] := by
  intro j h1 h2
  simp at h2
  have : j = 3 := by omega
  subst this
  exact ⟨⟨1, by norm_num, by norm_num, by norm_num⟩, ⟨2, by norm_num, by norm_num, by norm_num⟩⟩

end Verif

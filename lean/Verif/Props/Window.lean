/-
C119: the parameters depend on the stored excesses only.
-/
import Verif.Props.Tail
import Verif.Props.Gpd
import Verif.Props.SampleRun

namespace Verif

/-! ### C119 -/

theorem XR.add_right_comm' (a b c : XR) : a +. b +. c = a +. c +. b := by
  cases a <;> cases b <;> cases c <;> first | rfl | skip
  all_goals
    simp only [XR.add_ff]
    rw [add_right_comm]

section perm
variable {M : MathFns XR} {l l' : List XR}

theorem fold_perm (hp : l.Perm l') (f : XR → XR) (a : XR) : l.foldl (fun r v => r +. f v) a = l'.foldl (fun r v => r +. f v) a :=
  List.Perm.foldl_eq' (f := fun r v => r +. f v) hp (fun _ _ _ _ _ => XR.add_right_comm' _ _ _) a

theorem logLikL_perm (hp : l.Perm l') (e g s : XR) : logLikL M e l g s = logLikL M e l' g s := by
  unfold logLikL
  rw [hp.length_eq]
  split
  · rfl
  · exact fold_perm hp _ _

theorem grimshawWL_perm (hp : l.Perm l') : grimshawWL M l = grimshawWL M l' := by
  funext x
  unfold grimshawWL
  rw [hp.length_eq, hp.foldl_eq' (fun x _ y _ z => Prod.ext (XR.add_right_comm' _ _ _) (XR.add_right_comm' _ _ _)) _]

theorem grimshawVL_perm (hp : l.Perm l') (x : XR) : grimshawVL M l x = grimshawVL M l' x := by
  unfold grimshawVL
  rw [hp.length_eq, fold_perm hp (fun y => M.log (lit 1 +. x *. y))]

theorem momL_perm (hp : l.Perm l') (e e2 : XR) : momL M e e2 l = momL M e e2 l' := by
  unfold momL meanL varL
  simp only [hp.length_eq, logLikL_perm hp]

theorem simplifiedL_perm (hp : l.Perm l') (e x : XR) : simplifiedL M e l x = simplifiedL M e l' x := by
  unfold simplifiedL meanL
  simp only [hp.length_eq, logLikL_perm hp, grimshawVL_perm hp]

theorem grimshawL_perm (hp : l.Perm l') (e mi ma : XR) : grimshawL M e mi ma l = grimshawL M e mi ma l' := by
  unfold grimshawL betterL rootsL meanL
  simp only [hp.length_eq, simplifiedL_perm hp, grimshawWL_perm hp]

theorem extremes_perm (hp : l.Perm l') {s s' : Stats XR} (hn : ∀ v ∈ l, ∃ r, v = XR.fin r) (hE : Extremes s l) (hE' : Extremes s' l') :
    s.min = s'.min ∧ s.max = s'.max := by
  have anti : ∀ a b : XR, a ∈ l → b ∈ l → (a <. b) = false → (b <. a) = false → a = b := by
    intro a b ha hb h1 h2
    obtain ⟨x, rfl⟩ := hn a ha
    obtain ⟨y, rfl⟩ := hn b hb
    rw [XR.lt_ff, decide_eq_false_iff_not] at h1 h2
    rw [le_antisymm (not_lt.mp h2) (not_lt.mp h1)]
  have m1 := hp.mem_iff.mpr hE'.1.1
  have m2 := hp.mem_iff.mpr hE'.2.1
  refine ⟨anti _ _ hE.1.1 m1 ?_ ?_, anti _ _ hE.2.1 m2 ?_ ?_⟩
  · simpa using hE'.1.2 _ (hp.mem_iff.mp hE.1.1)
  · simpa using hE.1.2 _ m1
  · simpa using hE.2.2 _ m2
  · simpa using hE'.2.2 _ (hp.mem_iff.mp hE.2.1)

end perm

/-- What holds, in exact arithmetic. Two tails (the capacities may differ) in which the same excesses are stored, in any order and whatever
was recorded before: the estimator of Grimshaw returns the same result for both. If none of them has ever evicted an extreme value, the
estimator of moments does too, and both tails get the same parameters. Missing: histories in which an extreme value was evicted, for
which it is false (`C119_false`). -/
theorem C119_partial (lib lib' : Lib XR) (h h' : Heap XR) (cap cap' : UInt64) (h1 : 1 ≤ cap.toNat) (h2 : cap.toNat < 2 ^ 61)
    (h1' : 1 ≤ cap'.toNat) (h2' : cap'.toNat < 2 ^ 61) (h0 : (peaks_init lib h cap).1 = 0) (h0' : (peaks_init lib' h' cap').1 = 0)
    (xs xs' : List ℝ) (hne : xs ≠ []) (hw : (Spec.lastN cap.toNat xs).Perm (Spec.lastN cap'.toNat xs')) :
    ∃ p g p' g', peaksPushAll (peaks_init lib h cap).2.2 (peaks_init lib h cap).2.1 (xs.map XR.fin) = .ok (p, g) ∧
      peaksPushAll (peaks_init lib' h' cap').2.2 (peaks_init lib' h' cap').2.1 (xs'.map XR.fin) = .ok (p', g') ∧
      grimshaw_estimator XR.exactMath g p = grimshaw_estimator XR.exactMath g' p' ∧
      (Spec.NoExtremeEvicted cap.toNat xs → Spec.NoExtremeEvicted cap'.toNat xs' →
        ∀ γ σ γ' σ' : XR, ∃ L γ1 σ1, tail_fit XR.exactMath g ⟨γ, σ, p⟩ = .ok (L, ⟨γ1, σ1, p⟩) ∧
          tail_fit XR.exactMath g' ⟨γ', σ', p'⟩ = .ok (L, ⟨γ1, σ1, p'⟩)) := by
  obtain ⟨a, I⟩ := peaks_init_inv h1 h2 h0
  obtain ⟨p, g, e, I⟩ := peaksPushAll_inv I (xs.map XR.fin)
  obtain ⟨a', I'⟩ := peaks_init_inv h1' h2' h0'
  obtain ⟨p', g', e', I'⟩ := peaksPushAll_inv I' (xs'.map XR.fin)
  rw [List.nil_append] at I I'
  have hne' : xs' ≠ [] := by
    rintro rfl
    have := hw.length_eq
    unfold Spec.lastN at this
    rw [List.length_drop, List.length_drop] at this
    have := List.length_pos_iff.mpr hne
    simp at *
    omega
  have hp : (slots cap.toNat xs).Perm (slots cap'.toNat xs') := (slots_perm h1 xs).trans (hw.trans (slots_perm h1' xs').symm)
  have hP : (slots cap.toNat (xs.map XR.fin)).Perm (slots cap'.toNat (xs'.map XR.fin)) := by
    rw [slots_map, slots_map]
    exact hp.map _
  have he : p.e = p'.e := by
    have k : p.stats.e = XR.fin (slots cap.toNat xs).sum := by rw [I.stats, statsOf_sum h1]
    have k' : p'.stats.e = XR.fin (slots cap'.toNat xs').sum := by rw [I'.stats, statsOf_sum h1']
    rw [hp.sum_eq, ← k'] at k
    exact k
  have nn : ∀ ys : List ℝ, ∀ v ∈ ys.map XR.fin, is_nan v = false := by
    intro ys v hv
    obtain ⟨r, -, rfl⟩ := List.mem_map.mp hv
    exact XR.nan_f r
  have hE := statsOf_extremes h1 h2 (xs.map XR.fin) (nn xs) (by simpa using hne)
  have hE' := statsOf_extremes h1' h2' (xs'.map XR.fin) (nn xs') (by simpa using hne')
  rw [← I.stats] at hE
  rw [← I'.stats] at hE'
  obtain ⟨hmin, hmax⟩ := extremes_perm hP (fun v hv => by
    obtain ⟨r, -, rfl⟩ := List.mem_map.mp (slots_mem h1 hv)
    exact ⟨r, rfl⟩) hE hE'
  have hmin : p.min = p'.min := hmin
  have hmax : p.max = p'.max := hmax
  have S := I.ring.stored
  have S' := I'.ring.stored
  refine ⟨p, g, p', g', e, e', ?_, fun x x' γ σ γ' σ' => ?_⟩
  · rw [grimshaw_eq S, grimshaw_eq S', he, hmin, hmax, grimshawL_perm hP]
  · have he2 : p.e2 = p'.e2 := by
      have k : p.stats.e2 = XR.fin ((slots cap.toNat xs).map (fun v => v * v)).sum := by rw [I.stats, statsOf_sumsq h1 h2 xs (.inr x)]
      have k' : p'.stats.e2 = XR.fin ((slots cap'.toNat xs').map (fun v => v * v)).sum := by
        rw [I'.stats, statsOf_sumsq h1' h2' xs' (.inr x')]
      rw [(hp.map _).sum_eq, ← k'] at k
      exact k
    rw [tail_fit_eq (t := ⟨γ, σ, p⟩) S, tail_fit_eq (t := ⟨γ', σ', p'⟩) S', tailFitL_eq, tailFitL_eq]
    have st : p.stats = p'.stats := by
      unfold Peaks.stats
      rw [he, he2, hmin, hmax]
    have : fitL XR.exactMath γ σ p.stats (slots cap.toNat (xs.map XR.fin)) =
        fitL XR.exactMath γ' σ' p'.stats (slots cap'.toNat (xs'.map XR.fin)) := by
      unfold fitL
      have n : ∀ (g s : XR) (est : Est XR), fitStepL (cNAN, g, s) est = (est.llhood, est.gamma, est.sigma) := by
        intro g s est
        rw [fitStepL, CDoubleLaws.nan_cNAN, Bool.true_or, if_pos rfl]
      rw [st, momL_perm hP, grimshawL_perm hP, n, n]
    exact ⟨_, _, _, rfl, by dsimp only; rw [← this]⟩

example : (peaks_init (⟨some fun _ _ => some 1, true, ⟨fun x _ => x, fun x _ => (x, 0)⟩⟩ : Lib XR) Sample.emptyHeap 3).1 = 0 ∧
    (Spec.lastN (3 : UInt64).toNat [2, 1, 4, 3]).Perm (Spec.lastN (3 : UInt64).toNat ([4, 3, 1] : List ℝ)) ∧
    Spec.NoExtremeEvicted (3 : UInt64).toNat [2, 1, 4, 3] ∧ Spec.NoExtremeEvicted (3 : UInt64).toNat [4, 3, 1] := by
  refine ⟨rfl, List.perm_append_comm (l₁ := [1]) (l₂ := [4, 3]), fun j h1 h2 => ?_, fun j h1 h2 => ?_⟩
  · have h1 : 3 ≤ j := h1
    have h2 : j < 4 := h2
    have : j = 3 := by omega
    subst this
    exact ⟨⟨1, by decide, by decide, by show (1 : ℝ) < 2; norm_num⟩, ⟨2, by decide, by decide, by show (2 : ℝ) < 4; norm_num⟩⟩
  · have h1 : 3 ≤ j := h1
    have h2 : j < 3 := h2
    omega

/-- the fit of seven zeros and `l`, with `q` 1/100, `level` 1/2 and capacity 2 -/
def Sample.window (l : List F64) : C (List (Out F64) × Spot F64 × Heap F64) :=
  runOps (codeMath muslFU) (spot_init Sample.lib Sample.emptyHeap Sample.zeroed (lit (1 / 100)) 0 1 (lit (1 / 2)) 2).2.2
    (spot_init Sample.lib Sample.emptyHeap Sample.zeroed (lit (1 / 100)) 0 1 (lit (1 / 2)) 2).2.1
    [.fit (List.replicate 7 (lit 0) ++ l) (UInt64.ofNat (7 + l.length))]

/-- return codes, the buffer of the excesses, and the shape -/
def Sample.seen (r : List (Out F64) × Spot F64 × Heap F64) : List (Out F64) × Option (List (Option ℚ)) × ℚ :=
  (r.1, (r.2.1.tail.peaks.container.data.bind r.2.2).map (fun l => l.map (fun o => o.map F64.toQ)), F64.toQ r.2.1.tail.gamma)

/-- False of the code: a detector that keeps two excesses is given seven zeros, 1 and 10; another one the same with 11 before the 1. Both
store the excesses 1 and 10. But the shape of the first is -0.2469… and the shape of the second is 0. -/
theorem C119_false :
    (Sample.window [lit 1, lit 10]).map Sample.seen =
      .ok ([.code 0], some [some 1, some 10], -1111999907992715 / 4503599627370496) ∧
    (Sample.window [lit 11, lit 1, lit 10]).map Sample.seen = .ok ([.code 0], some [some 10, some 1], 0) := by
  constructor <;> decide +kernel

end Verif

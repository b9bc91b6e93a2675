/-
C19–C23: the root search, for an arbitrary function. `search f x1 x2 tol` is the modelled `brent` run on `f` while recording
the calls (Verif/Spec/Brent.lean).
-/
import Verif.Proofs.Brent
import Verif.Proofs.Grimshaw
import Verif.Props.Tail
import Mathlib.Topology.Order.IntermediateValue
import Mathlib.Topology.Instances.Real.Lemmas

set_option linter.unusedSectionVars false

namespace Verif
open Spec
section
variable {α : Type} [CDouble α] [L : CDoubleLaws α]

/-! ### C19 -/

/-- At most 202 calls, for any function, interval and tolerance of doubles or of exact numbers (NaN and infinities
included); and the search used by the library, on a function free of undefined behaviour, returns the result of the
recorded search. -/
theorem C19_budget (f : α → α) (x1 x2 tol : α) :
    (search f x1 x2 tol).2.length ≤ 202 ∧
    ∀ func : α → C α, (∀ x, func x = .ok (f x)) → brent func x1 x2 tol = .ok (search f x1 x2 tol).1 := by
  constructor
  · by_cases h : SameSign (f x1) (f x2)
    · rw [search_eq, if_pos ((sameSign_iff _ _).mpr h)]; simp
    · obtain ⟨_, _, h2, _⟩ := search_bracket f x1 x2 tol h
      exact h2
  · intro func hf
    rw [search_fst, brent_eq hf]

/-- The recorded calls determine the result: another function with the same values at these points gives the same result and
the same calls. -/
theorem C19_calls (f g : α → α) (x1 x2 tol : α) (hfg : ∀ x ∈ (search f x1 x2 tol).2, g x = f x) :
    search g x1 x2 tol = search f x1 x2 tol := by
  have hloop : ∀ n s l, (∀ x ∈ (brentLoop (logged f) tol n s l).2, g x = f x) →
      brentLoop (logged g) tol n s l = brentLoop (logged f) tol n s l := by
    intro n
    induction n with
    | zero => intro s l _; rfl
    | succ n ih =>
      intro s l h
      rw [brentLoop_succ] at h ⊢
      rw [brentLoop_succ]
      split
      · rfl
      · next hd =>
        rw [if_neg hd] at h
        have hb : (brentStep g tol s).b = (brentStep f tol s).b := rfl
        have hmem : (brentStep f tol s).b ∈
            (brentLoop (logged f) tol n (brentStep f tol s) (l ++ [(brentStep f tol s).b])).2 := by
          obtain ⟨_, h1, _⟩ := brentLoop_inv (f := f) (tol := tol) (fun _ l' => (brentStep f tol s).b ∈ l')
            (fun _ _ h _ => List.mem_append_left _ h) n (brentStep f tol s) (l ++ [(brentStep f tol s).b]) (by simp)
          exact h1
        have hv := h _ hmem
        have hs : brentStep g tol s = brentStep f tol s := by
          unfold brentStep at hv ⊢
          dsimp only at hv ⊢
          rw [hv]
        rw [hs]
        exact ih _ _ h
  rw [search_eq] at hfg ⊢
  rw [search_eq]
  have hx : g x1 = f x1 ∧ g x2 = f x2 := by
    split at hfg
    · exact ⟨hfg x1 (by simp), hfg x2 (by simp)⟩
    · obtain ⟨_, h1, _⟩ := brentLoop_inv (f := f) (tol := tol) (fun _ l' => x1 ∈ l' ∧ x2 ∈ l')
        (fun _ _ h _ => ⟨List.mem_append_left _ h.1, List.mem_append_left _ h.2⟩) BRENT_ITMAX
        ⟨x1, x2, x2, lit 0, lit 0, f x1, f x2, f x2⟩ [x1, x2] (by simp)
      exact ⟨hfg _ h1.1, hfg _ h1.2⟩
  rw [hx.1, hx.2]
  split
  · rfl
  · next h =>
    rw [if_neg h] at hfg
    exact hloop _ _ _ hfg

/-! ### C20 -/

/-- A reported root `b` has been evaluated; it is a zero of `f` or there is an evaluated point `c` with no strict sign in
common with `b` that passes the distance test. (No hypothesis on NaN values is needed.) -/
theorem C20_bracketed (f : α → α) (x1 x2 tol b : α) (hfound : (search f x1 x2 tol).1 = (true, b)) :
    b ∈ (search f x1 x2 tol).2 ∧
    ((f b ==. lit 0) = true ∨ ∃ c ∈ (search f x1 x2 tol).2, ¬ SameSign (f b) (f c) ∧
      (fabs (lit (1 / 2) *. (c -. b)) <=. lit 2 *. lit (2 / 10 ^ 8) *. fabs b +. lit (1 / 2) *. tol) = true) := by
  by_cases h : SameSign (f x1) (f x2)
  · rw [search_eq, if_pos ((sameSign_iff _ _).mpr h)] at hfound
    cases hfound
  · obtain ⟨s', B, _, h3⟩ := search_bracket f x1 x2 tol h
    rcases h3 with ⟨hd, he⟩ | ⟨he, _⟩
    · rw [hfound] at he
      have hb : b = (brentAdjust s').b := by injection he
      obtain ⟨_, mb, mc, _, fb, fc, hs⟩ := B.adjust
      unfold brentDone brentXm brentTol1 BRENT_DEFAULT_EPSILON at hd
      rw [Bool.or_eq_true, ← hb] at hd
      rw [fb, fc, ← hb] at hs
      rw [fb, ← hb] at hd
      rw [← hb] at mb
      refine ⟨mb, ?_⟩
      rcases hd with hd | hd
      · exact Or.inr ⟨_, mc, hs, hd⟩
      · exact Or.inl hd
    · rw [hfound] at he; cases he

/-! ### C21 -/

/-- Same strict sign at both ends: failure, value 0, after two calls. Conversely failure is reported only in that case or
when the budget of 202 calls is used up. -/
theorem C21_refuses (f : α → α) (x1 x2 tol : α) :
    (SameSign (f x1) (f x2) → search f x1 x2 tol = ((false, lit 0), [x1, x2])) ∧
    ((search f x1 x2 tol).1.1 = false →
      (search f x1 x2 tol).1.2 = lit 0 ∧ (SameSign (f x1) (f x2) ∨ (search f x1 x2 tol).2.length = 202)) := by
  constructor
  · intro h
    rw [search_eq, if_pos ((sameSign_iff _ _).mpr h)]
  · intro hf
    by_cases h : SameSign (f x1) (f x2)
    · refine ⟨?_, Or.inl h⟩
      rw [search_eq, if_pos ((sameSign_iff _ _).mpr h)]
    · obtain ⟨s', _, _, h3⟩ := search_bracket f x1 x2 tol h
      rcases h3 with ⟨_, he⟩ | ⟨he, hl⟩
      · rw [he] at hf; cases hf
      · exact ⟨by rw [he], Or.inr hl⟩

end

/-! ### C22, and the existence of a true root -/

section
open XR Set

/-- In exact arithmetic all calls and the reported root are in the interval, whatever the function (NaN and infinite values
included). -/
theorem C22_interval (f : XR → XR) (x1 x2 tol : ℝ) (htol : 0 ≤ tol) :
    (∀ x ∈ (search f (fin x1) (fin x2) (fin tol)).2, ∃ r ∈ uIcc x1 x2, x = fin r) ∧
    ∀ x, (search f (fin x1) (fin x2) (fin tol)).1 = (true, x) → ∃ r ∈ uIcc x1 x2, x = fin r := by
  have h1 : ∀ x ∈ (search f (fin x1) (fin x2) (fin tol)).2, ∃ r ∈ uIcc x1 x2, x = fin r := by
    rw [search_eq]
    split
    · intro x hx
      simp only [List.mem_cons, List.not_mem_nil, or_false] at hx
      rcases hx with rfl | rfl
      · exact ⟨x1, left_mem_uIcc, rfl⟩
      · exact ⟨x2, right_mem_uIcc, rfl⟩
    · obtain ⟨_, I, _⟩ := brentLoop_inv (f := f) (tol := fin tol) (InI (uIcc x1 x2)) (fun s l B hd => B.step htol hd)
        BRENT_ITMAX ⟨fin x1, fin x2, fin x2, lit 0, lit 0, f (fin x1), f (fin x2), f (fin x2)⟩ [fin x1, fin x2]
        ⟨⟨x1, left_mem_uIcc, rfl⟩, ⟨x2, right_mem_uIcc, rfl⟩, ⟨x2, right_mem_uIcc, rfl⟩, ⟨_, lit_fin 0⟩, ⟨_, lit_fin 0⟩, by
          intro x hx
          simp only [List.mem_cons, List.not_mem_nil, or_false] at hx
          rcases hx with rfl | rfl
          · exact ⟨x1, left_mem_uIcc, rfl⟩
          · exact ⟨x2, right_mem_uIcc, rfl⟩⟩
      exact I.log
  exact ⟨h1, fun x hx => h1 x (C20_bracketed f _ _ _ x hx).1⟩

/-- C20 in exact arithmetic: for a continuous function a reported root is within `8e-8 |b| + tol` of a true root. -/
theorem C20_true_root (f : XR → XR) (g : ℝ → ℝ) (x1 x2 tol b : ℝ) (htol : 0 ≤ tol)
    (hfg : ∀ x ∈ uIcc x1 x2, f (fin x) = fin (g x)) (hg : ContinuousOn g (uIcc x1 x2))
    (hfound : (search f (fin x1) (fin x2) (fin tol)).1 = (true, fin b)) :
    ∃ z ∈ uIcc x1 x2, g z = 0 ∧ |z - b| ≤ 8 / 10 ^ 8 * |b| + tol := by
  obtain ⟨I1, I2⟩ := C22_interval f x1 x2 tol htol
  obtain ⟨r, hb, e⟩ := I2 _ hfound
  cases e
  obtain ⟨_, h⟩ := C20_bracketed f _ _ _ _ hfound
  rcases h with h | ⟨c, hc, hs, ht⟩
  · rw [hfg b hb, lit_fin, eq_ff] at h
    refine ⟨b, hb, ?_, ?_⟩
    · simpa using h
    · rw [sub_self, abs_zero]; positivity
  · obtain ⟨c, hcI, rfl⟩ := I1 c hc
    rw [hfg b hb, hfg c hcI] at hs
    have hs' : ¬ (0 < g b ∧ 0 < g c ∨ g b < 0 ∧ g c < 0) := by
      intro h'
      apply hs
      unfold SameSign
      rw [lit_fin]
      simp only [lt_ff, Rat.cast_zero, decide_eq_true_eq]
      exact h'
    have hsub : uIcc b c ⊆ uIcc x1 x2 := uIcc_subset_uIcc hb hcI
    have hz : (0 : ℝ) ∈ uIcc (g b) (g c) := by
      rw [mem_uIcc]
      by_contra hn
      push Not at hn hs'
      obtain ⟨n1, n2⟩ := hn
      rcases lt_trichotomy (g b) 0 with h1 | h1 | h1
      · exact absurd (hs'.2 h1) (not_le.mpr (n1 h1.le))
      · have := n1 h1.le; have h3 := n2; rw [h1] at h3
        exact absurd (h3 this.le) (lt_irrefl _)
      · have h4 := hs'.1 h1
        exact absurd (n2 h4) (not_lt.mpr h1.le)
    obtain ⟨z, hzI, hz0⟩ := intermediate_value_uIcc (hg.mono hsub) hz
    refine ⟨z, hsub hzI, hz0, ?_⟩
    have h5 : |z - b| ≤ |c - b| := abs_sub_left_of_mem_uIcc hzI
    simp only [lit_fin, sub_ff, mul_ff, fabs_f, add_ff, le_ff, decide_eq_true_eq] at ht
    rw [abs_mul] at ht
    norm_num at ht
    linarith

/-- a search that ends at once: if the second bound is an exact zero it is reported -/
theorem search_at_zero (f : XR → XR) (x1 x2 tol : XR) (h : f x2 = fin 0) : (search f x1 x2 tol).1 = (true, x2) := by
  have hz : ∀ u : XR, sameSign u (fin 0) = false := by
    intro u
    have h0 : (fin 0 <. (fin 0 : XR)) = false := by rw [lt_ff]; simp
    unfold sameSign
    rw [lit_fin]
    simp [h0]
  rw [search_fst]
  unfold brentP
  rw [h, hz, if_neg (by simp)]
  unfold brentLoopP BRENT_ITMAX
  have ha : brentAdjust (⟨x1, x2, x2, lit 0, lit 0, f x1, fin 0, fin 0⟩ : BrentSt XR) =
      ⟨x1, x2, x2, lit 0, lit 0, f x1, fin 0, fin 0⟩ := by
    unfold brentAdjust
    dsimp only
    have hf : (fabs (fin 0 : XR) <. fabs (fin 0 : XR)) = false := by rw [fabs_f, lt_ff]; simp
    simp only [hz, hf, Bool.false_eq_true, if_false]
  have hd : brentDone tol (⟨x1, x2, x2, lit 0, lit 0, f x1, fin 0, fin 0⟩ : BrentSt XR) = true := by
    unfold brentDone
    dsimp only
    rw [lit_fin, eq_ff]
    simp
  dsimp only
  rw [ha, if_pos hd]

/-- the hypotheses of `C20_true_root` can be met -/
example : (search (fun x => x -. fin 1) (fin 0) (fin 1) (fin 0)).1 = (true, fin 1) ∧
    ∀ x ∈ uIcc (0 : ℝ) 1, (fin x : XR) -. fin 1 = fin (x - 1) :=
  ⟨search_at_zero _ _ _ _ (by rw [sub_ff]; simp), fun x _ => sub_ff x 1⟩

end

/-! ### C23 -/

section
open F64

/-- C23 does not hold: on a function that is NaN everywhere, success is reported. -/
theorem C23_false : ¬ ∀ (f : F64 → F64) (x1 x2 tol b : F64), (search f x1 x2 tol).1 = (true, b) → notNaN (f b) := by
  intro H
  have := H (fun _ => nan) (lit 0) (lit 1) (lit (2 / 10 ^ 8)) (lit 1) (by decide +kernel)
  exact this rfl

/-- What holds instead of C23: success is not reported at a NaN of `f` if no evaluated point is one. -/
theorem C23_partial (f : F64 → F64) (x1 x2 tol b : F64) (hf : ∀ x ∈ (search f x1 x2 tol).2, notNaN (f x))
    (h : (search f x1 x2 tol).1 = (true, b)) : notNaN (f b) := hf b (C20_bracketed f _ _ _ b h).1

/-- the search for the root of x² - 2 in [0, 3]: found, after some calls, all with non-NaN values -/
example : (fun r : (Bool × F64) × List F64 => (r.1.1, decide (3 ≤ r.2.length),
      r.2.all fun x => !is_nan (x *. x -. lit 2)))
    (search (fun x => x *. x -. lit 2) (lit 0) (lit 3) (lit (2 / 10 ^ 8))) = (true, true, true) := by decide +kernel

end

section
open XR Set

/-- In the use made of it by `grimshaw_estimator`, in exact arithmetic, with positive excesses: a reported root `x` is a
real number for which all `1 + x y` are positive and the function is a real number (so C23 holds there). -/
theorem C23_grimshaw_partial (lib : Lib XR) (h : Heap XR) (cap : UInt64) (h1 : 1 ≤ cap.toNat) (h2 : cap.toNat < 2 ^ 61)
    (h0 : (peaks_init lib h cap).1 = 0) (xs : List ℝ) (hne : xs ≠ []) (hpos : ∀ x ∈ xs, 0 < x) (p : Peaks XR) (h' : Heap XR)
    (hp : peaksPushAll (peaks_init lib h cap).2.2 (peaks_init lib h cap).2.1 (xs.map fin) = .ok (p, h')) (x : XR)
    (hx : brent (grimshaw_w exactMath h' p) (lit (-1) /. p.max +. xmin (lit (2 / 10 ^ 8)) (lit (1 / 2) /. p.max))
        (-. xmin (lit (2 / 10 ^ 8)) (lit (1 / 2) /. p.max)) (lit (2 / 10 ^ 8)) = .ok (true, x) ∨
      brent (grimshaw_w exactMath h' p) (xmin (lit (2 / 10 ^ 8)) (lit (1 / 2) /. p.max))
        (lit 2 *. (peaks_mean p -. p.min) /. (p.min *. p.min)) (lit (2 / 10 ^ 8)) = .ok (true, x)) :
    ∃ r w : ℝ, x = fin r ∧ (∀ y ∈ Spec.lastN cap.toNat xs, 0 < 1 + r * y) ∧
      grimshaw_w exactMath h' p x = .ok (fin w) := by
  obtain ⟨a, I⟩ := peaks_init_inv h1 h2 h0
  obtain ⟨p', h'', e, I'⟩ := peaksPushAll_inv I (xs.map fin)
  rw [e] at hp
  cases hp
  rw [List.nil_append] at I'
  have hst := I'.ring.stored
  have hpm := slots_perm h1 xs
  have hE : Extremes p.stats (slots cap.toNat (xs.map fin)) := by
    rw [I'.stats]
    apply statsOf_extremes h1 h2
    · intro v hv
      obtain ⟨r, _, rfl⟩ := List.mem_map.mp hv
      exact nan_f r
    · simpa using hne
  rw [slots_map] at hst hE
  have hl0 : slots cap.toNat xs ≠ [] := by
    intro hc
    have hl := slots_length (c := cap.toNat) xs
    rw [hc] at hl
    have := List.length_pos_of_ne_nil hne
    simp at hl
    omega
  have hpos' : ∀ y ∈ slots cap.toNat xs, 0 < y := fun y hy => hpos y (slots_mem h1 hy)
  have hmem : ∀ y, y ∈ Spec.lastN cap.toNat xs ↔ y ∈ slots cap.toNat xs := fun y => hpm.mem_iff.symm
  simp only [hmem]
  have he : p.e = fin (slots cap.toNat xs).sum := by
    have h3 : p.stats.e = (statsOf cap.toNat (xs.map fin)).e := by rw [I'.stats]
    rw [statsOf_sum h1] at h3
    exact h3
  generalize slots cap.toNat xs = l at *
  obtain ⟨⟨hm1, hm2⟩, hM1, hM2⟩ := hE
  obtain ⟨mn, hmn, emn⟩ := List.mem_map.mp hm1
  obtain ⟨mx, hmx, emx⟩ := List.mem_map.mp hM1
  have emn : p.min = fin mn := emn.symm
  have emx : p.max = fin mx := emx.symm
  have hle : ∀ y ∈ l, mn ≤ y ∧ y ≤ mx := by
    intro y hy
    have k1 := hm2 (fin y) (List.mem_map.mpr ⟨y, hy, rfl⟩)
    have k2 := hM2 (fin y) (List.mem_map.mpr ⟨y, hy, rfl⟩)
    rw [show p.stats.min = fin mn from emn] at k1
    rw [show p.stats.max = fin mx from emx] at k2
    simp only [lt_ff, decide_eq_false_iff_not, not_lt] at k1 k2
    exact ⟨k1, k2⟩
  have mn0 := hpos' mn hmn
  have mx0 := hpos' mx hmx
  have hn : (0 : ℝ) < l.length := by exact_mod_cast List.length_pos_of_ne_nil hl0
  -- epsilon
  obtain ⟨eps, heps, he0, he1⟩ : ∃ eps : ℝ, xmin (lit (2 / 10 ^ 8)) (lit (1 / 2) /. p.max) = fin eps ∧ 0 < eps ∧
      eps ≤ 1 / 2 / mx := by
    rw [emx, lit_fin, lit_fin, div_ff mx0.ne']
    unfold xmin
    rw [nan_f, nan_f, lt_ff]
    by_cases hc : ((2 / 10 ^ 8 : ℚ) : ℝ) < ((1 / 2 : ℚ) : ℝ) / mx
    · refine ⟨((2 / 10 ^ 8 : ℚ) : ℝ), by rw [if_neg (by simp), if_pos (decide_eq_true hc)], by norm_num, ?_⟩
      have := hc.le
      push_cast at this ⊢
      exact this
    · refine ⟨((1 / 2 : ℚ) : ℝ) / mx, by rw [if_neg (by simp), if_neg (by simpa using hc)], by positivity, ?_⟩
      push_cast
      exact le_rfl
  have hmean : peaks_mean p = fin (l.sum / l.length) := by
    rw [peaks_mean_eq hst]
    unfold meanL
    rw [he, lit_fin]
    simp only [List.length_map, Rat.cast_natCast]
    rw [div_ff hn.ne']
  have hmeanle : mn ≤ l.sum / l.length := by
    rw [le_div_iff₀ hn]
    have := List.card_nsmul_le_sum l mn (fun y hy => (hle y hy).1)
    rw [nsmul_eq_mul] at this
    linarith
  -- positivity from the interval
  have fin' : ∀ r : ℝ, (∀ y ∈ l, 0 < 1 + r * y) → ∃ r' w : ℝ, fin r = fin r' ∧ (∀ y ∈ l, 0 < 1 + r' * y) ∧
      grimshaw_w exactMath h' p (fin r) = .ok (fin w) := by
    intro r hr
    exact ⟨r, _, rfl, hr, by rw [grimshaw_w_eq hst, grimshawWL_exact hl0 hr]⟩
  have hB : ∀ x1 x2 : ℝ, brent (grimshaw_w exactMath h' p) (fin x1) (fin x2) (lit (2 / 10 ^ 8)) = .ok (true, x) →
      ∃ r ∈ uIcc x1 x2, x = fin r := by
    intro x1 x2 hb
    rw [brent_eq (grimshaw_w_eq hst), lit_fin, ← search_fst] at hb
    have hb : (search (grimshawWL exactMath (l.map fin)) (fin x1) (fin x2) (fin ((2 / 10 ^ 8 : ℚ) : ℝ))).1 = (true, x) := by
      injection hb
    exact (C22_interval _ x1 x2 _ (by norm_num)).2 x hb
  rcases hx with hx | hx
  · rw [heps, emx, lit_fin, div_ff mx0.ne', add_ff, neg_f] at hx
    obtain ⟨r, hr, rfl⟩ := hB _ _ hx
    apply fin'
    intro y hy
    have hy0 := hpos' y hy
    have hyle := (hle y hy).2
    have hr1 : ((-1 : ℚ) : ℝ) / mx + eps ≤ r := by
      have hord : ((-1 : ℚ) : ℝ) / mx + eps ≤ -eps := by
        have : (1 : ℝ) / 2 / mx = 1 / mx / 2 := by ring
        rw [this] at he1
        have h3 : ((-1 : ℚ) : ℝ) / mx = -(1 / mx) := by push_cast; ring
        rw [h3]
        linarith
      rw [uIcc_of_le hord] at hr
      exact hr.1
    have h3 : ((-1 : ℚ) : ℝ) / mx * y ≥ -1 := by
      push_cast
      rw [ge_iff_le, div_mul_eq_mul_div, le_div_iff₀ mx0]
      linarith
    have h4 : (((-1 : ℚ) : ℝ) / mx + eps) * y ≤ r * y := mul_le_mul_of_nonneg_right hr1 hy0.le
    have h5 : 0 < eps * y := mul_pos he0 hy0
    nlinarith
  · rw [heps, emn, hmean, sub_ff, lit_fin, mul_ff, mul_ff, div_ff (mul_pos mn0 mn0).ne'] at hx
    obtain ⟨r, hr, rfl⟩ := hB _ _ hx
    apply fin'
    intro y hy
    have hy0 := hpos' y hy
    have hr0 : 0 ≤ r := by
      have hb0 : 0 ≤ ((2 : ℚ) : ℝ) * (l.sum / l.length - mn) / (mn * mn) := by
        apply div_nonneg _ (mul_pos mn0 mn0).le
        push_cast
        linarith
      rw [mem_uIcc] at hr
      rcases hr with hr | hr
      · linarith [hr.1]
      · linarith [hr.1]
    have := mul_nonneg hr0 hy0.le
    linarith

/-- one excess equal to 1: the right search reports the root 0 -/
example : ∃ p h', (peaks_init Sample.xlib Sample.emptyHeap 2).1 = 0 ∧
    peaksPushAll (peaks_init Sample.xlib Sample.emptyHeap 2).2.2 (peaks_init Sample.xlib Sample.emptyHeap 2).2.1
      ([1].map fin) = .ok (p, h') ∧
    brent (grimshaw_w exactMath h' p) (xmin (lit (2 / 10 ^ 8)) (lit (1 / 2) /. p.max))
        (lit 2 *. (peaks_mean p -. p.min) /. (p.min *. p.min)) (lit (2 / 10 ^ 8)) = .ok (true, fin 0) := by
  obtain ⟨a, I⟩ := peaks_init_inv (by decide) (by decide) (Sample.xinit 2)
  obtain ⟨p', h', e, I'⟩ := peaksPushAll_inv I ([1].map fin)
  rw [List.nil_append] at I'
  have hst := I'.ring.stored
  rw [slots_map] at hst
  have hstat : p'.stats = statsOf 2 ([1].map fin) := I'.stats
  have h2 : slots 2 [(1 : ℝ)] = [1] := rfl
  have hs2 : slots (UInt64.toNat 2) [(1 : ℝ)] = [1] := rfl
  rw [hs2] at hst
  have e1 : p'.e = fin 1 := by
    rw [show p'.e = p'.stats.e from rfl, hstat, statsOf_sum (by norm_num), h2]
    norm_num
  have hmin : p'.min = fin 1 := by
    have hE : Extremes (statsOf 2 ([1].map fin)) (slots 2 ([1].map fin)) := by
      apply statsOf_extremes (by norm_num) (by norm_num)
      · intro v hv
        obtain ⟨r, _, rfl⟩ := List.mem_map.mp hv
        exact nan_f r
      · simp
    rw [← hstat, slots_map, h2] at hE
    have := hE.1.1
    show p'.stats.min = _
    simpa using this
  have hmean : peaks_mean p' = fin 1 := by
    rw [peaks_mean_eq hst]
    unfold meanL
    rw [e1, lit_fin, div_ff (by simp)]
    simp
  refine ⟨p', h', Sample.xinit 2, e, ?_⟩
  have hb : lit 2 *. (peaks_mean p' -. p'.min) /. (p'.min *. p'.min) = (fin 0 : XR) := by
    rw [hmean, hmin, sub_ff, mul_ff, lit_fin, mul_ff, div_ff (by norm_num)]
    norm_num
  rw [hb, brent_eq (grimshaw_w_eq hst), ← search_fst, search_at_zero]
  rw [grimshawWL_exact (by simp) (by simp)]
  simp [sumInv, sumLog]

end
end Verif

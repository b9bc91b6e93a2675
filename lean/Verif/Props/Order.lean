/-
C127: the order of the training values.
-/
import Verif.Props.Window
import Verif.Props.Capacity
import Verif.Proofs.P2Paper
import Verif.Props.Units
import Verif.Props.Fit

namespace Verif
open XR

/-! ### witness -/

/-- the observable result of a fit: return code, counts, thresholds, parameters -/
def fitView {α : Type} (r : ℤ × Spot α × Heap α) : ℤ × UInt64 × UInt64 × α × α × α × α :=
  (r.1, r.2.1.Nt, r.2.1.n, r.2.1.excess_threshold, r.2.1.anomaly_threshold, r.2.1.tail.gamma, r.2.1.tail.sigma)

/-- **C127** (negation). Ten values in rising order give the excess threshold 3 and seven excesses; the same values in another order give the threshold
8 and two excesses. -/
theorem C127_false : ∃ data data' : List F64, data.Perm data' ∧
    ∃ r r' : ℤ × Spot F64 × Heap F64, spot_fit (codeMath muslFU) Sample.heap Sample.spot data 10 = .ok r ∧
      spot_fit (codeMath muslFU) Sample.heap Sample.spot data' 10 = .ok r' ∧ r.1 = 0 ∧ r'.1 = 0 ∧
      r.2.1.excess_threshold = lit 3 ∧ r'.2.1.excess_threshold = lit 8 ∧ r.2.1.Nt = 7 ∧ r'.2.1.Nt = 2 := by
  have a : (spot_fit (codeMath muslFU) Sample.heap Sample.spot ([1, 2, 3, 4, 5, 6, 7, 8, 9, 10].map lit) 10).map
      (fun r => (r.1, r.2.1.excess_threshold, r.2.1.Nt)) = .ok (0, lit 3, 7) := by decide +kernel
  have b : (spot_fit (codeMath muslFU) Sample.heap Sample.spot ([1, 10, 9, 8, 7, 6, 5, 4, 3, 2].map lit) 10).map
      (fun r => (r.1, r.2.1.excess_threshold, r.2.1.Nt)) = .ok (0, lit 8, 2) := by decide +kernel
  refine ⟨[1, 2, 3, 4, 5, 6, 7, 8, 9, 10].map lit, [1, 10, 9, 8, 7, 6, 5, 4, 3, 2].map lit, List.Perm.map _ (by decide), ?_⟩
  generalize spot_fit (codeMath muslFU) Sample.heap Sample.spot ([1, 2, 3, 4, 5, 6, 7, 8, 9, 10].map lit) 10 = x at a ⊢
  generalize spot_fit (codeMath muslFU) Sample.heap Sample.spot ([1, 10, 9, 8, 7, 6, 5, 4, 3, 2].map lit) 10 = y at b ⊢
  match x, y, a, b with
  | .ok r, .ok r', a, b =>
    have a := Except.ok.inj a
    have b := Except.ok.inj b
    simp only [Prod.mk.injEq] at a b
    exact ⟨r, r', rfl, rfl, a.1, b.1, a.2.1, b.2.1, a.2.2, b.2.2⟩
  | .error _, _, a, _ => cases a
  | .ok _, .error _, _, b => cases b

/-! ### exact arithmetic -/

theorem fitL_perm {M : MathFns XR} {c : ℕ} (h1 : 1 ≤ c) (h2 : c < 2 ^ 61) {xs xs' : List ℝ} (hp : xs.Perm xs') (hc : xs.length ≤ c) (γ σ : XR) :
    fitL M γ σ (statsOf c (xs.map fin)) (slots c (xs.map fin)) = fitL M γ σ (statsOf c (xs'.map fin)) (slots c (xs'.map fin)) := by
  by_cases hne : xs = []
  · subst hne
    rw [hp.nil_eq]
  have hne' : xs' ≠ [] := fun h => hne (by rw [h] at hp; exact hp.eq_nil)
  have hc' : xs'.length ≤ c := by rw [← hp.length_eq]; exact hc
  have s1 := slots_short (c := c) (xs.map fin) (by simpa using hc)
  have s1' := slots_short (c := c) (xs'.map fin) (by simpa using hc')
  have P : (xs.map fin).Perm (xs'.map fin) := hp.map _
  have nn : ∀ ys : List ℝ, ∀ v ∈ ys.map XR.fin, is_nan v = false := by
    intro ys v hv
    obtain ⟨r, -, rfl⟩ := List.mem_map.mp hv
    exact XR.nan_f r
  have x : ∀ ys : List ℝ, ys.length ≤ c → Spec.NoExtremeEvicted c ys := fun ys h j h1 h2 => by omega
  have hE := statsOf_extremes h1 h2 (xs.map XR.fin) (nn xs) (by simpa using hne)
  have hE' := statsOf_extremes h1 h2 (xs'.map XR.fin) (nn xs') (by simpa using hne')
  rw [s1] at hE
  rw [s1'] at hE'
  obtain ⟨hmin, hmax⟩ := extremes_perm P (fun v hv => by
    obtain ⟨r, -, rfl⟩ := List.mem_map.mp hv
    exact ⟨r, rfl⟩) hE hE'
  have st : statsOf c (xs.map fin) = statsOf c (xs'.map fin) := by
    have a1 := statsOf_sum h1 xs
    have a1' := statsOf_sum h1 xs'
    have a2 := statsOf_sumsq h1 h2 xs (.inr (x xs hc))
    have a2' := statsOf_sumsq h1 h2 xs' (.inr (x xs' hc'))
    rw [slots_short xs hc] at a1 a2
    rw [slots_short xs' hc'] at a1' a2'
    rw [hp.sum_eq, ← a1'] at a1
    rw [(hp.map _).sum_eq, ← a2'] at a2
    cases h : statsOf c (xs.map fin)
    cases h' : statsOf c (xs'.map fin)
    simp_all
  unfold fitL
  rw [s1, s1', st, momL_perm P, grimshawL_perm P]

theorem sort5_five {x0 x1 x2 x3 x4 y0 y1 y2 y3 y4 : ℝ} (hp : List.Perm [x0, x1, x2, x3, x4] [y0, y1, y2, y3, y4]) :
    sort5 (⟨fin x0, fin x1, fin x2, fin x3, fin x4⟩ : Arr5 XR) = sort5 ⟨fin y0, fin y1, fin y2, fin y3, fin y4⟩ := by
  have key : ∀ a b c d e : ℝ, ∃ r0 r1 r2 r3 r4 : ℝ, sort5 (⟨fin a, fin b, fin c, fin d, fin e⟩ : Arr5 XR) = ⟨fin r0, fin r1, fin r2, fin r3, fin r4⟩ ∧
      List.Perm [r0, r1, r2, r3, r4] [a, b, c, d, e] ∧ [r0, r1, r2, r3, r4].Pairwise (· ≤ ·) := by
    intro a b c d e
    have hN : (⟨fin a, fin b, fin c, fin d, fin e⟩ : Arr5 XR).NoNaN := ⟨nan_f _, nan_f _, nan_f _, nan_f _, nan_f _⟩
    have hP := sort5_perm (⟨fin a, fin b, fin c, fin d, fin e⟩ : Arr5 XR)
    obtain ⟨s0, s1, s2, s3⟩ := sort5_sorted (⟨fin a, fin b, fin c, fin d, fin e⟩ : Arr5 XR) hN
    generalize sort5 (⟨fin a, fin b, fin c, fin d, fin e⟩ : Arr5 XR) = z at hP s0 s1 s2 s3
    have hall : ∀ y ∈ z.toList, ∃ r : ℝ, y = fin r := by
      intro y hy
      have := hP.mem_iff.mp hy
      simp only [Arr5.toList, List.mem_cons, List.not_mem_nil, or_false] at this
      rcases this with h | h | h | h | h <;> exact ⟨_, h⟩
    obtain ⟨r0, e0⟩ := hall z.a0 (by simp [Arr5.toList])
    obtain ⟨r1, e1⟩ := hall z.a1 (by simp [Arr5.toList])
    obtain ⟨r2, e2⟩ := hall z.a2 (by simp [Arr5.toList])
    obtain ⟨r3, e3⟩ := hall z.a3 (by simp [Arr5.toList])
    obtain ⟨r4, e4⟩ := hall z.a4 (by simp [Arr5.toList])
    rw [e0, e1] at s0
    rw [e1, e2] at s1
    rw [e2, e3] at s2
    rw [e3, e4] at s3
    have t0 : r0 ≤ r1 := EReal.coe_le_coe_iff.mp s0
    have t1 : r1 ≤ r2 := EReal.coe_le_coe_iff.mp s1
    have t2 : r2 ≤ r3 := EReal.coe_le_coe_iff.mp s2
    have t3 : r3 ≤ r4 := EReal.coe_le_coe_iff.mp s3
    refine ⟨r0, r1, r2, r3, r4, by rw [← e0, ← e1, ← e2, ← e3, ← e4], ?_, ?_⟩
    · have h1 : ([r0, r1, r2, r3, r4].map fin).Perm ([a, b, c, d, e].map fin) := by
        have : z.toList = [r0, r1, r2, r3, r4].map fin := by simp [Arr5.toList, e0, e1, e2, e3, e4]
        rw [← this]; exact hP
      exact (List.map_perm_map_iff (fun _ _ h => fin_inj.mp h)).mp h1
    · simp only [List.pairwise_cons, List.mem_cons, List.not_mem_nil, or_false, forall_eq_or_imp, forall_eq, List.Pairwise.nil, and_true]
      refine ⟨⟨t0, ?_, ?_, ?_⟩, ⟨t1, ?_, ?_⟩, ⟨t2, ?_⟩, t3, by simp⟩ <;> linarith
  obtain ⟨r0, r1, r2, r3, r4, e, p, o⟩ := key x0 x1 x2 x3 x4
  obtain ⟨u0, u1, u2, u3, u4, e', p', o'⟩ := key y0 y1 y2 y3 y4
  have := List.Perm.eq_of_pairwise' (r := (· ≤ ·)) o o' ((p.trans hp).trans p'.symm)
  simp only [List.cons.injEq, and_true] at this
  obtain ⟨rfl, rfl, rfl, rfl, rfl⟩ := this
  rw [e, e']

/-- In exact arithmetic the order of the first five values has no influence on the excess threshold. -/
theorem C127_first (p : XR) (five five' rest : List ℝ) (h5 : five.length = 5) (hp : five.Perm five') (size : UInt64)
    (hs : size.toNat ≤ (five ++ rest).length) :
    p2_quantile p ((five ++ rest).map fin) size = p2_quantile p ((five' ++ rest).map fin) size := by
  by_cases hsz : 5 ≤ size.toNat
  · have h5' : five'.length = 5 := by rw [← hp.length_eq]; exact h5
    match five, five', h5, h5' with
    | [x0, x1, x2, x3, x4], [y0, y1, y2, y3, y4], _, _ =>
      have hl : size.toNat = ((rest.map fin).take (size.toNat - 5)).length + 5 := by
        simp at hs ⊢
        omega
      have a := p2_quantile_eq p (fin x0) (fin x1) (fin x2) (fin x3) (fin x4) ((rest.map fin).take (size.toNat - 5)) ((rest.map fin).drop (size.toNat - 5)) size hl
      have b := p2_quantile_eq p (fin y0) (fin y1) (fin y2) (fin y3) (fin y4) ((rest.map fin).take (size.toNat - 5)) ((rest.map fin).drop (size.toNat - 5)) size hl
      rw [List.take_append_drop] at a b
      have es : start p (fin x0) (fin x1) (fin x2) (fin x3) (fin x4) = start p (fin y0) (fin y1) (fin y2) (fin y3) (fin y4) := by
        unfold start
        rw [sort5_five hp]
      rw [es, ← b] at a
      exact a
  · unfold p2_quantile quantile
    rw [if_pos (by omega), if_pos (by omega)]

/-- the excesses of real training values over a real threshold -/
noncomputable def exs (low : ℤ) (et : ℝ) (d : List ℝ) : List ℝ :=
  (d.filter (fun x => if low ≠ 0 then x < et else et < x)).map (fun x => if low ≠ 0 then et - x else x - et)

theorem exs_perm (low : ℤ) (et : ℝ) {d d' : List ℝ} (hp : d.Perm d') : (exs low et d).Perm (exs low et d') := (hp.filter _).map _

theorem exs_length (low : ℤ) (et : ℝ) (d : List ℝ) : (exs low et d).length = (d.filter (fun x => if low ≠ 0 then x < et else et < x)).length :=
  List.length_map _

theorem fitExcesses_real (low : ℤ) (et : ℝ) (d : List ℝ) :
    fitExcesses (if low ≠ 0 then lit (-1) else lit 1) (fin et) (d.map fin) = (exs low et d).map fin := by
  unfold fitExcesses exs
  induction d with
  | nil => rfl
  | cons x d ih =>
    by_cases c : low ≠ 0
    · simp only [if_pos c] at ih ⊢
      rw [List.map_cons, List.map_cons, List.filter_cons, List.filter_cons, ih]
      have e : (lit (-1) : XR) *. (fin x -. fin et) = fin (et - x) := by
        rw [lit_fin, sub_ff, mul_ff]; congr 1; push_cast; ring
      have t : (lit 0 <. fin (et - x) : Bool) = decide (x < et) := by
        rw [lit_fin, lt_ff]; simp
      rw [e, t]
      by_cases hx : x < et <;> simp [hx]
    · have c : low = 0 := not_not.mp c
      subst c
      simp only [ne_eq, not_true, if_false] at ih ⊢
      rw [List.map_cons, List.map_cons, List.filter_cons, List.filter_cons, ih]
      have e : (lit 1 : XR) *. (fin x -. fin et) = fin (x - et) := by
        rw [lit_fin, sub_ff, mul_ff]; congr 1; push_cast; ring
      have t : (lit 0 <. fin (x - et) : Bool) = decide (et < x) := by
        rw [lit_fin, lt_ff]; simp
      rw [e, t]
      by_cases hx : et < x <;> simp [hx]

/-- the end of a fit -/
noncomputable def fitTail (M : MathFns XR) (K : Core XR) : C (ℤ × Core XR) := do
  let z ← quantileC M K K.q
  if is_nan z then .ok (-ERR_ANOMALY_THRESHOLD_IS_NAN, { K with at_ := z }) else .ok (0, { K with at_ := z })

theorem fitC_fresh (M : MathFns XR) {c : ℕ} {q level : XR} {low disc : ℤ} {size : UInt64} {et : ℝ} {d : List ℝ} (hd : d.length = size.toNat)
    (e : p2_quantile (if low ≠ 0 then lit 1 -. level else level) (d.map fin) size = .ok (fin et)) :
    (fitC M c (initCore q low disc level) [] (d.map fin) size).map (fun x => (x.1, x.2.1)) =
      fitTail M (refit M c { initCore q low disc level with n := size, et := fin et, Nt := UInt64.ofNat (exs low et d).length }
        ((exs low et d).map fin)) := by
  unfold fitC
  have e' : (if (initCore q low disc level).low ≠ 0 then p2_quantile (lit 1 -. (initCore q low disc level).level) (d.map fin) size
      else p2_quantile (initCore q low disc level).level (d.map fin) size : C XR) = .ok (fin et) := by
    rw [← e]
    unfold initCore
    by_cases c : low ≠ 0 <;> simp [c]
  dsimp only
  rw [e']
  change Except.map _ (if is_nan (fin et) = true then _ else _) = _
  rw [if_neg (by rw [nan_f]; simp), List.take_of_length_le (by simp [hd])]
  have := fitExcesses_real low et d
  change fitExcesses (initCore q low disc level).up_down _ _ = _ at this
  rw [this, List.nil_append, List.length_map]
  unfold fitTail
  generalize refit M c _ _ = K
  cases quantileC M K K.q with
  | error e => rfl
  | ok z =>
    change Except.map _ (if _ then _ else _) = (if _ then _ else _)
    split <;> rfl

theorem fit_view (M : MathFns XR) {a c : ℕ} {xs : List XR} {s : Spot XR} {h : Heap XR} (I : SpotInv h s a c xs) (d : List XR) {size : UInt64}
    (hd : size.toNat ≤ d.length) : (spot_fit M h s d size).map fitView =
      ((fitC M c s.core xs d size).map (fun x => (x.1, x.2.1))).map (fun x : ℤ × Core XR =>
        (x.1, x.2.Nt, x.2.n, x.2.et, x.2.at_, x.2.gamma, x.2.sigma)) := by
  have := fit_refines (M := M) I d size hd
  unfold Refines at this
  cases hf : fitC M c s.core xs d size with
  | error e => rw [hf] at this; rw [this]; rfl
  | ok x =>
    rw [hf] at this
    obtain ⟨s', h', e, hc, _⟩ := this
    rw [e]
    change Except.ok _ = Except.ok _
    dsimp only
    rw [← hc]
    rfl

/-- **C127** (partial). In exact arithmetic, on a fresh detector: if two orders of the same training values lead to the same excess threshold (for instance
because they differ in the first five values only, `C127_first`) and no excess had to be evicted, then both fits have the same result: return code,
counts, thresholds and parameters. Missing: orders that lead to different excess thresholds (`C127_false`). -/
theorem C127_partial (M : MathFns XR) (lib : Lib XR) (h0 : Heap XR) (s0 : Spot XR) (q level : XR) (low disc : ℤ) (me : UInt64) (h1 : 1 ≤ me.toNat)
    (h2 : me.toNat < 2 ^ 61) (hi : (spot_init lib h0 s0 q low disc level me).1 = 0) (data data' : List ℝ) (hp : data.Perm data') (size : UInt64)
    (hs : size.toNat = data.length) (et : ℝ)
    (het : p2_quantile (if low ≠ 0 then lit 1 -. level else level) (data.map fin) size = .ok (fin et))
    (het' : p2_quantile (if low ≠ 0 then lit 1 -. level else level) (data'.map fin) size = .ok (fin et))
    (hc : (data.filter (fun x => if low ≠ 0 then x < et else et < x)).length ≤ me.toNat) :
    (spot_fit M (spot_init lib h0 s0 q low disc level me).2.2 (spot_init lib h0 s0 q low disc level me).2.1 (data.map fin) size).map fitView =
    (spot_fit M (spot_init lib h0 s0 q low disc level me).2.2 (spot_init lib h0 s0 q low disc level me).2.1 (data'.map fin) size).map fitView := by
  obtain ⟨a, _, _, hk, I⟩ := init_ok hi h1 h2
  generalize spot_init lib h0 s0 q low disc level me = r at *
  have main : (fitC M me.toNat r.2.1.core [] (data.map fin) size).map (fun x => (x.1, x.2.1)) =
      (fitC M me.toNat r.2.1.core [] (data'.map fin) size).map (fun x => (x.1, x.2.1)) := by
    rw [hk]
    have hx := exs_perm low et hp
    rw [fitC_fresh M hs.symm het, fitC_fresh M (by rw [← hp.length_eq, hs]) het', hx.length_eq]
    congr 1
    unfold refit
    rw [fitL_perm h1 h2 hx (by rw [exs_length]; exact hc)]
  rw [fit_view M I _ (by simp [hs]), fit_view M I _ (by simp [hs, hp.length_eq]), main]

/-- the hypotheses of `C127_partial` can be met: a successful initialisation, three values in two orders (with fewer than five values the threshold is 0) -/
example (M : MathFns XR) : (spot_init Sample.xlib Sample.emptyHeap Sample.xfitted (lit (1 / 100)) 0 1 (lit (9 / 10)) 3).1 = 0 ∧
    (spot_fit M (spot_init Sample.xlib Sample.emptyHeap Sample.xfitted (lit (1 / 100)) 0 1 (lit (9 / 10)) 3).2.2
      (spot_init Sample.xlib Sample.emptyHeap Sample.xfitted (lit (1 / 100)) 0 1 (lit (9 / 10)) 3).2.1 ([4, 1, 2].map fin) 3).map fitView =
    (spot_fit M (spot_init Sample.xlib Sample.emptyHeap Sample.xfitted (lit (1 / 100)) 0 1 (lit (9 / 10)) 3).2.2
      (spot_init Sample.xlib Sample.emptyHeap Sample.xfitted (lit (1 / 100)) 0 1 (lit (9 / 10)) 3).2.1 ([1, 2, 4].map fin) 3).map fitView := by
  have hi : (spot_init Sample.xlib Sample.emptyHeap Sample.xfitted (lit (1 / 100)) 0 1 (lit (9 / 10)) 3).1 = 0 := by
    have hm : ¬ (((3 : UInt64) * 8).toNat > SIZE_MAX) := by decide
    unfold spot_init
    simp only [XR.lit_fin, XR.sub_ff, XR.lt_ff, XR.le_ff]
    norm_num
    unfold tail_init peaks_init ubend_init xmalloc Sample.xlib
    simp only [hm, if_false]
    rfl
  have hq : ∀ p : XR, ∀ d : List XR, p2_quantile p d 3 = .ok (fin 0) := fun p d => by
    unfold p2_quantile quantile
    rw [if_pos (by decide), lit_fin]
    push_cast
    rfl
  exact ⟨hi, C127_partial M Sample.xlib Sample.emptyHeap Sample.xfitted (lit (1 / 100)) (lit (9 / 10)) 0 1 3 (by decide) (by decide) hi [4, 1, 2] [1, 2, 4]
    (List.perm_append_comm (l₁ := [4]) (l₂ := [1, 2])) 3 rfl 0 (hq _ _) (hq _ _) ((List.length_filter_le _ _).trans (by decide))⟩

end Verif

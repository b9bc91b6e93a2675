/-
A lower-tail detector fed with the opposites follows the upper-tail detector.
-/
import Verif.F64.Zeros
import Verif.Proofs.Step
import Verif.Proofs.Stats
import Verif.Spec.Mirror

namespace Verif
open F64

/-! ### what the fit sees of the excesses -/

/-- forget the sign of zero -/
def nz (x : F64) : F64 := if x = F64.zero true then F64.zero false else x

theorem nz_zeq (x : F64) : Zeq x (nz x) := by
  unfold nz
  split
  · next h => exact Or.inr ⟨true, false, h, rfl⟩
  · exact Or.inl rfl

theorem nz_zero (s : Bool) : nz (F64.zero s) = F64.zero false := by
  unfold nz
  cases s
  · rw [if_neg (by decide)]
  · rw [if_pos rfl]

theorem nz_of_zeq {x y : F64} (h : Zeq x y) : nz x = nz y := by
  rcases h with rfl | ⟨s, t, rfl, rfl⟩
  · rfl
  · rw [nz_zero, nz_zero]

theorem nz_nan : nz cNAN = cNAN := by decide +kernel

/-- statistics that agree up to the signs of zero of the extremes -/
structure SR (s t : Stats F64) : Prop where
  e : s.e = t.e
  ne : s.e ≠ F64.zero true
  e2 : s.e2 = t.e2
  mn : Zeq s.min t.min
  mx : Zeq s.max t.max

theorem SR.body {s t : Stats F64} (h : SR s t) {v w : F64} (g : Zeq v w) : SR (s.body v) (t.body w) := by
  refine ⟨?_, ?_, ?_, ?_, ?_⟩
  · show F64.add s.e v = F64.add t.e w
    rw [← h.e]; exact g.add h.ne
  · exact add_ne_negzero h.ne
  · exact g.sq
  · show Zeq (if is_nan s.min || F64.lt v s.min then v else s.min) (if is_nan t.min || F64.lt w t.min then w else t.min)
    rw [h.mn.is_nan, g.lt h.mn]
    split
    · exact g
    · exact h.mn
  · show Zeq (if is_nan s.max || F64.lt s.max v then v else s.max) (if is_nan t.max || F64.lt t.max w then w else t.max)
    rw [h.mx.is_nan, h.mx.lt g]
    split
    · exact g
    · exact h.mx

theorem SR.start : SR ⟨lit 0, lit 0, cNAN, cNAN⟩ ⟨lit 0, lit 0, cNAN, cNAN⟩ :=
  ⟨rfl, by decide +kernel, rfl, Zeq.refl _, Zeq.refl _⟩

theorem SR.recompute (l : List F64) : SR (Stats.recompute l) (Stats.recompute (l.map nz)) := by
  unfold Stats.recompute
  suffices H : ∀ s t : Stats F64, SR s t → SR (l.foldl Stats.body s) ((l.map nz).foldl Stats.body t) from
    H _ _ SR.start
  induction l with
  | nil => exact fun s t h => h
  | cons v l ih => exact fun s t h => ih _ _ (h.body (nz_zeq v))

theorem SR.incr {s t : Stats F64} (h : SR s t) (size : UInt64) (x : F64) : SR (s.incr size x) (t.incr size (nz x)) := by
  have g := nz_zeq x
  refine ⟨?_, ?_, ?_, ?_, ?_⟩
  · show F64.add s.e x = F64.add t.e (nz x)
    rw [← h.e]; exact g.add h.ne
  · exact add_ne_negzero h.ne
  · show F64.add s.e2 (F64.mul x x) = F64.add t.e2 (F64.mul (nz x) (nz x))
    rw [h.e2, g.sq]
  · show Zeq (if size = 1 || F64.lt x s.min then x else s.min) (if size = 1 || F64.lt (nz x) t.min then nz x else t.min)
    rw [g.lt h.mn]
    split
    · exact g
    · exact h.mn
  · show Zeq (if size = 1 || F64.lt s.max x then x else s.max) (if size = 1 || F64.lt t.max (nz x) then nz x else t.max)
    rw [h.mx.lt g]
    split
    · exact g
    · exact h.mx

theorem SR.evict {s t : Stats F64} (h : SR s t) (er : F64) (l : List F64) :
    SR (s.evict er l) (t.evict (nz er) (l.map nz)) := by
  have g := nz_zeq er
  unfold Stats.evict
  rw [g.is_nan]
  split
  · show SR (if F64.le er s.min || F64.le s.max er then _ else _) (if F64.le (nz er) t.min || F64.le t.max (nz er) then _ else _)
    rw [g.le h.mn, h.mx.le g]
    split
    · exact SR.recompute l
    · refine ⟨?_, ?_, ?_, h.mn, h.mx⟩
      · show F64.sub s.e er = F64.sub t.e (nz er)
        rw [← h.e]; exact g.sub h.ne
      · exact sub_ne_negzero h.ne
      · show F64.sub s.e2 (F64.mul er er) = F64.sub t.e2 (F64.mul (nz er) (nz er))
        rw [h.e2, g.sq]
  · exact h

theorem erasedOf_nz (c : ℕ) (xs : List F64) : erasedOf c (xs.map nz) = nz (erasedOf c xs) := by
  unfold erasedOf
  rw [List.length_map]
  split
  · exact nz_nan.symm
  · rw [List.getElem?_map]
    cases xs[xs.length - 1 - c]? with
    | none => exact nz_nan.symm
    | some v => rfl

theorem statsOf_nz (c : ℕ) (xs : List F64) : SR (statsOf c xs) (statsOf c (xs.map nz)) := by
  induction xs using List.reverseRecOn with
  | nil => exact SR.start
  | append_singleton xs x ih =>
    rw [List.map_append, List.map_singleton, statsOf_snoc, statsOf_snoc, List.length_map]
    have h1 : xs.map nz ++ [nz x] = (xs ++ [x]).map nz := by simp
    rw [h1, erasedOf_nz, slots_map]
    exact (ih.incr _ x).evict _ _

/-- if the recorded maximum is a zero then so are the stored excesses and their sum -/
theorem sum_of_max_zero {c : ℕ} (hc : 0 < c) (hb : c < 2 ^ 61) (xs : List F64) (hx : ∀ v ∈ xs, F64.le (F64.zero false) v = true)
    (hz : ∀ v ∈ slots c xs, F64.val v = 0) : (statsOf c xs).e = F64.zero false := by
  have hz0 : F64.zero false ≠ F64.zero true := by decide
  induction xs using List.reverseRecOn with
  | nil => exact lit_zero
  | append_singleton xs x ih =>
    have hx' : ∀ v ∈ xs, F64.le (F64.zero false) v = true := fun v hv => hx v (by simp [hv])
    have hn : ∀ v ∈ xs ++ [x], is_nan v = false := fun v hv =>
      (is_nan_false v).mpr ((F64.le_iff _ _).mp (hx v hv)).2.1
    have hsl : ∀ v ∈ slots c (xs ++ [x]), v ∈ xs ++ [x] := fun v hv => slots_mem hc hv
    have hzero : ∀ v ∈ slots c (xs ++ [x]), ∃ s, v = F64.zero s := fun v hv =>
      zero_of_val ((is_nan_false v).mp (hn v (hsl v hv))) (hz v hv)
    rw [statsOf_snoc]
    by_cases hf : xs.length < c
    · have he : erasedOf c (xs ++ [x]) = cNAN := by
        unfold erasedOf; rw [if_pos (by simp; omega)]
      rw [he]
      unfold Stats.evict
      rw [CDoubleLaws.nan_cNAN]
      simp only [Bool.not_true, Bool.false_eq_true, if_false]
      show F64.add (statsOf c xs).e x = _
      rw [slots_snoc, if_pos hf] at hz hzero
      rw [ih hx' (fun v hv => hz v (by simp [hv]))]
      obtain ⟨s, rfl⟩ := hzero x (by simp)
      exact add_zero_eq hz0 s
    · -- a value is evicted
      have hE := statsOf_extremes hc hb (xs ++ [x]) hn (by simp)
      rw [statsOf_snoc] at hE
      have hlt : xs.length % c < (slots c xs).length := by
        rw [slots_length]; have := Nat.mod_lt xs.length hc; omega
      have her : erasedOf c (xs ++ [x]) ∈ xs := by
        unfold erasedOf
        rw [if_neg (by simp; omega)]
        simp only [List.length_append, List.length_cons, List.length_nil, zero_add, Nat.add_sub_cancel]
        rw [List.getElem?_append_left (by omega), List.getElem?_eq_getElem (by omega)]
        exact List.getElem_mem _
      have hern : is_nan (erasedOf c (xs ++ [x])) = false := hn _ (by simp [her])
      have her0 : F64.le (F64.zero false) (erasedOf c (xs ++ [x])) = true := hx' _ her
      unfold Stats.evict at hE ⊢
      rw [hern] at hE ⊢
      simp only [Bool.not_false, if_true] at hE ⊢
      split
      · -- recomputed
        rw [recompute_e]
        generalize slots c (xs ++ [x]) = l at hzero
        rw [lit_def, lit_zero]
        clear hE hz hsl
        induction l with
        | nil => rfl
        | cons v l ih2 =>
          rw [List.foldl_cons]
          obtain ⟨s, rfl⟩ := hzero v (by simp)
          rw [show (F64.zero false +. F64.zero s) = F64.zero false from add_zero_eq hz0 s]
          exact ih2 (fun v hv => hzero v (by simp [hv]))
      · next hcond =>
        exfalso
        rw [if_neg hcond] at hE
        obtain ⟨s, hs⟩ := hzero _ hE.2.1
        apply hcond
        rw [Bool.or_eq_true]
        right
        show F64.le _ (erasedOf c (xs ++ [x])) = true
        rw [F64.le_iff] at her0 ⊢
        refine ⟨?_, her0.2.1, ?_⟩
        · show F64.notNaN _
          simp only at hs
          rw [hs]; exact zero_ne_nan s
        · simp only at hs
          rw [hs, val_zero]
          rw [val_zero] at her0
          exact her0.2.2

section fit
variable {M : MathFns F64} {c : ℕ} {xs : List F64}

theorem foldl_nz {β : Type} (f : β → F64 → β) (hf : ∀ b v, f b v = f b (nz v)) (l : List F64) (b : β) :
    l.foldl f b = (l.map nz).foldl f b := by
  induction l generalizing b with
  | nil => rfl
  | cons v l ih => rw [List.foldl_cons, List.map_cons, List.foldl_cons, ← hf, ih]

theorem one_add_nz (x v : F64) : (lit 1 : F64) +. x *. v = lit 1 +. x *. nz v := (nz_zeq v).one_add_mul x

theorem logLikL_nz (e : F64) (l : List F64) (g s : F64) : logLikL M e l g s = logLikL M e (l.map nz) g s := by
  unfold logLikL
  rw [List.length_map]
  split
  · rfl
  · apply foldl_nz
    intro b v
    rw [one_add_nz]

theorem grimshawWL_nz (l : List F64) : grimshawWL M l = grimshawWL M (l.map nz) := by
  funext x
  unfold grimshawWL
  simp only [List.length_map]
  rw [foldl_nz _ (by intro b v; rw [one_add_nz]) l]

theorem grimshawVL_nz (l : List F64) : grimshawVL M l = grimshawVL M (l.map nz) := by
  funext x
  unfold grimshawVL
  rw [List.length_map, foldl_nz _ (by intro b v; rw [one_add_nz]) l]

theorem meanL_nz (e : F64) (l : List F64) : meanL e l = meanL e (l.map nz) := by
  unfold meanL; rw [List.length_map]

theorem momL_nz (e e2 : F64) (l : List F64) : momL M e e2 l = momL M e e2 (l.map nz) := by
  unfold momL
  simp only [← meanL_nz]
  rw [show varL e e2 (l.map nz) = varL e e2 l from by unfold varL; rw [List.length_map]]
  simp only [← logLikL_nz]

theorem simplifiedL_nz (e : F64) (l : List F64) (x : F64) : simplifiedL M e l x = simplifiedL M e (l.map nz) x := by
  unfold simplifiedL
  simp only [← meanL_nz, ← logLikL_nz, ← grimshawVL_nz]

theorem betterL_nz (e : F64) (l : List F64) : betterL M e l = betterL M e (l.map nz) := by
  funext b r
  unfold betterL
  simp only [← simplifiedL_nz]

/-- no root is retained if the log-likelihood of the exponential fit is NaN -/
theorem betterL_nan {e : F64} {l : List F64} {b : Est F64} (r : Bool × F64) (hb : is_nan b.llhood = true) :
    betterL M e l b r = b := by
  unfold betterL
  split
  · rw [nan_lt_left hb]
    rfl
  · rfl

theorem zero_div_zero_div (y : F64) : F64.div (F64.zero false) (F64.div (F64.zero false) y) = nan := by
  have h0 : ∀ s, F64.div (F64.zero false) (F64.zero s) = nan := by intro s; cases s <;> rfl
  rcases y with _ | t | ⟨t, b⟩
  · rfl
  · exact h0 _
  · by_cases hb : b.val = 0
    · have : F64.div (F64.zero false) (F64.fin t b) = nan := by
        show (if b.val = 0 then _ else _) = _
        rw [if_pos hb]; rfl
      rw [this]; rfl
    · obtain ⟨z, hz⟩ := div_fin (x := F64.zero false) (y := F64.fin t b) trivial trivial
        (fun hh => hb (toQ_eq_zero.mp hh))
      rw [hz, toQ_zero, zero_div, ofRat_zero]
      exact h0 z

theorem simplified_zero_nan (l : List F64) : is_nan (simplifiedL M (F64.zero false) l (lit 0)).llhood = true := by
  have h0 : ((lit 0 : F64) ==. lit 0) = true := by decide +kernel
  unfold simplifiedL
  rw [if_pos h0]
  show is_nan (logLikL M _ l (lit 0) _) = true
  unfold logLikL
  rw [if_pos h0]
  apply CDoubleLaws.nan_sub_right
  show is_nan (F64.div (F64.zero false) (F64.div (F64.zero false) (lit l.length))) = true
  rw [zero_div_zero_div]
  decide +kernel

theorem right_nz {m a b : F64} (h : Zeq a b) :
    (lit 2 : F64) *. (m -. a) /. (a *. a) = lit 2 *. (m -. b) /. (b *. b) := by
  have hs : (a *. a) = (b *. b) := h.sq
  by_cases hm : m = F64.zero true
  · subst hm
    rcases h with rfl | ⟨s, t, rfl, rfl⟩
    · rfl
    · cases s <;> cases t <;> decide +kernel
  · rw [hs, show (m -. a) = (m -. b) from h.sub hm]

theorem rootsL_nz {e mn mx mn' mx' : F64} (l : List F64) (h1 : Zeq mn mn') (h2 : mx = mx') :
    rootsL M e mn mx l = rootsL M e mn' mx' (l.map nz) := by
  subst h2
  unfold rootsL
  simp only [← meanL_nz, ← grimshawWL_nz, right_nz h1]

theorem grimshawL_nz (hc : 0 < c) (hb : c < 2 ^ 61) (hx : ∀ v ∈ xs, F64.le (F64.zero false) v = true) :
    grimshawL M (statsOf c xs).e (statsOf c xs).min (statsOf c xs).max (slots c xs) =
      grimshawL M (statsOf c (xs.map nz)).e (statsOf c (xs.map nz)).min (statsOf c (xs.map nz)).max
        (slots c (xs.map nz)) := by
  have S := statsOf_nz c xs
  rw [slots_map, ← S.e]
  by_cases hmx : (statsOf c xs).max = (statsOf c (xs.map nz)).max
  · unfold grimshawL
    rw [← rootsL_nz (slots c xs) S.mn hmx, ← betterL_nz, ← simplifiedL_nz]
  · obtain ⟨s, t, hs, ht⟩ := S.mx.resolve_left hmx
    have he : (statsOf c xs).e = F64.zero false := by
      apply sum_of_max_zero hc hb xs hx
      intro v hv
      have hn : ∀ v ∈ xs, is_nan v = false := fun v hv =>
        (is_nan_false v).mpr ((F64.le_iff _ _).mp (hx v hv)).2.1
      have hne : xs ≠ [] := by rintro rfl; simp [slots_nil] at hv
      have hE := (statsOf_extremes hc hb xs hn hne).2.2 v hv
      rw [hs] at hE
      have hv0 := (F64.le_iff _ _).mp (hx v (slots_mem hc hv))
      have hlt : ¬ F64.lt (F64.zero s) v = true := by
        rw [show F64.lt (F64.zero s) v = false from hE]; decide
      rw [F64.lt_iff] at hlt
      rw [val_zero] at hv0 hlt
      have : ¬ 0 < F64.val v := fun hh => hlt ⟨zero_ne_nan s, hv0.2.1, hh⟩
      exact le_antisymm (not_lt.mp this) hv0.2.2
    have hnan := simplified_zero_nan (M := M) (slots c xs)
    unfold grimshawL
    rw [he, ← betterL_nz, ← simplifiedL_nz]
    simp only
    rw [betterL_nan _ hnan, betterL_nan _ hnan, betterL_nan _ hnan, betterL_nan _ hnan]

theorem fitL_nz (hc : 0 < c) (hb : c < 2 ^ 61) (hx : ∀ v ∈ xs, F64.le (F64.zero false) v = true) (g s : F64) :
    fitL M g s (statsOf c xs) (slots c xs) = fitL M g s (statsOf c (xs.map nz)) (slots c (xs.map nz)) := by
  have S := statsOf_nz c xs
  unfold fitL
  rw [grimshawL_nz hc hb hx, ← S.e, ← S.e2, slots_map, ← momL_nz]

/-- the estimated parameters do not depend on the signs of zero excesses -/
theorem fitL_zeq {ys : List F64} (hc : 0 < c) (hb : c < 2 ^ 61) (hx : ∀ v ∈ xs, F64.le (F64.zero false) v = true)
    (hy : ∀ v ∈ ys, F64.le (F64.zero false) v = true) (h : xs.map nz = ys.map nz) (g s : F64) :
    fitL M g s (statsOf c xs) (slots c xs) = fitL M g s (statsOf c ys) (slots c ys) := by
  rw [fitL_nz hc hb hx, h, ← fitL_nz hc hb hy]

end fit

/-! ### the two machines side by side -/

/-- `k'`, `ys`: lower-tail detector, mirror image of the upper-tail detector `k`, `xs` -/
structure MirrorC (k : Core F64) (xs : List F64) (k' : Core F64) (ys : List F64) : Prop where
  q : k'.q = k.q
  disc : k'.discard = k.discard
  low : k.low = 0
  low' : k'.low ≠ 0
  ud : k.up_down = lit 1
  ud' : k'.up_down = lit (-1)
  at_ : Zeq k'.at_ (F64.neg k.at_)
  et : Zeq k'.et (F64.neg k.et)
  Nt : k'.Nt = k.Nt
  n : k'.n = k.n
  gamma : k'.gamma = k.gamma
  sigma : k'.sigma = k.sigma
  hist : xs.map nz = ys.map nz
  pos : ∀ v ∈ xs, F64.le (F64.zero false) v = true
  pos' : ∀ v ∈ ys, F64.le (F64.zero false) v = true

/-- results of the two machines -/
def MirrorR {β : Type} (R : β → β → Prop) (r r' : C (β × Core F64 × List F64)) : Prop :=
  match r, r' with
  | .ok (o, k, xs), .ok (o', k', ys) => R o o' ∧ MirrorC k xs k' ys
  | .error e, .error e' => e = e'
  | _, _ => False

section run
variable {M : MathFns F64} {c : ℕ} {k k' : Core F64} {xs ys : List F64}

theorem add_neg_neg {x t x' : F64} (h : Zeq x' (F64.neg x)) : Zeq (F64.add x' (F64.neg t)) (F64.neg (F64.add x t)) := by
  have h1 := h.neg
  have h2 := (Zeq.neg_sub (x := t) (y := F64.neg x) (y' := F64.neg x') h1).neg
  rw [F64.neg_neg] at h2
  have h3 : F64.sub (F64.neg t) (F64.neg x') = F64.add x' (F64.neg t) := by
    show F64.add (F64.neg t) (F64.neg (F64.neg x')) = _
    rw [F64.neg_neg, add_comm']
  have h4 : F64.sub t (F64.neg x) = F64.add x t := by
    show F64.add t (F64.neg (F64.neg x)) = _
    rw [F64.neg_neg, add_comm']
  rwa [h3, h4] at h2

/-- the quantiles are opposite -/
theorem quantileC_mirror (h : MirrorC k xs k' ys) (q : F64) :
    (∃ e, quantileC M k q = .error e ∧ quantileC M k' q = .error e) ∨
    (∃ z z', quantileC M k q = .ok z ∧ quantileC M k' q = .ok z' ∧ Zeq z' (F64.neg z)) := by
  unfold quantileC
  rw [h.gamma, h.sigma, h.Nt, h.n]
  cases tail_quantile M (mkTail k.gamma k.sigma) (lit k.Nt.toNat /. lit k.n.toNat) q with
  | error e => exact Or.inl ⟨e, rfl, rfl⟩
  | ok t =>
    refine Or.inr ⟨_, _, rfl, rfl, ?_⟩
    rw [h.ud, h.ud', CDoubleLaws.one_mul, CDoubleLaws.neg_one_mul]
    exact add_neg_neg h.et

/-- the distances to the excess threshold agree up to the sign of zero -/
theorem excess_mirror {t t' : F64} (ht : Zeq t' (F64.neg t)) (x : F64) :
    Zeq ((lit (-1) : F64) *. (F64.neg x -. t')) ((lit 1 : F64) *. (x -. t)) := by
  rw [CDoubleLaws.one_mul, CDoubleLaws.neg_one_mul]
  exact Zeq.neg_sub ht

theorem refit_mirror (hc : 0 < c) (hb : c < 2 ^ 61) (h : MirrorC k xs k' ys) :
    MirrorC (refit M c k xs) xs (refit M c k' ys) ys := by
  have e := fitL_zeq (M := M) hc hb h.pos h.pos' h.hist k.gamma k.sigma
  refine ⟨h.q, h.disc, h.low, h.low', h.ud, h.ud', h.at_, h.et, h.Nt, h.n, ?_, ?_, h.hist, h.pos, h.pos'⟩
  · show (fitL M k'.gamma k'.sigma _ _).2.1 = _
    rw [h.gamma, h.sigma, ← e]; rfl
  · show (fitL M k'.gamma k'.sigma _ _).2.2 = _
    rw [h.gamma, h.sigma, ← e]; rfl

theorem stepC_mirror (hc : 0 < c) (hb : c < 2 ^ 61) (h : MirrorC k xs k' ys) (x : F64) :
    MirrorR (· = ·) (stepC M c k xs x) (stepC M c k' ys (F64.neg x)) := by
  unfold stepC
  have hn : is_nan (F64.neg x) = is_nan x := CDoubleLaws.nan_neg x
  rw [hn]
  by_cases h1 : is_nan x
  · rw [if_pos h1, if_pos h1]
    exact ⟨rfl, h⟩
  rw [if_neg h1, if_neg h1]
  have hz : (lit 0 : F64) = F64.zero false := by rw [lit_def, lit_zero]
  have h2 : (k'.discard ≠ 0 && k'.up_down *. (F64.neg x -. k'.at_) >. lit 0) =
      (k.discard ≠ 0 && k.up_down *. (x -. k.at_) >. lit 0) := by
    rw [h.disc, h.ud, h.ud']
    congr 1
    exact (Zeq.refl (lit 0)).lt (excess_mirror h.at_ x)
  rw [h2]
  by_cases h3 : k.discard ≠ 0 && k.up_down *. (x -. k.at_) >. lit 0
  · rw [if_pos h3, if_pos h3]
    exact ⟨rfl, h⟩
  rw [if_neg h3, if_neg h3]
  have hex : Zeq (k'.up_down *. (F64.neg x -. k'.et)) (k.up_down *. (x -. k.et)) := by
    rw [h.ud, h.ud']; exact excess_mirror h.et x
  have h4 : (k'.up_down *. (F64.neg x -. k'.et) >=. lit 0) = (k.up_down *. (x -. k.et) >=. lit 0) :=
    (Zeq.refl (lit 0)).le hex
  simp only
  rw [h4]
  by_cases h5 : k.up_down *. (x -. k.et) >=. lit 0
  · rw [if_pos h5, if_pos h5]
    have h6 : k'.up_down *. (F64.neg x -. k'.et) >=. lit 0 := by rw [h4]; exact h5
    set ex := k.up_down *. (x -. k.et)
    set ex' := k'.up_down *. (F64.neg x -. k'.et)
    rw [hz] at h5 h6
    have m : MirrorC { k with n := k.n + 1, Nt := k.Nt + 1 } (xs ++ [ex]) { k' with n := k'.n + 1, Nt := k'.Nt + 1 }
        (ys ++ [ex']) := by
      refine ⟨h.q, h.disc, h.low, h.low', h.ud, h.ud', h.at_, h.et, by rw [h.Nt], by rw [h.n], h.gamma, h.sigma, ?_,
        ?_, ?_⟩
      · rw [List.map_append, List.map_append, h.hist, List.map_singleton, List.map_singleton, nz_of_zeq hex]
      · intro v hv
        rcases List.mem_append.mp hv with hv | hv
        · exact h.pos v hv
        · rw [List.mem_singleton] at hv; subst hv; exact h5
      · intro v hv
        rcases List.mem_append.mp hv with hv | hv
        · exact h.pos' v hv
        · rw [List.mem_singleton] at hv; subst hv; exact h6
    have m2 := refit_mirror (M := M) hc hb m
    rcases quantileC_mirror (M := M) m2 (refit M c { k with n := k.n + 1, Nt := k.Nt + 1 } (xs ++ [ex])).q with
      ⟨e, e1, e2⟩ | ⟨z, z', e1, e2, e3⟩
    · rw [← m2.q] at e2
      rw [e1, e2]
      rfl
    · rw [← m2.q] at e2
      rw [e1, e2]
      exact ⟨rfl, m2.q, m2.disc, m2.low, m2.low', m2.ud, m2.ud', e3, m2.et, m2.Nt, m2.n, m2.gamma, m2.sigma, m2.hist,
        m2.pos, m2.pos'⟩
  · rw [if_neg h5, if_neg h5]
    exact ⟨rfl, h.q, h.disc, h.low, h.low', h.ud, h.ud', h.at_, h.et, h.Nt, by rw [h.n], h.gamma, h.sigma, h.hist, h.pos,
      h.pos'⟩

theorem fitExcesses_mirror {t t' : F64} (ht : Zeq t' (F64.neg t)) (l : List F64) :
    fitExcesses (lit (-1)) t' (l.map F64.neg) = fitExcesses (lit 1) t l := by
  unfold fitExcesses
  induction l with
  | nil => rfl
  | cons x l ih =>
    have g := excess_mirror ht x
    have gl : ((lit (-1) : F64) *. (F64.neg x -. t') >. lit 0) = ((lit 1 : F64) *. (x -. t) >. lit 0) :=
      (Zeq.refl (lit 0)).lt g
    rw [List.map_cons, List.map_cons, List.map_cons, List.filter_cons, List.filter_cons, ih, gl]
    split
    · next hp =>
      have hz : (lit 0 : F64) = F64.zero false := by rw [lit_def, lit_zero]
      rw [← gl, hz] at hp
      rw [g.nonzero hp]
    · rfl

/-- the two thresholds computed by `spot_fit` are opposite -/
def P2Mirror (level : F64) (data : List F64) (size : UInt64) : Prop :=
  ∃ t t', p2_quantile level data size = .ok t ∧ p2_quantile (lit 1 -. level) (data.map F64.neg) size = .ok t' ∧
    Zeq t' (F64.neg t)

theorem fitC_mirror (hc : 0 < c) (hb : c < 2 ^ 61) (h : MirrorC k xs k' ys) (hl : k'.level = k.level) (data : List F64)
    (size : UInt64) (hp : P2Mirror k.level data size) :
    MirrorR (· = ·) (fitC M c k xs data size) (fitC M c k' ys (data.map F64.neg) size) := by
  obtain ⟨t, t', e1, e2, ht⟩ := hp
  rw [← hl] at e2
  unfold fitC
  simp only
  rw [if_pos h.low', if_neg (by rw [h.low]; decide), e1, e2]
  simp only [C.ok_bind]
  have hn : is_nan t' = is_nan t := by rw [ht.is_nan]; exact CDoubleLaws.nan_neg t
  rw [hn]
  by_cases h1 : is_nan t
  · rw [if_pos h1, if_pos h1]
    exact ⟨rfl, h.q, h.disc, h.low, h.low', h.ud, h.ud', h.at_, h.et, rfl, rfl, h.gamma, h.sigma, h.hist, h.pos, h.pos'⟩
  rw [if_neg h1, if_neg h1]
  have hfe : fitExcesses k'.up_down t' ((data.map F64.neg).take size.toNat) =
      fitExcesses k.up_down t (data.take size.toNat) := by
    rw [h.ud, h.ud', ← List.map_take, fitExcesses_mirror ht]
  rw [hfe]
  set zs := fitExcesses k.up_down t (data.take size.toNat) with hzs
  have hpos : ∀ v ∈ zs, F64.le (F64.zero false) v = true := by
    intro v hv
    rw [hzs] at hv
    unfold fitExcesses at hv
    have := (List.mem_filter.mp hv).2
    have hz : (lit 0 : F64) = F64.zero false := by rw [lit_def, lit_zero]
    rw [hz] at this
    exact le_of_lt' this
  have m : MirrorC { k with Nt := UInt64.ofNat zs.length, n := size, et := t } (xs ++ zs)
      { k' with Nt := UInt64.ofNat zs.length, n := size, et := t' } (ys ++ zs) := by
    refine ⟨h.q, h.disc, h.low, h.low', h.ud, h.ud', h.at_, ht, rfl, rfl, h.gamma, h.sigma, ?_, ?_, ?_⟩
    · rw [List.map_append, List.map_append, h.hist]
    · intro v hv
      rcases List.mem_append.mp hv with hv | hv
      · exact h.pos v hv
      · exact hpos v hv
    · intro v hv
      rcases List.mem_append.mp hv with hv | hv
      · exact h.pos' v hv
      · exact hpos v hv
  have m2 := refit_mirror (M := M) hc hb m
  rcases quantileC_mirror (M := M) m2 (refit M c { k with Nt := UInt64.ofNat zs.length, n := size, et := t } (xs ++ zs)).q
    with ⟨e, e1, e2⟩ | ⟨z, z', e1, e2, e3⟩
  · rw [← m2.q] at e2
    rw [e1, e2]
    rfl
  · rw [← m2.q] at e2
    rw [e1, e2]
    simp only [C.ok_bind]
    have hnz : is_nan z' = is_nan z := by rw [e3.is_nan]; exact CDoubleLaws.nan_neg z
    have m3 := MirrorC.mk (k := { refit M c { k with Nt := UInt64.ofNat zs.length, n := size, et := t } (xs ++ zs) with at_ := z })
      (k' := { refit M c { k' with Nt := UInt64.ofNat zs.length, n := size, et := t' } (ys ++ zs) with at_ := z' })
      m2.q m2.disc m2.low m2.low' m2.ud m2.ud' e3 m2.et m2.Nt m2.n m2.gamma m2.sigma m2.hist m2.pos m2.pos'
    rw [hnz]
    by_cases h2 : is_nan z
    · rw [if_pos h2, if_pos h2]
      exact ⟨rfl, m3⟩
    · rw [if_neg h2, if_neg h2]
      exact ⟨rfl, m3⟩

/-! ### runs -/

theorem F64.Zeq.same {x y : F64} (h : Zeq x y) : Spec.SameNum x y := by
  rcases h with rfl | ⟨s, t, rfl, rfl⟩
  · exact Or.inl rfl
  · right; cases s <;> cases t <;> decide +kernel

/-- calls covered: steps, quantile queries, and fits whose thresholds are opposite -/
def MirrorOK (level : F64) : Op F64 → Prop
  | .fit data size => size.toNat ≤ data.length ∧ P2Mirror level data size
  | .step _ => True
  | .quantile _ => True
  | .probability _ => False

theorem code_mirror {r r' : C (ℤ × Core F64 × List F64)} (H : MirrorR (· = ·) r r') :
    MirrorR Spec.MirrorOut (r >>= fun r => .ok (.code r.1, r.2.1, r.2.2)) (r' >>= fun r => .ok (.code r.1, r.2.1, r.2.2)) := by
  cases r with
  | error e =>
    cases r' with
    | error e' => exact H
    | ok p => exact H.elim
  | ok p =>
    cases r' with
    | error e' => exact H.elim
    | ok p' =>
      obtain ⟨o, k1, x1⟩ := p
      obtain ⟨o', k2, x2⟩ := p'
      obtain ⟨rfl, m⟩ := H
      exact ⟨.code o, m⟩

theorem execC_mirror (hc : 0 < c) (hb : c < 2 ^ 61) (h : MirrorC k xs k' ys) (hl : k'.level = k.level) (op : Op F64)
    (ho : MirrorOK k.level op) :
    MirrorR Spec.MirrorOut (execC M c k xs op) (execC M c k' ys (Spec.mirrorOp op)) := by
  cases op with
  | fit data size => exact code_mirror (fitC_mirror (M := M) hc hb h hl data size ho.2)
  | step x => exact code_mirror (stepC_mirror (M := M) hc hb h x)
  | quantile q =>
    unfold execC Spec.mirrorOp
    dsimp only
    rcases quantileC_mirror (M := M) h q with ⟨e, e1, e2⟩ | ⟨z, z', e1, e2, e3⟩
    · rw [e1, e2]; exact rfl
    · rw [e1, e2]; exact ⟨.value e3.same, h⟩
  | probability z => exact ho.elim

theorem execC_low {op : Op F64} {o : Out F64} (he : execC M c k xs op = .ok (o, k', ys)) : k'.low = k.low := by
  cases op with
  | fit data size =>
    unfold execC at he
    dsimp only at he
    obtain ⟨p, hp, he⟩ := C.bind_ok he
    simp only [Except.ok.injEq, Prod.mk.injEq] at he
    obtain ⟨_, rfl, rfl⟩ := he
    unfold fitC at hp
    dsimp only at hp
    obtain ⟨et, _, hp⟩ := C.bind_ok hp
    split at hp
    · cases hp; rfl
    · obtain ⟨z, _, hp⟩ := C.bind_ok hp
      split at hp <;> cases hp <;> rfl
  | step x =>
    unfold execC at he
    dsimp only at he
    obtain ⟨p, hp, he⟩ := C.bind_ok he
    simp only [Except.ok.injEq, Prod.mk.injEq] at he
    obtain ⟨_, rfl, rfl⟩ := he
    unfold stepC at hp
    dsimp only at hp
    split at hp
    · cases hp; rfl
    split at hp
    · cases hp; rfl
    split at hp
    · obtain ⟨z, _, hp⟩ := C.bind_ok hp
      cases hp; rfl
    · cases hp; rfl
  | quantile q =>
    unfold execC at he
    dsimp only at he
    obtain ⟨p, hp, he⟩ := C.bind_ok he
    cases he; rfl
  | probability q =>
    unfold execC at he
    dsimp only at he
    obtain ⟨p, hp, he⟩ := C.bind_ok he
    cases he; rfl

theorem runC_low {ops : List (Op F64)} {o : List (Out F64)} (he : runC M c k xs ops = .ok (o, k', ys)) : k'.low = k.low := by
  induction ops generalizing k xs o with
  | nil => cases he; rfl
  | cons op ops ih =>
    unfold runC at he
    obtain ⟨p, hp, he⟩ := C.bind_ok he
    obtain ⟨p', hp', he⟩ := C.bind_ok he
    simp only [Except.ok.injEq, Prod.mk.injEq] at he
    obtain ⟨_, rfl, rfl⟩ := he
    exact (ih hp').trans (execC_low hp)

theorem execC_level {op : Op F64} {o : Out F64} (he : execC M c k xs op = .ok (o, k', ys)) : k'.level = k.level := by
  cases op with
  | fit data size =>
    unfold execC at he
    dsimp only at he
    obtain ⟨p, hp, he⟩ := C.bind_ok he
    simp only [Except.ok.injEq, Prod.mk.injEq] at he
    obtain ⟨_, rfl, rfl⟩ := he
    unfold fitC at hp
    dsimp only at hp
    obtain ⟨et, _, hp⟩ := C.bind_ok hp
    split at hp
    · cases hp; rfl
    · obtain ⟨z, _, hp⟩ := C.bind_ok hp
      split at hp <;> cases hp <;> rfl
  | step x =>
    unfold execC at he
    dsimp only at he
    obtain ⟨p, hp, he⟩ := C.bind_ok he
    simp only [Except.ok.injEq, Prod.mk.injEq] at he
    obtain ⟨_, rfl, rfl⟩ := he
    unfold stepC at hp
    dsimp only at hp
    split at hp
    · cases hp; rfl
    split at hp
    · cases hp; rfl
    split at hp
    · obtain ⟨z, _, hp⟩ := C.bind_ok hp
      cases hp; rfl
    · cases hp; rfl
  | quantile q =>
    unfold execC at he
    dsimp only at he
    obtain ⟨p, hp, he⟩ := C.bind_ok he
    cases he; rfl
  | probability q =>
    unfold execC at he
    dsimp only at he
    obtain ⟨p, hp, he⟩ := C.bind_ok he
    cases he; rfl

theorem runC_mirror (hc : 0 < c) (hb : c < 2 ^ 61) (h : MirrorC k xs k' ys) (hl : k'.level = k.level) (ops : List (Op F64))
    (ho : ∀ op ∈ ops, MirrorOK k.level op) :
    MirrorR (List.Forall₂ Spec.MirrorOut) (runC M c k xs ops) (runC M c k' ys (ops.map Spec.mirrorOp)) := by
  induction ops generalizing k xs k' ys with
  | nil => exact ⟨.nil, h⟩
  | cons op ops ih =>
    have h1 := execC_mirror (M := M) hc hb h hl op (ho _ (by simp))
    rw [List.map_cons]
    unfold runC
    cases e1 : execC M c k xs op with
    | error e =>
      cases e2 : execC M c k' ys (Spec.mirrorOp op) with
      | error e' => rw [e1, e2] at h1; exact h1
      | ok r' => rw [e1, e2] at h1; exact h1.elim
    | ok r =>
      cases e2 : execC M c k' ys (Spec.mirrorOp op) with
      | error e' => rw [e1, e2] at h1; exact h1.elim
      | ok r' =>
        rw [e1, e2] at h1
        obtain ⟨o, k1, x1⟩ := r
        obtain ⟨o', k2, x2⟩ := r'
        obtain ⟨ho1, m⟩ := h1
        simp only [C.ok_bind]
        have l1 := execC_level e1
        have l2 := execC_level e2
        have h2 := ih m (by rw [l1, l2, hl]) (fun op' hop => by rw [l1]; exact ho _ (by simp [hop]))
        cases f1 : runC M c k1 x1 ops with
        | error e =>
          cases f2 : runC M c k2 x2 (ops.map Spec.mirrorOp) with
          | error e' => rw [f1, f2] at h2; exact h2
          | ok r' => rw [f1, f2] at h2; exact h2.elim
        | ok r =>
          cases f2 : runC M c k2 x2 (ops.map Spec.mirrorOp) with
          | error e' => rw [f1, f2] at h2; exact h2.elim
          | ok r' =>
            rw [f1, f2] at h2
            exact ⟨.cons ho1 h2.1, h2.2⟩

variable {h h' : Heap F64} {s t : Spot F64} {a a' : ℕ}

theorem mirrored_of (m : MirrorC s.core xs t.core ys) (hlow : t.low = 1) (I : SpotInv h s a c xs) (I' : SpotInv h' t a' c ys) :
    Spec.Mirrored h s h' t := by
  have hlen : xs.length = ys.length := by
    have := congrArg List.length m.hist; simpa using this
  have S := I.ring.stored
  have S' := I'.ring.stored
  have hsl : (slots c xs).map nz = (slots c ys).map nz := by rw [← slots_map, ← slots_map, m.hist]
  have hlsl : (slots c xs).length = (slots c ys).length := by
    have := congrArg List.length hsl; simpa using this
  refine ⟨m.q, m.disc, ⟨m.low, hlow⟩, m.et.same, m.at_.same, m.Nt, m.n, m.gamma, m.sigma, ?_, ?_⟩
  · show ubend_size _ = ubend_size _
    rw [I.ring.size_eq, I'.ring.size_eq, hlen]
  · intro i hi
    have hi1 : i < (slots c xs).length := by rw [← S.size]; exact hi
    have hi2 : i < (slots c ys).length := by rw [← hlsl]; exact hi1
    refine ⟨_, _, S.read i hi1, S'.read i hi2, ?_⟩
    apply F64.Zeq.same
    have hz : nz (slots c xs)[i] = nz (slots c ys)[i] := by
      have : ((slots c xs).map nz)[i]? = ((slots c ys).map nz)[i]? := by rw [hsl]
      simpa [hi1, hi2] using this
    exact ((nz_zeq _).trans (Or.inl hz.symm)).trans (nz_zeq _).symm

theorem run_mirror (m : MirrorC s.core xs t.core ys) (hlow : t.low = 1) (hl : t.level = s.level)
    (I : SpotInv h s a c xs) (I' : SpotInv h' t a' c ys) (ops : List (Op F64)) (ho : ∀ op ∈ ops, MirrorOK s.level op) :
    Spec.MirroredRuns (runOps M h s ops) (runOps M h' t (ops.map Spec.mirrorOp)) := by
  have hv : ∀ op ∈ ops, op.valid := by
    intro op hop
    have := ho op hop
    cases op with
    | fit data size => exact this.1
    | _ => trivial
  have hv' : ∀ op ∈ ops.map Spec.mirrorOp, op.valid := by
    intro op hop
    obtain ⟨op0, h0, rfl⟩ := List.mem_map.mp hop
    have := hv op0 h0
    cases op0 with
    | fit data size => show size.toNat ≤ (data.map F64.neg).length; rw [List.length_map]; exact this
    | _ => trivial
  have r1 := run_refines (M := M) I ops hv
  have r2 := run_refines (M := M) I' (ops.map Spec.mirrorOp) hv'
  have hm := runC_mirror (M := M) I.ring.pos I.ring.bound m hl ops ho
  cases f1 : runC M c s.core xs ops with
  | error e =>
    cases f2 : runC M c t.core ys (ops.map Spec.mirrorOp) with
    | error e' =>
      rw [f1, f2] at hm
      rw [f1] at r1
      rw [f2] at r2
      have : e = e' := hm
      subst this
      exact Or.inl ⟨e, r1, r2⟩
    | ok r' => rw [f1, f2] at hm; exact hm.elim
  | ok r =>
    cases f2 : runC M c t.core ys (ops.map Spec.mirrorOp) with
    | error e' => rw [f1, f2] at hm; exact hm.elim
    | ok r' =>
      rw [f1, f2] at hm
      obtain ⟨o, k1, x1⟩ := r
      obtain ⟨o', k2, x2⟩ := r'
      rw [f1] at r1
      rw [f2] at r2
      obtain ⟨s1, h1, e1, c1, i1, _⟩ := r1
      obtain ⟨t1, h1', e2, c2, i2, _⟩ := r2
      obtain ⟨ho1, m1⟩ := hm
      refine Or.inr ⟨o, s1, h1, o', t1, h1', e1, e2, ho1, ?_⟩
      have hlow1 : t1.low = 1 := by
        have := runC_low f2
        have e3 : t1.core.low = k2.low := by rw [c2]
        exact e3.trans (this.trans hlow)
      rw [← c1, ← c2] at m1
      exact mirrored_of m1 hlow1 i1 i2

/-! ### the recorded excesses are not negative -/

theorem execC_nonneg {op : Op F64} {o : Out F64} (hx : ∀ v ∈ xs, F64.le (F64.zero false) v = true)
    (he : execC M c k xs op = .ok (o, k', ys)) : ∀ v ∈ ys, F64.le (F64.zero false) v = true := by
  have hz : (lit 0 : F64) = F64.zero false := by rw [lit_def, lit_zero]
  cases op with
  | fit data size =>
    unfold execC at he
    dsimp only at he
    obtain ⟨p, hp, he⟩ := C.bind_ok he
    simp only [Except.ok.injEq, Prod.mk.injEq] at he
    obtain ⟨_, rfl, rfl⟩ := he
    unfold fitC at hp
    dsimp only at hp
    obtain ⟨et, _, hp⟩ := C.bind_ok hp
    split at hp
    · cases hp; exact hx
    · obtain ⟨z, _, hp⟩ := C.bind_ok hp
      have key : ∀ v ∈ xs ++ fitExcesses k.up_down et (data.take size.toNat), F64.le (F64.zero false) v = true := by
        intro v hv
        rcases List.mem_append.mp hv with hv | hv
        · exact hx v hv
        · unfold fitExcesses at hv
          have := (List.mem_filter.mp hv).2
          rw [hz] at this
          exact le_of_lt' this
      split at hp <;> cases hp <;> exact key
  | step x =>
    unfold execC at he
    dsimp only at he
    obtain ⟨p, hp, he⟩ := C.bind_ok he
    simp only [Except.ok.injEq, Prod.mk.injEq] at he
    obtain ⟨_, rfl, rfl⟩ := he
    unfold stepC at hp
    dsimp only at hp
    split at hp
    · cases hp; exact hx
    split at hp
    · cases hp; exact hx
    split at hp
    · next h5 =>
      obtain ⟨z, _, hp⟩ := C.bind_ok hp
      cases hp
      intro v hv
      rcases List.mem_append.mp hv with hv | hv
      · exact hx v hv
      · rw [List.mem_singleton] at hv; subst hv; rw [hz] at h5; exact h5
    · cases hp; exact hx
  | quantile q =>
    unfold execC at he
    dsimp only at he
    obtain ⟨p, hp, he⟩ := C.bind_ok he
    cases he; exact hx
  | probability q =>
    unfold execC at he
    dsimp only at he
    obtain ⟨p, hp, he⟩ := C.bind_ok he
    cases he; exact hx

theorem runC_nonneg {ops : List (Op F64)} {o : List (Out F64)} (hx : ∀ v ∈ xs, F64.le (F64.zero false) v = true)
    (he : runC M c k xs ops = .ok (o, k', ys)) : ∀ v ∈ ys, F64.le (F64.zero false) v = true := by
  induction ops generalizing k xs o with
  | nil => cases he; exact hx
  | cons op ops ih =>
    unfold runC at he
    obtain ⟨p, hp, he⟩ := C.bind_ok he
    obtain ⟨p', hp', he⟩ := C.bind_ok he
    simp only [Except.ok.injEq, Prod.mk.injEq] at he
    obtain ⟨_, rfl, rfl⟩ := he
    exact ih (execC_nonneg hx hp) hp'

theorem reaches_nonneg {lib : Lib F64} {q level : F64} {low disc : ℤ} {me : UInt64}
    (R : Reaches M lib q low disc level me s h) :
    ∃ a xs, SpotInv h s a me.toNat xs ∧ Params q level low disc s.core ∧ ∀ v ∈ xs, F64.le (F64.zero false) v = true := by
  obtain ⟨h1, h2, h0, s0, hi, ops, outs, hv, hrun⟩ := R
  obtain ⟨a, _, _, hc, I⟩ := init_ok hi h1 h2
  obtain ⟨ys, hr, I', _⟩ := run_iff I ops hv hrun
  refine ⟨a, ys, I', runC_params ?_ hr, runC_nonneg (by simp) hr⟩
  rw [hc]
  exact ⟨rfl, rfl, rfl, rfl, rfl⟩

theorem mirrorSpot_mirrorC {q level : F64} {disc : ℤ}
    (P : Params q level 0 disc s.core) (hx : ∀ v ∈ xs, F64.le (F64.zero false) v = true) :
    MirrorC s.core xs (Spec.mirrorSpot s).core xs :=
  ⟨rfl, rfl, P.plow, one_ne_zero, P.pud, rfl, Or.inl rfl, Or.inl rfl, rfl, rfl, rfl, rfl, rfl, hx, hx⟩

theorem initCore_mirrorC (q level : F64) {low disc : ℤ} (hl : low ≠ 0) :
    MirrorC (initCore q 0 disc level) [] (initCore q low disc level) [] :=
  have h : Zeq cNAN (F64.neg cNAN) := Or.inl (by decide +kernel)
  ⟨rfl, rfl, rfl, by unfold initCore; simp [hl], rfl, by unfold initCore; simp [hl], h, h, rfl, rfl, rfl, rfl, rfl, by simp, by simp⟩

end run
end Verif

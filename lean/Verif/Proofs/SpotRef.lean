/-
The detector in memory refines a pure machine whose state is the scalar fields plus the list of all recorded excesses.
-/
import Verif.Model.Spot
import Verif.Proofs.Peaks
import Verif.Proofs.P2Safe

namespace Verif
variable {α : Type} [CDouble α]

/-! ### statistics as a function of the history -/

/-- value reported as erased by the insertion that completes the history `xs` -/
def erasedOf (c : ℕ) (xs : List α) : α :=
  if xs.length ≤ c then cNAN else (xs[xs.length - 1 - c]?).getD cNAN

/-- statistics after the insertions `xs`, by recursion on the reversed history -/
def statsRev (c : ℕ) : List α → Stats α
  | [] => ⟨lit 0, lit 0, cNAN, cNAN⟩
  | x :: rev =>
    ((statsRev c rev).incr (UInt64.ofNat (min (rev.length + 1) c)) x).evict
      (erasedOf c (rev.reverse ++ [x])) (slots c (rev.reverse ++ [x]))

def statsOf (c : ℕ) (xs : List α) : Stats α := statsRev c xs.reverse

theorem statsOf_snoc (c : ℕ) (xs : List α) (x : α) :
    statsOf c (xs ++ [x]) = ((statsOf c xs).incr (UInt64.ofNat (min (xs.length + 1) c)) x).evict
      (erasedOf c (xs ++ [x])) (slots c (xs ++ [x])) := by
  unfold statsOf; rw [List.reverse_append]; simp [statsRev]

/-- peaks structure after the insertions `xs` -/
structure PeaksInv (h : Heap α) (p : Peaks α) (a c : ℕ) (xs : List α) : Prop where
  ring : Ring h p.container a c xs
  stats : p.stats = statsOf c xs

theorem Ring.erased_eq {h : Heap α} {u : Ubend α} {a c : ℕ} {xs : List α} (R : Ring h u a c xs) :
    u.last_erased_data = erasedOf c xs := by
  have := R.erased
  unfold erasedOf
  split at this
  · next h => rw [if_pos h, this]
  · next h => rw [if_neg h, this]; rfl

theorem Ring.size_eq {h : Heap α} {u : Ubend α} {a c : ℕ} {xs : List α} (R : Ring h u a c xs) :
    ubend_size u = UInt64.ofNat (min xs.length c) := by
  rw [← UInt64.toNat_inj, R.size, UInt64.toNat_ofNat']
  have := R.bound
  rw [Nat.mod_eq_of_lt]; omega

/-- heap `h'` is heap `h` except for the content of the live block at `a`, whose length stays `c` -/
def Frame (h h' : Heap α) (a c : ℕ) : Prop :=
  (∀ b, b ≠ a → h' b = h b) ∧ ∃ cells, h' a = some cells ∧ cells.length = c

omit [CDouble α] in
theorem Frame.trans {h h' h'' : Heap α} {a c : ℕ} (f : Frame h h' a c) (g : Frame h' h'' a c) : Frame h h'' a c :=
  ⟨fun b hb => (g.1 b hb).trans (f.1 b hb), g.2⟩

theorem Ring.frame_refl {h : Heap α} {u : Ubend α} {a c : ℕ} {xs : List α} (R : Ring h u a c xs) : Frame h h a c :=
  ⟨fun _ _ => rfl, _, R.cells, by
    simp only [List.length_append, List.length_map, List.length_replicate]
    have := slots_length (c := c) xs; omega⟩

theorem PeaksInv.push {h : Heap α} {p : Peaks α} {a c : ℕ} {xs : List α} (I : PeaksInv h p a c xs) (x : α) :
    ∃ p' h', peaks_push h p x = .ok (p', h') ∧ PeaksInv h' p' a c (xs ++ [x]) ∧ Frame h h' a c := by
  obtain ⟨p', h', cells', hp, R', hh, hl, hs⟩ := I.ring.peaks_push x
  refine ⟨p', h', hp, ⟨R', ?_⟩, ?_, cells', ?_, hl⟩
  · rw [hs, I.stats, statsOf_snoc, R'.erased_eq, R'.size_eq]
    simp
  · intro b hb; rw [hh, Function.update_of_ne hb]
  · rw [hh, Function.update_self]

/-! ### the fit as a function of the history -/

/-- the retained pair of `tail_fit` -/
def fitStepL (acc : α × α × α) (est : Est α) : α × α × α :=
  if is_nan acc.1 || est.llhood >. acc.1 then (est.llhood, est.gamma, est.sigma) else acc

/-- `(max log-likelihood, gamma, sigma)` after `tail_fit`; `g0`, `s0` are the old parameters -/
def fitL (M : MathFns α) (g0 s0 : α) (st : Stats α) (l : List α) : α × α × α :=
  fitStepL (fitStepL (cNAN, g0, s0) (momL M st.e st.e2 l)) (grimshawL M st.e st.min st.max l)

theorem tailFitL_eq (M : MathFns α) (t : Tail α) (l : List α) :
    tailFitL M t l = ((fitL M t.gamma t.sigma t.peaks.stats l).1,
      { t with gamma := (fitL M t.gamma t.sigma t.peaks.stats l).2.1,
               sigma := (fitL M t.gamma t.sigma t.peaks.stats l).2.2 }) := by
  unfold tailFitL fitL tail_fit_step fitStepL Peaks.stats
  simp only
  split <;> split <;> simp_all

/-- tail with given parameters; `tail_quantile` and `tail_probability` do not look at the peaks -/
def mkTail (g s : α) : Tail α := ⟨g, s, ⟨cNAN, cNAN, cNAN, cNAN, ⟨0, 0, cNAN, 0, none⟩⟩⟩

theorem tail_quantile_mk (M : MathFns α) (t : Tail α) (s q : α) :
    tail_quantile M t s q = tail_quantile M (mkTail t.gamma t.sigma) s q := rfl

theorem tail_probability_mk (M : MathFns α) (t : Tail α) (s d : α) :
    tail_probability M t s d = tail_probability M (mkTail t.gamma t.sigma) s d := rfl

/-! ### the pure machine -/

/-- scalar part of a detector -/
structure Core (α : Type) where
  q : α
  level : α
  discard : ℤ
  low : ℤ
  up_down : α
  at_ : α
  et : α
  Nt : UInt64
  n : UInt64
  gamma : α
  sigma : α

def Spot.core (s : Spot α) : Core α :=
  ⟨s.q, s.level, s.discard_anomalies, s.low, s.up_down, s.anomaly_threshold, s.excess_threshold, s.Nt, s.n,
    s.tail.gamma, s.tail.sigma⟩

def quantileC (M : MathFns α) (k : Core α) (q : α) : C α := do
  let t ← tail_quantile M (mkTail k.gamma k.sigma) (lit k.Nt.toNat /. lit k.n.toNat) q
  .ok (k.et +. k.up_down *. t)

def probabilityC (M : MathFns α) (k : Core α) (z : α) : C α :=
  tail_probability M (mkTail k.gamma k.sigma) (lit k.Nt.toNat /. lit k.n.toNat) (k.up_down *. (z -. k.et))

theorem spot_quantile_core (M : MathFns α) (s : Spot α) (q : α) : spot_quantile M s q = quantileC M s.core q := rfl
theorem spot_probability_core (M : MathFns α) (s : Spot α) (z : α) :
    spot_probability M s z = probabilityC M s.core z := rfl

/-- parameters re-estimated from the history -/
def refit (M : MathFns α) (c : ℕ) (k : Core α) (xs : List α) : Core α :=
  { k with gamma := (fitL M k.gamma k.sigma (statsOf c xs) (slots c xs)).2.1,
           sigma := (fitL M k.gamma k.sigma (statsOf c xs) (slots c xs)).2.2 }

/-- `spot_step` on the pure machine: result code, scalars, history -/
def stepC (M : MathFns α) (c : ℕ) (k : Core α) (xs : List α) (x : α) : C (ℤ × Core α × List α) :=
  if is_nan x then .ok (-ERR_DATA_IS_NAN, k, xs)
  else if k.discard ≠ 0 && k.up_down *. (x -. k.at_) >. lit 0 then .ok (ANOMALY, k, xs)
  else
    let k1 : Core α := { k with n := k.n + 1 }
    let ex := k.up_down *. (x -. k.et)
    if ex >=. lit 0 then do
      let k2 := refit M c { k1 with Nt := k1.Nt + 1 } (xs ++ [ex])
      let z ← quantileC M k2 k2.q
      .ok (EXCESS, { k2 with at_ := z }, xs ++ [ex])
    else .ok (NORMAL, k1, xs)

/-- the excesses recorded by `spot_fit` -/
def fitExcesses (ud et : α) (data : List α) : List α := (data.map (fun x => ud *. (x -. et))).filter (· >. lit 0)

/-- `spot_fit` on the pure machine -/
def fitC (M : MathFns α) (c : ℕ) (k : Core α) (xs : List α) (data : List α) (size : UInt64) :
    C (ℤ × Core α × List α) := do
  let k : Core α := { k with Nt := 0, n := size }
  let et ← (if k.low ≠ 0 then p2_quantile (lit 1 -. k.level) data size else p2_quantile k.level data size : C α)
  if is_nan et then .ok (-ERR_EXCESS_THRESHOLD_IS_NAN, k, xs)
  else
    let ys := fitExcesses k.up_down et (data.take size.toNat)
    let k := refit M c { k with et := et, Nt := UInt64.ofNat ys.length } (xs ++ ys)
    let z ← quantileC M k k.q
    let k : Core α := { k with at_ := z }
    if is_nan z then .ok (-ERR_ANOMALY_THRESHOLD_IS_NAN, k, xs ++ ys) else .ok (0, k, xs ++ ys)

/-! ### refinement -/

/-- A detector whose tail buffer is the block at `a`, of capacity `c`, after recording the excesses `xs`. -/
def SpotInv (h : Heap α) (s : Spot α) (a c : ℕ) (xs : List α) : Prop := PeaksInv h s.tail.peaks a c xs

/-- result `r` of the code corresponds to the result `p` of the pure machine started with heap `h` -/
def Refines (h : Heap α) (a c : ℕ) (r : C (ℤ × Spot α × Heap α)) (p : C (ℤ × Core α × List α)) : Prop :=
  match p with
  | .error e => r = .error e
  | .ok (code, k, xs) => ∃ s' h', r = .ok (code, s', h') ∧ s'.core = k ∧ SpotInv h' s' a c xs ∧ Frame h h' a c

variable {M : MathFns α} {h : Heap α} {s : Spot α} {a c : ℕ} {xs : List α}

theorem tail_fit_inv {t : Tail α} (I : PeaksInv h t.peaks a c xs) :
    tail_fit M h t = .ok ((fitL M t.gamma t.sigma (statsOf c xs) (slots c xs)).1,
      { t with gamma := (fitL M t.gamma t.sigma (statsOf c xs) (slots c xs)).2.1,
               sigma := (fitL M t.gamma t.sigma (statsOf c xs) (slots c xs)).2.2 }) := by
  rw [tail_fit_eq I.ring.stored, tailFitL_eq, I.stats]

theorem step_refines (I : SpotInv h s a c xs) (x : α) :
    Refines h a c (spot_step M h s x) (stepC M c s.core xs x) := by
  have hf := I.ring.frame_refl
  unfold spot_step stepC
  by_cases h1 : is_nan x
  · simp only [h1, if_true, Refines]
    exact ⟨s, h, rfl, rfl, I, hf⟩
  simp only [h1]
  by_cases h2 : s.discard_anomalies ≠ 0 && s.up_down *. (x -. s.anomaly_threshold) >. lit 0
  · have h2' : s.core.discard ≠ 0 && s.core.up_down *. (x -. s.core.at_) >. lit 0 := h2
    rw [if_pos h2, if_pos h2']
    exact ⟨s, h, rfl, rfl, I, hf⟩
  have h2' : ¬ (s.core.discard ≠ 0 && s.core.up_down *. (x -. s.core.at_) >. lit 0) = true := h2
  rw [if_neg h2, if_neg h2']
  simp only [Bool.false_eq_true, if_false]
  by_cases h3 : (s.up_down *. (x -. s.excess_threshold)) >=. lit 0
  · have h3' : (s.core.up_down *. (x -. s.core.et)) >=. lit 0 := h3
    rw [if_pos h3, if_pos h3']
    obtain ⟨p', h', hp, I', F⟩ := PeaksInv.push I (s.up_down *. (x -. s.excess_threshold))
    unfold tail_push
    rw [hp]
    simp only [C.ok_bind]
    rw [tail_fit_inv (t := { s.tail with peaks := p' }) I']
    simp only [C.ok_bind]
    rw [spot_quantile_core]
    set K := refit M c { s.core with n := s.core.n + 1, Nt := s.core.Nt + 1 }
      (xs ++ [s.core.up_down *. (x -. s.core.et)]) with hK
    show Refines h a c (quantileC M K s.q >>= _) (quantileC M K K.q >>= _)
    have hq : K.q = s.q := rfl
    rw [hq]
    cases quantileC M K s.q with
    | error e => rfl
    | ok z => exact ⟨_, h', rfl, rfl, I', F⟩
  · have h3' : ¬ ((s.core.up_down *. (x -. s.core.et)) >=. lit 0) = true := h3
    rw [if_neg h3, if_neg h3']
    exact ⟨_, h, rfl, rfl, I, hf⟩

theorem fit_loop (et : α) (data : List α) (s : Spot α) (h : Heap α) (xs : List α) (I : SpotInv h s a c xs) :
    ∃ p' h', data.foldlM (fit_body et) (s, h) =
      .ok ({ s with Nt := s.Nt + UInt64.ofNat (fitExcesses s.up_down et data).length,
                    tail := { s.tail with peaks := p' } }, h') ∧
      PeaksInv h' p' a c (xs ++ fitExcesses s.up_down et data) ∧ Frame h h' a c := by
  induction data generalizing s h xs with
  | nil => exact ⟨s.tail.peaks, h, by simp [fitExcesses], by simpa [fitExcesses, SpotInv] using I, I.ring.frame_refl⟩
  | cons x data ih =>
    rw [List.foldlM_cons]
    unfold fit_body
    simp only
    by_cases hx : (s.up_down *. (x -. et)) >. lit 0
    · rw [if_pos hx]
      obtain ⟨p', h', hp, I', F⟩ := PeaksInv.push I (s.up_down *. (x -. et))
      unfold tail_push
      rw [hp]
      simp only [C.ok_bind]
      obtain ⟨p'', h'', hp'', I'', F''⟩ := ih { s with Nt := s.Nt + 1, tail := { s.tail with peaks := p' } } h'
        (xs ++ [s.up_down *. (x -. et)]) I'
      refine ⟨p'', h'', ?_, ?_, F.trans F''⟩
      · have hfe : fitExcesses s.up_down et (x :: data) =
            (s.up_down *. (x -. et)) :: fitExcesses s.up_down et data := by
          unfold fitExcesses; simp [hx]
        unfold fit_body at hp''
        simp only at hp''
        unfold tail_push at hp''
        rw [hp'', hfe]
        simp only [List.length_cons, Except.ok.injEq, Prod.mk.injEq, and_true]
        congr 1
        rw [UInt64.ofNat_add, UInt64.add_assoc]
        congr 1
        rw [UInt64.add_comm]; rfl
      · simpa [fitExcesses, hx] using I''
    · rw [if_neg hx]
      simp only [C.ok_bind]
      obtain ⟨p'', h'', hp'', I'', F''⟩ := ih s h xs I
      refine ⟨p'', h'', ?_, ?_, F''⟩
      · unfold fit_body at hp''
        simp only at hp''
        rw [hp'']
        simp [fitExcesses, hx]
      · simpa [fitExcesses, hx] using I''

theorem fit_refines [CDoubleLaws α] (I : SpotInv h s a c xs) (data : List α) (size : UInt64)
    (hs : size.toNat ≤ data.length) :
    Refines h a c (spot_fit M h s data size) (fitC M c s.core xs data size) := by
  unfold spot_fit fitC
  have hlow : s.core.low = s.low := rfl
  have hlev : s.core.level = s.level := rfl
  simp only [hlow, hlev]
  have hE : ∃ v, (if s.low ≠ 0 then p2_quantile (lit 1 -. s.level) data size else p2_quantile s.level data size : C α) =
      .ok v := by
    split <;> exact p2_quantile_ok _ _ _ hs
  obtain ⟨et, het⟩ := hE
  rw [het]
  simp only [C.ok_bind]
  by_cases hn : is_nan et
  · rw [if_pos hn, if_pos hn]
    exact ⟨_, h, rfl, rfl, I, I.ring.frame_refl⟩
  · rw [if_neg hn, if_neg hn]
    have hlen : size.toNat = (data.take size.toNat).length := by simp; omega
    rw [foldlM_read' (f := fun st x => fit_body et st x) (rd := fun i => loadBuf data i) (data.take size.toNat) _ _ hlen
      (by intro i hi; simp at hi; rw [loadBuf_ok (by omega)]; simp)]
    obtain ⟨p', h', hp, I', F⟩ := fit_loop (c := c) (a := a) et (data.take size.toNat)
      { s with Nt := 0, n := size, excess_threshold := et } h xs I
    rw [hp]
    simp only [C.ok_bind]
    rw [tail_fit_inv (t := { s.tail with peaks := p' }) I']
    simp only [C.ok_bind]
    rw [spot_quantile_core]
    simp only [UInt64.zero_add]
    set K := refit M c { s.core with n := size, et := et, Nt := UInt64.ofNat (fitExcesses s.core.up_down et
      (data.take size.toNat)).length } (xs ++ fitExcesses s.core.up_down et (data.take size.toNat)) with hK
    show Refines h a c (quantileC M K s.q >>= _) (quantileC M K K.q >>= _)
    have hq : K.q = s.q := rfl
    rw [hq]
    cases quantileC M K s.q with
    | error e => rfl
    | ok z =>
      simp only [C.ok_bind]
      by_cases hz : is_nan z
      · rw [if_pos hz, if_pos hz]
        exact ⟨_, h', rfl, rfl, I', F⟩
      · rw [if_neg hz, if_neg hz]
        exact ⟨_, h', rfl, rfl, I', F⟩

end Verif

/-
Statistics of the stored peaks.
-/
import Verif.Proofs.Init
import Verif.XR.Simp
import Verif.Spec.Stats

set_option linter.unusedSectionVars false

namespace Verif

section general
variable {α : Type} [CDouble α]

theorem pushAll_ring {h : Heap α} {u : Ubend α} {a c : ℕ} {xs : List α} (R : Ring h u a c xs) (ys : List α) :
    ∃ outs u' h', pushAll h u ys = .ok (outs, u', h') ∧ Ring h' u' a c (xs ++ ys) ∧ outs.length = ys.length ∧
      ∀ j (hj : j < outs.length), outs[j] =
        if xs.length + j < c then cNAN else ((xs ++ ys)[xs.length + j - c]?).getD cNAN := by
  induction ys generalizing h u xs with
  | nil => exact ⟨[], u, h, rfl, by simpa using R, rfl, by simp⟩
  | cons y ys ih =>
    obtain ⟨u1, h1, _, e1, R1, _, _⟩ := R.push y
    obtain ⟨outs, u2, h2, e2, R2, hl, ho⟩ := ih R1
    refine ⟨u1.last_erased_data :: outs, u2, h2, ?_, by simpa using R2, by simp [hl], ?_⟩
    · rw [pushAll, e1]; simp only [C.ok_bind, e2]
    · intro j hj
      cases j with
      | zero =>
        have := R1.erased_eq
        simp only [List.getElem_cons_zero, this, Nat.add_zero]
        unfold erasedOf
        simp only [List.length_append, List.length_cons, List.length_nil, zero_add]
        by_cases hc : xs.length < c
        · rw [if_pos (by omega), if_pos hc]
        · rw [if_neg (by omega), if_neg hc]
          have hp := R.pos
          rw [show xs.length + 1 - 1 - c = xs.length - c by omega,
            List.getElem?_append_left (by omega), List.getElem?_append_left (by omega)]
      | succ j =>
        have := ho j (by simpa using hj)
        simp only [List.getElem_cons_succ, this]
        simp only [List.length_append, List.length_cons, List.length_nil, zero_add, List.append_assoc,
          List.cons_append, List.nil_append]
        rw [show xs.length + 1 + j = xs.length + (j + 1) by omega]

theorem peaksPushAll_inv {h : Heap α} {p : Peaks α} {a c : ℕ} {xs : List α} (I : PeaksInv h p a c xs) (ys : List α) :
    ∃ p' h', peaksPushAll h p ys = .ok (p', h') ∧ PeaksInv h' p' a c (xs ++ ys) := by
  induction ys generalizing h p xs with
  | nil => exact ⟨p, h, rfl, by simpa using I⟩
  | cons y ys ih =>
    obtain ⟨p1, h1, e1, I1, _⟩ := I.push y
    obtain ⟨p2, h2, e2, I2⟩ := ih I1
    exact ⟨p2, h2, by rw [peaksPushAll, e1]; simpa using e2, by simpa using I2⟩

theorem peaks_init_inv {lib : Lib α} {h : Heap α} {cap : UInt64} (h1 : 1 ≤ cap.toNat) (h2 : cap.toNat < 2 ^ 61)
    (h0 : (peaks_init lib h cap).1 = 0) :
    ∃ a, PeaksInv (peaks_init lib h cap).2.2 (peaks_init lib h cap).2.1 a cap.toNat [] := by
  have hu : (ubend_init lib h cap).1 = 0 := h0
  cases hx : (xmalloc lib h (cap * 8)).1 with
  | none =>
    unfold ubend_init at hu
    simp [hx, ERR_MEMORY_ALLOCATION_FAILED] at hu
  | some a =>
    obtain ⟨_, _, r3⟩ := Ring.init (lib := lib) (h := h) h1 h2 hx
    exact ⟨a, r3, rfl⟩

theorem mem_set_iff {β : Type} {l : List β} {i : ℕ} {x v : β} (h : v ∈ l.set i x) : v ∈ l ∨ v = x := List.mem_or_eq_of_mem_set h

theorem slots_mem {β : Type} {c : ℕ} (hc : 0 < c) {xs : List β} {v : β} (h : v ∈ slots c xs) : v ∈ xs := by
  have := (slots_perm hc xs).mem_iff.mp h
  exact List.mem_of_mem_drop this

end general

section minmax
variable {α : Type} [CDouble α]

/-- `m` is in `l` and nothing in `l` is better, `R a b` meaning that `a` is strictly better than `b` -/
def Best (R : α → α → Bool) (m : α) (l : List α) : Prop := m ∈ l ∧ ∀ v ∈ l, R v m = false

variable {R : α → α → Bool}

omit [CDouble α] in
theorem Best.cons_improve {m x : α} {l : List α} (H : Best R m l)
    (hT : ∀ v ∈ l, R v m = false → R x m = true → R v x = false) (hI : R x x = false) :
    Best R (if R x m then x else m) (l ++ [x]) := by
  split
  · next h =>
    refine ⟨by simp, fun v hv => ?_⟩
    rcases List.mem_append.mp hv with hv | hv
    · exact hT v hv (H.2 v hv) h
    · simp only [List.mem_singleton] at hv; subst hv; exact hI
  · next h =>
    refine ⟨by simp [H.1], fun v hv => ?_⟩
    rcases List.mem_append.mp hv with hv | hv
    · exact H.2 v hv
    · simp only [List.mem_singleton] at hv; subst hv; simpa using h

/-- recomputation by a fold that starts from NaN -/
theorem best_fold (hT : ∀ a b c, is_nan a = false → is_nan b = false → is_nan c = false →
      R a b = false → R c b = true → R a c = false) (hI : ∀ a, is_nan a = false → R a a = false)
    (l : List α) (hl : ∀ v ∈ l, is_nan v = false) (hne : l ≠ []) (z : α) (hz : is_nan z = true) :
    Best R (l.foldl (fun m v => if is_nan m || R v m then v else m) z) l := by
  induction l using List.reverseRecOn with
  | nil => exact absurd rfl hne
  | append_singleton l x ih =>
    have hx : is_nan x = false := hl x (by simp)
    rw [List.foldl_append]
    simp only [List.foldl_cons, List.foldl_nil]
    by_cases hl0 : l = []
    · subst hl0
      simp only [List.foldl_nil, hz, Bool.true_or, if_true, List.nil_append]
      exact ⟨by simp, fun v hv => by simp only [List.mem_singleton] at hv; subst hv; exact hI v hx⟩
    · have hl' : ∀ v ∈ l, is_nan v = false := fun v hv => hl v (by simp [hv])
      have H := ih hl' hl0
      set m := l.foldl (fun m v => if is_nan m || R v m then v else m) z
      have hm := hl' m H.1
      rw [hm, Bool.false_or]
      exact H.cons_improve (fun v hv h1 h2 => hT v m x (hl' v hv) hm hx h1 h2) (hI x hx)

variable [CDoubleLaws α]

theorem lt_T (a b c : α) (ha : is_nan a = false) (hb : is_nan b = false) (hc : is_nan c = false)
    (h1 : (a <. b) = false) (h2 : (c <. b) = true) : (a <. c) = false := by
  rw [not_lt_iff_le ha hb] at h1
  rw [not_lt_iff_le ha hc]
  exact le_trans' (le_of_lt' h2) h1

theorem gt_T (a b c : α) (ha : is_nan a = false) (hb : is_nan b = false) (hc : is_nan c = false)
    (h1 : (a >. b) = false) (h2 : (c >. b) = true) : (a >. c) = false := by
  rw [not_lt_iff_le hb ha] at h1
  rw [not_lt_iff_le hc ha]
  exact le_trans' h1 (le_of_lt' h2)

theorem lt_I (a : α) (ha : is_nan a = false) : (a <. a) = false := by
  rw [not_lt_iff_le ha ha]; exact le_refl' ha

theorem recompute_min (l : List α) : (Stats.recompute l).min =
    l.foldl (fun m v => if is_nan m || v <. m then v else m) cNAN := by
  unfold Stats.recompute
  suffices H : ∀ s : Stats α, (l.foldl Stats.body s).min = l.foldl (fun m v => if is_nan m || v <. m then v else m) s.min
    from H _
  induction l with
  | nil => intro s; rfl
  | cons v l ih => intro s; simp only [List.foldl_cons]; rw [ih]; rfl

theorem recompute_max (l : List α) : (Stats.recompute l).max =
    l.foldl (fun m v => if is_nan m || v >. m then v else m) cNAN := by
  unfold Stats.recompute
  suffices H : ∀ s : Stats α, (l.foldl Stats.body s).max = l.foldl (fun m v => if is_nan m || v >. m then v else m) s.max
    from H _
  induction l with
  | nil => intro s; rfl
  | cons v l ih => intro s; simp only [List.foldl_cons]; rw [ih]; rfl

theorem recompute_e (l : List α) : (Stats.recompute l).e = l.foldl (· +. ·) (lit 0) := by
  unfold Stats.recompute
  suffices H : ∀ s : Stats α, (l.foldl Stats.body s).e = l.foldl (· +. ·) s.e from H _
  induction l with
  | nil => intro s; rfl
  | cons v l ih => intro s; simp only [List.foldl_cons]; rw [ih]; rfl

/-- both extremes are right -/
def Extremes (s : Stats α) (l : List α) : Prop := Best (· <. ·) s.min l ∧ Best (fun a b => b <. a) s.max l

theorem recompute_extremes (l : List α) (hl : ∀ v ∈ l, is_nan v = false) (hne : l ≠ []) :
    Extremes (Stats.recompute l) l := by
  constructor
  · rw [recompute_min]
    exact best_fold (R := (· <. ·)) (fun a b c => lt_T a b c) lt_I l hl hne _ CDoubleLaws.nan_cNAN
  · rw [recompute_max]
    exact best_fold (R := fun a b => b <. a) (fun a b c => gt_T a b c) lt_I l hl hne _ CDoubleLaws.nan_cNAN

/-- replacing a slot whose content is not the best one -/
theorem Best.set {m x : α} {R : α → α → Bool} {l : List α} {i : ℕ} (hi : i < l.length) (H : Best R m (l ++ [x]))
    (hne : m ≠ l[i] ) : Best R m (l.set i x) := by
  obtain ⟨h1, h2⟩ := H
  constructor
  · rcases List.mem_append.mp h1 with h | h
    · obtain ⟨j, hj, rfl⟩ := List.getElem_of_mem h
      have hij : i ≠ j := by rintro rfl; exact hne rfl
      have : (l.set i x)[j]'(by simpa using hj) = l[j] := List.getElem_set_ne hij _
      rw [← this]; exact List.getElem_mem _
    · simp only [List.mem_singleton] at h; subst h
      exact List.mem_set hi _
  · intro v hv
    apply h2
    rcases mem_set_iff hv with h | h
    · simp [h]
    · simp [h]

theorem size_one_iff {c n : ℕ} (hc : 0 < c) (hb : c < 2 ^ 61) :
    (UInt64.ofNat (min (n + 1) c) = 1) ↔ (n = 0 ∨ c = 1) := by
  rw [← UInt64.toNat_inj, UInt64.toNat_ofNat', show (1 : UInt64).toNat = 1 from rfl, Nat.mod_eq_of_lt (by omega)]
  omega

/-- the statistics after an insertion and before the eviction, on the old slots and `x` -/
theorem incr_extremes {c : ℕ} (hc : 0 < c) (hb : c < 2 ^ 61) (xs : List α) (x : α) (hxs : ∀ v ∈ xs, is_nan v = false)
    (hxx : is_nan x = false) (ih : xs ≠ [] → Extremes (statsOf c xs) (slots c xs)) :
    Extremes ((statsOf c xs).incr (UInt64.ofNat (min (xs.length + 1) c)) x)
      (if c = 1 then [x] else slots c xs ++ [x]) := by
  have hsl : ∀ v ∈ slots c xs, is_nan v = false := fun v hv => hxs v (slots_mem hc hv)
  by_cases h1 : xs.length = 0 ∨ c = 1
  · have hs : (if c = 1 then [x] else slots c xs ++ [x]) = [x] := by
      split
      · rfl
      · have : xs = [] := by simpa using h1.resolve_right (by assumption)
        subst this; simp [slots_nil]
    rw [hs]
    have hsz := (size_one_iff (n := xs.length) hc hb).mpr h1
    unfold Stats.incr
    simp only [hsz, decide_true, Bool.true_or, if_true]
    exact ⟨⟨by simp, fun v hv => by simp only [List.mem_singleton] at hv; subst hv; exact lt_I v hxx⟩,
      ⟨by simp, fun v hv => by simp only [List.mem_singleton] at hv; subst hv; exact lt_I v hxx⟩⟩
  · have hsz : ¬ (UInt64.ofNat (min (xs.length + 1) c) = 1) := fun hh => h1 ((size_one_iff hc hb).mp hh)
    have hxs0 : xs ≠ [] := by rintro rfl; simp at h1
    obtain ⟨i1, i2⟩ := ih hxs0
    rw [if_neg (fun hh => h1 (Or.inr hh))]
    unfold Stats.incr
    simp only [hsz, decide_false, Bool.false_or]
    exact ⟨i1.cons_improve (fun v hv g1 g2 => lt_T v _ x (hsl v hv) (hsl _ i1.1) hxx g1 g2) (lt_I x hxx),
      i2.cons_improve (fun v hv g1 g2 => gt_T v _ x (hsl v hv) (hsl _ i2.1) hxx g1 g2) (lt_I x hxx)⟩

theorem statsOf_extremes {c : ℕ} (hc : 0 < c) (hb : c < 2 ^ 61) (xs : List α) (hx : ∀ v ∈ xs, is_nan v = false)
    (hne : xs ≠ []) : Extremes (statsOf c xs) (slots c xs) := by
  induction xs using List.reverseRecOn with
  | nil => exact absurd rfl hne
  | append_singleton xs x ih =>
    have hxx : is_nan x = false := hx x (by simp)
    have hxs : ∀ v ∈ xs, is_nan v = false := fun v hv => hx v (by simp [hv])
    have hsl : ∀ v ∈ slots c xs, is_nan v = false := fun v hv => hxs v (slots_mem hc hv)
    have hsl' : ∀ v ∈ slots c (xs ++ [x]), is_nan v = false := fun v hv => hx v (slots_mem hc hv)
    have hne' : slots c (xs ++ [x]) ≠ [] := by
      intro h
      have := slots_length (c := c) (xs ++ [x])
      rw [h] at this; simp at this; omega
    rw [statsOf_snoc]
    have hincr := incr_extremes hc hb xs x hxs hxx (ih hxs)
    set s1 := (statsOf c xs).incr (UInt64.ofNat (min (xs.length + 1) c)) x with hs1
    by_cases hfull : xs.length < c
    · -- filling
      have he : erasedOf c (xs ++ [x]) = cNAN := by
        unfold erasedOf; rw [if_pos (by simp; omega)]
      unfold Stats.evict
      rw [he, CDoubleLaws.nan_cNAN]
      simp only [Bool.not_true, Bool.false_eq_true, if_false]
      rw [slots_snoc, if_pos hfull]
      by_cases h1 : c = 1
      · have hx0 : xs = [] := by
          have : xs.length = 0 := by omega
          simpa using this
        subst hx0
        rw [if_pos h1] at hincr
        simpa [slots_nil] using hincr
      · rw [if_neg h1] at hincr; exact hincr
    · have hlt : xs.length % c < (slots c xs).length := by
        rw [slots_length]; have := Nat.mod_lt xs.length hc; omega
      have he : erasedOf c (xs ++ [x]) = (slots c xs)[xs.length % c] := by
        unfold erasedOf
        rw [if_neg (by simp; omega)]
        simp only [List.length_append, List.length_cons, List.length_nil, zero_add, Nat.add_sub_cancel]
        rw [List.getElem?_append_left (by omega), ← slots_oldest hc xs (by omega), List.getElem?_eq_getElem hlt]
        rfl
      have hen : is_nan (erasedOf c (xs ++ [x])) = false := by rw [he]; exact hsl _ (List.getElem_mem _)
      unfold Stats.evict
      rw [hen]
      simp only [Bool.not_false, if_true]
      split
      · exact recompute_extremes _ hsl' hne'
      · next hcond =>
        simp only [Bool.or_eq_true, not_or, Bool.not_eq_true] at hcond
        obtain ⟨g1, g2⟩ := hcond
        by_cases h1 : c = 1
        · -- with a single slot the evicted value is compared with the new one: always recomputed
          exfalso
          rw [if_pos h1] at hincr
          have m1 : s1.min = x := by simpa using hincr.1.1
          have m2 : s1.max = x := by simpa using hincr.2.1
          rw [m1] at g1
          rw [m2] at g2
          have l1 : (x <. erasedOf c (xs ++ [x])) = true := by
            by_contra hh
            rw [Bool.not_eq_true, not_lt_iff_le hxx hen, g1] at hh
            cases hh
          rw [le_of_lt' l1] at g2
          cases g2
        · rw [if_neg h1] at hincr
          rw [slots_snoc, if_neg hfull]
          have hm1 : is_nan s1.min = false := by
            have := hincr.1.1
            rcases List.mem_append.mp this with h | h
            · exact hsl _ h
            · simp only [List.mem_singleton] at h; rw [h]; exact hxx
          have hm2 : is_nan s1.max = false := by
            have := hincr.2.1
            rcases List.mem_append.mp this with h | h
            · exact hsl _ h
            · simp only [List.mem_singleton] at h; rw [h]; exact hxx
          refine ⟨hincr.1.set hlt ?_, hincr.2.set hlt ?_⟩
          · intro hh
            rw [← he] at hh
            rw [← hh, le_refl' hm1] at g1; cases g1
          · intro hh
            rw [← he] at hh
            rw [← hh, le_refl' hm2] at g2; cases g2

end minmax

section exact
open XR

theorem slots_map {β γ : Type} (f : β → γ) (c : ℕ) (xs : List β) : slots c (xs.map f) = (slots c xs).map f := by
  induction xs using List.reverseRecOn with
  | nil => rfl
  | append_singleton xs x ih =>
    rw [List.map_append, List.map_singleton, slots_snoc, slots_snoc, ih, List.length_map]
    split
    · simp
    · rw [List.map_set]

theorem foldl_fin_sum (l : List ℝ) (s : ℝ) : (l.map fin).foldl (· +. ·) (fin s) = fin (s + l.sum) := by
  induction l generalizing s with
  | nil => simp
  | cons x l ih => simp only [List.map_cons, List.foldl_cons, add_ff, ih, List.sum_cons]; congr 1; ring

theorem erasedOf_fin {c : ℕ} (hc : 0 < c) (xs : List ℝ) (x : ℝ) (h : ¬ xs.length < c)
    (hlt : xs.length % c < (slots c xs).length) :
    erasedOf c (xs.map fin ++ [fin x]) = fin ((slots c xs)[xs.length % c]) := by
  unfold erasedOf
  rw [if_neg (by simp; omega)]
  simp only [List.length_append, List.length_map, List.length_cons, List.length_nil, zero_add, Nat.add_sub_cancel]
  rw [List.getElem?_append_left (by simp; omega), List.getElem?_map, ← slots_oldest hc xs (by omega),
    List.getElem?_eq_getElem hlt]
  rfl

theorem sum_set_real (l : List ℝ) (i : ℕ) (hi : i < l.length) (x : ℝ) : (l.set i x).sum = l.sum - l[i] + x := by
  rw [List.sum_set', dif_pos hi]; ring

theorem statsOf_sum {c : ℕ} (hc : 0 < c) (xs : List ℝ) :
    (statsOf c (xs.map fin)).e = fin (slots c xs).sum := by
  induction xs using List.reverseRecOn with
  | nil => simp [statsOf, statsRev, slots_nil, lit_fin]
  | append_singleton xs x ih =>
    rw [List.map_append, List.map_singleton, statsOf_snoc]
    unfold Stats.evict
    have hs : slots c (xs.map fin ++ [fin x]) = (slots c (xs ++ [x])).map fin := by
      rw [← slots_map]; simp
    by_cases hf : xs.length < c
    · have he : erasedOf c (xs.map fin ++ [fin x]) = cNAN := by
        unfold erasedOf; rw [if_pos (by simp; omega)]
      rw [he, CDoubleLaws.nan_cNAN]
      simp only [Bool.not_true, Bool.false_eq_true, if_false]
      unfold Stats.incr
      simp only [ih, add_ff]
      rw [slots_snoc, if_pos hf]; simp
    · have hlt : xs.length % c < (slots c xs).length := by
        rw [slots_length]; have := Nat.mod_lt xs.length hc; omega
      rw [erasedOf_fin hc xs x hf hlt, nan_f]
      simp only [Bool.not_false, if_true]
      split
      · rw [recompute_e, hs, lit_fin, foldl_fin_sum]; simp
      · unfold Stats.incr
        simp only [ih, add_ff, sub_ff]
        rw [slots_snoc, if_neg hf, sum_set_real _ _ hlt]
        congr 1; ring

theorem NoExtremeEvicted.init {c : ℕ} {xs : List ℝ} {x : ℝ} (H : Spec.NoExtremeEvicted c (xs ++ [x])) :
    Spec.NoExtremeEvicted c xs := by
  intro j h1 h2
  obtain ⟨⟨i, a1, a2, a3⟩, k, b1, b2, b3⟩ := H j h1 (by simp; omega)
  have hg : ∀ m, m ≤ j → (xs ++ [x]).getD m 0 = xs.getD m 0 := by
    intro m hm
    simp only [List.getD_eq_getElem?_getD]
    rw [List.getElem?_append_left (by omega)]
  rw [hg i a2, hg (j - c) (by omega)] at a3
  rw [hg k b2, hg (j - c) (by omega)] at b3
  exact ⟨⟨i, a1, a2, a3⟩, k, b1, b2, b3⟩

theorem slots_contains {c : ℕ} (hc : 0 < c) (xs : List ℝ) (x : ℝ) (i : ℕ) (h1 : xs.length - c < i ∨ xs.length < c)
    (h2 : i ≤ xs.length) : (xs ++ [x]).getD i 0 ∈ slots c xs ++ [x] := by
  rcases Nat.lt_or_eq_of_le h2 with h | h
  · have hm : (xs ++ [x]).getD i 0 = xs[i] := by
      simp only [List.getD_eq_getElem?_getD]
      rw [List.getElem?_append_left h, List.getElem?_eq_getElem h]; rfl
    rw [hm]
    apply List.mem_append_left
    rw [(slots_perm hc xs).mem_iff]
    unfold Spec.lastN
    rw [List.mem_drop_iff_getElem]
    refine ⟨i - (xs.length - c), ?_, ?_⟩
    · omega
    · congr 1; omega
  · subst h; simp

theorem foldl_body_e2 (l : List ℝ) (v : ℝ) (s : Stats XR) :
    ((l ++ [v]).map fin |>.foldl Stats.body s).e2 = fin (v * v) := by
  rw [List.map_append, List.foldl_append]
  rfl

theorem statsOf_sumsq {c : ℕ} (hc : 0 < c) (hb : c < 2 ^ 61) (xs : List ℝ)
    (H : c = 1 ∨ Spec.NoExtremeEvicted c xs) :
    (statsOf c (xs.map fin)).e2 = fin ((slots c xs).map (fun v => v * v)).sum := by
  induction xs using List.reverseRecOn with
  | nil => simp [statsOf, statsRev, slots_nil, lit_fin]
  | append_singleton xs x ih =>
    have ih := ih (H.imp id NoExtremeEvicted.init)
    rw [List.map_append, List.map_singleton, statsOf_snoc]
    unfold Stats.evict
    have hs : slots c (xs.map fin ++ [fin x]) = (slots c (xs ++ [x])).map fin := by
      rw [← slots_map]; simp
    by_cases hf : xs.length < c
    · have he : erasedOf c (xs.map fin ++ [fin x]) = cNAN := by
        unfold erasedOf; rw [if_pos (by simp; omega)]
      rw [he, CDoubleLaws.nan_cNAN]
      simp only [Bool.not_true, Bool.false_eq_true, if_false]
      unfold Stats.incr
      simp only [ih, add_ff, mul_ff]
      rw [slots_snoc, if_pos hf]; simp
    · have hlt : xs.length % c < (slots c xs).length := by
        rw [slots_length]; have := Nat.mod_lt xs.length hc; omega
      rw [erasedOf_fin hc xs x hf hlt, nan_f]
      simp only [Bool.not_false, if_true]
      have hfin : ∀ v ∈ xs.map fin, is_nan v = false := by
        intro v hv
        obtain ⟨r, _, rfl⟩ := List.mem_map.mp hv
        exact nan_f r
      have hE := incr_extremes hc hb (xs.map fin) (fin x) hfin (nan_f x)
        (fun hne => statsOf_extremes hc hb _ hfin hne)
      by_cases h1 : c = 1
      · subst h1
        have hs1 : slots 1 (xs ++ [x]) = [x] := by
          have hl := slots_length (c := 1) xs
          have hxl : 1 ≤ xs.length := by omega
          rw [slots_snoc, if_neg hf, Nat.mod_one]
          have hl1 : (slots 1 xs).length = 1 := by omega
          obtain ⟨v, hv⟩ := List.length_eq_one_iff.mp hl1
          rw [hv]; rfl
        split
        · unfold Stats.recompute
          rw [hs, hs1]
          simp [Stats.body, mul_ff]
        · unfold Stats.incr
          simp only [ih, add_ff, sub_ff, mul_ff]
          rw [hs1]
          have hl := slots_length (c := 1) xs
          have hl1 : (slots 1 xs).length = 1 := by omega
          obtain ⟨v, hv⟩ := List.length_eq_one_iff.mp hl1
          simp [hv]
      · rw [if_neg h1] at hE
        have HN := H.resolve_left h1
        obtain ⟨⟨i, a1, a2, a3⟩, k, b1, b2, b3⟩ := HN xs.length (by omega) (by simp)
        have hold : (xs ++ [x]).getD (xs.length - c) 0 = (slots c xs)[xs.length % c] := by
          simp only [List.getD_eq_getElem?_getD]
          rw [List.getElem?_append_left (by omega), ← slots_oldest hc xs (by omega), List.getElem?_eq_getElem hlt]
          rfl
        rw [hold] at a3 b3
        have m1 := slots_contains hc xs x i (Or.inl a1) a2
        have m2 := slots_contains hc xs x k (Or.inl b1) b2
        have hmem : ∀ v, v ∈ slots c xs ++ [x] → fin v ∈ slots c (xs.map fin) ++ [fin x] := by
          intro v hv
          rw [slots_map, ← List.map_singleton, ← List.map_append]
          exact List.mem_map_of_mem hv
        simp only [List.length_map] at hE
        have e1 := hE.1.2 _ (hmem _ m1)
        have e2 := hE.2.2 _ (hmem _ m2)
        rw [if_neg]
        · unfold Stats.incr
          simp only [ih, add_ff, sub_ff, mul_ff]
          rw [slots_snoc, if_neg hf, List.map_set, sum_set_real _ _ (by simpa using hlt)]
          simp only [List.getElem_map]
          congr 1; ring
        · simp only [Bool.or_eq_true, not_or, Bool.not_eq_true, List.length_map]
          have hn1 := hE.1.1
          have hn2 := hE.2.1
          have hfin' : ∀ v, v ∈ slots c (xs.map fin) ++ [fin x] → ∃ r, v = fin r := by
            intro v hv
            rw [slots_map, ← List.map_singleton, ← List.map_append] at hv
            obtain ⟨r, _, rfl⟩ := List.mem_map.mp hv
            exact ⟨r, rfl⟩
          obtain ⟨r1, hr1⟩ := hfin' _ hn1
          obtain ⟨r2, hr2⟩ := hfin' _ hn2
          simp only [hr1] at e1 ⊢
          simp only [hr2] at e2 ⊢
          rw [lt_ff] at e1 e2
          rw [le_ff, le_ff]
          simp only [decide_eq_false_iff_not, not_lt, not_le] at e1 e2 ⊢
          exact ⟨by linarith, by linarith⟩

end exact
end Verif

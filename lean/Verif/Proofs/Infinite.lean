/-
What an infinite excess does to the statistics, to the fit and to the thresholds.
-/
import Verif.Proofs.MirrorRun
import Verif.Proofs.Stats
import Verif.Proofs.Regular

namespace Verif
open F64

theorem nonneg_cases {v : F64} (h : F64.le (zero false) v = true) : v = inf false ∨ (∃ s k, v = fin s k) ∧ 0 ≤ toQ v := by
  rcases v with _ | s | ⟨s, k⟩
  · cases h
  · cases s
    · exact Or.inl rfl
    · cases h
  · refine Or.inr ⟨⟨s, k, rfl⟩, ?_⟩
    have : toQ (zero false) ≤ toQ (fin s k) := by simpa [F64.le, zero] using h
    rwa [show toQ (zero false) = 0 from toQ_eq_zero.mpr rfl] at this

theorem nonneg_nan {v : F64} (h : F64.le (zero false) v = true) : is_nan v = false := by
  rcases v with _ | s | ⟨s, k⟩
  · cases h
  · cases s <;> rfl
  · show (!F64.eq (fin s k) (fin s k)) = false
    simp [F64.eq]

theorem ofRat_nonneg {z : Bool} {q : ℚ} (h : 0 ≤ q) : F64.le (zero false) (ofRat z q) = true := by
  have h0 : toQ (zero false) = 0 := toQ_eq_zero.mpr rfl
  unfold ofRat
  split
  · show decide (toQ (zero false) ≤ toQ (fin z _)) = true
    rw [h0, show toQ (fin z ⟨0, by decide⟩) = 0 from toQ_eq_zero.mpr rfl]
    simp
  · have hq : decide (q < 0) = false := by simpa using h
    dsimp only
    split
    · rw [hq]
      show decide (toQ (zero false) ≤ toQ (fin false _)) = true
      rw [h0]
      exact decide_eq_true (mag_nonneg _)
    · rw [hq]; rfl

theorem add_nonneg' {e v : F64} (he : F64.le (zero false) e = true) (hv : F64.le (zero false) v = true) :
    F64.le (zero false) (e +. v) = true := by
  rcases nonneg_cases he with rfl | ⟨⟨s, k, rfl⟩, h1⟩
  · rcases nonneg_cases hv with rfl | ⟨⟨s, k, rfl⟩, h1⟩ <;> rfl
  · rcases nonneg_cases hv with rfl | ⟨⟨t, m, rfl⟩, h2⟩
    · rfl
    · exact ofRat_nonneg (add_nonneg h1 h2)

theorem inf_add {v : F64} (hv : F64.le (zero false) v = true) : (inf false : F64) +. v = inf false := by
  rcases nonneg_cases hv with rfl | ⟨⟨s, k, rfl⟩, h1⟩ <;> rfl

/-- neither NaN nor -infinity -/
def SumOK (e : F64) : Prop := e ≠ nan ∧ e ≠ inf true

theorem add_inf {e : F64} (he : SumOK e) : e +. (inf false : F64) = inf false := by
  rcases e with _ | s | ⟨s, k⟩
  · exact absurd rfl he.1
  · cases s
    · rfl
    · exact absurd rfl he.2
  · rfl

theorem nonneg_sumOK {e : F64} (he : F64.le (zero false) e = true) : SumOK e := by
  rcases nonneg_cases he with rfl | ⟨⟨s, k, rfl⟩, h1⟩
  · exact ⟨by simp, by simp⟩
  · exact ⟨by simp, by simp⟩

theorem foldl_inf (l : List F64) (hl : ∀ v ∈ l, F64.le (zero false) v = true) :
    l.foldl (· +. ·) (inf false : F64) = inf false := by
  induction l with
  | nil => rfl
  | cons v l ih =>
    rw [List.foldl_cons, inf_add (hl v (by simp))]
    exact ih fun w hw => hl w (by simp [hw])

theorem foldl_sum_inf (l : List F64) (hl : ∀ v ∈ l, F64.le (zero false) v = true) (hi : inf false ∈ l) (e : F64)
    (he : F64.le (zero false) e = true) : l.foldl (· +. ·) e = inf false := by
  induction l generalizing e with
  | nil => cases hi
  | cons v l ih =>
    have hv := hl v (by simp)
    have hl' : ∀ w ∈ l, F64.le (zero false) w = true := fun w hw => hl w (by simp [hw])
    rw [List.foldl_cons]
    rcases List.mem_cons.mp hi with h | h
    · rw [← h, add_inf (nonneg_sumOK he)]
      exact foldl_inf l hl'
    · exact ih hl' h _ (add_nonneg' he hv)

theorem lit_zero_nonneg : F64.le (zero false) (lit 0 : F64) = true := by decide +kernel

theorem recompute_inf (l : List F64) (hl : ∀ v ∈ l, F64.le (zero false) v = true) (hi : inf false ∈ l) :
    (Stats.recompute l).e = inf false := by
  rw [recompute_e]
  exact foldl_sum_inf l hl hi _ lit_zero_nonneg

theorem erasedOf_mem (c : ℕ) (xs : List F64) : erasedOf c xs = cNAN ∨ erasedOf c xs ∈ xs := by
  unfold erasedOf
  split
  · exact Or.inl rfl
  · cases h : xs[xs.length - 1 - c]? with
    | none => exact Or.inl rfl
    | some v => exact Or.inr (by simpa using List.mem_of_getElem? h)

/-- an eviction leaves an infinite sum infinite, if an infinite value stays in the container -/
theorem evict_inf {s : Stats F64} {x : F64} {l : List F64} (hs : s.e = inf false) (hm : is_nan s.max = false)
    (hx : x = cNAN ∨ F64.le (zero false) x = true) (hl : ∀ v ∈ l, F64.le (zero false) v = true) (hi : inf false ∈ l) :
    (s.evict x l).e = inf false := by
  unfold Stats.evict
  split
  · next hn =>
    dsimp only
    split
    · exact recompute_inf l hl hi
    · next hc =>
      have hx' : F64.le (zero false) x = true := by
        rcases hx with rfl | h
        · exact absurd hn (by decide +kernel)
        · exact h
      rcases nonneg_cases hx' with rfl | ⟨⟨t, k, rfl⟩, h1⟩
      · exfalso
        apply hc
        have : F64.le s.max (inf false) = true := by
          rcases hmx : s.max with _ | t | ⟨t, k⟩
          · rw [hmx] at hm; cases hm
          · cases t <;> rfl
          · rfl
        have h2 : ((inf false : F64) >=. s.max) = true := this
        rw [h2, Bool.or_true]
      · show s.e -. fin t k = inf false
        rw [hs]; rfl
  · exact hs

/-- an infinite excess makes the tracked sum infinite for as long as it is in the container -/
theorem statsOf_inf {c : ℕ} (hc : 0 < c) (hb : c < 2 ^ 61) (pre post : List F64)
    (hx : ∀ v ∈ pre ++ inf false :: post, F64.le (zero false) v = true) (hlen : post.length < c) (he : SumOK (statsOf c pre).e) :
    (statsOf c (pre ++ inf false :: post)).e = inf false := by
  induction post using List.reverseRecOn with
  | nil =>
    have hx0 : ∀ v ∈ pre, is_nan v = false := fun v hv => nonneg_nan (hx v (by simp [hv]))
    have hE := incr_extremes hc hb pre (inf false) hx0 rfl (fun hne => statsOf_extremes hc hb pre hx0 hne)
    rw [statsOf_snoc]
    refine evict_inf (add_inf he) ?_ ?_ ?_ ?_
    · have hm := hE.2.1
      split at hm
      · rw [List.mem_singleton] at hm; rw [hm]; rfl
      · rcases List.mem_append.mp hm with h | h
        · exact hx0 _ (slots_mem hc h)
        · rw [List.mem_singleton] at h; rw [h]; rfl
    · exact (erasedOf_mem c _).imp_right fun h => hx _ h
    · exact fun v hv => hx v (slots_mem hc hv)
    · refine (slots_perm hc _).mem_iff.mpr ?_
      unfold Spec.lastN
      rw [List.drop_append_of_le_length (by simp; omega)]
      simp
  | append_singleton post x ih =>
    have hx' : ∀ v ∈ pre ++ inf false :: post, F64.le (zero false) v = true := by
      intro v hv
      apply hx
      simp only [List.mem_append, List.mem_cons] at hv ⊢
      tauto
    have h1 := ih hx' (by simp at hlen; omega)
    have hn : ∀ v ∈ pre ++ inf false :: post, is_nan v = false := fun v hv => nonneg_nan (hx' v hv)
    have hxx : F64.le (zero false) x = true := hx x (by simp)
    have e1 : pre ++ inf false :: (post ++ [x]) = (pre ++ inf false :: post) ++ [x] := by simp
    rw [e1] at hx ⊢
    have hE := incr_extremes hc hb (pre ++ inf false :: post) x hn (nonneg_nan hxx) (fun hne => statsOf_extremes hc hb _ hn hne)
    rw [statsOf_snoc]
    refine evict_inf ?_ ?_ ?_ ?_ ?_
    · show (statsOf c (pre ++ inf false :: post)).e +. x = _
      rw [h1]; exact inf_add hxx
    · have hm := hE.2.1
      split at hm
      · rw [List.mem_singleton] at hm; rw [hm]; exact nonneg_nan hxx
      · rcases List.mem_append.mp hm with h | h
        · exact hn _ (slots_mem hc h)
        · rw [List.mem_singleton] at h; rw [h]; exact nonneg_nan hxx
    · exact (erasedOf_mem c _).imp_right fun h => hx _ h
    · exact fun v hv => hx v (slots_mem hc hv)
    · refine (slots_perm hc _).mem_iff.mpr ?_
      unfold Spec.lastN
      rw [← e1, List.drop_append_of_le_length (by simp at hlen ⊢; omega)]
      simp

/-- the tracked sum before the container is full -/
theorem statsOf_sum_nonneg {c : ℕ} (xs : List F64) (hx : ∀ v ∈ xs, F64.le (zero false) v = true) (hlen : xs.length ≤ c) :
    F64.le (zero false) (statsOf c xs).e = true := by
  induction xs using List.reverseRecOn with
  | nil => exact lit_zero_nonneg
  | append_singleton xs x ih =>
    have h1 := ih (fun v hv => hx v (by simp [hv])) (by simp at hlen; omega)
    have he : erasedOf c (xs ++ [x]) = cNAN := by unfold erasedOf; rw [if_pos hlen]
    rw [statsOf_snoc, he]
    unfold Stats.evict
    rw [if_neg (by decide +kernel)]
    exact add_nonneg' h1 (hx x (by simp))

/-! ### the fit -/

theorem lit_nat_fin {n : ℕ} (hb : n < 2 ^ 61) : ∃ k : Fin finCodes, (lit (n : ℚ) : F64) = fin false k := by
  have hno : noOverflow (n : ℚ) := by
    refine noOverflow_mono (q := 2 ^ 61) ?_ (by unfold noOverflow; decide +kernel)
    rw [abs_of_nonneg (by positivity), abs_of_nonneg (by positivity)]
    exact_mod_cast hb.le
  show ∃ k, ofRat false (n : ℚ) = fin false k
  unfold ofRat
  split
  · exact ⟨_, rfl⟩
  · have hq : decide ((n : ℚ) < 0) = false := by simp
    dsimp only
    rw [dif_pos (show rnd |(n : ℚ)| < finCodes from hno), hq]
    exact ⟨_, rfl⟩

theorem nan_add (y : F64) : (nan : F64) +. y = nan := rfl

theorem foldl_add_nan {β : Type} (g : β → F64) (l : List β) : l.foldl (fun r v => r +. g v) (nan : F64) = nan := by
  induction l with
  | nil => rfl
  | cons v l ih => rw [List.foldl_cons, nan_add, ih]

/-- an infinite sum of the excesses makes the estimated shape 0 and the estimated scale infinite -/
theorem fitL_inf (fu : FloatUtils F64) (g0 s0 : F64) (st : Stats F64) (l : List F64) (he : st.e = inf false)
    (hb : l.length < 2 ^ 61) : fitL (codeMath fu) g0 s0 st l = (nan, lit 0, inf false) := by
  obtain ⟨k, hk⟩ := lit_nat_fin hb
  have hm : meanL st.e l = inf false := by unfold meanL; rw [he, hk]; rfl
  have hv : varL st.e st.e2 l = nan ∨ varL st.e st.e2 l = inf true := by
    unfold varL
    rw [he, hk]
    show F64.sub (F64.div st.e2 (fin false k)) (inf false) = nan ∨ F64.sub (F64.div st.e2 (fin false k)) (inf false) = inf true
    rcases F64.div st.e2 (fin false k) with _ | s | ⟨s, j⟩
    · exact Or.inl rfl
    · cases s
      · exact Or.inl rfl
      · exact Or.inr rfl
    · exact Or.inr rfl
  have hR : meanL st.e l *. meanL st.e l /. varL st.e st.e2 l = nan := by
    rw [hm]
    rcases hv with h | h <;> rw [h] <;> rfl
  have hlog : (codeMath fu).log nan = nan := rfl
  have hmul : ∀ y : F64, y *. nan = nan := fun y => by cases y <;> rfl
  have hsub : ∀ y : F64, y -. nan = nan := fun y => by cases y <;> rfl
  have hadd : ∀ y : F64, y +. nan = nan := fun y => by cases y <;> rfl
  have hmom : momL (codeMath fu) st.e st.e2 l = ⟨nan, nan, nan⟩ := by
    unfold momL
    dsimp only
    rw [hR, hsub, hadd, hmul, hmul]
    unfold logLikL
    rw [if_neg (by show ¬ F64.eq nan _ = true; simp [F64.eq]), hlog, hmul, foldl_add_nan]
  have hsim : simplifiedL (codeMath fu) st.e l (lit 0) = ⟨nan, lit 0, inf false⟩ := by
    have h0 : ((lit 0 : F64) ==. lit 0) = true := by decide +kernel
    unfold simplifiedL
    rw [if_pos h0, hm]
    unfold logLikL
    rw [if_pos h0, he, show (inf false : F64) /. inf false = nan from rfl, hsub]
  have hbet : ∀ root, betterL (codeMath fu) st.e l ⟨nan, lit 0, inf false⟩ root = ⟨nan, lit 0, inf false⟩ := by
    intro root
    unfold betterL
    split
    · rw [if_neg (by show ¬ F64.lt nan _ = true; simp [F64.lt])]
    · rfl
  have hgr : grimshawL (codeMath fu) st.e st.min st.max l = ⟨nan, lit 0, inf false⟩ := by
    unfold grimshawL
    dsimp only
    rw [hsim, hbet, hbet]
  unfold fitL
  rw [hmom, hgr]
  rfl

theorem mul_isFin_right' {x y : F64} (h : isFin (x *. y)) : isFin y := by
  rcases y with _ | t | ⟨t, b⟩
  · rcases x with _ | s | ⟨s, a⟩ <;> exact h
  · rcases x with _ | s | ⟨s, a⟩
    · exact h
    · exact h
    · exfalso
      have h' : isFin (if a.val = 0 then nan else inf (s != t)) := h
      split at h' <;> exact h'
  · trivial

/-- with shape 0 and an infinite scale no quantile is finite -/
theorem quantileC_inf (fu : FloatUtils F64) {k : Core F64} (hg : k.gamma = lit 0) (hs : k.sigma = inf false) {q z : F64}
    (h : quantileC (codeMath fu) k q = .ok z) : ¬ isFin z := by
  have h0 : ((lit 0 : F64) ==. lit 0) = true := by decide +kernel
  unfold quantileC tail_quantile mkTail at h
  simp only [hg, hs] at h
  rw [if_pos h0] at h
  simp only [C.ok_bind, Except.ok.injEq] at h
  rw [← h]
  intro hf
  exact mul_isFin_left (mul_isFin_right' (add_isFin hf).2)

/-! ### the pure machine -/

/-- an infinite excess was recorded and has been followed by `m` others; the parameters are those that it leads to -/
structure Silenced (c : ℕ) (k : Core F64) (xs : List F64) (m : ℕ) : Prop where
  hist : ∃ pre post, xs = pre ++ inf false :: post ∧ post.length = m ∧ SumOK (statsOf c pre).e
  nonneg : ∀ v ∈ xs, F64.le (zero false) v = true
  gamma : k.gamma = lit 0
  sigma : k.sigma = inf false
  at_ : ¬ isFin k.at_

theorem refit_inf (fu : FloatUtils F64) {c : ℕ} (hc : 0 < c) (hb : c < 2 ^ 61) (k : Core F64) (pre post : List F64)
    (hx : ∀ v ∈ pre ++ inf false :: post, F64.le (zero false) v = true) (hlen : post.length < c) (he : SumOK (statsOf c pre).e) :
    (refit (codeMath fu) c k (pre ++ inf false :: post)).gamma = lit 0 ∧
      (refit (codeMath fu) c k (pre ++ inf false :: post)).sigma = inf false := by
  have h := fitL_inf fu k.gamma k.sigma (statsOf c (pre ++ inf false :: post)) (slots c (pre ++ inf false :: post))
    (statsOf_inf hc hb pre post hx hlen he) (by rw [slots_length]; omega)
  unfold refit
  rw [h]
  exact ⟨rfl, rfl⟩

/-- a step on a silenced detector -/
theorem Silenced.step (fu : FloatUtils F64) {c : ℕ} (hc : 0 < c) (hb : c < 2 ^ 61) {k k' : Core F64} {xs xs' : List F64} {m : ℕ} {x : F64}
    {code : ℤ} (S : Silenced c k xs m) (h : stepC (codeMath fu) c k xs x = .ok (code, k', xs'))
    (hm : m + (if code = 1 then 1 else 0) < c) : Silenced c k' xs' (m + (if code = 1 then 1 else 0)) := by
  unfold stepC at h
  split at h
  · cases h; simpa [ERR_DATA_IS_NAN] using S
  split at h
  · cases h; simpa [ANOMALY] using S
  dsimp only at h
  split at h
  · next hex =>
    obtain ⟨z, hz, h⟩ := C.bind_ok h
    cases h
    obtain ⟨pre, post, rfl, hp, hs⟩ := S.hist
    rw [if_pos (show EXCESS = 1 from rfl)] at hm ⊢
    have hx : ∀ v ∈ pre ++ inf false :: (post ++ [k.up_down *. (x -. k.et)]), F64.le (zero false) v = true := by
      intro v hv
      have : v ∈ pre ++ inf false :: post ∨ v = k.up_down *. (x -. k.et) := by
        simp only [List.mem_append, List.mem_cons, List.not_mem_nil, or_false] at hv ⊢
        tauto
      rcases this with h | rfl
      · exact S.nonneg v h
      · have h0 : (lit 0 : F64) = zero false := by decide +kernel
        rw [← h0]; exact hex
    have e1 : (pre ++ inf false :: post) ++ [k.up_down *. (x -. k.et)] = pre ++ inf false :: (post ++ [k.up_down *. (x -. k.et)]) := by simp
    rw [e1] at hz ⊢
    obtain ⟨g1, g2⟩ := refit_inf fu hc hb { k with n := k.n + 1, Nt := k.Nt + 1 } pre (post ++ [k.up_down *. (x -. k.et)]) hx
      (by simp; omega) hs
    exact ⟨⟨pre, _, rfl, by simp [hp], hs⟩, hx, g1, g2, quantileC_inf fu g1 g2 hz⟩
  · cases h
    have S' : Silenced c { k with n := k.n + 1 } xs m := ⟨S.hist, S.nonneg, S.gamma, S.sigma, S.at_⟩
    simpa [NORMAL] using S'

/-- a first fit on data with an infinite excess -/
theorem Silenced.of_fit (fu : FloatUtils F64) {c : ℕ} (hc : 0 < c) (hb : c < 2 ^ 61) {k k' : Core F64} {xs : List F64} {code : ℤ}
    {data : List F64} {size : UInt64} (h : fitC (codeMath fu) c k [] data size = .ok (code, k', xs)) (hcode : code ≠ -1003)
    (hv : ∃ v ∈ data.take size.toNat, k.up_down *. (v -. k'.et) = inf false) (hlen : xs.length ≤ c) :
    ∃ m, m < xs.length ∧ k'.Nt = UInt64.ofNat xs.length ∧ Silenced c k' xs m := by
  unfold fitC at h
  dsimp only at h
  obtain ⟨et, _, h⟩ := C.bind_ok h
  split at h
  · cases h; exact absurd rfl hcode
  obtain ⟨z, hz, h⟩ := C.bind_ok h
  have key : k' = { (refit (codeMath fu) c { k with
      n := size, et := et, Nt := UInt64.ofNat (fitExcesses k.up_down et (data.take size.toNat)).length }
      ([] ++ fitExcesses k.up_down et (data.take size.toNat))) with at_ := z } ∧ xs = [] ++ fitExcesses k.up_down et (data.take size.toNat) := by
    split at h <;> cases h <;> exact ⟨rfl, rfl⟩
  obtain ⟨hk, hxs⟩ := key
  rw [List.nil_append] at hk hxs
  have het : k'.et = et := by rw [hk]; rfl
  rw [het] at hv
  have hmem : inf false ∈ xs := by
    obtain ⟨v, hv1, hv2⟩ := hv
    rw [hxs]
    unfold fitExcesses
    rw [List.mem_filter]
    exact ⟨List.mem_map.mpr ⟨v, hv1, hv2⟩, by decide +kernel⟩
  have hx : ∀ v ∈ xs, F64.le (zero false) v = true := by
    intro v hv
    rw [hxs] at hv
    unfold fitExcesses at hv
    have h1 := (List.mem_filter.mp hv).2
    have h0 : (lit 0 : F64) = zero false := by decide +kernel
    rw [← h0]
    exact Verif.le_of_lt' h1
  obtain ⟨pre, post, hpp⟩ := List.append_of_mem hmem
  have hs : SumOK (statsOf c pre).e := nonneg_sumOK (statsOf_sum_nonneg pre (fun v hv => hx v (by rw [hpp]; simp [hv]))
    (by rw [hpp] at hlen; simp at hlen; omega))
  obtain ⟨g1, g2⟩ := refit_inf fu hc hb { k with
      n := size, et := et, Nt := UInt64.ofNat (fitExcesses k.up_down et (data.take size.toNat)).length } pre post
      (by rw [← hpp]; exact hx) (by rw [hpp] at hlen; simp at hlen; omega) hs
  rw [← hpp, hxs] at g1 g2
  have hN : k'.Nt = UInt64.ofNat xs.length := by rw [hk, hxs]; rfl
  refine ⟨post.length, by rw [hpp]; simp; omega, hN, ⟨pre, post, hpp, rfl, hs⟩, hx, ?_, ?_, ?_⟩
  · rw [hk]; exact g1
  · rw [hk]; exact g2
  · rw [hk]; exact quantileC_inf fu g1 g2 hz

/-- steps and queries on a silenced detector -/
theorem Silenced.run (fu : FloatUtils F64) {c : ℕ} (hc : 0 < c) (hb : c < 2 ^ 61) {k k' : Core F64} {xs xs' : List F64} {m : ℕ}
    {ops : List (Op F64)} {outs : List (Out F64)} (hf : ∀ op ∈ ops, op.notFit) (S : Silenced c k xs m)
    (h : runC (codeMath fu) c k xs ops = .ok (outs, k', xs')) (hm : m + outs.countP (fun o => o = .code 1) < c) :
    Silenced c k' xs' (m + outs.countP (fun o => o = .code 1)) := by
  induction ops generalizing k xs m outs with
  | nil => cases h; simpa using S
  | cons op ops ih =>
    unfold runC at h
    obtain ⟨p, hp, h⟩ := C.bind_ok h
    obtain ⟨p', hp', h⟩ := C.bind_ok h
    obtain ⟨o, k1, xs1⟩ := p
    obtain ⟨os, k2, xs2⟩ := p'
    simp only [Except.ok.injEq, Prod.mk.injEq] at h
    obtain ⟨rfl, rfl, rfl⟩ := h
    rw [List.countP_cons] at hm ⊢
    have key : m + (if o = .code 1 then 1 else 0) < c → Silenced c k1 xs1 (m + (if o = .code 1 then 1 else 0)) := by
      intro hm1
      have hop := hf op (List.mem_cons_self ..)
      unfold execC at hp
      cases op with
      | fit d n => exact absurd hop (by simp [Op.notFit])
      | step x =>
        dsimp only at hp
        obtain ⟨r, hr, hp⟩ := C.bind_ok hp
        obtain ⟨code, kk, ys⟩ := r
        cases hp
        have e : (if (Out.code code : Out F64) = .code 1 then 1 else 0) = (if code = 1 then 1 else 0) := by
          by_cases hc : code = 1 <;> simp [hc]
        rw [e] at hm1 ⊢
        exact S.step fu hc hb hr hm1
      | quantile q =>
        dsimp only at hp
        obtain ⟨r, hr, hp⟩ := C.bind_ok hp
        cases hp
        simpa using S
      | probability q =>
        dsimp only at hp
        obtain ⟨r, hr, hp⟩ := C.bind_ok hp
        cases hp
        simpa using S
    have e2 : (if decide (o = .code 1) = true then 1 else 0) = (if o = .code 1 then 1 else 0) := by simp
    rw [e2] at hm ⊢
    have := ih (fun o ho => hf o (List.mem_cons_of_mem _ ho)) (key (by omega)) hp' (by omega)
    rwa [Nat.add_assoc, Nat.add_comm (if o = .code 1 then 1 else 0)] at this

end Verif

/-
A value that is recorded again and again: the statistics and the parameters no longer change.
-/
import Verif.Proofs.Step
import Verif.Proofs.Stats

namespace Verif
namespace Repeat
variable {α : Type} [CDouble α] [CDoubleLaws α] {M : MathFns α} {c : ℕ}

theorem slots_repeat {β : Type} (hc : 0 < c) (xs : List β) (d : β) {m : ℕ} (hm : c ≤ m) : slots c (xs ++ List.replicate m d) = List.replicate c d := by
  rw [List.eq_replicate_iff]
  refine ⟨by rw [slots_length]; simp; omega, fun b hb => ?_⟩
  have := (slots_perm hc _).mem_iff.mp hb
  unfold Spec.lastN at this
  rw [List.length_append, List.length_replicate, List.drop_append] at this
  rw [List.drop_eq_nil_of_le (by omega), List.nil_append] at this
  exact List.eq_of_mem_replicate (List.mem_of_mem_drop this)

/-- after more than `c` equal insertions the statistics are those recomputed from `c` equal values -/
theorem stats_repeat (hc : 0 < c) (hb : c < 2 ^ 61) (xs : List α) (hx : ∀ v ∈ xs, is_nan v = false) (d : α) (hd : is_nan d = false) {m : ℕ} (hm : c + 1 ≤ m) :
    statsOf c (xs ++ List.replicate m d) = Stats.recompute (List.replicate c d) := by
  obtain ⟨j, rfl⟩ : ∃ j, m = j + 1 := ⟨m - 1, by omega⟩
  have hj : c ≤ j := by omega
  rw [List.replicate_succ', ← List.append_assoc, statsOf_snoc]
  have he : erasedOf c ((xs ++ List.replicate j d) ++ [d]) = d := by
    unfold erasedOf
    rw [if_neg (by simp; omega), List.getElem?_append_left (by simp; omega), List.getElem?_append_right (by simp; omega), List.getElem?_replicate]
    rw [if_pos (by simp; omega)]
    rfl
  have hs : slots c ((xs ++ List.replicate j d) ++ [d]) = List.replicate c d := by
    rw [List.append_assoc, ← List.replicate_succ']
    exact slots_repeat hc xs d (by omega)
  have hE := statsOf_extremes hc hb (xs ++ List.replicate j d) (fun v hv => by
    rcases List.mem_append.mp hv with h | h
    · exact hx v h
    · rw [List.eq_of_mem_replicate h]; exact hd) (by
      intro h
      have := congrArg List.length h
      simp at this
      omega)
  rw [slots_repeat hc xs d hj] at hE
  have hmin : (statsOf c (xs ++ List.replicate j d)).min = d := List.eq_of_mem_replicate hE.1.1
  rw [he, hs]
  have hmin' : ∀ s : UInt64, ((statsOf c (xs ++ List.replicate j d)).incr s d).min = d := fun s => by
    unfold Stats.incr
    dsimp only
    rw [hmin]
    split <;> rfl
  unfold Stats.evict
  dsimp only
  rw [hmin', hd, if_pos (by simp), if_pos]
  rw [(CDoubleLaws.le_iff d d).mpr ⟨hd, hd, le_refl _⟩, Bool.true_or]

/-- after exactly `c` equal insertions too, if something was recorded before -/
theorem stats_repeat_full (hc : 0 < c) (hb : c < 2 ^ 61) (xs : List α) (v : α) (hx : ∀ v ∈ xs, is_nan v = false) (hv : is_nan v = false) (d : α) (hd : is_nan d = false) :
    statsOf c (xs ++ [v] ++ List.replicate c d) = Stats.recompute (List.replicate c d) := by
  obtain ⟨j, rfl⟩ : ∃ j, c = j + 1 := ⟨c - 1, by omega⟩
  have hs := slots_repeat hc (xs ++ [v]) d (le_refl (j + 1))
  rw [List.replicate_succ', ← List.append_assoc] at hs
  rw [List.replicate_succ', ← List.append_assoc, statsOf_snoc, hs]
  have he : erasedOf (j + 1) ((xs ++ [v] ++ List.replicate j d) ++ [d]) = v := by
    unfold erasedOf
    rw [if_neg (by simp; omega), List.getElem?_append_left (by simp), List.getElem?_append_left (by simp), List.getElem?_append_right (by simp)]
    simp
  have hE := statsOf_extremes hc hb (xs ++ [v] ++ List.replicate j d) (fun w hw => by
    rcases List.mem_append.mp hw with h | h
    · rcases List.mem_append.mp h with h | h
      · exact hx w h
      · rw [List.mem_singleton.mp h]; exact hv
    · rw [List.eq_of_mem_replicate h]; exact hd) (by simp)
  have hsl : ∀ w ∈ slots (j + 1) (xs ++ [v] ++ List.replicate j d), w = v ∨ w = d := by
    intro w hw
    have := (slots_perm hc _).mem_iff.mp hw
    unfold Spec.lastN at this
    rw [List.append_assoc, List.drop_append, List.drop_eq_nil_of_le (by simp), List.nil_append] at this
    have := List.mem_of_mem_drop this
    rcases List.mem_append.mp this with h | h
    · exact .inl (List.mem_singleton.mp h)
    · exact .inr (List.eq_of_mem_replicate h)
  have key : (v <=. (((statsOf (j + 1) (xs ++ [v] ++ List.replicate j d)).incr (UInt64.ofNat (min ((xs ++ [v] ++ List.replicate j d).length + 1) (j + 1))) d).min) ||
      v >=. (((statsOf (j + 1) (xs ++ [v] ++ List.replicate j d)).incr (UInt64.ofNat (min ((xs ++ [v] ++ List.replicate j d).length + 1) (j + 1))) d).max)) = true := by
    have le : ∀ a b : α, is_nan a = false → is_nan b = false → CDoubleLaws.val a ≤ CDoubleLaws.val b → (a <=. b) = true := fun a b ha hb h =>
      (CDoubleLaws.le_iff a b).mpr ⟨ha, hb, h⟩
    have hm : ∀ w ∈ slots (j + 1) (xs ++ [v] ++ List.replicate j d), (CDoubleLaws.val v ≤ CDoubleLaws.val d → (v <=. w) = true) ∧ (CDoubleLaws.val d ≤ CDoubleLaws.val v → (v >=. w) = true) := by
      intro w hw
      rcases hsl w hw with rfl | rfl
      · exact ⟨fun _ => le _ _ hv hv (le_refl _), fun _ => le _ _ hv hv (le_refl _)⟩
      · exact ⟨fun h => le _ _ hv hd h, fun h => le _ _ hd hv h⟩
    unfold Stats.incr
    dsimp only
    rw [Bool.or_eq_true]
    rcases le_total (CDoubleLaws.val v) (CDoubleLaws.val d) with h | h
    · left
      split
      · exact le _ _ hv hd h
      · exact (hm _ hE.1.1).1 h
    · right
      split
      · exact le _ _ hd hv h
      · exact (hm _ hE.2.1).2 h
  rw [he]
  unfold Stats.evict
  dsimp only
  rw [hv, if_pos (by simp), if_pos key, ← List.replicate_succ']

/-- the parameters held before a fit do not matter -/
theorem fitL_indep (g s g' s' : α) (st : Stats α) (l : List α) : fitL M g s st l = fitL M g' s' st l := by
  unfold fitL
  congr 1
  unfold fitStepL
  rw [CDoubleLaws.nan_cNAN, Bool.true_or, if_pos rfl, if_pos rfl]

/-- the parameters of a tail that holds `c` times `d` -/
def params (M : MathFns α) (c : ℕ) (d : α) : α × α := (fitL M cNAN cNAN (Stats.recompute (List.replicate c d)) (List.replicate c d)).2

theorem refit_repeat (hc : 0 < c) (hb : c < 2 ^ 61) (k : Core α) (xs : List α) (hx : ∀ v ∈ xs, is_nan v = false) (d : α) (hd : is_nan d = false) {m : ℕ} (hm : c + 1 ≤ m) :
    refit M c k (xs ++ List.replicate m d) = { k with gamma := (params M c d).1, sigma := (params M c d).2 } := by
  unfold refit params
  rw [stats_repeat hc hb xs hx d hd hm, slots_repeat hc xs d (by omega), fitL_indep _ _ cNAN cNAN]

/-- the excess of `x` -/
def excess (s : Spot α) (x : α) : α := s.up_down *. (x -. s.excess_threshold)

omit [CDoubleLaws α] in
/-- one step that reports an excess -/
theorem step_excess {h : Heap α} {s : Spot α} {a : ℕ} {xs : List α} (I : SpotInv h s a c xs) {x : α} {s' : Spot α} {h' : Heap α}
    (hs : spot_step M h s x = .ok (1, s', h')) :
    SpotInv h' s' a c (xs ++ [excess s x]) ∧ is_nan x = false ∧ anomTest s x = false ∧ (excess s x >=. lit 0) = true ∧
      s'.core = { refit M c { s.core with n := s.n + 1, Nt := s.Nt + 1 } (xs ++ [excess s x]) with at_ := s'.anomaly_threshold } ∧
      spot_quantile M s' s'.q = .ok s'.anomaly_threshold := by
  have R := step_refines (M := M) I x
  rcases step_cases hs with ⟨-, h1, -⟩ | ⟨-, -, h1, -⟩ | ⟨nx, na, nt, -, -, -, hq⟩ | ⟨-, -, -, h1, -⟩
  · exact absurd h1 (by decide)
  · exact absurd h1 (by decide)
  · rw [hs] at R
    unfold stepC at R
    have na' : ¬ (s.core.discard ≠ 0 && s.core.up_down *. (x -. s.core.at_) >. lit 0) = true := by
      intro g
      exact absurd ((show anomTest s x = true from g).symm.trans na) (by simp)
    have nt' : (s.core.up_down *. (x -. s.core.et) >=. lit 0) = true := nt
    rw [nx, if_neg (by simp), if_neg na'] at R
    simp only [if_pos nt'] at R
    refine ⟨?_, nx, na, nt, ?_, hq⟩
    all_goals
      revert R
      generalize hz : quantileC M _ _ = z
      intro R
      cases z with
      | error e => cases R
      | ok z =>
        obtain ⟨s1, h1, e, hcore, I', -⟩ := R
        simp only [Except.ok.injEq, Prod.mk.injEq] at e
        obtain ⟨-, rfl, rfl⟩ := e
        first
          | exact I'
          | (have ha : s'.anomaly_threshold = z := congrArg Core.at_ hcore
             rw [hcore, ha]
             rfl)
  · exact absurd h1 (by decide)

omit [CDoubleLaws α] in
/-- successive steps with the same value that all report an excess -/
theorem run_excess {a : ℕ} {x : α} (m : ℕ) : ∀ {h : Heap α} {s : Spot α} {xs : List α} (_ : SpotInv h s a c xs) {s' : Spot α} {h' : Heap α}
    (_ : runOps M h s (List.replicate m (.step x)) = .ok (List.replicate m (.code 1), s', h')),
    SpotInv h' s' a c (xs ++ List.replicate m (excess s x)) ∧ s'.up_down = s.up_down ∧ s'.excess_threshold = s.excess_threshold ∧ s'.q = s.q ∧
      s'.discard_anomalies = s.discard_anomalies ∧ (s'.n = s.n + UInt64.ofNat m ∧ s'.Nt = s.Nt + UInt64.ofNat m) ∧ (1 ≤ m → (excess s x >=. lit 0) = true ∧ spot_quantile M s' s'.q = .ok s'.anomaly_threshold ∧
        ∃ k : Core α, s'.tail.gamma = (refit M c k (xs ++ List.replicate m (excess s x))).gamma ∧ s'.tail.sigma = (refit M c k (xs ++ List.replicate m (excess s x))).sigma) := by
  induction m with
  | zero =>
    intro h s xs I s' h' hr
    simp only [List.replicate_zero, runOps, Except.ok.injEq, Prod.mk.injEq] at hr
    obtain ⟨-, rfl, rfl⟩ := hr
    refine ⟨by simpa using I, rfl, rfl, rfl, rfl, ⟨by simp, by simp⟩, fun h => by omega⟩
  | succ m ih =>
    intro h s xs I s' h' hr
    rw [List.replicate_succ, List.replicate_succ] at hr
    unfold runOps exec at hr
    obtain ⟨r, hr1, hr⟩ := C.bind_ok hr
    obtain ⟨w, hw, hr1⟩ := C.bind_ok hr1
    obtain ⟨r', hr2, hr⟩ := C.bind_ok hr
    obtain ⟨w1, s1, h1⟩ := w
    obtain ⟨o', s2, h2⟩ := r'
    simp only [Except.ok.injEq] at hr1
    subst hr1
    simp only [Except.ok.injEq, Prod.mk.injEq, List.cons.injEq, Out.code.injEq] at hr
    obtain ⟨⟨rfl, rfl⟩, rfl, rfl⟩ := hr
    obtain ⟨I1, -, -, d0, hc1, hq1⟩ := step_excess I hw
    obtain ⟨I2, u, e, q, dd, ⟨nn, NN⟩, rest⟩ := ih I1 hr2
    have u1 : s1.up_down = s.up_down := congrArg Core.up_down hc1
    have e1 : s1.excess_threshold = s.excess_threshold := congrArg Core.et hc1
    have q1 : s1.q = s.q := congrArg Core.q hc1
    have d1 : s1.discard_anomalies = s.discard_anomalies := congrArg Core.discard hc1
    have n1 : s1.n = s.n + 1 := congrArg Core.n hc1
    have N1 : s1.Nt = s.Nt + 1 := congrArg Core.Nt hc1
    have ex : excess s1 x = excess s x := by unfold excess; rw [u1, e1]
    have app : xs ++ [excess s x] ++ List.replicate m (excess s1 x) = xs ++ List.replicate (m + 1) (excess s x) := by
      rw [ex, List.append_assoc, List.replicate_succ]; rfl
    rw [app] at I2 rest
    refine ⟨I2, u.trans u1, e.trans e1, q.trans q1, dd.trans d1, ⟨?_, ?_⟩, fun _ => ⟨d0, ?_⟩⟩
    · rw [nn, n1, UInt64.add_assoc, UInt64.ofNat_add, UInt64.add_comm 1]; rfl
    · rw [NN, N1, UInt64.add_assoc, UInt64.ofNat_add, UInt64.add_comm 1]; rfl
    · rcases Nat.eq_zero_or_pos m with rfl | hm
      · simp only [List.replicate_zero, runOps, Except.ok.injEq, Prod.mk.injEq] at hr2
        obtain ⟨-, rfl, rfl⟩ := hr2
        exact ⟨hq1, _, congrArg Core.gamma hc1, congrArg Core.sigma hc1⟩
      · exact (rest hm).2

/-- more than `c` of them: the parameters are those of `c` equal excesses -/
theorem run_params {a : ℕ} {x : α} {m : ℕ} {h : Heap α} {s : Spot α} {xs : List α} (I : SpotInv h s a c xs) (hc : 0 < c) (hb : c < 2 ^ 61)
    (hx : ∀ v ∈ xs, is_nan v = false) {s' : Spot α} {h' : Heap α} (hm : c + 1 ≤ m)
    (hr : runOps M h s (List.replicate m (.step x)) = .ok (List.replicate m (.code 1), s', h')) :
    is_nan (excess s x) = false ∧ s'.tail.gamma = (params M c (excess s x)).1 ∧ s'.tail.sigma = (params M c (excess s x)).2 := by
  obtain ⟨-, -, -, -, -, -, rest⟩ := run_excess m I hr
  obtain ⟨d0, -, k, g, σ⟩ := rest (by omega)
  have hd : is_nan (excess s x) = false := ((CDoubleLaws.le_iff _ _).mp d0).2.1
  rw [refit_repeat hc hb k xs hx _ hd hm] at g σ
  exact ⟨hd, g, σ⟩

end Repeat
end Verif

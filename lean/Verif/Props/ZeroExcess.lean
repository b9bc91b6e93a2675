/-
C114: whether heavy tails are searched for in every tail.
-/
import Verif.Props.GrimshawF64
import Verif.Props.Recovery
import Verif.Props.Estim
import Verif.Proofs.Infinite

namespace Verif
open F64 Spec Py

/-! ### C114 -/

theorem nan_add_right (y : F64) : y +. (nan : F64) = nan := by cases y <;> rfl

theorem nan_sub_right (y : F64) : y -. (nan : F64) = nan := by cases y <;> rfl

theorem nan_mul_right (y : F64) : y *. (nan : F64) = nan := by cases y <;> rfl

theorem nan_div_right (y : F64) : y /. (nan : F64) = nan := by cases y <;> rfl

/-- not a finite number -/
theorem not_isFin {x : F64} (h : ¬ isFin x) : x = nan ∨ ∃ s, x = inf s := by
  rcases x with _ | s | ⟨s, k⟩
  · exact Or.inl rfl
  · exact Or.inr ⟨s, rfl⟩
  · exact absurd trivial h

theorem mul_zero_nan {x : F64} (h : ¬ isFin x) (s : Bool) : x *. zero s = nan := by
  rcases not_isFin h with rfl | ⟨t, rfl⟩
  · rfl
  · rfl

/-- with an excess equal to zero the likelihood equation is NaN wherever it is evaluated outside the finite numbers -/
theorem grimshawWL_nan (fu : FloatUtils F64) {l : List F64} {s : Bool} (hz : zero s ∈ l) {x : F64} (hx : ¬ isFin x) :
    grimshawWL (codeMath fu) l x = nan := by
  have harg : lit 1 +. x *. zero s = (nan : F64) := by rw [mul_zero_nan hx, nan_add_right]
  have hlog : (codeMath fu).log (nan : F64) = nan := rfl
  have key : (l.foldl (fun (uv : F64 × F64) y => (uv.1 +. lit 1 /. (lit 1 +. x *. y), uv.2 +. (codeMath fu).log (lit 1 +. x *. y)))
      (lit 0, lit 0)).1 = nan := by
    generalize ((lit 0, lit 0) : F64 × F64) = z
    induction l generalizing z with
    | nil => cases hz
    | cons v l ih =>
      rw [List.foldl_cons]
      rcases List.mem_cons.mp hz with rfl | hz
      · rw [harg, nan_div_right, nan_add_right]
        generalize _ +. (codeMath fu).log _ = w
        clear ih hz
        induction l generalizing w with
        | nil => rfl
        | cons v l ih => rw [List.foldl_cons, show (nan : F64) +. _ = nan from rfl]; exact ih _
      · exact ih hz _
  unfold grimshawWL
  dsimp only
  rw [key]
  rfl

/-- once the equation is NaN at a trial point outside the finite numbers, the loop never returns to them -/
theorem nan_loop (f : F64 → F64) (tol : F64) (hf : ∀ x, ¬ isFin x → f x = nan) (n : ℕ) : ∀ s : BrentSt F64, ¬ isFin s.b →
    (s.c = s.b ∨ s.b = nan) → s.fb = nan → s.fc = nan → brentLoopP f tol n s = (false, lit 0) := by
  have hl : ∀ y : F64, (y <. nan) = false := fun y => by cases y <;> rfl
  have hl' : ∀ y : F64, ((nan : F64) <. y) = false := fun y => rfl
  have hle' : ∀ y : F64, ((nan : F64) <=. y) = false := fun y => rfl
  have hle : ∀ y : F64, (y <=. (nan : F64)) = false := fun y => by cases y <;> rfl
  have hab : fabs (nan : F64) = nan := by decide +kernel
  induction n with
  | zero => intros; rfl
  | succ n ih =>
    intro s hb hbc hfb hfc
    have hss : ¬ sameSign s.fb s.fc = true := by
      unfold sameSign
      rw [hfb, hl, hl']; simp
    have hlt : ¬ (fabs s.fc <. fabs s.fb) = true := by rw [hfc, hab, hl']; simp
    have hadj : brentAdjust s = s := by
      unfold brentAdjust
      dsimp only
      rw [if_neg hss, if_neg hlt]
    have hxm : brentXm s = nan := by
      unfold brentXm
      have : s.c -. s.b = nan := by
        rcases hbc with h | h
        · rw [h]
          rcases not_isFin hb with h | ⟨t, h⟩ <;> rw [h]
          · rfl
          · cases t <;> rfl
        · rw [h]; exact nan_sub_right _
      rw [this, nan_mul_right]
    have hdone : brentDone tol s = false := by
      unfold brentDone
      rw [hxm, hab, hle', hfb]; rfl
    have hde : brentDE tol s = (nan, nan) := by
      unfold brentDE
      dsimp only
      rw [hfb, hab, hl', Bool.and_false, hxm]
      rfl
    have hnext : brentNext tol s nan = nan ∨ brentNext tol s nan = s.b := by
      unfold brentNext
      dsimp only
      rw [hab, hl, hxm, hle, if_neg (by simp), if_neg (by simp)]
      generalize -. fabs (brentTol1 tol s.b) = y
      rcases not_isFin hb with h | ⟨t, h⟩ <;> rw [h]
      · exact Or.inl rfl
      · rcases y with _ | u | ⟨u, k⟩
        · exact Or.inl rfl
        · by_cases ht : t = u
          · right; show (if t = u then inf t else nan) = _; rw [if_pos ht]
          · left; show (if t = u then inf t else nan) = _; rw [if_neg ht]
        · exact Or.inr rfl
    have hnf : ¬ isFin (brentNext tol s nan) := by
      rcases hnext with h | h <;> rw [h]
      · exact id
      · exact hb
    unfold brentLoopP
    dsimp only
    rw [hadj, hdone, hde, hf _ hnf, if_neg (by simp)]
    refine ih _ hnf ?_ rfl hfc
    rcases hnext with h | h
    · exact Or.inr h
    · rcases hbc with g | g
      · left
        show s.c = brentNext tol s nan
        rw [h, g]
      · right
        show brentNext tol s nan = nan
        rw [h, g]

/-- a quotient by zero is not finite -/
theorem div_zero_nf (y : F64) (s : Bool) : ¬ isFin (y /. zero s) := by
  rcases y with _ | t | ⟨t, k⟩
  · exact id
  · exact id
  · show ¬ isFin (if (0 : ℕ) = 0 then (if k.val = 0 then nan else inf (t != s)) else ofRat (t != s) (toQ (fin t k) / toQ (zero s)))
    rw [if_pos rfl]
    split <;> exact id

theorem zero_mul_zero (s : Bool) : zero s *. zero s = zero false := by
  cases s <;> decide +kernel

theorem eq_zero_cases {z : F64} (h : (z ==. lit 0) = true) : ∃ s, z = zero s := by
  rcases z with _ | t | ⟨t, k⟩
  · cases h
  · cases h
  · have h0 : (lit 0 : F64) = zero false := by decide +kernel
    rw [h0] at h
    have : toQ (fin t k) = toQ (zero false) := by simpa [CDouble.eq, F64.eq, zero] using h
    rw [show toQ (zero false) = 0 from toQ_eq_zero.mpr rfl] at this
    refine ⟨t, ?_⟩
    have hk := toQ_eq_zero.mp this
    show fin t k = fin t ⟨0, by decide⟩
    congr 1
    exact Fin.ext hk

/-- the least stored value is zero as soon as a zero is stored -/
theorem Recorded.min_zero {lib : Lib F64} {q : F64} {low disc : ℤ} {level : F64} {me : UInt64} {s : Spot F64} {h : Heap F64}
    {xs : List F64} (h1 : 1 ≤ me.toNat) (h2 : me.toNat < 2 ^ 61) (R : Recorded lib q low disc level me s h xs)
    (hz : ∃ z ∈ Spec.lastN me.toNat xs, (z ==. lit 0) = true) : ∃ t, s.tail.peaks.min = zero t := by
  obtain ⟨a, I, -⟩ := R.inv h1 h2
  have hn := R.nonneg h1 h2
  obtain ⟨z, hz, hz0⟩ := hz
  have hzs : z ∈ slots me.toNat xs := (slots_perm h1 xs).mem_iff.mpr hz
  have hne : xs ≠ [] := by
    rintro rfl
    simp [Spec.lastN] at hz
  have E := (statsOf_extremes h1 h2 xs (fun v hv => nonneg_nan (hn v hv)) hne).1
  rw [← I.stats] at E
  have hm := hn _ (slots_mem h1 E.1)
  have hmz : (z <. s.tail.peaks.min) = false := E.2 z hzs
  obtain ⟨u, rfl⟩ := eq_zero_cases hz0
  have h0 : ∀ b, toQ (zero b) = 0 := fun b => toQ_eq_zero.mpr rfl
  have hm' : F64.le (zero false) s.tail.peaks.min = true := hm
  rcases nonneg_cases hm' with e | ⟨⟨b, k, e⟩, hq⟩
  · rw [e] at hmz
    cases hmz
  · rw [e] at hmz hq ⊢
    have hq' : ¬ toQ (zero u) < toQ (fin b k) := by simpa [CDouble.lt, F64.lt, zero] using hmz
    rw [h0] at hq'
    have hk := toQ_eq_zero.mp (le_antisymm (not_lt.mp hq') hq)
    refine ⟨b, ?_⟩
    show fin b k = fin b ⟨0, by decide⟩
    congr 1
    exact Fin.ext hk

/-- **C114_false.** An observation equal to the excess threshold is recorded as an excess of 0. As long as it is stored, the search for positive
roots (heavy tails) always fails, whatever the other excesses are, and the result is the better of the exponential model and the root found
to the left. For example, with excesses 1, 1 and 30 a root to the right gives a shape above 1 and a greater likelihood; with a further excess
of 0 it is not found. -/
theorem C114_false :
    (∀ (lib : Lib F64) (q : F64) (low disc : ℤ) (level : F64) (me : UInt64) (s : Spot F64) (h : Heap F64) (xs : List F64),
      1 ≤ me.toNat → me.toNat < 2 ^ 61 → Recorded lib q low disc level me s h xs →
      (∃ z ∈ Spec.lastN me.toNat xs, (z ==. lit 0) = true) →
      brent (grimshaw_w (codeMath lib.fu) h s.tail.peaks) (rightOf s.tail.peaks).1 (rightOf s.tail.peaks).2 (lit (2 / 10 ^ 8)) = .ok (false, lit 0) ∧
      grimshaw_estimator (codeMath lib.fu) h s.tail.peaks = (do
        let left ← brent (grimshaw_w (codeMath lib.fu) h s.tail.peaks) (leftOf s.tail.peaks).1 (leftOf s.tail.peaks).2 (lit (2 / 10 ^ 8))
        let best ← grimshaw_simplified_log_likelihood (codeMath lib.fu) h s.tail.peaks (lit 0)
        grimshaw_better (codeMath lib.fu) h s.tail.peaks best left)) ∧
    (let M := codeMath muslFU
     let p0 := (peaks_init Sample.lib Sample.emptyHeap 20).2
     (do
       let q ← peaksPushAll p0.2 p0.1 [lit 1, lit 1, lit 30]
       let r ← brent (grimshaw_w M q.2 q.1) (rightOf q.1).1 (rightOf q.1).2 (lit (2 / 10 ^ 8))
       let c ← grimshaw_simplified_log_likelihood M q.2 q.1 r.2
       let d ← grimshaw_simplified_log_likelihood M q.2 q.1 (lit 0)
       .ok (r.1, lit 1 <. c.gamma, d.llhood <. c.llhood)) = .ok (true, true, true) ∧
     (do
       let q ← peaksPushAll p0.2 p0.1 [lit 1, lit 1, lit 30, lit 0]
       let r ← brent (grimshaw_w M q.2 q.1) (rightOf q.1).1 (rightOf q.1).2 (lit (2 / 10 ^ 8))
       .ok r.1) = .ok false) := by
  refine ⟨?_, by decide +kernel, by decide +kernel⟩
  intro lib q low disc level me s h xs h1 h2 R hz
  obtain ⟨a, I, -⟩ := R.inv h1 h2
  have S := I.ring.stored
  obtain ⟨t, ht⟩ := Recorded.min_zero h1 h2 R hz
  obtain ⟨z, hz, hz0⟩ := hz
  obtain ⟨u, rfl⟩ := eq_zero_cases hz0
  have hmem : zero u ∈ slots me.toNat xs := (slots_perm h1 xs).mem_iff.mpr hz
  have hnf : ¬ isFin (rightOf s.tail.peaks).2 := by
    unfold rightOf
    dsimp only
    rw [ht, zero_mul_zero]
    exact div_zero_nf _ _
  have hf := fun x hx => grimshawWL_nan lib.fu hmem (x := x) hx
  have hright : brent (grimshaw_w (codeMath lib.fu) h s.tail.peaks) (rightOf s.tail.peaks).1 (rightOf s.tail.peaks).2 (lit (2 / 10 ^ 8)) =
      .ok (false, lit 0) := by
    rw [brent_eq (grimshaw_w_eq S)]
    congr 1
    unfold brentP
    rw [hf _ hnf]
    split
    · rfl
    · exact nan_loop _ _ hf _ _ hnf (Or.inl rfl) rfl rfl
  refine ⟨hright, ?_⟩
  have e : grimshaw_estimator (codeMath lib.fu) h s.tail.peaks = (do
      let left ← brent (grimshaw_w (codeMath lib.fu) h s.tail.peaks) (leftOf s.tail.peaks).1 (leftOf s.tail.peaks).2 (lit (2 / 10 ^ 8))
      let right ← brent (grimshaw_w (codeMath lib.fu) h s.tail.peaks) (rightOf s.tail.peaks).1 (rightOf s.tail.peaks).2 (lit (2 / 10 ^ 8))
      let best ← grimshaw_simplified_log_likelihood (codeMath lib.fu) h s.tail.peaks (lit 0)
      let best ← grimshaw_better (codeMath lib.fu) h s.tail.peaks best left
      grimshaw_better (codeMath lib.fu) h s.tail.peaks best right) := rfl
  rw [e, hright]
  simp only [brent_eq (grimshaw_w_eq S), simplified_eq S, better_eq S, C.ok_bind]
  rfl

/-- **C114_partial.** For excesses between 2^-400 and 2^100, the greatest stored one at least 2^-24 (as in `C93_partial`), the likelihood equation is a
finite number at both ends of the interval of the heavy tails. If no root is reported there, then it has the same strict sign at both ends or 202
evaluations were made. A root reported there is a candidate: unless its likelihood or that of the exponential model is NaN, the result is at least
as likely. Missing: tails with an excess of 0 (`C114_false`), and the other excesses outside that range. -/
theorem C114_partial (lib : Lib F64) (h : Heap F64) (cap : UInt64) (h1 : 1 ≤ cap.toNat) (h2 : cap.toNat ≤ 2 ^ 24)
    (h0 : (peaks_init lib h cap).1 = 0) (xs : List F64)
    (hx : ∀ x ∈ xs, isFin x ∧ 1 / 2 ^ 400 ≤ toQ x ∧ toQ x ≤ 2 ^ 100) (hN : xs.length * cap.toNat ≤ 2 ^ 46)
    (hbig : ∃ v ∈ Spec.lastN cap.toNat xs, 1 / 2 ^ 24 ≤ toQ v) (p : Peaks F64) (h' : Heap F64)
    (hp : peaksPushAll (peaks_init lib h cap).2.2 (peaks_init lib h cap).2.1 xs = .ok (p, h')) :
    ∃ (w1 w2 : F64) (w : F64 → F64) (right : Bool × F64) (est : Est F64),
      grimshaw_w (codeMath muslFU) h' p (rightOf p).1 = .ok w1 ∧ isFin w1 ∧
      grimshaw_w (codeMath muslFU) h' p (rightOf p).2 = .ok w2 ∧ isFin w2 ∧
      (∀ x, grimshaw_w (codeMath muslFU) h' p x = .ok (w x)) ∧
      brent (grimshaw_w (codeMath muslFU) h' p) (rightOf p).1 (rightOf p).2 (lit (2 / 10 ^ 8)) = .ok right ∧
      (right.1 = false → SameSign w1 w2 ∨ (search w (rightOf p).1 (rightOf p).2 (lit (2 / 10 ^ 8))).2.length = 202) ∧
      grimshaw_estimator (codeMath muslFU) h' p = .ok est ∧
      (right.1 = true → ∃ l0 cand, log_likelihood (codeMath muslFU) h' p (lit 0) (peaks_mean p) = .ok l0 ∧
        grimshaw_simplified_log_likelihood (codeMath muslFU) h' p right.2 = .ok cand ∧
        (is_nan l0 = false → is_nan cand.llhood = false → (cand.llhood <=. est.llhood) = true)) := by
  obtain ⟨w, hw, hI⟩ := C93_partial lib h cap h1 h2 h0 xs hx hN hbig p h' hp
  obtain ⟨hpts, right, hr, -⟩ := hI (rightOf p) (by simp)
  have hends : (rightOf p).1 ∈ (search w (rightOf p).1 (rightOf p).2 (lit (2 / 10 ^ 8))).2 ∧
      (rightOf p).2 ∈ (search w (rightOf p).1 (rightOf p).2 (lit (2 / 10 ^ 8))).2 := by
    generalize (rightOf p).1 = x1
    generalize (rightOf p).2 = x2
    rw [search_eq]
    split
    · simp
    · obtain ⟨_, k, _⟩ := brentLoop_inv (f := w) (tol := lit (2 / 10 ^ 8)) (fun _ l' => x1 ∈ l' ∧ x2 ∈ l')
        (fun _ _ h _ => ⟨List.mem_append_left _ h.1, List.mem_append_left _ h.2⟩) BRENT_ITMAX
        ⟨x1, x2, x2, lit 0, lit 0, w x1, w x2, w x2⟩ [x1, x2] (by simp)
      exact k
  obtain ⟨a, I⟩ := peaks_init_inv h1 (lt_of_le_of_lt h2 (by norm_num)) h0
  obtain ⟨p', h'', e, I'⟩ := peaksPushAll_inv I xs
  rw [e] at hp
  cases hp
  have he := grimshaw_eq (M := codeMath muslFU) I'.ring.stored
  have hfst : right = (search w (rightOf p).1 (rightOf p).2 (lit (2 / 10 ^ 8))).1 := by
    rw [brent_eq hw] at hr
    rw [search_fst]
    exact (Except.ok.inj hr).symm
  refine ⟨_, _, w, right, _, hw _, (hpts _ hends.1).2.1, hw _, (hpts _ hends.2).2.1, hw, hr, fun hf => ?_, he, fun hf => ?_⟩
  · rw [hfst] at hf
    exact ((C21_refuses w _ _ _).2 hf).2
  · obtain ⟨-, l0, left, right', e0, -, e2, k⟩ := C18_grimshaw _ _ _ _ he
    have : right' = right := by
      have : brent (grimshaw_w (codeMath muslFU) h' p) (rightOf p).1 (rightOf p).2 (lit (2 / 10 ^ 8)) = .ok right' := e2
      rw [hr] at this
      exact (Except.ok.inj this).symm
    subst this
    by_cases hn : is_nan l0 = false
    · obtain ⟨cand, c1, c2⟩ := (k hn).2 right' (by simp) hf
      exact ⟨l0, cand, e0, c1, fun _ => c2⟩
    · have := simplified_eq (M := codeMath muslFU) I'.ring.stored right'.2
      exact ⟨l0, _, e0, this, fun h => absurd h hn⟩

/-- the hypotheses hold for excesses 1, 1 and 30 (`C114_false` computes the root) -/
example : (peaks_init Sample.lib Sample.emptyHeap 20).1 = 0 ∧
    (∀ x ∈ ([lit 1, lit 1, lit 30] : List F64), isFin x ∧ 1 / 2 ^ 400 ≤ toQ x ∧ toQ x ≤ 2 ^ 100) ∧
    (∃ v ∈ Spec.lastN 20 ([lit 1, lit 1, lit 30] : List F64), 1 / 2 ^ 24 ≤ toQ v) := by decide +kernel

/-- such a detector: trained on 4, 5, 5, 5, 6 its excess threshold is 5; the observation 5 is then recorded as an excess of 0, after the
excess 1 of the training -/
example : ∃ s h xs, Recorded Sample.lib (lit (1 / 10)) 0 0 (lit (1 / 2)) 20 s h xs ∧ xs.length = 2 ∧
    ∃ z ∈ Spec.lastN 20 xs, (z ==. lit 0) = true := by
  have hf : ∃ r, spot_fit (codeMath muslFU) (spot_init Sample.lib Sample.emptyHeap Sample.zeroed (lit (1 / 10)) 0 0 (lit (1 / 2)) 20).2.2
      (spot_init Sample.lib Sample.emptyHeap Sample.zeroed (lit (1 / 10)) 0 0 (lit (1 / 2)) 20).2.1 [lit 4, lit 5, lit 5, lit 5, lit 6] 5 = .ok r ∧
      (r.1, r.2.1.excess_threshold, (spot_step (codeMath muslFU) r.2.2 r.2.1 (lit 5)).map Prod.fst) = (0, lit 5, .ok 1) :=
    of_map (by decide +kernel)
  obtain ⟨⟨c, s, h⟩, hr, he⟩ := hf
  simp only [Prod.mk.injEq] at he
  obtain ⟨rfl, het, hs⟩ := he
  obtain ⟨⟨c', s', h'⟩, hr', hc'⟩ := of_map hs
  obtain rfl : c' = 1 := hc'
  have R0 := Recorded.init (lib := Sample.lib) (q := lit (1 / 10)) (low := 0) (disc := 0) (level := lit (1 / 2)) (me := 20)
    Sample.emptyHeap Sample.zeroed (by decide +kernel)
  have R1 := Recorded.fit [lit 4, lit 5, lit 5, lit 5, lit 6] 5 (by decide) _ _ _ R0 hr
  have R2 := Recorded.step (lit 5) _ _ _ R1 hr'
  rw [if_pos rfl, if_neg (by decide)] at R2
  have het : s.excess_threshold = lit 5 := het
  rw [het, ← fitExcesses_eq _ _ _ (show notNaN (lit 5) by decide +kernel)] at R2
  exact ⟨_, _, _, R2, by decide +kernel, by decide +kernel⟩

end Verif

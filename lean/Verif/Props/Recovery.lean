/-
C103: an infinite excess is forgotten when it leaves the tail.
-/
import Verif.Proofs.Infinite
import Verif.Proofs.Drift
import Verif.Props.Python

namespace Verif
open F64 Py

/-! ### C103 -/

theorem _root_.Verif.Py.Recorded.nonneg {lib : Lib F64} {q : F64} {low disc : ℤ} {level : F64} {me : UInt64} {s : Spot F64} {h : Heap F64}
    {xs : List F64} (h1 : 1 ≤ me.toNat) (h2 : me.toNat < 2 ^ 61) (R : Recorded lib q low disc level me s h xs) :
    ∀ v ∈ xs, F64.le (zero false) v = true := by
  have h0 : (lit 0 : F64) = zero false := by decide +kernel
  induction R with
  | init h0 s0 hi => simp
  | @fit s h xs data size hsz code s' h' R hf ih =>
    obtain ⟨a, I, P⟩ := R.inv h1 h2
    obtain ⟨et, _, hcase⟩ := fit_cases I hsz hf
    rcases hcase with ⟨_, hr, hs', hh⟩ | ⟨hn, ⟨t', hs1⟩, I', _, hr⟩
    · rw [if_pos (by rw [hr]; rfl)]; exact ih
    · have hne : code ≠ -1003 := by
        rw [hr]; split <;> decide
      have hud : s.up_down = if low ≠ 0 then lit (-1) else lit 1 := P.pud
      have e1 : s'.excess_threshold = et := by rw [hs1]
      rw [if_neg hne, e1, ← fitExcesses_eq _ _ _ ((F64.is_nan_false et).mp hn), ← hud]
      intro v hv
      rcases List.mem_append.mp hv with hv | hv
      · exact ih v hv
      · unfold fitExcesses at hv
        rw [← h0]
        exact Verif.le_of_lt' (List.mem_filter.mp hv).2
  | @step s h xs x code s' h' R hs ih =>
    obtain ⟨a, I, P⟩ := R.inv h1 h2
    by_cases hc : code = 1
    · rw [if_pos hc]
      intro v hv
      rcases List.mem_append.mp hv with hv | hv
      · exact ih v hv
      · rw [List.mem_singleton] at hv
        have hud : s.up_down = if low ≠ 0 then lit (-1) else lit 1 := P.pud
        have hex : s.up_down *. (x -. s.excess_threshold) = excessOf low s.excess_threshold x := by
          rw [hud, ud_mul]; rfl
        rw [hv, ← hex, ← h0]
        rcases step_cases hs with ⟨_, e, _⟩ | ⟨_, _, e, _⟩ | ⟨_, _, e, _⟩ | ⟨_, _, _, e, _⟩
        · rw [hc] at e; exact absurd e (by decide)
        · rw [hc] at e; exact absurd e (by decide)
        · exact e
        · rw [hc] at e; exact absurd e (by decide)
    · rw [if_neg hc]; exact ih

/-- When the infinite value leaves the tail, everything is computed again from the stored values, which are the last ones. -/
theorem recovery_stats {c : ℕ} (hc : 0 < c) (hb : c < 2 ^ 61) (pre post : List F64)
    (hx : ∀ v ∈ pre ++ inf false :: post, F64.le (zero false) v = true) (hlen : post.length = c) :
    statsOf c (pre ++ inf false :: post) = Stats.recompute (slots c (pre ++ inf false :: post)) ∧
      (slots c (pre ++ inf false :: post)).Perm post := by
  have hne : post ≠ [] := by rintro rfl; simp at hlen; omega
  obtain ⟨post', x, rfl⟩ : ∃ l x, post = l ++ [x] := ⟨post.dropLast, post.getLast hne, (List.dropLast_append_getLast hne).symm⟩
  have e1 : pre ++ inf false :: (post' ++ [x]) = (pre ++ inf false :: post') ++ [x] := by simp
  have hn : ∀ v ∈ pre ++ inf false :: post', is_nan v = false := fun v hv => nonneg_nan (hx v (by rw [e1]; exact List.mem_append_left _ hv))
  have hxx : is_nan x = false := nonneg_nan (hx x (by simp))
  have hlen' : post'.length + 1 = c := by simpa using hlen
  -- the evicted value is the infinite one
  have her : erasedOf c (pre ++ inf false :: (post' ++ [x])) = inf false := by
    unfold erasedOf
    rw [if_neg (by simp; omega)]
    have : (pre ++ inf false :: (post' ++ [x])).length - 1 - c = pre.length := by simp; omega
    rw [this]
    simp
  have hrec : (statsOf c (pre ++ inf false :: (post' ++ [x]))) =
      Stats.recompute (slots c (pre ++ inf false :: (post' ++ [x]))) := by
    have hE := incr_extremes hc hb (pre ++ inf false :: post') x hn hxx (fun hne => statsOf_extremes hc hb _ hn hne)
    conv_lhs => rw [e1, statsOf_snoc, ← e1]
    rw [her]
    unfold Stats.evict
    rw [if_pos (by rfl)]
    dsimp only
    rw [if_pos]
    have hmx : is_nan ((statsOf c (pre ++ inf false :: post')).incr
        (UInt64.ofNat (min ((pre ++ inf false :: post').length + 1) c)) x).max = false := by
      have hm := hE.2.1
      split at hm
      · rw [List.mem_singleton] at hm; rw [hm]; exact hxx
      · rcases List.mem_append.mp hm with h | h
        · exact hn _ (slots_mem hc h)
        · rw [List.mem_singleton] at h; rw [h]; exact hxx
    generalize ((statsOf c (pre ++ inf false :: post')).incr
        (UInt64.ofNat (min ((pre ++ inf false :: post').length + 1) c)) x).max = mx at *
    have : ((inf false : F64) >=. mx) = true := by
      show F64.le mx (inf false) = true
      rcases mx with _ | t | ⟨t, k⟩
      · cases hmx
      · cases t <;> rfl
      · rfl
    rw [this, Bool.or_true]
  have hperm : (slots c (pre ++ inf false :: (post' ++ [x]))).Perm (post' ++ [x]) := by
    have := slots_perm hc (pre ++ inf false :: (post' ++ [x]))
    unfold Spec.lastN at this
    have e2 : (pre ++ inf false :: (post' ++ [x])).drop ((pre ++ inf false :: (post' ++ [x])).length - c) = post' ++ [x] := by
      have e3 : (pre ++ inf false :: (post' ++ [x])).length - c = (pre ++ [inf false]).length := by simp; omega
      have e4 : pre ++ inf false :: (post' ++ [x]) = (pre ++ [inf false]) ++ (post' ++ [x]) := by simp
      rw [e3, e4, List.drop_left]
    rwa [e2] at this
  exact ⟨hrec, hperm⟩

/-- When the last `max_excess` excesses recorded are finite and the one before them was infinite, so that the infinite value has
just left the tail, the tracked sum is finite and close to the sum of the stored excesses (at most 2^24 of them, of at
most 2^900). -/
theorem C103_recovery (lib : Lib F64) (q : F64) (low disc : ℤ) (level : F64) (me : UInt64) (s : Spot F64) (h : Heap F64)
    (pre post : List F64) (h1 : 1 ≤ me.toNat) (h2 : me.toNat ≤ 2 ^ 24)
    (R : Recorded lib q low disc level me s h (pre ++ inf false :: post)) (hlen : post.length = me.toNat) (m : ℚ) (hm : m ≤ pow2 900)
    (hpost : ∀ v ∈ post, isFin v ∧ toQ v ≤ m) :
    isFin s.tail.peaks.e ∧
      |toQ s.tail.peaks.e - (post.map toQ).sum| ≤ 3 * (me.toNat : ℚ) ^ 2 * m / 2 ^ 53 := by
  have h2' : me.toNat < 2 ^ 61 := lt_of_le_of_lt h2 (by norm_num)
  obtain ⟨a, I, _⟩ := R.inv h1 h2'
  have hx := R.nonneg h1 h2'
  have hst : s.tail.peaks.e = (statsOf me.toNat (pre ++ inf false :: post)).e := congrArg Stats.e I.stats
  obtain ⟨hrec, hperm⟩ := recovery_stats h1 h2' pre post hx hlen
  rw [hst, hrec, recompute_e]
  have hall' : ∀ v ∈ post, isFin v ∧ 0 ≤ toQ v ∧ toQ v ≤ m := by
    intro v hv
    obtain ⟨g1, g2⟩ := hpost v hv
    refine ⟨g1, ?_, g2⟩
    rcases nonneg_cases (hx v (List.mem_append_right _ (List.mem_cons_of_mem _ hv))) with h | ⟨_, h⟩
    · rw [h] at g1; exact g1.elim
    · exact h
  have hm0 : 0 ≤ m := by
    obtain ⟨v, hv⟩ := List.exists_mem_of_length_pos (by omega : 0 < post.length)
    have := hall' v hv
    linarith
  have hl : (slots me.toNat (pre ++ inf false :: post)).length = me.toNat := by
    rw [hperm.length_eq]; exact hlen
  obtain ⟨r1, r2⟩ := naive_sum (c := me.toNat) h1 (by nlinarith) hm0 hm _ hl.le fun v hv => hall' v (hperm.mem_iff.mp hv)
  refine ⟨r1, ?_⟩
  rw [hl, (hperm.map toQ).sum_eq] at r2
  refine r2.trans (le_of_eq ?_)
  norm_num
  ring

theorem recovery_drift {c : ℕ} (hc : 0 < c) (hcc : c * c ≤ 2 ^ 49) (pre post : List F64)
    (hx : ∀ v ∈ pre ++ inf false :: post, F64.le (zero false) v = true) (hlen : post.length = c) (hpost : ∀ v ∈ post, Excess v)
    (more : List F64) (hmore : ∀ v ∈ more, Excess v) (hN : (post ++ more).length * c ≤ 2 ^ 49) :
    (∀ v ∈ slots c (pre ++ inf false :: (post ++ more)), Excess v) ∧ isFin (statsOf c (pre ++ inf false :: (post ++ more))).e ∧
      |toQ (statsOf c (pre ++ inf false :: (post ++ more))).e - ((slots c (pre ++ inf false :: (post ++ more))).map toQ).sum| ≤
        (8 * c / 9007199254740992 * ((post ++ more).length : ℚ)) * toQ (statsOf c (pre ++ inf false :: (post ++ more))).max := by
  have hb : c < 2 ^ 61 := by nlinarith
  induction more using List.reverseRecOn with
  | nil =>
    rw [List.append_nil]
    obtain ⟨hrec, hperm⟩ := recovery_stats hc hb pre post hx hlen
    have hsl : ∀ v ∈ slots c (pre ++ inf false :: post), Excess v := fun v hv => hpost v (hperm.mem_iff.mp hv)
    have hE := statsOf_extremes hc hb (pre ++ inf false :: post) (fun v hv => nonneg_nan (hx v hv)) (by simp)
    obtain ⟨M1, M2⟩ := hE.max_bound hsl
    refine ⟨hsl, ?_⟩
    have k3 := naive_sum (by omega : 1 ≤ c) hcc M1.2.1 M1.2.2 (slots c (pre ++ inf false :: post))
      (by rw [slots_length]; exact min_le_right _ _) fun v hv => ⟨(hsl v hv).1, M2 v hv⟩
    rw [← recompute_e, ← hrec] at k3
    refine ⟨k3.1, k3.2.trans (mul_le_mul_of_nonneg_right ?_ M1.2.1)⟩
    rw [hperm.length_eq]
    refine mul_le_mul_of_nonneg_right ?_ (by positivity)
    rw [div_le_div_iff_of_pos_right (by norm_num)]
    have : (0 : ℚ) ≤ c := by positivity
    linarith
  | append_singleton more x ih =>
    have e1 : pre ++ inf false :: (post ++ (more ++ [x])) = (pre ++ inf false :: (post ++ more)) ++ [x] := by simp
    have e2 : (post ++ (more ++ [x])).length = (post ++ more).length + 1 := by simp; omega
    rw [e2] at hN
    have hN' : (post ++ more).length * c ≤ 2 ^ 49 := le_trans (Nat.mul_le_mul_right _ (by omega)) hN
    have hxx := hmore x (by simp)
    have hm' : ∀ v ∈ more, Excess v := fun v hv => hmore v (by simp [hv])
    obtain ⟨i0, i1, i2⟩ := ih hm' hN'
    have hnn : ∀ v ∈ pre ++ inf false :: (post ++ more), is_nan v = false := by
      intro v hv
      have e3 : pre ++ inf false :: (post ++ more) = (pre ++ inf false :: post) ++ more := by simp
      rw [e3] at hv
      rcases List.mem_append.mp hv with h | h
      · exact nonneg_nan (hx v h)
      · exact excess_nan (hm' v h)
    have D := drift_step hc hcc (pre ++ inf false :: (post ++ more)) x (post ++ more).length hN' (by simp; omega) hnn i0 hxx i1 i2
    rw [e1, e2]
    refine ⟨?_, D⟩
    intro v hv
    rw [slots_snoc] at hv
    split at hv
    · rcases List.mem_append.mp hv with h | h
      · exact i0 v h
      · rw [List.mem_singleton] at h; rw [h]; exact hxx
    · rcases List.mem_or_eq_of_mem_set hv with h | h
      · exact i0 v h
      · rw [h]; exact hxx

/-- From then on, as long as the excesses recorded are finite, the tracked sum stays finite and close to the sum of the stored
excesses (the last `max_excess` ones): nothing of the infinite value is left at any later moment. -/
theorem C103_later (lib : Lib F64) (q : F64) (low disc : ℤ) (level : F64) (me : UInt64) (s : Spot F64) (h : Heap F64)
    (pre post : List F64) (h1 : 1 ≤ me.toNat) (R : Recorded lib q low disc level me s h (pre ++ inf false :: post))
    (hlen : me.toNat ≤ post.length) (hN : post.length * me.toNat ≤ 2 ^ 49) (m : ℚ) (hm : m ≤ pow2 900)
    (hpost : ∀ v ∈ post, isFin v ∧ toQ v ≤ m) :
    isFin s.tail.peaks.e ∧
      |toQ s.tail.peaks.e - ((post.drop (post.length - me.toNat)).map toQ).sum| ≤
        8 * (me.toNat : ℚ) * (post.length : ℚ) * m / 2 ^ 53 := by
  have hcc : me.toNat * me.toNat ≤ 2 ^ 49 := le_trans (Nat.mul_le_mul_right _ hlen) hN
  have h2' : me.toNat < 2 ^ 61 := by nlinarith
  obtain ⟨a, I, _⟩ := R.inv h1 h2'
  have hx := R.nonneg h1 h2'
  have hst : s.tail.peaks.e = (statsOf me.toNat (pre ++ inf false :: post)).e := congrArg Stats.e I.stats
  have hall : ∀ v ∈ post, Excess v := by
    intro v hv
    obtain ⟨g1, g2⟩ := hpost v hv
    refine ⟨g1, ?_, g2.trans hm⟩
    rcases nonneg_cases (hx v (List.mem_append_right _ (List.mem_cons_of_mem _ hv))) with h | ⟨_, h⟩
    · rw [h] at g1; exact g1.elim
    · exact h
  have e : post.take me.toNat ++ post.drop me.toNat = post := List.take_append_drop _ _
  obtain ⟨hs, r1, r2⟩ := recovery_drift h1 hcc pre (post.take me.toNat)
    (fun v hv => hx v (by
      rcases List.mem_append.mp hv with h | h
      · exact List.mem_append_left _ h
      · refine List.mem_append_right _ ?_
        rcases List.mem_cons.mp h with h | h
        · rw [h]; exact List.mem_cons_self
        · exact List.mem_cons_of_mem _ (List.mem_of_mem_take h)))
    (by rw [List.length_take]; omega) (fun v hv => hall v (List.mem_of_mem_take hv)) (post.drop me.toNat)
    (fun v hv => hall v (List.mem_of_mem_drop hv)) (by rw [e]; exact hN)
  rw [e] at hs r1 r2
  have hperm : (slots me.toNat (pre ++ inf false :: post)).Perm (post.drop (post.length - me.toNat)) := by
    have := slots_perm h1 (pre ++ inf false :: post)
    unfold Spec.lastN at this
    have e3 : (pre ++ inf false :: post).length - me.toNat = (pre ++ [inf false]).length + (post.length - me.toNat) := by
      simp; omega
    have e4 : pre ++ inf false :: post = (pre ++ [inf false]) ++ post := by simp
    rw [e3, ← List.drop_drop, e4, List.drop_left, ← e4] at this
    exact this
  have hE := statsOf_extremes h1 h2' (pre ++ inf false :: post) (fun v hv => nonneg_nan (hx v hv)) (by simp)
  have hmax : toQ (statsOf me.toNat (pre ++ inf false :: post)).max ≤ m :=
    (hpost _ (List.mem_of_mem_drop (hperm.mem_iff.mp hE.2.1))).2
  have h0 : (0 : ℚ) ≤ 8 * (me.toNat : ℚ) / 9007199254740992 * (post.length : ℚ) :=
    mul_nonneg (div_nonneg (mul_nonneg (by norm_num) (Nat.cast_nonneg _)) (by norm_num)) (Nat.cast_nonneg _)
  rw [hst]
  refine ⟨r1, ?_⟩
  rw [(hperm.map toQ).sum_eq] at r2
  refine (r2.trans (mul_le_mul_of_nonneg_left hmax h0)).trans (le_of_eq ?_)
  norm_num
  ring

/-- a detector of capacity 2, fitted on seven values the last of which is infinite, then two observations -/
def Sample.forget : C ((ℤ × Spot F64 × Heap F64) × (ℤ × Spot F64 × Heap F64) × (ℤ × Spot F64 × Heap F64)) := do
  let r := spot_init Sample.lib Sample.emptyHeap Sample.zeroed (lit (1 / 100)) 0 1 (lit (9 / 10)) 2
  let f ← spot_fit (codeMath muslFU) r.2.2 r.2.1 [lit 1, lit 2, lit 3, lit 4, lit 5, lit 7, inf false] 7
  let t ← spot_step (codeMath muslFU) f.2.2 f.2.1 (lit 1000)
  let u ← spot_step (codeMath muslFU) t.2.2 t.2.1 (lit 2000)
  .ok (f, t, u)

theorem Sample.forget_ok : Sample.forget.map (fun r =>
      ((r.1.1, r.1.2.1.excess_threshold, r.1.2.1.anomaly_threshold), (r.2.1.1, r.2.1.2.1.excess_threshold, r.2.1.2.1.anomaly_threshold),
        r.2.2.1, r.2.2.2.1.tail.peaks.e, decide (isFin r.2.2.2.1.anomaly_threshold))) =
    .ok ((0, lit 3, inf false), (1, lit 3, inf false), 1, lit (997 + 1997), true) := by decide +kernel

/-- the hypotheses are met: the excesses recorded are 1, 2, 4, infinity, 997 and 1997 (the threshold, infinite until then, is finite
after the last one) -/
example : ∃ s h, Recorded Sample.lib (lit (1 / 100)) 0 1 (lit (9 / 10)) 2 s h
      ([lit 1, lit 2, lit 4] ++ inf false :: [lit 997, lit 1997]) ∧ isFin s.anomaly_threshold := by
  obtain ⟨⟨f, t, u⟩, hr, hv⟩ := of_map Sample.forget_ok
  unfold Sample.forget at hr
  obtain ⟨f', hf, hr⟩ := C.bind_ok hr
  obtain ⟨t', ht, hr⟩ := C.bind_ok hr
  obtain ⟨u', hu, hr⟩ := C.bind_ok hr
  cases hr
  obtain ⟨f1, f2, f3⟩ := f
  obtain ⟨t1, t2, t3⟩ := t
  obtain ⟨u1, u2, u3⟩ := u
  simp only [Prod.mk.injEq] at hv
  obtain ⟨⟨e1, e2, e3⟩, ⟨e4, e5, e6⟩, e7, e8, e9⟩ := hv
  subst e1 e4 e7
  have R := Recorded.step (lit 2000) 1 u2 u3 (Recorded.step (lit 1000) 1 t2 t3 (Recorded.fit
    [lit 1, lit 2, lit 3, lit 4, lit 5, lit 7, inf false] 7 (by decide +kernel) 0 f2 f3
    (Recorded.init (q := lit (1 / 100)) (low := 0) (disc := 1) (level := lit (9 / 10)) (me := 2) (lib := Sample.lib)
      Sample.emptyHeap Sample.zeroed (by decide +kernel)) hf) ht) hu
  refine ⟨u2, u3, ?_, of_decide_eq_true e9⟩
  have hex : Spec.excesses 0 (lit 3) ([lit 1, lit 2, lit 3, lit 4, lit 5, lit 7, inf false].take (7 : UInt64).toNat) =
      [lit 1, lit 2, lit 4, inf false] := by
    rw [← fitExcesses_eq _ _ _ ((F64.is_nan_false _).mp (by decide +kernel))]
    decide +kernel
  have hx : excessOf 0 (lit 3) (lit 1000) = lit 997 ∧ excessOf 0 (lit 3) (lit 2000) = lit 1997 := by decide +kernel
  rw [e2, e5, hex, hx.1, hx.2] at R
  exact R

end Verif

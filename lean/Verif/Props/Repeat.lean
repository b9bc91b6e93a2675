/-
C135: a value that repeats.
-/
import Verif.Proofs.Repeat
import Verif.Props.Quiet
import Verif.Props.Alarm
import Verif.Props.Equal
import Verif.Props.Support

namespace Verif
open F64

namespace Repeat

theorem nan_of_nonneg {v : F64} (h : F64.le (F64.zero false) v = true) : is_nan v = false :=
  (F64.is_nan_false v).mpr ((F64.le_iff _ _).mp h).2.1

theorem runOps_snoc {α : Type} [CDouble α] {M : MathFns α} {h h1 h2 : Heap α} {s s1 s2 : Spot α} {x : α} {j : ℕ}
    (r1 : runOps M h s (List.replicate j (.step x)) = .ok (List.replicate j (.code 1), s1, h1)) (r2 : spot_step M h1 s1 x = .ok (1, s2, h2)) :
    runOps M h s (List.replicate (j + 1) (.step x)) = .ok (List.replicate (j + 1) (.code 1), s2, h2) := by
  rw [List.replicate_succ', runOps_append, r1, List.replicate_succ']
  show (do let r' ← runOps M h1 s1 [.step x]; .ok (List.replicate j (Out.code 1) ++ r'.1, r'.2.1, r'.2.2)) = _
  unfold runOps exec
  dsimp only
  rw [r2]
  rfl

theorem runOps_trans {α : Type} [CDouble α] {M : MathFns α} {h h1 h2 : Heap α} {s s1 s2 : Spot α} {x : α} {m j : ℕ}
    (r1 : runOps M h s (List.replicate m (.step x)) = .ok (List.replicate m (.code 1), s1, h1))
    (r2 : runOps M h1 s1 (List.replicate j (.step x)) = .ok (List.replicate j (.code 1), s2, h2)) :
    runOps M h s (List.replicate (m + j) (.step x)) = .ok (List.replicate (m + j) (.code 1), s2, h2) := by
  rw [List.replicate_add, List.replicate_add, runOps_append, r1]
  show (do let r' ← runOps M h1 s1 (List.replicate j (.step x)); .ok (List.replicate m (Out.code 1) ++ r'.1, r'.2.1, r'.2.2)) = _
  rw [r2]
  rfl

/-- the quotients of `q` by the proportion of excesses, when all of `i` further observations are excesses -/
theorem ratio_anti {N n i : ℕ} (N0 : 0 < N) (hN : N ≤ n) (hn : n + i ≤ 2 ^ 53) {q : F64} (hq : isFin q) (q0 : 1 / 2 ^ 47 ≤ toQ q) (q1 : toQ q ≤ 1)
    (hhi : toQ q ≤ 16 * ((N : ℚ) / n)) :
    isFin (q /. (lit (N : ℚ) /. lit (n : ℚ))) ∧ isFin (q /. (lit ((N + i : ℕ) : ℚ) /. lit ((n + i : ℕ) : ℚ))) ∧
    0 < toQ (q /. (lit (N : ℚ) /. lit (n : ℚ))) ∧ 0 < toQ (q /. (lit ((N + i : ℕ) : ℚ) /. lit ((n + i : ℕ) : ℚ))) ∧
    toQ (xlog muslFU (q /. (lit ((N + i : ℕ) : ℚ) /. lit ((n + i : ℕ) : ℚ)))) ≤ toQ (xlog muslFU (q /. (lit (N : ℚ) /. lit (n : ℚ)))) := by
  obtain ⟨S1, S2, S3, S4⟩ := proportion_pos N0 hN (by omega : n ≤ 2 ^ 53)
  obtain ⟨T1, T2, T3, T4⟩ := proportion_pos (N := N + i) (n := n + i) (by omega) (by omega) hn
  have qp : 0 < toQ q := lt_of_lt_of_le (by norm_num) q0
  obtain ⟨r1, r2, r3⟩ := ratio_pos hq qp q1 S1 S3 S4
  obtain ⟨t1, t2, t3⟩ := ratio_pos hq qp q1 T1 T3 T4
  refine ⟨r1, t1, r3, t3, ?_⟩
  have hS : 0 < toQ (lit (N : ℚ) /. lit (n : ℚ) : F64) := (pow2_pos _).trans_le S3
  have hT : 0 < toQ (lit ((N + i : ℕ) : ℚ) /. lit ((n + i : ℕ) : ℚ) : F64) := (pow2_pos _).trans_le T3
  have hN1 : (1 : ℚ) ≤ N := by exact_mod_cast N0
  have hn0 : (0 : ℚ) < n := by exact_mod_cast N0.trans_le hN
  have hNn : (N : ℚ) ≤ n := by exact_mod_cast hN
  have hST : toQ (lit (N : ℚ) /. lit (n : ℚ) : F64) ≤ toQ (lit ((N + i : ℕ) : ℚ) /. lit ((n + i : ℕ) : ℚ) : F64) := by
    rw [S2, T2]
    refine rq_mono ?_
    push_cast
    rw [div_le_div_iff₀ hn0 (by positivity)]
    have : (0 : ℚ) ≤ i := by positivity
    nlinarith
  have P0 : pow2 (-53) ≤ (N : ℚ) / n := by
    have hn' : (n : ℚ) ≤ 2 ^ 53 := by exact_mod_cast (by omega : n ≤ 2 ^ 53)
    rw [le_div_iff₀ hn0, pow2_eq]
    norm_num
    linarith
  have P0' : 0 < (N : ℚ) / n := (pow2_pos _).trans_le P0
  have rel : |toQ (lit (N : ℚ) /. lit (n : ℚ) : F64) - (N : ℚ) / n| ≤ (N : ℚ) / n / 4 := by
    rw [S2]
    refine (rq_rel (.inr ?_)).trans ?_
    · rw [abs_of_pos P0']; exact (pow2_le (by norm_num)).trans P0
    · rw [abs_of_pos P0', pow2_m53]
      have : (1 / 9007199254740992 : ℚ) * ((N : ℚ) / n) ≤ 1 / 4 * ((N : ℚ) / n) :=
        mul_le_mul_of_nonneg_right (by norm_num) P0'.le
      linarith
  obtain ⟨b1, b2⟩ := abs_le.mp rel
  refine (C76_partial _ _ t1 r1 t3 ?_).2.2.1 ?_ ?_
  · rw [r2, t2]; exact rq_mono (div_le_div_of_nonneg_left qp.le hS hST)
  · have e : rq (1 / 2 ^ 48) = 1 / 2 ^ 48 := by
      refine rq_rep ⟨1, -48, by norm_num, by norm_num, ?_⟩
      rw [pow2_eq, abs_of_pos (by norm_num)]; norm_num
    rw [t2, ← e]
    apply rq_mono
    rw [le_div_iff₀ hT]
    linarith
  · have e : rq 31 = 31 := by
      have := rq_rep (rep_int (i := 31) (by norm_num))
      exact_mod_cast this
    have : rq (toQ q / toQ (lit (N : ℚ) /. lit (n : ℚ) : F64)) ≤ 31 := by
      rw [← e]
      apply rq_mono
      rw [div_le_iff₀ hS]
      linarith
    rw [r2]; linarith

end Repeat

/-- **C135**, the parameters. On doubles, for every reachable detector and all elementary functions: once a value has been reported as an excess more than `max_excess` times in a row, the shape
and the scale do not change as long as it repeats. -/
theorem C135_frozen (M : MathFns F64) (lib : Lib F64) (q level : F64) (low disc : ℤ) (me : UInt64) (s : Spot F64) (h : Heap F64)
    (R : Reaches M lib q low disc level me s h) (x : F64) (m j : ℕ) (hm : me.toNat + 1 ≤ m) (s1 s2 : Spot F64) (h1 h2 : Heap F64)
    (r1 : runOps M h s (List.replicate m (.step x)) = .ok (List.replicate m (.code 1), s1, h1))
    (r2 : runOps M h1 s1 (List.replicate j (.step x)) = .ok (List.replicate j (.code 1), s2, h2)) :
    s2.tail.gamma = s1.tail.gamma ∧ s2.tail.sigma = s1.tail.sigma := by
  obtain ⟨a, xs, I, -, hx⟩ := reaches_nonneg R
  have hx' : ∀ v ∈ xs, is_nan v = false := fun v hv => Repeat.nan_of_nonneg (hx v hv)
  obtain ⟨-, a1, a2⟩ := Repeat.run_params I R.1 R.2.1 hx' hm r1
  obtain ⟨-, b1, b2⟩ := Repeat.run_params I R.1 R.2.1 hx' (by omega) (Repeat.runOps_trans r1 r2)
  exact ⟨b1.trans a1.symm, b2.trans a2.symm⟩

/-- **C135**, on doubles, rounding errors included. A value `x` has been reported as an excess more than `max_excess` times in a row, and the detector then holds moderate parameters and an anomaly
threshold, for a `q` that is not below 2^-47 nor above 16 times the proportion of excesses. If `x` is reported as an excess once more, then it is reported as an excess for as long as it
repeats (up to 2^53 observations). -/
theorem C135_doubles (lib : Lib F64) (q level : F64) (low disc : ℤ) (me : UInt64) (s : Spot F64) (h : Heap F64)
    (R : Reaches (codeMath muslFU) lib q low disc level me s h) (x : F64) (m : ℕ) (hm : me.toNat + 1 ≤ m) (s1 : Spot F64) (h1 : Heap F64)
    (r1 : runOps (codeMath muslFU) h s (List.replicate m (.step x)) = .ok (List.replicate m (.code 1), s1, h1))
    (F : FittedF64 s1 (low ≠ 0)) (hz : notNaN s1.anomaly_threshold) (hq : isFin q) (q0 : 1 / 2 ^ 47 ≤ toQ q) (q1 : toQ q ≤ 1)
    (hhi : toQ q ≤ 16 * ((s1.Nt.toNat : ℚ) / s1.n.toNat)) (s' : Spot F64) (h' : Heap F64) (hacc : spot_step (codeMath muslFU) h1 s1 x = .ok (1, s', h')) :
    ∀ j : ℕ, s1.n.toNat + j ≤ 2 ^ 53 → ∃ s2 h2, runOps (codeMath muslFU) h1 s1 (List.replicate j (.step x)) = .ok (List.replicate j (.code 1), s2, h2) ∧
      (s2.anomaly_threshold = nan ∨ if low ≠ 0 then s2.anomaly_threshold.val ≤ s1.anomaly_threshold.val else s1.anomaly_threshold.val ≤ s2.anomaly_threshold.val) := by
  obtain ⟨a, xs, I, P, hx⟩ := reaches_nonneg R
  have hx' : ∀ v ∈ xs, is_nan v = false := fun v hv => Repeat.nan_of_nonneg (hx v hv)
  obtain ⟨c1, c2⟩ : 0 < me.toNat ∧ me.toNat < 2 ^ 61 := ⟨R.1, R.2.1⟩
  obtain ⟨I1, u1, e1, qq1, dd1, -, rest⟩ := Repeat.run_excess m I r1
  obtain ⟨d0, hq1, -⟩ := rest (by omega)
  obtain ⟨hd, g1, σ1⟩ := Repeat.run_params I c1 c2 hx' hm r1
  obtain ⟨-, nx, na, -, -, -⟩ := Repeat.step_excess I1 hacc
  have hsq : s.q = q := P.pq
  have hud : s.up_down = if low ≠ 0 then lit (-1) else lit 1 := P.pud
  rw [qq1, hsq] at hq1
  intro j
  induction j with
  | zero =>
    intro _
    refine ⟨s1, h1, rfl, .inr ?_⟩
    split <;> exact le_refl _
  | succ j ih =>
    intro hj
    obtain ⟨s2, h2, r2, hat⟩ := ih (by omega)
    have r12 := Repeat.runOps_trans r1 r2
    obtain ⟨I2, u2, e2, qq2, dd2, -, -⟩ := Repeat.run_excess (m + j) I r12
    obtain ⟨-, -, -, -, -, ⟨n2, N2⟩, -⟩ := Repeat.run_excess j I1 r2
    -- the threshold after this step
    have en : (s1.n + UInt64.ofNat (j + 1)).toNat = s1.n.toNat + (j + 1) := by
      rw [UInt64.toNat_add, UInt64.toNat_ofNat']; omega
    have eN : (s1.Nt + UInt64.ofNat (j + 1)).toNat = s1.Nt.toNat + (j + 1) := by
      have := F.le
      rw [UInt64.toNat_add, UInt64.toNat_ofNat']; omega
    obtain ⟨t1, t2, t3, t4, t5⟩ := Repeat.ratio_anti F.Nt F.le (i := j + 1) (by omega) hq q0 q1 hhi
    have F' : FittedF64 { s1 with n := s1.n + UInt64.ofNat (j + 1), Nt := s1.Nt + UInt64.ofNat (j + 1) } (low ≠ 0) :=
      ⟨F.up_down, F.et, F.gamma, F.sigma, by dsimp only; rw [eN]; omega, by dsimp only; rw [eN, en]; have := F.le; omega, by dsimp only; rw [en]; omega⟩
    obtain ⟨z, z', k1, k2, k3⟩ := Quiet.quantile_le (s := { s1 with n := s1.n + UInt64.ofNat (j + 1), Nt := s1.Nt + UInt64.ofNat (j + 1) }) (s' := s1) F' rfl rfl rfl q _ _ rfl rfl
      (by dsimp only; rw [en, eN]; exact t2) t1 (by dsimp only; rw [en, eN]; exact t4) t3 (by dsimp only; rw [en, eN]; exact t5)
    have k2' := k2.symm.trans hq1
    cases k2'
    -- the step
    have hex : Repeat.excess s2 x = Repeat.excess s x := by unfold Repeat.excess; rw [u2, e2]
    have flag : anomTest s2 x = false := by
      rw [Bool.eq_false_iff]
      intro g
      rw [anomTest_ud (low := low) (u2.trans hud)] at g
      obtain ⟨y1, y2, y3, y4⟩ := g
      refine absurd ((anomTest_ud (low := low) (u1.trans hud) x).mpr ⟨by rw [dd1, ← dd2]; exact y1, y2, hz, ?_⟩) (by rw [na]; simp)
      rcases hat with hat | hat
      · rw [hat] at y3; exact absurd y3 (by decide)
      · by_cases l : low ≠ 0
        · rw [if_pos l] at hat y4 ⊢; exact y4.trans_le hat
        · rw [if_neg l] at hat y4 ⊢; exact hat.trans_lt y4
    have S : ∃ s3 h3, spot_step (codeMath muslFU) h2 s2 x = .ok (1, s3, h3) ∧ s3.anomaly_threshold = z := by
      have Rf := step_refines (M := codeMath muslFU) I2 x
      unfold stepC at Rf
      have na' : ¬ (s2.core.discard ≠ 0 && s2.core.up_down *. (x -. s2.core.at_) >. lit 0) = true := by
        intro g
        exact absurd ((show anomTest s2 x = true from g).symm.trans flag) (by simp)
      have nt' : (s2.core.up_down *. (x -. s2.core.et) >=. lit 0) = true := by
        show (Repeat.excess s2 x >=. lit 0) = true
        rw [hex]; exact d0
      rw [nx, if_neg (by simp), if_neg na'] at Rf
      simp only [if_pos nt'] at Rf
      have happ : xs ++ List.replicate (m + j) (Repeat.excess s x) ++ [s2.core.up_down *. (x -. s2.core.et)] =
          xs ++ List.replicate (m + (j + 1)) (Repeat.excess s x) := by
        show _ ++ [Repeat.excess s2 x] = _
        rw [hex, List.append_assoc, ← List.replicate_succ']; rfl
      rw [happ, Repeat.refit_repeat c1 c2 _ xs hx' _ hd (by omega)] at Rf
      dsimp only at Rf
      have hqz : quantileC (codeMath muslFU) { s2.core with n := s2.core.n + 1, Nt := s2.core.Nt + 1, gamma := (Repeat.params (codeMath muslFU) me.toNat (Repeat.excess s x)).1, sigma := (Repeat.params (codeMath muslFU) me.toNat (Repeat.excess s x)).2 } s2.core.q = .ok z := by
        rw [← k1, ← g1, ← σ1, show s2.core.q = q from qq2.trans hsq]
        have a1 : s2.core.n + 1 = s1.n + UInt64.ofNat (j + 1) := by
          show s2.n + 1 = _
          rw [n2, UInt64.add_assoc, UInt64.ofNat_add]; rfl
        have a2 : s2.core.Nt + 1 = s1.Nt + UInt64.ofNat (j + 1) := by
          show s2.Nt + 1 = _
          rw [N2, UInt64.add_assoc, UInt64.ofNat_add]; rfl
        have a3 : s2.core.et = s1.excess_threshold := (e2.trans e1.symm : s2.excess_threshold = _)
        have a4 : s2.core.up_down = s1.up_down := (u2.trans u1.symm : s2.up_down = _)
        unfold quantileC
        dsimp only
        rw [a1, a2, a3, a4]
        rfl
      rw [hqz] at Rf
      obtain ⟨s3, h3, e, hcore, -, -⟩ := Rf
      exact ⟨s3, h3, e, congrArg Core.at_ hcore⟩
    obtain ⟨s3, h3, e3, hz3⟩ := S
    refine ⟨s3, h3, Repeat.runOps_snoc r2 e3, ?_⟩
    rw [hz3]
    rcases k3 with k3 | k3 | ⟨k3, k4⟩
    · exact .inl k3
    · rw [k3] at hz; exact absurd hz (by decide)
    · right
      by_cases l : low ≠ 0
      · rw [if_pos l]; exact ((F64.le_iff _ _).mp (k4 l)).2.2
      · rw [if_neg l]; exact ((F64.le_iff _ _).mp (k3 l)).2.2


/-- `Sample.init` with room for two excesses -/
def Sample.init2 : ℤ × Spot F64 × Heap F64 := spot_init Sample.lib Sample.emptyHeap Sample.zeroed (lit (1 / 100)) 0 1 (lit (9 / 10)) 2

/-- The hypotheses of `C135_frozen` and `C135_doubles` are met: after the fit of the sample data the value 9 is reported as an excess three times, and once more. It is then reported as an excess
a million times. -/
example : ∃ s h s1 h1 s' h', Reaches (codeMath muslFU) Sample.lib (lit (1 / 100)) 0 1 (lit (9 / 10)) 2 s h ∧
    runOps (codeMath muslFU) h s (List.replicate 3 (.step (lit 9))) = .ok (List.replicate 3 (.code 1), s1, h1) ∧ FittedF64 s1 ((0 : ℤ) ≠ 0) ∧ notNaN s1.anomaly_threshold ∧
    toQ (lit (1 / 100) : F64) ≤ 16 * ((s1.Nt.toNat : ℚ) / s1.n.toNat) ∧ spot_step (codeMath muslFU) h1 s1 (lit 9) = .ok (1, s', h') ∧
    ∃ s2 h2, runOps (codeMath muslFU) h1 s1 (List.replicate 1000000 (.step (lit 9))) = .ok (List.replicate 1000000 (.code 1), s2, h2) := by
  have hd : (match runOps (codeMath muslFU) Sample.init2.2.2 Sample.init2.2.1 [.fit Sample.data 7] with
    | .ok (_, s, h) =>
      match runOps (codeMath muslFU) h s (List.replicate 3 (.step (lit 9))) with
      | .ok (outs, s1, h1) => decide (outs = List.replicate 3 (.code 1)) && Sample.fittedB s1 && decide (notNaN s1.anomaly_threshold) &&
          decide (toQ (lit (1 / 100) : F64) ≤ 16 * ((s1.Nt.toNat : ℚ) / s1.n.toNat)) && decide (s1.n.toNat ≤ 1000) &&
          (match spot_step (codeMath muslFU) h1 s1 (lit 9) with | .ok (c, _, _) => decide (c = 1) | .error _ => false)
      | .error _ => false
    | .error _ => false) = true := by decide +kernel
  split at hd
  · rename_i o s h e
    split at hd
    · rename_i outs s1 h1 e1
      simp only [Bool.and_eq_true, decide_eq_true_iff] at hd
      obtain ⟨⟨⟨⟨⟨rfl, f⟩, z⟩, b⟩, n⟩, hd⟩ := hd
      split at hd
      · rename_i c s' h' e2
        simp only [decide_eq_true_iff] at hd
        subst hd
        have R : Reaches (codeMath muslFU) Sample.lib (lit (1 / 100)) 0 1 (lit (9 / 10)) 2 s h :=
          ⟨by decide, by decide, Sample.emptyHeap, Sample.zeroed, by decide +kernel, [.fit Sample.data 7], o, by simp [Op.valid, Sample.data], e⟩
        obtain ⟨s2, h2, r, -⟩ := C135_doubles _ _ _ _ _ _ s h R (lit 9) 3 (by decide) s1 h1 e1 (Sample.fitted_of f) z (by decide +kernel) (by decide +kernel) (by decide +kernel) b s' h' e2
          1000000 (by omega)
        exact ⟨s, h, s1, h1, s', h', R, e1, Sample.fitted_of f, z, b, e2, s2, h2, r⟩
      · cases hd
    · cases hd
  · cases hd

namespace Repeat
open XR

theorem refit_exact {c : ℕ} (h1 : 1 ≤ c) (h2 : c < 2 ^ 61) {d : ℝ} (hd : 0 < d) (k : Core XR) (ys : List ℝ) {m : ℕ} (hm : c ≤ m) :
    refit exactMath c k (ys.map XR.fin ++ List.replicate m (XR.fin d)) = { k with gamma := lit 0, sigma := XR.fin d } := by
  have hn : ∀ l : List ℝ, ∀ v ∈ l.map XR.fin, is_nan v = false := fun l v hv => by obtain ⟨r, -, rfl⟩ := List.mem_map.mp hv; exact nan_f r
  have E : ∀ n, 1 ≤ n → ∀ γ σ, (fitL exactMath γ σ (statsOf c (List.replicate n (XR.fin d))) (slots c (List.replicate n (XR.fin d)))).2 = (lit 0, XR.fin d) := fun n hn γ σ => by
    have := Equal.fitL_equal (c := c) (k := n) hd h1 h2 hn γ σ
    rwa [List.map_replicate] at this
  have S : ∀ γ σ, (fitL exactMath γ σ (Stats.recompute (List.replicate c (XR.fin d))) (List.replicate c (XR.fin d))).2 = (lit 0, XR.fin d) := fun γ σ => by
    have e := E (c + 1) (by omega) γ σ
    have r := stats_repeat (xs := []) (d := XR.fin d) (m := c + 1) h1 h2 (by simp) (nan_f d) (by omega)
    have s := slots_repeat (xs := []) (d := XR.fin d) (m := c + 1) h1 (by omega)
    rw [List.nil_append] at r s
    rwa [r, s] at e
  unfold refit
  by_cases hm' : c + 1 ≤ m
  · rw [stats_repeat h1 h2 _ (hn ys) _ (nan_f d) hm', slots_repeat h1 _ _ hm, S]
  · obtain rfl : m = c := by omega
    rcases List.eq_nil_or_concat ys with rfl | ⟨zs, v, rfl⟩
    · rw [List.map_nil, List.nil_append, E _ h1]
    · rw [List.concat_eq_append, List.map_append, List.map_singleton, stats_repeat_full h1 h2 _ _ (hn zs) (nan_f v) _ (nan_f d), slots_repeat h1 _ _ hm, S]

/-- the state after `m ≥ c` excesses with the value `x` -/
theorem exact_state {c : ℕ} (h1 : 1 ≤ c) (h2 : c < 2 ^ 61) {low : ℤ} {q : ℝ} (hq : 0 < q) {h : Heap XR} {s : Spot XR} {a : ℕ} {ys : List ℝ}
    (I : SpotInv h s a c (ys.map fin)) (G : Support.Good c low (fin q) s.core (ys.map fin) ys) {et : ℝ} (het : s.excess_threshold = fin et) {x : ℝ}
    (hx : if low ≠ 0 then x < et else et < x) {m : ℕ} (hm : c ≤ m) {s1 : Spot XR} {h1' : Heap XR}
    (hr : runOps exactMath h s (List.replicate m (.step (fin x))) = .ok (List.replicate m (.code 1), s1, h1'))
    (hN : 0 < s1.Nt.toNat) (hn : 0 < s1.n.toNat) :
    s1.tail.gamma = fin 0 ∧ s1.tail.sigma = fin |x - et| ∧ s1.anomaly_threshold = fin (et + (x - et) * Real.log (s1.Nt.toNat / (s1.n.toNat * q))) := by
  have hex : excess s (fin x) = fin |x - et| := by
    have := Support.excess_real (low := low) G.ud (x := x) (et := et) het
    refine (show excess s (fin x) = _ from this).trans ?_
    congr 1
    by_cases l : low ≠ 0
    · rw [if_pos l] at hx ⊢; rw [abs_of_neg (by linarith)]; ring
    · rw [if_neg l] at hx ⊢; rw [abs_of_pos (by linarith)]; ring
  have hp : 0 < |x - et| := by
    by_cases l : low ≠ 0
    · rw [if_pos l] at hx; exact abs_pos.mpr (by linarith [hx] : x - et < 0).ne
    · rw [if_neg l] at hx; exact abs_pos.mpr (by linarith [hx] : 0 < x - et).ne'
  obtain ⟨-, u, e, qq, -, -, rest⟩ := run_excess m I hr
  obtain ⟨-, z, k, g, σ⟩ := rest (by omega)
  rw [hex, refit_exact h1 h2 hp _ _ hm] at g σ
  have l0 : (lit 0 : XR) = fin 0 := by rw [lit_fin]; push_cast; rfl
  refine ⟨g.trans l0, σ, ?_⟩
  have k := quantileC_exp (K := s1.core) q et |x - et| (if low ≠ 0 then -1 else 1) hq g σ (u.trans G.ud) (e.trans het) hN hn
  have z' : quantileC exactMath s1.core (fin q) = .ok s1.anomaly_threshold := by
    rw [← z, qq, show s.q = fin q from G.kq]; rfl
  rw [k] at z'
  rw [← Except.ok.inj z']
  congr 1
  show et + _ * (_ * Real.log (s1.Nt.toNat / (s1.n.toNat * q))) = _
  by_cases l : low ≠ 0
  · rw [if_pos l] at hx ⊢; rw [abs_of_neg (by linarith)]; ring
  · rw [if_neg l] at hx ⊢; rw [abs_of_pos (by linarith)]; ring

theorem anom_exact {low : ℤ} {s : Spot XR} (u : s.up_down = fin (if low ≠ 0 then -1 else 1)) {x et q : ℝ} (hq : 0 < q)
    (hx : if low ≠ 0 then x < et else et < x) (hN : 0 < s.Nt.toNat) (hn : 0 < s.n.toNat)
    (h : s.anomaly_threshold = fin (et + (x - et) * Real.log (s.Nt.toNat / (s.n.toNat * q)))) :
    anomTest s (fin x) = true ↔ s.discard_anomalies ≠ 0 ∧ s.Nt.toNat < Real.exp 1 * (q * s.n.toNat) := by
  have a : (0 : ℝ) < s.Nt.toNat := by exact_mod_cast hN
  have b : (0 : ℝ) < s.n.toNat := by exact_mod_cast hn
  have l0 : (lit 0 : XR) = fin 0 := by rw [lit_fin]; push_cast; rfl
  have key : Real.log (s.Nt.toNat / (s.n.toNat * q)) < 1 ↔ (s.Nt.toNat : ℝ) < Real.exp 1 * (q * s.n.toNat) := by
    rw [Real.log_lt_iff_lt_exp (by positivity), div_lt_iff₀ (by positivity), mul_comm q]
  unfold anomTest
  rw [Bool.and_eq_true, u, h, sub_ff, mul_ff, l0]
  refine and_congr (by simp) ?_
  show (fin 0 <. fin _ : Bool) = true ↔ _
  rw [lt_ff, decide_eq_true_eq, ← key]
  generalize Real.log _ = t
  by_cases l : low ≠ 0
  · rw [if_pos l] at hx ⊢
    rw [show -1 * (x - (et + (x - et) * t)) = (et - x) * (1 - t) by ring, mul_pos_iff_of_pos_left (by linarith)]
    constructor <;> intro _ <;> linarith
  · rw [if_neg l] at hx ⊢
    rw [show 1 * (x - (et + (x - et) * t)) = (x - et) * (1 - t) by ring, mul_pos_iff_of_pos_left (by linarith)]
    constructor <;> intro _ <;> linarith

end Repeat

section
open XR

/-- **C135**, in exact arithmetic. After any sequence of calls with real numbers, a number `x` beyond the excess threshold `et` is reported as an excess `max_excess` times in a row.
The model is then exponential, with `γ = 0` and `σ = |x - et|`, and the anomaly threshold is `et + (x - et) log (Nt / (n q))`. If the detector discards anomalies and `Nt < e q n`, every further
`x` is reported as an anomaly and nothing changes any more. Otherwise every further `x` is reported as an excess (as long as the counter does not wrap around). -/
theorem C135_exact (lib : Lib XR) (h0 : Heap XR) (s0 : Spot XR) (q : ℝ) (level : XR) (low disc : ℤ) (me : UInt64) (h1 : 1 ≤ me.toNat) (h2 : me.toNat < 2 ^ 61)
    (hi : (spot_init lib h0 s0 (fin q) low disc level me).1 = 0) (hq : 0 < q) (ops : List (Op XR)) (hv : ∀ op ∈ ops, op.valid)
    (ho : ∀ op ∈ ops, Spec.realOp op) (outs : List (Out XR)) (s : Spot XR) (h : Heap XR)
    (hr : runOps exactMath (spot_init lib h0 s0 (fin q) low disc level me).2.2 (spot_init lib h0 s0 (fin q) low disc level me).2.1 ops = .ok (outs, s, h))
    (et x : ℝ) (het : s.excess_threshold = fin et) (hx : if low ≠ 0 then x < et else et < x) (m : ℕ) (hm : me.toNat ≤ m) (s1 : Spot XR) (h1' : Heap XR)
    (hr1 : runOps exactMath h s (List.replicate m (.step (fin x))) = .ok (List.replicate m (.code 1), s1, h1'))
    (hN : 0 < s1.Nt.toNat) (hn : s1.Nt.toNat ≤ s1.n.toNat) :
    s1.tail.gamma = fin 0 ∧ s1.tail.sigma = fin |x - et| ∧ s1.anomaly_threshold = fin (et + (x - et) * Real.log (s1.Nt.toNat / (s1.n.toNat * q))) ∧
    (disc ≠ 0 ∧ s1.Nt.toNat < Real.exp 1 * (q * s1.n.toNat) →
      ∀ j : ℕ, runOps exactMath h1' s1 (List.replicate j (.step (fin x))) = .ok (List.replicate j (.code 2), s1, h1')) ∧
    (¬ (disc ≠ 0 ∧ s1.Nt.toNat < Real.exp 1 * (q * s1.n.toNat)) →
      ∀ j : ℕ, s1.n.toNat + j < 2 ^ 64 → ∃ s2 h2, runOps exactMath h1' s1 (List.replicate j (.step (fin x))) = .ok (List.replicate j (.code 1), s2, h2)) := by
  obtain ⟨a, ys, I, G⟩ := reached_good h1 h2 hi ops hv ho hr
  obtain ⟨A, B, D⟩ := Repeat.exact_state h1 h2 hq I G het hx hm hr1 hN (by omega)
  obtain ⟨I1, u1, e1, -, d1, -, r1⟩ := Repeat.run_excess m I hr1
  obtain ⟨d0, -, -⟩ := r1 (by omega)
  have hud : s.up_down = fin (if low ≠ 0 then -1 else 1) := G.ud
  have hdisc : s.discard_anomalies ≠ 0 ↔ disc ≠ 0 := by
    obtain ⟨-, -, -, P⟩ := Reaches.inv (M := exactMath) (lib := lib) (q := fin q) (level := level) (low := low) (disc := disc) (me := me) (s := s) (h := h)
      ⟨h1, h2, h0, s0, hi, ops, outs, hv, hr⟩
    have : s.discard_anomalies = if disc ≠ 0 then 1 else 0 := P.pdisc
    rw [this]
    split <;> simp_all
  refine ⟨A, B, D, fun hc j => ?_, fun hc j => ?_⟩
  · have T := (Repeat.anom_exact (u1.trans hud) hq hx hN (by omega) D).mpr (by rw [d1, hdisc]; exact hc)
    have S : spot_step exactMath h1' s1 (fin x) = .ok (2, s1, h1') := by
      unfold spot_step
      rw [nan_f, if_neg (by simp)]
      exact if_pos T
    induction j with
    | zero => rfl
    | succ j ih =>
      rw [List.replicate_succ, List.replicate_succ]
      unfold runOps exec
      dsimp only
      rw [S]
      show (do let r' ← runOps exactMath h1' s1 (List.replicate j (.step (fin x))); .ok (Out.code 2 :: r'.1, r'.2.1, r'.2.2)) = _
      rw [ih]
      rfl
  · induction j with
    | zero => exact fun _ => ⟨s1, h1', rfl⟩
    | succ j ih =>
      intro hj
      obtain ⟨s2, h2', r2⟩ := ih (by omega)
      have r12 := Repeat.runOps_trans hr1 r2
      obtain ⟨I2, u2, e2, -, d2, -, -⟩ := Repeat.run_excess (m + j) I r12
      obtain ⟨-, -, -, -, -, ⟨n2, N2⟩, -⟩ := Repeat.run_excess j I1 r2
      have en : s2.n.toNat = s1.n.toNat + j := by
        rw [n2, UInt64.toNat_add, UInt64.toNat_ofNat']; omega
      have eN : s2.Nt.toNat = s1.Nt.toNat + j := by
        rw [N2, UInt64.toNat_add, UInt64.toNat_ofNat']; omega
      obtain ⟨-, -, D2⟩ := Repeat.exact_state h1 h2 hq I G het hx (by omega) r12 (by omega) (by omega)
      have T : anomTest s2 (fin x) = false := by
        rw [Bool.eq_false_iff]
        intro g
        rw [Repeat.anom_exact (u2.trans hud) hq hx (by omega) (by omega) D2, d2, hdisc, en, eN] at g
        refine hc ⟨g.1, ?_⟩
        have g2 := g.2
        push_cast at g2
        by_contra k
        push Not at k
        have n0 : (0 : ℝ) < s1.n.toNat := by exact_mod_cast (by omega : 0 < s1.n.toNat)
        have nN : (s1.Nt.toNat : ℝ) ≤ s1.n.toNat := by exact_mod_cast hn
        have : Real.exp 1 * q ≤ 1 := by
          by_contra w
          push Not at w
          have := mul_lt_mul_of_pos_right w n0
          linarith
        have j0 : (0 : ℝ) ≤ j := by positivity
        have := mul_le_mul_of_nonneg_right this j0
        linarith
      have hex : Repeat.excess s2 (fin x) = Repeat.excess s (fin x) := by unfold Repeat.excess; rw [u2, e2]
      have Rf := step_refines (M := exactMath) I2 (fin x)
      unfold stepC at Rf
      have na' : ¬ (s2.core.discard ≠ 0 && s2.core.up_down *. (fin x -. s2.core.at_) >. lit 0) = true := by
        intro g
        exact absurd ((show anomTest s2 (fin x) = true from g).symm.trans T) (by simp)
      have nt' : (s2.core.up_down *. (fin x -. s2.core.et) >=. lit 0) = true := by
        show (Repeat.excess s2 (fin x) >=. lit 0) = true
        rw [hex]; exact d0
      rw [nan_f, if_neg (by simp), if_neg na'] at Rf
      simp only [if_pos nt'] at Rf
      revert Rf
      obtain ⟨z, hz⟩ := Support.quantile_total (refit exactMath me.toNat { s2.core with n := s2.core.n + 1, Nt := s2.core.Nt + 1 }
        (ys.map XR.fin ++ List.replicate (m + j) (Repeat.excess s (fin x)) ++ [s2.core.up_down *. (fin x -. s2.core.et)])) s2.core.q
      intro Rf
      erw [hz] at Rf
      obtain ⟨s3, h3, e3, -⟩ := Rf
      exact ⟨s3, h3, Repeat.runOps_snoc r2 e3⟩

/-- The hypotheses of `C135_exact` are met in both cases: a detector with room for one excess is fitted with the value 2 and given the value 1. With `q` = 1/2 the value 1 is an excess once and an
anomaly from then on, with `q` = 1/10 it is an excess a thousand times. -/
example (q : ℝ) (hq : q = 1 / 2 ∨ q = 1 / 10) :
    ∃ s h s1 h1, runOps exactMath (spot_init Sample.xlib Sample.emptyHeap Sample.xfitted (XR.fin q) 0 1 (lit (1 / 10)) 1).2.2
        (spot_init Sample.xlib Sample.emptyHeap Sample.xfitted (XR.fin q) 0 1 (lit (1 / 10)) 1).2.1 [.fit [XR.fin 2] 1] = .ok ([.code 0], s, h) ∧
      runOps exactMath h s [.step (XR.fin 1)] = .ok ([.code 1], s1, h1) ∧
      (q = 1 / 2 → runOps exactMath h1 s1 (List.replicate 1000 (.step (XR.fin 1))) = .ok (List.replicate 1000 (.code 2), s1, h1)) ∧
      (q = 1 / 10 → ∃ s2 h2, runOps exactMath h1 s1 (List.replicate 1000 (.step (XR.fin 1))) = .ok (List.replicate 1000 (.code 1), s2, h2)) := by
  have q0 : 0 < q := by rcases hq with rfl | rfl <;> norm_num
  have hi : (spot_init Sample.xlib Sample.emptyHeap Sample.xfitted (XR.fin q) 0 1 (lit (1 / 10)) 1).1 = 0 := by
    have hm : ¬ (((1 : UInt64) * 8).toNat > SIZE_MAX) := by decide
    unfold spot_init
    simp only [XR.lit_fin, XR.sub_ff, XR.lt_ff, XR.le_ff]
    rcases hq with rfl | rfl
    all_goals
      norm_num
      unfold tail_init peaks_init ubend_init xmalloc Sample.xlib
      simp only [hm, if_false]
      rfl
  have hp : ∀ p : XR, ∀ d : List XR, p2_quantile p d 1 = .ok (XR.fin 0) := fun p d => by
    unfold p2_quantile quantile
    rw [if_pos (by decide), lit_fin]
    push_cast
    rfl
  obtain ⟨s, h, e, -, -, het, hN, hn, hz⟩ := C128_partial Sample.xlib Sample.emptyHeap Sample.xfitted q (lit (1 / 10)) 0 1 1 (by decide) (by decide) hi q0
    [2] 1 rfl 0 2 1 (hp _ _) (by simp) (by norm_num) (by simp)
  have hr : runOps exactMath (spot_init Sample.xlib Sample.emptyHeap Sample.xfitted (XR.fin q) 0 1 (lit (1 / 10)) 1).2.2
        (spot_init Sample.xlib Sample.emptyHeap Sample.xfitted (XR.fin q) 0 1 (lit (1 / 10)) 1).2.1 [.fit [XR.fin 2] 1] = .ok ([.code 0], s, h) := by
    unfold runOps exec
    dsimp only
    erw [e]
    rfl
  obtain ⟨a, ys, I, G⟩ := reached_good (by decide) (by decide) hi [.fit [XR.fin 2] 1] (by simp [Op.valid]) (by simp [Spec.realOp]) hr
  have hud : s.up_down = XR.fin 1 := by have : s.core.up_down = _ := G.ud; rw [if_neg (by simp)] at this; exact this
  have l0 : (lit 0 : XR) = XR.fin 0 := by rw [lit_fin]; push_cast; rfl
  have hlog : 1 < 2 * Real.log (1 / q) := by
    have h2 := Real.log_two_gt_d9
    rcases hq with rfl | rfl
    · norm_num; linarith
    · have : Real.log 2 ≤ Real.log (1 / (1 / 10)) := Real.log_le_log (by norm_num) (by norm_num)
      linarith
  have hz' : s.anomaly_threshold = XR.fin (2 * Real.log (1 / q)) := by rw [hz]; norm_num
  -- the first step
  have na' : ¬ (s.core.discard ≠ 0 && s.core.up_down *. (XR.fin 1 -. s.core.at_) >. lit 0) = true := by
    show ¬ (s.core.discard ≠ 0 && s.up_down *. (XR.fin 1 -. s.anomaly_threshold) >. lit 0) = true
    rw [hud, hz', l0, sub_ff, mul_ff, Bool.and_eq_true]
    rintro ⟨-, g⟩
    change (XR.fin 0 <. XR.fin _ : Bool) = true at g
    rw [lt_ff, decide_eq_true_eq] at g
    linarith
  have nt' : (s.core.up_down *. (XR.fin 1 -. s.core.et) >=. lit 0) = true := by
    show (s.up_down *. (XR.fin 1 -. s.excess_threshold) >=. lit 0) = true
    rw [hud, het, l0, sub_ff, mul_ff]
    show (XR.fin 0 <=. XR.fin _ : Bool) = true
    rw [le_ff]; norm_num
  have Rf := step_refines (M := exactMath) I (XR.fin 1)
  unfold stepC at Rf
  rw [nan_f, if_neg (by simp), if_neg na'] at Rf
  simp only [if_pos nt'] at Rf
  obtain ⟨z, hz⟩ := Support.quantile_total (refit exactMath (1 : UInt64).toNat { s.core with n := s.core.n + 1, Nt := s.core.Nt + 1 }
    (ys.map XR.fin ++ [s.core.up_down *. (XR.fin 1 -. s.core.et)])) s.core.q
  erw [hz] at Rf
  obtain ⟨s1, h1, e1, -⟩ := Rf
  have r1 : runOps exactMath h s (List.replicate 1 (.step (XR.fin 1))) = .ok (List.replicate 1 (.code 1), s1, h1) := by
    show runOps exactMath h s [.step (XR.fin 1)] = _
    unfold runOps exec
    dsimp only
    rw [e1]
    rfl
  obtain ⟨-, -, -, -, -, ⟨n1, N1⟩, -⟩ := Repeat.run_excess 1 I r1
  have hs : s.Nt = 1 := by rw [← UInt64.toNat_inj, hN]; rfl
  have n1 : s1.n = 2 := by rw [n1, hn]; rfl
  have N1 : s1.Nt = 2 := by rw [N1, hs]; rfl
  obtain ⟨-, -, -, A, B⟩ := C135_exact Sample.xlib Sample.emptyHeap Sample.xfitted q (lit (1 / 10)) 0 1 1 (by decide) (by decide) hi q0 [.fit [XR.fin 2] 1] (by simp [Op.valid])
    (by simp [Spec.realOp]) _ s h hr 0 1 het (by simp) 1 (by decide) s1 h1 r1 (by rw [N1]; decide) (by rw [N1, n1])
  rw [n1, N1] at A B
  refine ⟨s, h, s1, h1, hr, r1, fun hq => A ⟨by decide, ?_⟩ 1000, fun hq => B ?_ 1000 (by decide)⟩
  · rw [hq, show ((2 : UInt64).toNat : ℝ) = 2 by exact_mod_cast (rfl : (2 : UInt64).toNat = 2)]
    have := Real.exp_one_gt_d9
    linarith
  · rintro ⟨-, g⟩
    rw [hq, show ((2 : UInt64).toNat : ℝ) = 2 by exact_mod_cast (rfl : (2 : UInt64).toNat = 2)] at g
    have := Real.exp_one_lt_d9
    linarith

end

end Verif

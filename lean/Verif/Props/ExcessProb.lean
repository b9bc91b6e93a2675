/-
C141: the probability of a value that was just reported as an excess (the assertion of wasm/libspot.test.ts:42-53).
-/
import Verif.Props.Support
import Verif.Proofs.Gpd

namespace Verif
open XR

/-- C141 as the test of the JavaScript binding asserts it, that a value reported as an excess has a probability of at most `1 - level`, is false: a
detector with level 0.9 is fitted with seven values and reports 3.5 as an excess; the probability of 3.5 is then above a half. -/
theorem C141_false : ∃ r w : ℤ × Spot F64 × Heap F64, ∃ p : F64, spot_fit (codeMath muslFU) Sample.init.2.2 Sample.init.2.1 Sample.data 7 = .ok r ∧ r.1 = 0 ∧
    r.2.1.level = lit (9 / 10) ∧ spot_step (codeMath muslFU) r.2.2 r.2.1 (lit (7 / 2)) = .ok w ∧ w.1 = 1 ∧
    spot_probability (codeMath muslFU) w.2.1 (lit (7 / 2)) = .ok p ∧ (lit (1 / 2) <. p) = true ∧ (lit 1 -. r.2.1.level <. lit (1 / 2)) = true := by
  have a : (spot_fit (codeMath muslFU) Sample.init.2.2 Sample.init.2.1 Sample.data 7 >>= fun r =>
      spot_step (codeMath muslFU) r.2.2 r.2.1 (lit (7 / 2)) >>= fun w => spot_probability (codeMath muslFU) w.2.1 (lit (7 / 2)) >>= fun p =>
      (.ok (r.1, r.2.1.level, w.1, lit (1 / 2) <. p, lit 1 -. r.2.1.level <. lit (1 / 2)) : C (ℤ × F64 × ℤ × Bool × Bool))) = .ok (0, lit (9 / 10), 1, true, true) := by
    decide +kernel
  obtain ⟨r, hr, a⟩ := C.bind_ok a
  obtain ⟨w, hw, a⟩ := C.bind_ok a
  obtain ⟨p, hp, a⟩ := C.bind_ok a
  have a := Except.ok.inj a
  simp only [Prod.mk.injEq] at a
  exact ⟨r, w, p, hr, a.1, a.2.1, hw, a.2.2.1, hp, a.2.2.2⟩

namespace ExcessProb

/-- the exact power at 0 -/
theorem xpow_zero {e : ℝ} (he : 0 < e) : xpow exactMath (fin 0) (fin e) = .ok (fin 0) := by
  unfold xpow exactMath
  dsimp only
  have : logE (fin 0) = ninf := by simp [logE]
  rw [this]
  have : (fin e *. ninf : XR) = ninf := by
    change infSign (-e) = ninf
    unfold infSign
    rw [if_neg (by linarith), if_neg (by linarith)]
  rw [this]
  rfl

/-- the value of `tail_probability` between the threshold and a point that is not beyond the end of the model -/
theorem prob_bound {t : Tail XR} {γ σ s d y : ℝ} (hg : t.gamma = fin γ) (hs : t.sigma = fin σ) (hσ : 0 < σ) (h0 : 0 ≤ d) (hd : d ≤ y) (hy : 0 ≤ 1 + γ / σ * y)
    (s0 : 0 ≤ s) : ∃ p, tail_probability exactMath t (fin s) (fin d) = .ok (fin p) ∧ 0 ≤ p ∧ p ≤ s ∧ (d = 0 → p = s) := by
  have hv : 0 ≤ 1 + γ * d / σ := by
    rcases le_total 0 γ with g | g
    · positivity
    · have h1 : γ / σ ≤ 0 := div_nonpos_of_nonpos_of_nonneg g hσ.le
      have h2 : γ / σ * y ≤ γ / σ * d := mul_le_mul_of_nonpos_left hd h1
      have h3 : γ * d / σ = γ / σ * d := by ring
      rw [h3]
      linarith
  rcases hv.eq_or_lt with hv | hv
  · have g : γ < 0 := by
      by_contra g
      have : 0 ≤ γ * d / σ := by have := not_lt.mp g; positivity
      linarith
    refine ⟨0, ?_, le_rfl, s0, ?_⟩
    · unfold tail_probability
      rw [hg, hs, lit_fin, eq_ff]
      simp only [g.ne, Rat.cast_zero, decide_false, if_false, Bool.false_eq_true]
      rw [div_ff hσ.ne', mul_ff, lit_fin, lit_fin, div_ff g.ne, add_ff]
      have e : ((1 : ℚ) : ℝ) + d * (γ / σ) = 0 := by rw [hv]; push_cast; ring
      rw [e, xpow_zero (by push_cast; exact div_pos_of_neg_of_neg (by norm_num) g)]
      simp only [C.ok_bind, mul_ff, mul_zero]
    · rintro rfl
      simp at hv
  · refine ⟨_, tail_probability_exact hg hs hσ hv, mul_nonneg s0 (survival_pos hv).le, ?_, ?_⟩
    · have : Spec.gpdSurvival γ σ d ≤ 1 := by
        unfold Spec.gpdSurvival
        split
        · rw [Real.exp_le_one_iff]
          exact div_nonpos_of_nonpos_of_nonneg (by linarith) hσ.le
        · rename_i hne
          rcases lt_or_gt_of_ne hne with g | g
          · refine Real.rpow_le_one hv.le ?_ (div_nonneg_of_nonpos (by norm_num) g.le)
            have : γ * d / σ ≤ 0 := div_nonpos_of_nonpos_of_nonneg (mul_nonpos_of_nonpos_of_nonneg g.le h0) hσ.le
            linarith
          · refine Real.rpow_le_one_of_one_le_of_nonpos ?_ (div_nonpos_of_nonpos_of_nonneg (by norm_num) g.le)
            have : 0 ≤ γ * d / σ := by positivity
            linarith
      exact mul_le_of_le_one_right s0 this
    · rintro rfl
      simp [Spec.gpdSurvival]

open Support

theorem of_good {c : ℕ} {low : ℤ} {q : XR} {s : Spot XR} {ys : List ℝ} {xs : List XR} (G : Good c low q s.core xs ys) (hn : s.n ≠ 0) {et : ℝ} (het : s.excess_threshold = fin et)
    {x y : ℝ} (hx : 0 ≤ if low ≠ 0 then et - x else x - et) (hxy : (if low ≠ 0 then et - x else x - et) ≤ y) (hy : 0 < y) (hm : y ∈ slots c ys) :
    ∃ p : ℝ, spot_probability exactMath s (fin x) = .ok (fin p) ∧ 0 ≤ p ∧ p ≤ s.Nt.toNat / s.n.toNat ∧ (x = et → p = s.Nt.toNat / s.n.toNat) := by
  obtain ⟨γ, σ, hg, hs, hσ, hall⟩ := G.ok ⟨y, hm, hy⟩
  have hud : s.up_down = fin (if low ≠ 0 then -1 else 1) := G.ud
  have n0 : ((s.n.toNat : ℚ) : ℝ) ≠ 0 := by
    have : s.n.toNat ≠ 0 := fun h => hn (UInt64.toNat_inj.mp h)
    exact_mod_cast this
  have hd : s.up_down *. (fin x -. s.excess_threshold) = fin (if low ≠ 0 then et - x else x - et) := by
    rw [hud, het, sub_ff, mul_ff]
    congr 1
    split <;> ring
  obtain ⟨p, e, p0, p1, p2⟩ := prob_bound (t := s.tail) hg hs hσ hx hxy (hall y hm) (s := (s.Nt.toNat : ℝ) / s.n.toNat) (by positivity)
  refine ⟨p, ?_, p0, p1, fun h => p2 (by rw [h]; simp)⟩
  unfold spot_probability
  dsimp only
  rw [hd, lit_fin, lit_fin, div_ff n0, ← e]
  push_cast
  rfl

theorem step_hist {c : ℕ} {k k' : Core XR} {xs xs' : List XR} {x : XR} (h : stepC exactMath c k xs x = .ok (1, k', xs')) :
    xs' = xs ++ [k.up_down *. (x -. k.et)] ∧ k'.et = k.et ∧ (k.up_down *. (x -. k.et) >=. lit 0) = true := by
  unfold stepC at h
  split at h
  · cases h
  split at h
  · cases h
  dsimp only at h
  split at h
  · rename_i hx
    obtain ⟨z, -, h⟩ := C.bind_ok h
    cases h
    exact ⟨rfl, rfl, hx⟩
  · cases h

end ExcessProb
open Support ExcessProb

/-- **C141** (partial). In exact arithmetic. Any detector, after any sequence of calls with real numbers, at least one of which was counted: a value that is
at or beyond the excess threshold, and not beyond a value whose positive excess is in the buffer, has by `spot_probability` a real probability between 0 and
the fraction of excesses, `Nt / n`; at the threshold itself it is `Nt / n`. Missing: the bound `1 - level` in place of `Nt / n` (`C141_false`). -/
theorem C141_partial (lib : Lib XR) (h0 : Heap XR) (s0 : Spot XR) (q level : XR) (low disc : ℤ) (me : UInt64) (h1 : 1 ≤ me.toNat) (h2 : me.toNat < 2 ^ 61)
    (hi : (spot_init lib h0 s0 q low disc level me).1 = 0) (ops : List (Op XR)) (hv : ∀ op ∈ ops, op.valid) (ho : ∀ op ∈ ops, Spec.realOp op)
    (outs : List (Out XR)) (s : Spot XR) (h : Heap XR)
    (hr : runOps exactMath (spot_init lib h0 s0 q low disc level me).2.2 (spot_init lib h0 s0 q low disc level me).2.1 ops = .ok (outs, s, h))
    (hn : s.n ≠ 0) (et : ℝ) (het : s.excess_threshold = fin et) (b : ℕ) (cells : List (Option XR)) (hb : s.tail.peaks.container.data = some b)
    (hc : h b = some cells) (y : ℝ) (hy : 0 < y) (hm : some (fin y) ∈ cells) (x : ℝ) (hx : if low ≠ 0 then x ≤ et ∧ et - x ≤ y else et ≤ x ∧ x - et ≤ y) :
    ∃ p : ℝ, spot_probability exactMath s (fin x) = .ok (fin p) ∧ 0 ≤ p ∧ p ≤ s.Nt.toNat / s.n.toNat ∧ (x = et → p = s.Nt.toNat / s.n.toNat) := by
  obtain ⟨a, ys, I, G⟩ := reached_good h1 h2 hi ops hv ho hr
  obtain ⟨y', hy', e⟩ := List.mem_map.mp ((cells_iff I hb hc _).mp hm)
  cases fin_inj.mp e
  refine of_good G hn het ?_ ?_ hy hy'
  · split at hx
    · rw [if_pos ‹_›]; linarith [hx.1]
    · rw [if_neg ‹_›]; linarith [hx.1]
  · split at hx
    · rw [if_pos ‹_›]; exact hx.2
    · rw [if_neg ‹_›]; exact hx.2

/-- In exact arithmetic: after any sequence of calls with real numbers, a real number that a step reports as an excess, and that is not the excess threshold
itself, has by the next call of `spot_probability` a real probability between 0 and `Nt / n`. The assertion of the test (a probability of at most
`1 - level`) therefore holds as long as the excesses are at most the fraction `1 - level` of the values. -/
theorem C141_step (lib : Lib XR) (h0 : Heap XR) (s0 : Spot XR) (q level : XR) (low disc : ℤ) (me : UInt64) (h1 : 1 ≤ me.toNat) (h2 : me.toNat < 2 ^ 61)
    (hi : (spot_init lib h0 s0 q low disc level me).1 = 0) (ops : List (Op XR)) (hv : ∀ op ∈ ops, op.valid) (ho : ∀ op ∈ ops, Spec.realOp op)
    (outs : List (Out XR)) (s : Spot XR) (h : Heap XR)
    (hr : runOps exactMath (spot_init lib h0 s0 q low disc level me).2.2 (spot_init lib h0 s0 q low disc level me).2.1 ops = .ok (outs, s, h))
    (x : ℝ) (s' : Spot XR) (h' : Heap XR) (hf : spot_step exactMath h s (fin x) = .ok (1, s', h')) (hx : s.excess_threshold ≠ fin x) (hn : s'.n ≠ 0) :
    ∃ p : ℝ, spot_probability exactMath s' (fin x) = .ok (fin p) ∧ 0 ≤ p ∧ p ≤ s'.Nt.toNat / s'.n.toNat ∧
      ∀ l : ℝ, (s'.Nt.toNat : ℝ) ≤ (1 - l) * s'.n.toNat → p ≤ 1 - l := by
  obtain ⟨a, ys, I, G⟩ := reached_good h1 h2 hi ops hv ho hr
  have R := step_refines (M := exactMath) I (fin x)
  rw [hf] at R
  unfold Refines at R
  cases hw : stepC exactMath me.toNat s.core (ys.map fin) (fin x) with
  | error e => rw [hw] at R; cases R
  | ok w =>
    obtain ⟨ys', G', hstep⟩ := step_good h1 G x hw
    rw [hw] at R
    obtain ⟨w1, w2, w3⟩ := w
    obtain ⟨s'', h'', e, hcore, I', -⟩ := R
    cases e
    change s'.core = w2 at hcore
    obtain ⟨e1, e2, e3⟩ := step_hist hw
    obtain ⟨et, het, -⟩ := hstep rfl
    have hist : w3 = ys'.map fin := G'.hist
    have het' : s.core.et = fin et := e2.symm.trans het
    have hd : s.core.up_down *. (fin x -. s.core.et) = fin (if low ≠ 0 then et - x else x - et) := by
      rw [G.ud, het', sub_ff, mul_ff]
      congr 1
      split <;> ring
    rw [hd] at e1 e3
    rw [lit_fin, le_ff] at e3
    have d0 : 0 ≤ if low ≠ 0 then et - x else x - et := by simpa using e3
    have dp : 0 < if low ≠ 0 then et - x else x - et := by
      refine lt_of_le_of_ne d0 fun h => hx ?_
      change s.core.et = fin x
      rw [het']
      congr 1
      split at h <;> linarith
    have hys : ys' = ys ++ [if low ≠ 0 then et - x else x - et] := by
      rw [hist, show [fin (if low ≠ 0 then et - x else x - et)] = [if low ≠ 0 then et - x else x - et].map fin from rfl, ← List.map_append] at e1
      exact List.map_injective_iff.mpr (fun a b h => fin_inj.mp h) e1
    rw [← hcore] at G' het
    obtain ⟨p, hp, p0, p1, -⟩ := of_good G' hn het d0 le_rfl dp (by rw [hys]; exact last_mem h1 _ _)
    refine ⟨p, hp, p0, p1, fun l hl => p1.trans ?_⟩
    have n0 : (0 : ℝ) < s'.n.toNat := by
      have : s'.n.toNat ≠ 0 := fun h => hn (UInt64.toNat_inj.mp h)
      exact_mod_cast Nat.pos_of_ne_zero this
    exact (div_le_iff₀ n0).mpr hl

/-- the hypotheses of `C141_partial` can be met: a detector fitted with 4, 1 and 2 (excess threshold 0), for the value 3 -/
example : ∃ s h p, runOps exactMath (spot_init Sample.xlib Sample.emptyHeap Sample.xfitted (fin (1 / 100)) 0 0 (lit (9 / 10)) 3).2.2 (spot_init Sample.xlib Sample.emptyHeap Sample.xfitted (fin (1 / 100)) 0 0 (lit (9 / 10)) 3).2.1 [.fit ([4, 1, 2].map fin) 3] = .ok ([.code 0], s, h) ∧
    spot_probability exactMath s (fin 3) = .ok (fin p) ∧ 0 ≤ p ∧ p ≤ 1 := by
  obtain ⟨hi, s, h, z, a, hf, hz, I, het, hN, hn, hd, hu, hr⟩ := Support.sample 0
  obtain ⟨p, e, p0, p1, -⟩ := C141_partial Sample.xlib Sample.emptyHeap Sample.xfitted (fin (1 / 100)) (lit (9 / 10)) 0 0 3 (by decide) (by decide) hi
    [.fit ([4, 1, 2].map fin) 3] (by simp [Op.valid]) (by simp [Spec.realOp]) [.code 0] s h hr (by rw [hn]; decide) 0 het a _ I.ring.data I.ring.cells 4 (by norm_num)
    ((cells_iff I I.ring.data I.ring.cells _).mpr (by
      have : slots (3 : UInt64).toNat ([4, 1, 2] : List ℝ) = [4, 1, 2] := rfl
      rw [this]
      simp)) 3 (by norm_num)
  refine ⟨s, h, p, hr, e, p0, p1.trans ?_⟩
  rw [hN, hn]
  exact div_self_le_one _

/-- the hypotheses of `C141_step` can be met: the same detector, told to keep anomalies, reports the value 5 as an excess -/
example : ∃ s h s' h' p, runOps exactMath (spot_init Sample.xlib Sample.emptyHeap Sample.xfitted (fin (1 / 100)) 0 0 (lit (9 / 10)) 3).2.2 (spot_init Sample.xlib Sample.emptyHeap Sample.xfitted (fin (1 / 100)) 0 0 (lit (9 / 10)) 3).2.1 [.fit ([4, 1, 2].map fin) 3] = .ok ([.code 0], s, h) ∧
    spot_step exactMath h s (fin 5) = .ok (1, s', h') ∧ spot_probability exactMath s' (fin 5) = .ok (fin p) ∧ 0 ≤ p ∧ p ≤ 1 := by
  obtain ⟨hi, s, h, z, a, hf, hz, I, het, hN, hn, hd, hu, hr⟩ := Support.sample 0
  have R := step_refines (M := exactMath) I (fin 5)
  have l1 : (lit 1 : XR) = fin 1 := by rw [lit_fin]; push_cast; rfl
  have hex : s.core.up_down *. (fin 5 -. s.core.et) = fin 5 := by
    change s.up_down *. (fin 5 -. s.excess_threshold) = fin 5
    rw [hu, het, l1, sub_ff, mul_ff]
    norm_num
  have hst : ∃ k, stepC exactMath (3 : UInt64).toNat s.core (([4, 1, 2] : List ℝ).map fin) (fin 5) =
      .ok (1, k, ([4, 1, 2] : List ℝ).map fin ++ [fin 5]) ∧ k.Nt = 4 ∧ k.n = 4 := by
    unfold stepC
    rw [nan_f, if_neg (by simp), if_neg (by rw [show s.core.discard = 0 from hd rfl]; simp)]
    dsimp only
    rw [hex, if_pos (by rw [lit_fin, le_ff]; simp)]
    obtain ⟨z, hz⟩ := Support.quantile_total (refit exactMath (3 : UInt64).toNat { s.core with n := s.core.n + 1, Nt := s.core.Nt + 1 } (([4, 1, 2] : List ℝ).map fin ++ [fin 5]))
      s.core.q
    erw [hz]
    refine ⟨_, rfl, ?_, ?_⟩
    · change s.Nt + 1 = 4
      rw [hN]; rfl
    · change s.n + 1 = 4
      rw [hn]; rfl
  obtain ⟨k, hk, k1, k2⟩ := hst
  rw [hk] at R
  obtain ⟨s', h', e, hcore, -, -⟩ := R
  have n4 : s'.n = 4 := (congrArg Core.n hcore).trans k2
  have N4 : s'.Nt = 4 := (congrArg Core.Nt hcore).trans k1
  obtain ⟨p, hp, p0, p1, -⟩ := C141_step Sample.xlib Sample.emptyHeap Sample.xfitted (fin (1 / 100)) (lit (9 / 10)) 0 0 3 (by decide) (by decide) hi
    [.fit ([4, 1, 2].map fin) 3] (by simp [Op.valid]) (by simp [Spec.realOp]) [.code 0] s h hr 5 s' h' e (by rw [het]; simp) (by rw [n4]; decide)
  refine ⟨s, h, s', h', p, hr, e, hp, p0, p1.trans ?_⟩
  rw [N4, n4]
  exact div_self_le_one _

end Verif

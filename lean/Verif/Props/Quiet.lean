/-
C134: while no excess is recorded the model becomes stricter.
-/
import Verif.Props.Consistent
import Verif.F64.Calc

namespace Verif
open F64

namespace Quiet

theorem lit_nat64 {n : ℕ} (hb : n < 2 ^ 64) : isFin (lit (n : ℚ) : F64) ∧ toQ (lit (n : ℚ) : F64) = rq n := by
  have hno : noOverflow (n : ℚ) := by
    refine noOverflow_mono (q := 2 ^ 64) ?_ (by unfold noOverflow; decide +kernel)
    rw [abs_of_nonneg (by positivity), abs_of_nonneg (by positivity)]
    exact_mod_cast hb.le
  exact ⟨ofRat_isFin.mpr hno, toQ_ofRat hno⟩

theorem rq_64 : rq (2 ^ 64) = 2 ^ 64 := by decide +kernel

theorem rq_m64 : rq (1 / 2 ^ 64) = 1 / 2 ^ 64 := by decide +kernel

/-- the computed proportion of excesses does not increase with the number of observations -/
theorem proportion_anti {N n m : ℕ} (N0 : 0 < N) (hN : N < 2 ^ 64) (h0 : 0 < n) (h : n ≤ m) (hm : m < 2 ^ 64) :
    isFin (lit (N : ℚ) /. lit (n : ℚ) : F64) ∧ isFin (lit (N : ℚ) /. lit (m : ℚ) : F64) ∧
    0 < toQ (lit (N : ℚ) /. lit (m : ℚ) : F64) ∧ toQ (lit (N : ℚ) /. lit (m : ℚ) : F64) ≤ toQ (lit (N : ℚ) /. lit (n : ℚ) : F64) := by
  obtain ⟨a1, a2⟩ := lit_nat64 hN
  obtain ⟨b1, b2⟩ := lit_nat64 (h.trans_lt hm)
  obtain ⟨c1, c2⟩ := lit_nat64 hm
  have one : rq 1 = 1 := by have := rq_rep (rep_int (i := 1) (by norm_num)); simpa using this
  have ge1 : ∀ {k : ℕ}, 0 < k → 1 ≤ rq k := fun {k} hk => by
    have : rq 1 ≤ rq k := rq_mono (by exact_mod_cast hk)
    rwa [one] at this
  have le64 : ∀ {k : ℕ}, k < 2 ^ 64 → rq k ≤ 2 ^ 64 := fun {k} hk => by
    have : rq k ≤ rq (2 ^ 64) := rq_mono (by exact_mod_cast hk.le)
    rwa [rq_64] at this
  have p1 := ge1 N0
  have p2 := le64 hN
  have p3 := ge1 h0
  have p4 := ge1 (h0.trans_le h)
  have p5 := le64 hm
  have nm : rq n ≤ rq m := rq_mono (by exact_mod_cast h)
  have bound : ∀ {d : ℚ}, 1 ≤ d → |rq N / d| ≤ pow2 1023 := fun {d} hd => by
    refine le_trans ?_ (show (2 ^ 64 : ℚ) ≤ pow2 1023 by decide +kernel)
    rw [abs_of_nonneg (by positivity), div_le_iff₀ (by linarith)]
    nlinarith
  obtain ⟨u1, u2⟩ := div_fin' a1 b1 (by rw [b2]; linarith) (by rw [a2, b2]; exact bound p3)
  obtain ⟨v1, v2⟩ := div_fin' a1 c1 (by rw [c2]; linarith) (by rw [a2, c2]; exact bound p4)
  refine ⟨u1, v1, ?_, ?_⟩
  · show 0 < toQ (div _ _)
    rw [v2, a2, c2]
    have : rq (1 / 2 ^ 64) ≤ rq (rq N / rq m) := rq_mono (by
      rw [div_le_div_iff₀ (by positivity) (by linarith)]
      nlinarith)
    rw [rq_m64] at this
    exact lt_of_lt_of_le (by positivity) this
  · show toQ (div _ _) ≤ toQ (div _ _)
    rw [u2, v2, a2, b2, c2]
    exact rq_mono (div_le_div_of_nonneg_left (by linarith) (by linarith) nm)

/-- the product with a smaller proportion: not NaN if the other is not, and smaller -/
theorem mul_anti {S S' y : F64} (f : isFin S) (f' : isFin S') (h0 : 0 < toQ S') (h : toQ S' ≤ toQ S) (hp : notNaN (S *. y)) (hp0 : 0 ≤ val (S *. y)) :
    notNaN (S' *. y) ∧ 0 ≤ val (S' *. y) ∧ val (S' *. y) ≤ val (S *. y) := by
  have hv : val S' ≤ val S := by rw [val_fin_le f' f]; exact h
  have v0 : 0 ≤ val S' := by
    have := (val_fin_le (x := zero false) (y := S') trivial f').mpr (by rw [toQ_zero]; exact h0.le)
    rwa [val_zero] at this
  rcases nan_or y with rfl | hy
  · exact absurd (show mul S nan = nan by cases S <;> rfl) hp
  have nn : notNaN (S' *. y) := by
    show notNaN (mul S' y)
    rcases S' with _ | _ | ⟨s, k⟩
    · exact absurd f' id
    · exact absurd f' id
    have hk : k.val ≠ 0 := fun e => h0.ne' (toQ_eq_zero.mpr e)
    rcases y with _ | t | ⟨t, j⟩
    · exact absurd rfl hy
    · simp [mul, notNaN, hk]
    · exact ofRat_notNaN _ _
  refine ⟨nn, ?_⟩
  rcases le_total 0 (val y) with y0 | y0
  · exact ⟨(mul_nonneg_val v0 y0).resolve_left nn, (((LeN.mul_right y0 (.inr (.inr hv))).resolve_left nn).resolve_left hp)⟩
  · have a := ((LeN.mul_right_neg y0 (.inr (.inr hv))).resolve_left hp).resolve_left nn
    have a : val (S *. y) ≤ val (S' *. y) := a
    refine ⟨hp0.trans a, ?_⟩
    have b : val (S' *. y) ≤ 0 := by
      have := (LeN.mul_left (c := S') v0 (show LeN y (zero false) from .inr (.inr (by rw [val_zero]; exact y0)))).resolve_left nn
      have e : val (mul S' (zero false)) = 0 ∧ mul S' (zero false) ≠ nan := by
        rcases S' with _ | _ | ⟨s, k⟩
        · exact absurd f' id
        · exact absurd f' id
        · refine ⟨?_, ofRat_notNaN _ _⟩
          show val (ofRat (s != false) (toQ (fin s k) * toQ (zero false))) = 0
          rw [toQ_zero, mul_zero, val_ofRat noOverflow_zero, rq_zero]; norm_num
      rw [← e.1]
      exact this.resolve_left e.2
    exact b.trans hp0

/-- the factor of `spot_probability` that does not depend on the counters -/
theorem probability_form (M : MathFns F64) (t : Tail F64) (d : F64) : ∃ c : C F64, ∀ S, tail_probability M t S d = c.bind fun y => .ok (S *. y) := by
  unfold tail_probability
  by_cases hg : (t.gamma ==. lit 0) = true
  · refine ⟨M.exp ((-. d) /. t.sigma), fun S => ?_⟩
    rw [if_pos hg]; rfl
  · refine ⟨xpow M (lit 1 +. d *. (t.gamma /. t.sigma)) (lit (-1) /. t.gamma), fun S => ?_⟩
    rw [if_neg hg]; rfl

/-- the power function is monotone in the base where the logarithm is -/
theorem xpow_mono_of {r r' b : F64} (hr : isFin r) (hr' : isFin r') (p : 0 < toQ r) (p' : 0 < toQ r') (hl : toQ (xlog muslFU r) ≤ toQ (xlog muslFU r'))
    (hb : isFin b) (hb' : |toQ b| ≤ 2 ^ 20) :
    ∃ y y', xpow (codeMath muslFU) r b = .ok y ∧ xpow (codeMath muslFU) r' b = .ok y' ∧
      (0 ≤ toQ b → F64.le y y' = true) ∧ (toQ b ≤ 0 → F64.le y' y = true) := by
  obtain ⟨l1, l2⟩ := xlog_fin hr p
  obtain ⟨l1', l2'⟩ := xlog_fin hr' p'
  obtain ⟨f, e, g⟩ := arg_bound hb hb' l1 l2
  obtain ⟨f', e', g'⟩ := arg_bound hb hb' l1' l2'
  rcases le_total 0 (toQ b) with hs | hs
  · have : toQ (b *. xlog muslFU r) ≤ toQ (b *. xlog muslFU r') := by
      rw [e, e']; exact rq_mono (mul_le_mul_of_nonneg_left hl hs)
    obtain ⟨u, v, hu, hv, huv, -⟩ := C77_partial _ _ f f' this (abs_lt.mp g).1 (abs_lt.mp g').2
    refine ⟨u, v, hu, hv, fun _ => huv, fun hs' => ?_⟩
    have z : toQ b = 0 := le_antisymm hs' hs
    have : toQ (b *. xlog muslFU r') ≤ toQ (b *. xlog muslFU r) := by rw [e, e', z]; simp
    obtain ⟨u', v', hu', hv', huv', -⟩ := C77_partial _ _ f' f this (abs_lt.mp g').1 (abs_lt.mp g).2
    rw [hv] at hu'
    rw [hu] at hv'
    injection hu' with hu'
    injection hv' with hv'
    rwa [hu', hv']
  · have : toQ (b *. xlog muslFU r') ≤ toQ (b *. xlog muslFU r) := by
      rw [e, e']; exact rq_mono (mul_le_mul_of_nonpos_left hl hs)
    obtain ⟨v, u, hv, hu, huv, -⟩ := C77_partial _ _ f' f this (abs_lt.mp g').1 (abs_lt.mp g).2
    refine ⟨u, v, hu, hv, fun hs' => ?_, fun _ => huv⟩
    have z : toQ b = 0 := le_antisymm hs hs'
    have : toQ (b *. xlog muslFU r) ≤ toQ (b *. xlog muslFU r') := by rw [e, e', z]; simp
    obtain ⟨u', v', hu', hv', huv', -⟩ := C77_partial _ _ f f' this (abs_lt.mp g).1 (abs_lt.mp g').2
    rw [hu] at hu'
    rw [hv] at hv'
    injection hu' with hu'
    injection hv' with hv'
    rwa [hu', hv']

/-- the logarithm is monotone across a gap of 1e-12 -/
theorem xlog_gap {x y : F64} (hx : isFin x) (hy : isFin y) (h0 : 0 < toQ x) (h : toQ x * (1 + 1 / 10 ^ 12) ≤ toQ y) :
    toQ (xlog muslFU x) ≤ toQ (xlog muslFU y) := by
  have hxy : toQ x ≤ toQ y := le_trans (by nlinarith) h
  have h0' := h0.trans_le hxy
  by_cases hr : 1 / 2 ^ 48 ≤ toQ x ∧ toQ y < 32
  · exact xlog_mono_range hx hy hr.1 hxy hr.2
  obtain ⟨-, m2, m3, m4, -, -⟩ := frexp_pos hx h0
  obtain ⟨-, n2, n3, n4, -, -⟩ := frexp_pos hy h0'
  have L1' : (69 / 100 : ℝ) ≤ Real.log 2 := le_trans (by norm_num) log_two_bounds.1
  have px : 0 < toR x := by unfold toR; exact_mod_cast h0
  by_cases ex : (musl_frexp x 0).2 = -1
  · have hx4 : toR x < 1 := by rw [m4, ex]; norm_num; linarith
    have hx5 : 1 / 4 ≤ toR x := by rw [m4, ex]; norm_num; linarith
    have a : toQ x ≤ 1 := by unfold toR at hx4; exact_mod_cast hx4.le
    have b : (1 / 4 : ℚ) ≤ toQ x := by
      unfold toR at hx5
      have : ((1 / 4 : ℚ) : ℝ) ≤ toQ x := by push_cast; exact hx5
      exact_mod_cast this
    have c : 1 ≤ toQ y := by
      by_contra hn
      exact hr ⟨le_trans (by norm_num) b, by linarith⟩
    exact (xlog_nonpos hx h0 a).trans (xlog_nonneg hy c)
  · have ax := abs_le.mp (xlog_acc hx h0 ex)
    suffices toR (xlog muslFU x) ≤ toR (xlog muslFU y) by
      unfold toR at this
      exact_mod_cast this
    by_cases ey : (musl_frexp y 0).2 = -1
    · have hy4 : toR y < 1 := by rw [n4, ey]; norm_num; linarith
      have hy5 : 1 / 4 ≤ toR y := by rw [n4, ey]; norm_num; linarith
      have hy6 : toQ y < 1 := by unfold toR at hy4; exact_mod_cast hy4
      have hy7 : (1 / 4 : ℚ) ≤ toQ y := by
        unfold toR at hy5
        have : ((1 / 4 : ℚ) : ℝ) ≤ toQ y := by push_cast; exact hy5
        exact_mod_cast this
      have hx48 : toQ x < 1 / 2 ^ 48 := by
        by_contra hn
        exact hr ⟨le_of_not_gt hn, by linarith⟩
      have hx48' : toR x ≤ (2 ^ 48 : ℝ)⁻¹ := by
        have : ((toQ x : ℚ) : ℝ) ≤ ((1 / 2 ^ 48 : ℚ) : ℝ) := by exact_mod_cast hx48.le
        unfold toR
        push_cast at this
        rwa [one_div] at this
      have lx := Real.log_le_log px hx48'
      rw [Real.log_inv, Real.log_pow] at lx
      push_cast at lx
      have q4 : toQ (lit (1 / 4) : F64) = 1 / 4 ∧ isFin (lit (1 / 4) : F64) ∧ -2 ≤ toQ (xlog muslFU (lit (1 / 4))) := by decide +kernel
      have := xlog_mono_range q4.2.1 hy (by rw [q4.1]; norm_num) (by rw [q4.1]; exact hy7) (by linarith)
      have h2 : (-2 : ℝ) ≤ toR (xlog muslFU y) := by unfold toR; exact_mod_cast q4.2.2.trans this
      have := ax.2
      have n : (3 / 10 ^ 13 : ℝ) ≤ 1 := by norm_num
      linarith
    · have ay := abs_le.mp (xlog_acc hy h0' ey)
      have hR : toR x * (1 + 1 / 10 ^ 12) ≤ toR y := by
        unfold toR
        have : ((toQ x * (1 + 1 / 10 ^ 12) : ℚ) : ℝ) ≤ toQ y := by exact_mod_cast h
        push_cast at this
        exact this
      have l := Real.log_le_log (by positivity) hR
      rw [Real.log_mul px.ne' (by positivity)] at l
      have g := Real.one_sub_inv_le_log_of_pos (show (0 : ℝ) < 1 + 1 / 10 ^ 12 by positivity)
      have n : (6 / 10 ^ 13 : ℝ) ≤ 1 - (1 + 1 / 10 ^ 12 : ℝ)⁻¹ := by norm_num
      have := ax.2
      have := ay.1
      have : (6 / 10 ^ 13 : ℝ) = 3 / 10 ^ 13 + 3 / 10 ^ 13 := by norm_num
      linarith

/-- the quantiles of two states that differ in the counters only, from the order of the quotients of `q` by the proportions -/
theorem quantile_le {s s' : Spot F64} {low : Prop} (F : FittedF64 s low) (et : s'.excess_threshold = s.excess_threshold) (ud : s'.up_down = s.up_down)
    (tl : s'.tail = s.tail) (q r r' : F64) (hr : r = q /. (lit s.Nt.toNat /. lit s.n.toNat)) (hr' : r' = q /. (lit s'.Nt.toNat /. lit s'.n.toNat))
    (r1 : isFin r) (r1' : isFin r') (r3 : 0 < toQ r) (r3' : 0 < toQ r') (rle : toQ (xlog muslFU r) ≤ toQ (xlog muslFU r')) :
    ∃ z z', spot_quantile (codeMath muslFU) s q = .ok z ∧ spot_quantile (codeMath muslFU) s' q = .ok z' ∧
      (z = nan ∨ z' = nan ∨ (¬ low → F64.le z' z = true) ∧ (low → F64.le z z' = true)) := by
  have hform := quantile_form s q r hr
  have hform' := quantile_form s' q r' hr'
  rw [et, ud, tl] at hform'
  have close : ∀ t t', LeN t' t → spot_quantile (codeMath muslFU) s q = .ok (s.excess_threshold +. s.up_down *. t) →
      spot_quantile (codeMath muslFU) s' q = .ok (s.excess_threshold +. s.up_down *. t') →
      ∃ z z', spot_quantile (codeMath muslFU) s q = .ok z ∧ spot_quantile (codeMath muslFU) s' q = .ok z' ∧
      (z = nan ∨ z' = nan ∨ (¬ low → F64.le z' z = true) ∧ (low → F64.le z z' = true)) := by
    intro t t' ht e1 e2
    refine ⟨_, _, e1, e2, ?_⟩
    rcases F.mul_up_down t with ⟨hl, e⟩ | ⟨hl, e⟩
    · rcases F.mul_up_down t' with ⟨-, e'⟩ | ⟨hl', -⟩
      swap
      · exact absurd hl' hl
      rw [e, e']
      rcases (ht.add_left s.excess_threshold).cases with a | a | a
      · exact .inr (.inl a)
      · exact .inl a
      · exact .inr (.inr ⟨fun _ => a, fun b => absurd b hl⟩)
    · rcases F.mul_up_down t' with ⟨hl', -⟩ | ⟨-, e'⟩
      · exact absurd hl hl'
      rw [e, e']
      rcases (ht.neg.add_left s.excess_threshold).cases with a | a | a
      · exact .inl a
      · exact .inr (.inl a)
      · exact .inr (.inr ⟨fun b => absurd hl b, fun _ => a⟩)
  by_cases g0 : toQ s.tail.gamma = 0
  · refine close _ _ ?_ (hform.1 ⟨F.gamma.1, g0⟩) (hform'.1 ⟨F.gamma.1, g0⟩)
    have hσ : val (F64.neg s.tail.sigma) ≤ 0 := by
      rw [fin_neg_nonpos (isFin_neg.mpr F.sigma.1), toQ_neg]; linarith [F.sigma.2]
    refine LeN.mul_left_neg hσ (.inr (.inr ?_))
    rw [val_fin_le (xlog_fin r1 r3).1 (xlog_fin r1' r3').1]
    exact rle
  · obtain ⟨y, y', hy, hy', y1, y2⟩ := xpow_mono_of (b := F64.neg s.tail.gamma) r1 r1' r3 r3' rle (isFin_neg.mpr F.gamma.1)
      (by rw [toQ_neg, abs_neg]; exact F.gamma.2)
    rw [toQ_neg] at y1 y2
    refine close _ _ ?_ (hform.2 g0 y hy) (hform'.2 g0 y' hy')
    rcases lt_or_gt_of_ne g0 with g | g
    · exact ((LeN.of_le (y1 (by linarith))).sub_right _).mul_left_neg (val_div_nonpos F.sigma.1 F.gamma.1 g F.sigma.2.le)
    · exact ((LeN.of_le (y2 (by linarith))).sub_right _).mul_left (val_div_nonneg F.sigma.1 F.gamma.1 g F.sigma.2.le)

end Quiet

/-- **C134**, probabilities. On doubles, for every detector that has seen an observation and every elementary functions: calls other than `spot_fit` none of which returns
EXCESS. If the probability of `z` was a number that is not negative, then it is one afterwards, and it is not greater. If it was undefined behaviour it still is. -/
theorem C134_probability (M : MathFns F64) (h : Heap F64) (s : Spot F64) (hn : 0 < s.n.toNat) (ops : List (Op F64)) (hops : ∀ op ∈ ops, op.notFit)
    (hlen : s.n.toNat + ops.length < 2 ^ 64) (outs : List (Out F64)) (s' : Spot F64) (h' : Heap F64)
    (hrun : runOps M h s ops = .ok (outs, s', h')) (hno : Out.code 1 ∉ outs) (z : F64) :
    (∀ e, spot_probability M s z = .error e → spot_probability M s' z = .error e) ∧
    ∀ p, spot_probability M s z = .ok p → F64.notNaN p → 0 ≤ val p →
      ∃ p', spot_probability M s' z = .ok p' ∧ F64.notNaN p' ∧ 0 ≤ val p' ∧ val p' ≤ val p := by
  obtain ⟨k, k1, rfl, -, -⟩ := run_between ops hops _ _ _ _ _ hrun hno
  have en : (s.n + UInt64.ofNat k).toNat = s.n.toNat + k := by
    rw [UInt64.toNat_add, UInt64.toNat_ofNat']
    omega
  obtain ⟨c, hc⟩ := Quiet.probability_form M s.tail (s.up_down *. (z -. s.excess_threshold))
  unfold spot_probability
  dsimp only
  rw [en, hc, hc]
  cases c with
  | error e0 => exact ⟨fun e h => h, fun p h => by cases h⟩
  | ok y =>
    refine ⟨fun e h => (by cases h), fun p hp hn0 hv => ?_⟩
    cases hp
    rcases Nat.eq_zero_or_pos s.Nt.toNat with N0 | N0
    · refine ⟨_, rfl, ?_⟩
      have e : (lit ((s.Nt.toNat : ℕ) : ℚ) /. lit ((s.n.toNat + k : ℕ) : ℚ) : F64) = lit ((s.Nt.toNat : ℕ) : ℚ) /. lit ((s.n.toNat : ℕ) : ℚ) := by
        have key : ∀ {m : ℕ}, 0 < m → m < 2 ^ 64 → (lit ((0 : ℕ) : ℚ) /. lit (m : ℚ) : F64) = zero false := by
          intro m m0 hm
          obtain ⟨f, hf⟩ := Quiet.lit_nat64 hm
          have one : rq 1 = 1 := by have := rq_rep (rep_int (i := 1) (by norm_num)); simpa using this
          have : rq 1 ≤ rq m := rq_mono (by exact_mod_cast m0)
          have hz : (lit ((0 : ℕ) : ℚ) : F64) = zero false := by decide +kernel
          rw [hz]
          have hs : ∃ j, (lit (m : ℚ) : F64) = fin false j := by
            show ∃ j, ofRat false (m : ℚ) = fin false j
            have : isFin (ofRat false (m : ℚ)) := f
            rw [ofRat_isFin] at this
            unfold ofRat
            rw [if_neg (by exact_mod_cast m0.ne')]
            dsimp only
            rw [dif_pos (show rnd |(m : ℚ)| < finCodes from this), show decide ((m : ℚ) < 0) = false by simp]
            exact ⟨_, rfl⟩
          obtain ⟨j, hj⟩ := hs
          rw [hj] at hf ⊢
          have j0 : ¬ j.val = 0 := fun e => by
            rw [toQ_eq_zero.mpr e] at hf
            linarith
          show F64.div (zero false) (fin false j) = _
          show (if j.val = 0 then _ else ofRat (false != false) (toQ (zero false) / toQ (fin false j))) = _
          rw [if_neg j0]
          rw [toQ_zero, zero_div]
          rfl
        rw [N0, key (by omega) (by omega), key hn (by omega)]
      rw [e]
      exact ⟨hn0, hv, le_refl _⟩
    · obtain ⟨q1, q2, q3, q4⟩ := Quiet.proportion_anti N0 s.Nt.toNat_lt hn (Nat.le_add_right s.n.toNat k) (by omega)
      obtain ⟨r1, r2, r3⟩ := Quiet.mul_anti q1 q2 q3 q4 hn0 hv
      exact ⟨_, rfl, r1, r2, r3⟩

/-- **C134**, quantiles. In exact arithmetic, for every fitted detector: calls other than `spot_fit` none of which returns EXCESS do not move the quantile of a real number `q > 0` away from the
data, and if an observation was counted they move it strictly inwards. -/
theorem C134_quantile (h : Heap XR) (s : Spot XR) (low : Prop) (et γ σ : ℝ) (F : FittedXR s low et γ σ) (ops : List (Op XR)) (hops : ∀ op ∈ ops, op.notFit)
    (hlen : s.n.toNat + ops.length < 2 ^ 64) (outs : List (Out XR)) (s' : Spot XR) (h' : Heap XR)
    (hrun : runOps XR.exactMath h s ops = .ok (outs, s', h')) (hno : Out.code 1 ∉ outs) (q : ℝ) (hq : 0 < q) :
    ∃ z z', spot_quantile XR.exactMath s (.fin q) = .ok (.fin z) ∧ spot_quantile XR.exactMath s' (.fin q) = .ok (.fin z') ∧
      Spec.distance low et z' ≤ Spec.distance low et z ∧ (s.n ≠ s'.n → Spec.distance low et z' < Spec.distance low et z) := by
  obtain ⟨k, k1, rfl, -, -⟩ := run_between ops hops _ _ _ _ _ hrun hno
  have en : (s.n + UInt64.ofNat k).toNat = s.n.toNat + k := by
    rw [UInt64.toNat_add, UInt64.toNat_ofNat']
    omega
  have n0 : (0 : ℝ) < s.n.toNat := by exact_mod_cast F.n
  have N0 : (0 : ℝ) < s.Nt.toNat := by exact_mod_cast F.Nt
  have m0 : (0 : ℝ) < ((s.n.toNat + k : ℕ) : ℝ) := by push_cast; positivity
  obtain ⟨u, hu, hl⟩ := F.sign
  have F' : FittedXR { s with n := s.n + UInt64.ofNat k } low et γ σ := ⟨F.up_down, F.et, F.gamma, F.sigma, F.pos, F.Nt, by dsimp only; rw [en]; have := F.n; omega⟩
  refine ⟨_, _, spot_quantile_exact F hu hq, spot_quantile_exact F' hu hq, ?_⟩
  dsimp only
  rw [en]
  have dist : ∀ t, Spec.distance low et (et + u * t) = t := by
    intro t
    unfold Spec.distance
    rcases hl with ⟨rfl, hl⟩ | ⟨rfl, hl⟩
    · rw [if_neg hl]; ring
    · rw [if_pos hl]; ring
  rw [dist, dist]
  set P := (s.Nt.toNat : ℝ) / s.n.toNat with hP
  have P0 : 0 < P := div_pos N0 n0
  have e : quantR γ σ (s.Nt.toNat / ((s.n.toNat + k : ℕ) : ℝ)) q = quantR γ σ P (q * (((s.n.toNat + k : ℕ) : ℝ) / s.n.toNat)) := by
    have : q / ((s.Nt.toNat : ℝ) / ((s.n.toNat + k : ℕ) : ℝ)) = q * (((s.n.toNat + k : ℕ) : ℝ) / s.n.toNat) / P := by
      rw [hP]; field_simp
    unfold quantR
    rw [this]
  rw [e]
  have strict : 0 < k → quantR γ σ P (q * (((s.n.toNat + k : ℕ) : ℝ) / s.n.toNat)) < quantR γ σ P q := fun hk => by
    refine quantR_strictAnti F.pos P0 hq ?_
    have : (1 : ℝ) < ((s.n.toNat + k : ℕ) : ℝ) / s.n.toNat := by
      rw [one_lt_div n0]
      have : (0 : ℝ) < k := by exact_mod_cast hk
      push_cast; linarith
    nlinarith
  rcases Nat.eq_zero_or_pos k with rfl | hk
  · refine ⟨le_of_eq ?_, fun g => absurd (by simp) g⟩
    rw [Nat.add_zero, div_self n0.ne', mul_one]
  · exact ⟨(strict hk).le, fun _ => strict hk⟩

/-- **C134**, quantiles on doubles, rounding errors included: for every fitted detector with moderate parameters, as long as it has at most 10^11 observations, calls other than `spot_fit`
none of which returns EXCESS do not move the quantile of a normal double `q ≤ 1` away from the data. A quantile that is NaN is left out; it is NaN only if the quotient of scale and shape
overflows or underflows (`C78_quantile_partial`). -/
theorem C134_doubles (h : Heap F64) (s : Spot F64) (low : Prop) (F : FittedF64 s low) (ops : List (Op F64)) (hops : ∀ op ∈ ops, op.notFit)
    (hlen : s.n.toNat + ops.length ≤ 10 ^ 11) (outs : List (Out F64)) (s' : Spot F64) (h' : Heap F64)
    (hrun : runOps (codeMath muslFU) h s ops = .ok (outs, s', h')) (hno : Out.code 1 ∉ outs) (q : F64) (hq : isFin q) (hq0 : pow2 (-1022) ≤ toQ q) (hq1 : toQ q ≤ 1) :
    ∃ z z', spot_quantile (codeMath muslFU) s q = .ok z ∧ spot_quantile (codeMath muslFU) s' q = .ok z' ∧
      (z = nan ∨ z' = nan ∨ (¬ low → F64.le z' z = true) ∧ (low → F64.le z z' = true)) := by
  obtain ⟨k, k1, rfl, -, -⟩ := run_between ops hops _ _ _ _ _ hrun hno
  have en : (s.n + UInt64.ofNat k).toNat = s.n.toNat + k := by
    rw [UInt64.toNat_add, UInt64.toNat_ofNat']
    omega
  have n0 : 0 < s.n.toNat := F.Nt.trans_le F.le
  have q0 : 0 < toQ q := (pow2_pos _).trans_le hq0
  -- the proportions and the quotients, with a relative error of 2^-53
  have prop : ∀ m : ℕ, s.Nt.toNat ≤ m → m ≤ 2 ^ 53 → isFin (q /. (lit (s.Nt.toNat : ℚ) /. lit (m : ℚ))) ∧ 0 < toQ (q /. (lit (s.Nt.toNat : ℚ) /. lit (m : ℚ))) ∧
      |toQ (q /. (lit (s.Nt.toNat : ℚ) /. lit (m : ℚ))) - toQ q * m / s.Nt.toNat| ≤ 3 / 10 ^ 16 * (toQ q * m / s.Nt.toNat) := by
    intro m hm hm'
    obtain ⟨S1, S2, S3, S4⟩ := proportion_pos F.Nt hm hm'
    obtain ⟨r1, r2, r3⟩ := ratio_pos hq q0 hq1 S1 S3 S4
    refine ⟨r1, r3, ?_⟩
    have hN : (1 : ℚ) ≤ s.Nt.toNat := by exact_mod_cast F.Nt
    have hn0 : (0 : ℚ) < m := by exact_mod_cast F.Nt.trans_le hm
    have P0 : pow2 (-53) ≤ (s.Nt.toNat : ℚ) / m := by
      have hn : (m : ℚ) ≤ 2 ^ 53 := by exact_mod_cast hm'
      rw [le_div_iff₀ hn0, pow2_eq]
      norm_num
      linarith
    have P0' : 0 < (s.Nt.toNat : ℚ) / m := (pow2_pos _).trans_le P0
    have e1 := rq_rel (q := (s.Nt.toNat : ℚ) / m) (.inr (by rw [abs_of_pos P0']; exact (pow2_le (by norm_num)).trans P0))
    have hS : 0 < toQ (lit (s.Nt.toNat : ℚ) /. lit (m : ℚ) : F64) := (pow2_pos _).trans_le S3
    rw [← S2, abs_of_pos P0', pow2_m53] at e1
    have Q0 : toQ q ≤ toQ q / toQ (lit (s.Nt.toNat : ℚ) /. lit (m : ℚ) : F64) := by
      rw [le_div_iff₀ hS]; nlinarith
    have e2 := rq_rel (q := toQ q / toQ (lit (s.Nt.toNat : ℚ) /. lit (m : ℚ) : F64)) (.inr (by rw [abs_of_pos (q0.trans_le Q0)]; exact hq0.trans Q0))
    rw [← r2, abs_of_pos (q0.trans_le Q0), pow2_m53] at e2
    generalize toQ (q /. (lit (s.Nt.toNat : ℚ) /. lit (m : ℚ))) = r at *
    generalize toQ (lit (s.Nt.toNat : ℚ) /. lit (m : ℚ) : F64) = S at *
    have ep : toQ q * m / s.Nt.toNat = toQ q / ((s.Nt.toNat : ℚ) / m) := by field_simp
    rw [ep]
    generalize (s.Nt.toNat : ℚ) / m = P at *
    generalize toQ q = Q at *
    obtain ⟨a1, a2⟩ := abs_le.mp e1
    obtain ⟨c1, c2⟩ := abs_le.mp e2
    have d1 : Q / S ≤ Q / P * (1 + 12 / 10 ^ 17) := by
      rw [div_mul_eq_mul_div, div_le_div_iff₀ hS P0']
      have : P ≤ (1 + 12 / 10 ^ 17) * S := by nlinarith
      nlinarith
    have d2 : Q / P * (1 - 12 / 10 ^ 17) ≤ Q / S := by
      rw [div_mul_eq_mul_div, div_le_div_iff₀ P0' hS]
      have : (1 - 12 / 10 ^ 17) * S ≤ P := by nlinarith
      nlinarith
    have QP : 0 < Q / P := div_pos q0 P0'
    rw [abs_le]
    constructor <;> nlinarith
  obtain ⟨u1, u2, u3⟩ := prop s.n.toNat F.le F.n
  obtain ⟨v1, v2, v3⟩ := prop (s.n.toNat + k) (F.le.trans (Nat.le_add_right _ k)) (by omega)
  refine Quiet.quantile_le (s' := { s with n := s.n + UInt64.ofNat k }) F rfl rfl rfl q _ _ rfl rfl u1 ?_ u2 ?_ ?_
  all_goals (try dsimp only)
  all_goals (try rw [en])
  · exact v1
  · exact v2
  rcases Nat.eq_zero_or_pos k with rfl | hk
  · exact le_refl _
  refine Quiet.xlog_gap u1 v1 u2 ?_
  have hN : (0 : ℚ) < s.Nt.toNat := by exact_mod_cast F.Nt
  have hn : (0 : ℚ) < s.n.toNat := by exact_mod_cast n0
  have hn' : (s.n.toNat : ℚ) ≤ 10 ^ 11 := by exact_mod_cast (show s.n.toNat ≤ 10 ^ 11 by omega)
  have hk' : (1 : ℚ) ≤ k := by exact_mod_cast hk
  have hX : 0 < toQ q * s.n.toNat / s.Nt.toNat := by positivity
  have hXY : toQ q * s.n.toNat / s.Nt.toNat * (1 + 1 / 10 ^ 11) ≤ toQ q * ((s.n.toNat + k : ℕ) : ℚ) / s.Nt.toNat := by
    rw [div_mul_eq_mul_div]
    refine div_le_div_of_nonneg_right ?_ hN.le
    push_cast
    have : (s.n.toNat : ℚ) * (1 + 1 / 10 ^ 11) ≤ s.n.toNat + k := by linarith
    nlinarith
  have a := (abs_le.mp u3).2
  have b := (abs_le.mp v3).1
  generalize toQ q * s.n.toNat / s.Nt.toNat = X at *
  generalize toQ q * ((s.n.toNat + k : ℕ) : ℚ) / s.Nt.toNat = Y at *
  generalize toQ (q /. (lit (s.Nt.toNat : ℚ) /. lit (s.n.toNat : ℚ))) = r at *
  generalize toQ (q /. (lit (s.Nt.toNat : ℚ) /. lit ((s.n.toNat + k : ℕ) : ℚ))) = r' at *
  linarith

/-- the state after the fit of the sample data (`q` 1/100, `level` 9/10) -/
def Sample.quiet : C (List (Out F64) × Spot F64 × Heap F64) := runOps (codeMath muslFU) Sample.init.2.2 Sample.init.2.1 [.fit Sample.data 7]

/-- The hypotheses of `C134_probability` and `C134_doubles` are met: a fitted detector, then three observations on the other side of the threshold. Both the probability and the quantile do change. -/
example : ∃ (outs : List (Out F64)) (s : Spot F64) (h : Heap F64) (p p' z z' : F64) (s' : Spot F64) (h' : Heap F64),
    Sample.quiet = .ok (outs, s, h) ∧ FittedF64 s ((0 : ℤ) ≠ 0) ∧ 0 < s.n.toNat ∧
    runOps (codeMath muslFU) h s (List.replicate 3 (.step (lit (-1000)))) = .ok ([.code 0, .code 0, .code 0], s', h') ∧
    pow2 (-1022) ≤ toQ (lit (1 / 100) : F64) ∧ s.n.toNat + 3 ≤ 10 ^ 11 ∧
    spot_probability (codeMath muslFU) s (lit 7) = .ok p ∧ spot_probability (codeMath muslFU) s' (lit 7) = .ok p' ∧ isFin p ∧ toQ p' < toQ p ∧ 0 < toQ p' ∧
    spot_quantile (codeMath muslFU) s (lit (1 / 100)) = .ok z ∧ spot_quantile (codeMath muslFU) s' (lit (1 / 100)) = .ok z' ∧ isFin z ∧ toQ z' < toQ z := by
  have hd : (match Sample.quiet with
    | .ok (_, s, h) =>
      match runOps (codeMath muslFU) h s (List.replicate 3 (.step (lit (-1000)))) with
      | .ok (outs, s', _) =>
        match spot_probability (codeMath muslFU) s (lit 7), spot_probability (codeMath muslFU) s' (lit 7),
          spot_quantile (codeMath muslFU) s (lit (1 / 100)), spot_quantile (codeMath muslFU) s' (lit (1 / 100)) with
        | .ok p, .ok p', .ok z, .ok z' => Sample.fittedB s && decide (0 < s.n.toNat) && decide (outs = [.code 0, .code 0, .code 0]) &&
            decide (pow2 (-1022) ≤ toQ (lit (1 / 100) : F64)) && decide (s.n.toNat + 3 ≤ 10 ^ 11) &&
            decide (isFin p ∧ toQ p' < toQ p ∧ 0 < toQ p' ∧ isFin z ∧ toQ z' < toQ z)
        | _, _, _, _ => false
      | .error _ => false
    | .error _ => false) = true := by decide +kernel
  split at hd
  · rename_i o s h e
    split at hd
    · rename_i outs s' h' e'
      split at hd
      · rename_i p p' z z' a b c d
        simp only [Bool.and_eq_true, decide_eq_true_iff] at hd
        obtain ⟨⟨⟨⟨⟨f, n0⟩, o'⟩, lo⟩, hi⟩, q1, q2, q3, q4, q5⟩ := hd
        subst o'
        exact ⟨o, s, h, p, p', z, z', s', h', e, Sample.fitted_of f, n0, e', lo, hi, a, b, q1, q2, q3, c, d, q4, q5⟩
      · cases hd
    · cases hd
  · cases hd

/-- The hypotheses of `C134_quantile` are met by a lower-tail detector and an observation that is counted. -/
example : FittedXR Sample.xrated True (-4) (-1 / 10) 2 ∧
    ∃ s', runOps XR.exactMath Sample.emptyHeap Sample.xrated [.step (.fin 0)] = .ok ([.code 0], s', Sample.emptyHeap) ∧ Sample.xrated.n ≠ s'.n := by
  have F : FittedXR Sample.xrated True (-4) (-1 / 10) 2 :=
    ⟨Or.inr ⟨rfl, trivial⟩, rfl, rfl, rfl, by norm_num, by decide, by decide⟩
  have hu : Sample.xrated.up_down = .fin (-1) := by rw [show Sample.xrated.up_down = lit (-1) from rfl, XR.lit_fin]; norm_num
  have hQ : 0 ≤ quantR (-1 / 10) 2 (10 / 100) (1 / 1000) := by
    have := quantR_strictAnti (γ := -1 / 10) (σ := 2) (s := 10 / 100) (q := 1 / 1000) (q' := 10 / 100) (by norm_num) (by norm_num)
      (by norm_num) (by norm_num)
    rw [quantR_self (by norm_num)] at this
    exact this.le
  refine ⟨F, { Sample.xrated with n := Sample.xrated.n + 1 }, ?_, by decide⟩
  have e : spot_step XR.exactMath Sample.emptyHeap Sample.xrated (.fin 0) =
      .ok (0, { Sample.xrated with n := Sample.xrated.n + 1 }, Sample.emptyHeap) := by
    unfold spot_step
    rw [XR.nan_f, if_neg (by simp), if_neg, if_neg]
    · rfl
    · show ¬ ((lit 0 : XR) <=. Sample.xrated.up_down *. (.fin 0 -. .fin (-4))) = true
      rw [hu, XR.sub_ff, XR.mul_ff, XR.lit_fin, XR.le_ff, decide_eq_true_iff]
      norm_num
    · rw [hu, show Sample.xrated.anomaly_threshold = XR.fin (-4 + -1 * quantR (-1 / 10) 2 (10 / 100) (1 / 1000)) from rfl,
        XR.sub_ff, XR.mul_ff, XR.lit_fin, XR.lt_ff, Bool.and_eq_true, decide_eq_true_iff, decide_eq_true_iff]
      rintro ⟨-, g⟩
      push_cast at g
      linarith
  unfold runOps exec
  dsimp only
  rw [e]
  rfl

/-- threshold 0, shape 0, scale 1, one excess among 2^51 - 1 observations -/
def Sample.aged : Spot F64 :=
  { Sample.spot with excess_threshold := lit 0, anomaly_threshold := lit 100, Nt := 1, n := 2 ^ 51 - 1, tail := { Sample.spot.tail with gamma := lit 0, sigma := lit 1 } }

/-- The number of observations has to be limited in `C134_doubles`: at 2^51 a further normal observation moves the quantile outwards, because the logarithm is not monotone (C76_false). -/
theorem C134_limit : FittedF64 Sample.aged ((0 : ℤ) ≠ 0) ∧ ∃ z z' s' h', runOps (codeMath muslFU) Sample.heap Sample.aged [.step (lit (-1))] = .ok ([.code 0], s', h') ∧
    spot_quantile (codeMath muslFU) Sample.aged (lit (1 / 2 ^ 28)) = .ok z ∧ spot_quantile (codeMath muslFU) s' (lit (1 / 2 ^ 28)) = .ok z' ∧ isFin z ∧ isFin z' ∧ toQ z < toQ z' := by
  refine ⟨Sample.fitted_of (by decide +kernel), ?_⟩
  have hd : (match runOps (codeMath muslFU) Sample.heap Sample.aged [.step (lit (-1))] with
    | .ok (outs, s', _) =>
      match spot_quantile (codeMath muslFU) Sample.aged (lit (1 / 2 ^ 28)), spot_quantile (codeMath muslFU) s' (lit (1 / 2 ^ 28)) with
      | .ok z, .ok z' => decide (outs = [.code 0]) && decide (isFin z ∧ isFin z' ∧ toQ z < toQ z')
      | _, _ => false
    | .error _ => false) = true := by decide +kernel
  split at hd
  · rename_i outs s' h' e
    split at hd
    · rename_i z z' a b
      simp only [Bool.and_eq_true, decide_eq_true_iff] at hd
      obtain ⟨rfl, hd⟩ := hd
      exact ⟨z, z', s', h', e, a, b, hd⟩
    · cases hd
  · cases hd

end Verif

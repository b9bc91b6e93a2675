/-
C88: after a fit or an excess that leaves regular excesses in the buffer, the parameters of the tail are moderate and the anomaly
threshold is a number.
-/
import Verif.Proofs.Regular
import Verif.Proofs.MirrorRun
import Verif.Props.Scale
import Verif.Props.Side

namespace Verif
open F64 Spec

/-! ### C88 -/

/-- Regular excesses, in terms of the fields of the buffer: at most 2^24 of them, of tracked minimum at least 2^-400, of tracked
maximum at most 2^100 and at least the number of excesses over 2^24; the computed mean is greater than the minimum, and the
maximum exceeds it by a factor of 1 + 2^-18. -/
structure Spec.Regular (p : Peaks F64) : Prop where
  size : 1 ≤ (peaks_size p).toNat ∧ (peaks_size p).toNat ≤ 2 ^ 24
  min : isFin p.min ∧ 1 / 2 ^ 400 ≤ toQ p.min
  mean : isFin (peaks_mean p) ∧ toQ p.min < toQ (peaks_mean p)
  max : isFin p.max ∧ (peaks_size p).toNat / 2 ^ 24 ≤ toQ p.max ∧ toQ p.max ≤ 2 ^ 100
  gap : (1 + 1 / 2 ^ 18) * toQ (peaks_mean p) ≤ toQ p.max

/-- bounds on a sum from bounds on the mean -/
theorem sum_of_mean {e n : F64} {k : ℕ} (hn : isFin n ∧ toQ n = k) (k1 : 1 ≤ k) (k2 : k ≤ 2 ^ 24) (hm : isFin (e /. n))
    (m0 : pow2 (-400) ≤ toQ (e /. n)) (m1 : toQ (e /. n) ≤ pow2 100) : isFin e ∧ pow2 (-900) ≤ toQ e ∧ toQ e ≤ pow2 149 := by
  have he := div_isFin_left hm
  have kq : (1 : ℚ) ≤ k := by exact_mod_cast k1
  have kq2 : (k : ℚ) ≤ 2 ^ 24 := by exact_mod_cast k2
  have kp : (0 : ℚ) < k := by linarith
  obtain ⟨z, hz⟩ := div_fin he hn.1 (by rw [hn.2]; exact kp.ne')
  have hz' : (e /. n : F64) = ofRat z (toQ e / toQ n) := hz
  have h2 : toQ (e /. n : F64) = rq (toQ e / toQ n) := by
    have h := hm
    rw [hz'] at h ⊢
    exact fin_toQ h
  rw [h2, hn.2] at m0 m1
  refine ⟨he, ?_, ?_⟩
  · by_contra hc
    have hle : toQ e / k ≤ pow2 (-900) := by
      rw [div_le_iff₀ kp]
      exact (not_le.mp hc).le.trans (le_mul_of_one_le_right (pow2_pos _).le kq)
    have h3 := rq_mono hle
    obtain ⟨j, hj⟩ := pow2_isMag (e := -900) (by norm_num)
    have h4 : rq (pow2 (-900)) = pow2 (-900) := by rw [rq_of_nonneg (pow2_pos _).le, ← hj, rnd_mag]
    rw [h4] at h3
    exact absurd (m0.trans h3) (not_le.mpr (pow2_lt (by norm_num)))
  · by_contra hc
    have hle : pow2 125 ≤ toQ e / k := by
      rw [le_div_iff₀ kp]
      refine le_trans (mul_le_mul_of_nonneg_left kq2 (pow2_pos _).le) (le_trans ?_ (not_le.mp hc).le)
      decide +kernel
    have h3 := le_rq (by norm_num) hle
    exact absurd (h3.trans m1) (not_le.mpr (pow2_lt (by norm_num)))

/-- the fit of a buffer of regular excesses -/
theorem fit_regular {h : Heap F64} {t : Tail F64} {a c : ℕ} {xs : List F64} (I : PeaksInv h t.peaks a c xs) (h1 : 0 < c) (h2 : c < 2 ^ 61)
    (hx : ∀ v ∈ xs, F64.le (F64.zero false) v = true) (hR : Spec.Regular t.peaks) :
    ∃ ll t', tail_fit (codeMath muslFU) h t = .ok (ll, t') ∧ t'.peaks = t.peaks ∧ Moderate t'.gamma t'.sigma := by
  have S := I.ring.stored
  refine ⟨(tailFitL (codeMath muslFU) t (slots c xs)).1, (tailFitL (codeMath muslFU) t (slots c xs)).2, tail_fit_eq S, ?_, ?_⟩
  · unfold tailFitL
    rw [tail_fit_step_peaks, tail_fit_step_peaks]
  have hsz : (peaks_size t.peaks).toNat = (slots c xs).length := S.size
  obtain ⟨r1, r2, r3, r4, r5⟩ := hR
  have hne : slots c xs ≠ [] := by
    intro h0
    rw [hsz, h0] at r1
    exact absurd r1.1 (by simp)
  have hxne : xs ≠ [] := by rintro rfl; exact hne (slots_nil)
  have hn : ∀ v ∈ xs, is_nan v = false := fun v hv => (is_nan_false v).mpr ((F64.le_iff _ _).mp (hx v hv)).2.1
  have hE := statsOf_extremes h1 h2 xs hn hxne
  rw [← I.stats] at hE
  have hmn : t.peaks.min ∈ slots c xs := hE.1.1
  have hmx : t.peaks.max ∈ slots c xs := hE.2.1
  have p1 : pow2 100 = 2 ^ 100 := by decide +kernel
  have p4 : pow2 (-400) = 1 / 2 ^ 400 := by decide +kernel
  have p24 : pow2 (-24) = 1 / 2 ^ 24 := by decide +kernel
  have hv : ∀ v ∈ slots c xs, isFin v ∧ 0 ≤ toQ v := by
    intro v hv
    have g1 : (t.peaks.max <. v) = false := hE.2.2 v hv
    have v0 := (F64.le_iff _ _).mp (hx v (slots_mem h1 hv))
    rcases v with _ | (_ | _) | ⟨s, k⟩
    · exact absurd rfl v0.2.1
    · obtain ⟨km, hkm⟩ : ∃ s k, t.peaks.max = fin s k := by
        rcases hq : t.peaks.max with _ | s | ⟨s, k⟩
        · rw [hq] at r4; exact absurd r4.1 (by simp [isFin])
        · rw [hq] at r4; exact absurd r4.1 (by simp [isFin])
        · exact ⟨s, k, rfl⟩
      obtain ⟨k, hkm⟩ := hkm
      rw [hkm] at g1
      exact absurd g1 (by simp [show ((fin km k : F64) <. inf false) = F64.lt (fin km k) (inf false) from rfl, F64.lt])
    · exact absurd v0.2.2 (by rw [val_zero]; simp [val])
    · refine ⟨trivial, ?_⟩
      have := v0.2.2
      rw [val_zero, val_fin (x := fin s k) trivial] at this
      exact_mod_cast this
  have mE := peaks_mean_eq S
  rw [hsz] at r1 r4
  rw [mE] at r3 r5
  rw [← p1] at r4
  rw [← p4] at r2
  have nq : (0 : ℚ) < toQ (meanL t.peaks.e (slots c xs)) := (pow2_pos _).trans_le (r2.2.trans r3.2.le)
  have hm1 : toQ (meanL t.peaks.e (slots c xs)) ≤ pow2 100 := by
    have : toQ (meanL t.peaks.e (slots c xs)) ≤ (1 + 1 / 2 ^ 18) * toQ (meanL t.peaks.e (slots c xs)) :=
      le_mul_of_one_le_left nq.le (by norm_num)
    exact (this.trans r5).trans r4.2.2
  obtain ⟨s1, s2, s3⟩ := sum_of_mean (lit_len r1.1 (r1.2.trans (by norm_num))) r1.1 r1.2 r3.1 (r2.2.trans r3.2.le) hm1
  refine tailFit_regular t (slots c xs) hne r1.2 hv hmx ?_ r4.2.2 hmn r2.2 (r3.2.le.trans hm1) s1 s2 s3 r3.1 r3.2 hm1 r5
  refine le_trans (le_of_eq ?_) r4.2.1
  rw [p24]; ring

/-- the anomaly threshold of a detector with moderate parameters is a number, on the far side of the excess threshold if there are
enough excesses -/
theorem quantile_regular {s : Spot F64} {low : Prop} (F : FittedF64 s low) (H : Moderate s.tail.gamma s.tail.sigma) {q : F64} (hq : isFin q)
    (q0 : 0 < toQ q) (q1 : toQ q ≤ 1) :
    ∃ z, spot_quantile (codeMath muslFU) s q = .ok z ∧ notNaN z ∧
      (toQ q ≤ (s.Nt.toNat : ℚ) / s.n.toNat → (¬ low → F64.le s.excess_threshold z = true) ∧ (low → F64.le z s.excess_threshold = true)) := by
  obtain ⟨z, e, h1, -, h3⟩ := C78_quantile_partial s low F q hq q0 q1
  have hz : notNaN z := by
    apply h3
    rcases H.ratio with h | ⟨h, h', -⟩
    · exact .inl h
    · exact .inr ⟨h, h'⟩
  exact ⟨z, e, hz, fun hr => (h1 hr).resolve_left hz⟩

/-- **C88** for `spot_fit`: on any detector reached by calls of the API, if the excess threshold of the fit is finite, and the loop over
the data found at least one excess and left a buffer of regular excesses, then the fit is defined and returns 0, the
parameters of the tail are moderate, the anomaly threshold is not NaN, and it is on the far side of the excess threshold if
the proportion of excesses is at least `q`. Missing: irregular excesses; see `C88_false`. -/
theorem C88_fit_partial (lib : Lib F64) (q level : F64) (low disc : ℤ) (me : UInt64) (s : Spot F64) (h : Heap F64)
    (R : Reaches (codeMath muslFU) lib q low disc level me s h) (hq : isFin q) (q0 : 0 < toQ q) (q1 : toQ q ≤ 1)
    (data : List F64) (size : UInt64) (hs : size.toNat ≤ data.length) (hs' : size.toNat ≤ 2 ^ 53) (et : F64) (st : Spot F64 × Heap F64)
    (het : p2_quantile (if low ≠ 0 then lit 1 -. level else level) data size = .ok et) (hef : isFin et)
    (hst : (data.take size.toNat).foldlM (fit_body et) ({ s with Nt := 0, n := size, excess_threshold := et }, h) = .ok st)
    (hNt : 0 < st.1.Nt.toNat) (hreg : Spec.Regular st.1.tail.peaks) :
    ∃ s' h', spot_fit (codeMath muslFU) h s data size = .ok (0, s', h') ∧ s'.tail.peaks = st.1.tail.peaks ∧
      FittedF64 s' (low ≠ 0) ∧ Moderate s'.tail.gamma s'.tail.sigma ∧ notNaN s'.anomaly_threshold ∧
      (toQ q ≤ (s'.Nt.toNat : ℚ) / s'.n.toNat →
        (¬ (low ≠ 0) → F64.le s'.excess_threshold s'.anomaly_threshold = true) ∧
        (low ≠ 0 → F64.le s'.anomaly_threshold s'.excess_threshold = true)) := by
  have m1 : 1 ≤ me.toNat := R.1
  have m2 : me.toNat < 2 ^ 61 := R.2.1
  obtain ⟨a, xs, I, P, hx⟩ := reaches_nonneg R
  have hlow : s.low = if low ≠ 0 then 1 else 0 := P.plow
  have hlev : s.level = level := P.plevel
  have hqs : s.q = q := P.pq
  have hud : s.up_down = if low ≠ 0 then lit (-1) else lit 1 := P.pud
  have hE : (if s.low ≠ 0 then p2_quantile (lit 1 -. s.level) data size else p2_quantile s.level data size : C F64) = .ok et := by
    rw [hlow, hlev]
    by_cases hl : low = 0
    · simpa [hl] using het
    · simpa [hl] using het
  have hlen : size.toNat = (data.take size.toNat).length := by simp; omega
  obtain ⟨p', h', hp, I', F⟩ := fit_loop (c := me.toNat) (a := a) et (data.take size.toNat)
    { s with Nt := 0, n := size, excess_threshold := et } h xs I
  rw [hst] at hp
  injection hp with hp
  subst hp
  have hx' : ∀ v ∈ xs ++ fitExcesses s.up_down et (data.take size.toNat), F64.le (F64.zero false) v = true := by
    intro v hv
    rcases List.mem_append.mp hv with hv | hv
    · exact hx v hv
    · unfold fitExcesses at hv
      have hlt : F64.lt (F64.zero false) v = true := by
        have := (List.mem_filter.mp hv).2
        rw [← lit_zero]; exact this
      obtain ⟨b1, b2, b3⟩ := (F64.lt_iff _ _).mp hlt
      exact (F64.le_iff _ _).mpr ⟨b1, b2, b3.le⟩
  obtain ⟨ll, t', hfit, hpk, hM⟩ := fit_regular (t := { s.tail with peaks := p' }) I' m1 m2 hx' hreg
  have hcnt : (fitExcesses s.up_down et (data.take size.toNat)).length ≤ size.toNat := by
    unfold fitExcesses
    refine (List.length_filter_le _ _).trans ?_
    simp
  have hN : (0 + UInt64.ofNat (fitExcesses s.up_down et (data.take size.toNat)).length : UInt64).toNat ≤ size.toNat := by
    rw [UInt64.zero_add, UInt64.toNat_ofNat']
    exact (Nat.mod_le _ _).trans hcnt
  set S : Spot F64 := { s with
    Nt := 0 + UInt64.ofNat (fitExcesses s.up_down et (data.take size.toNat)).length, n := size, excess_threshold := et, tail := t' } with hS
  have key : ∀ z, FittedF64 { S with anomaly_threshold := z } (low ≠ 0) := fun z => by
    refine ⟨?_, hef, hM.gamma, ⟨hM.sigma.1, (pow2_pos _).trans_le hM.sigma.2.1⟩, hNt, hN, hs'⟩
    by_cases hl : low ≠ 0
    · right; exact ⟨by change s.up_down = _; rw [hud, if_pos hl], hl⟩
    · left; exact ⟨by change s.up_down = _; rw [hud, if_neg hl], hl⟩
  obtain ⟨z, hz, hzn, hzr⟩ := quantile_regular (s := S) (low := low ≠ 0) (key S.anomaly_threshold) hM hq q0 q1
  refine ⟨{ S with anomaly_threshold := z }, h', ?_, hpk, key z, hM, hzn, hzr⟩
  unfold spot_fit
  dsimp only
  rw [hE]
  simp only [C.ok_bind]
  have hen : is_nan et = false := (is_nan_false _).mpr hef.notNaN
  rw [hen, if_neg (by simp)]
  rw [foldlM_read' (f := fun st x => fit_body et st x) (rd := fun i => loadBuf data i) (data.take size.toNat) _ _ hlen
    (by intro i hi; simp at hi; rw [loadBuf_ok (by omega)]; simp)]
  rw [hst]
  simp only [C.ok_bind]
  rw [hfit]
  simp only [C.ok_bind]
  rw [← hqs] at hz
  have hz' : spot_quantile (codeMath muslFU) S s.q = .ok z := hz
  change (spot_quantile (codeMath muslFU) S s.q >>= _) = _
  rw [hz']
  simp only [C.ok_bind]
  rw [if_neg (by rw [(is_nan_false _).mpr hzn]; simp)]

/-- **C88** for `spot_step`: on any detector reached by calls of the API that has a finite excess threshold and at most 2^53
observations, a step that would leave a buffer of regular excesses is defined, and if it returns EXCESS then the parameters
of the tail are moderate, the anomaly threshold is not NaN, and it is on the far side of the excess threshold if the
proportion of excesses is at least `q`. Missing: irregular excesses. -/
theorem C88_step_partial (lib : Lib F64) (q level : F64) (low disc : ℤ) (me : UInt64) (s : Spot F64) (h : Heap F64)
    (R : Reaches (codeMath muslFU) lib q low disc level me s h) (hq : isFin q) (q0 : 0 < toQ q) (q1 : toQ q ≤ 1)
    (hef : isFin s.excess_threshold) (hc : s.Nt.toNat ≤ s.n.toNat) (hc' : s.n.toNat + 1 ≤ 2 ^ 53) (x : F64) (r : Tail F64 × Heap F64)
    (hr : tail_push h s.tail (s.up_down *. (x -. s.excess_threshold)) = .ok r) (hreg : Spec.Regular r.1.peaks) :
    ∃ c s' h', spot_step (codeMath muslFU) h s x = .ok (c, s', h') ∧
      (c = 1 → s'.tail.peaks = r.1.peaks ∧ FittedF64 s' (low ≠ 0) ∧ Moderate s'.tail.gamma s'.tail.sigma ∧ notNaN s'.anomaly_threshold ∧
        (toQ q ≤ (s'.Nt.toNat : ℚ) / s'.n.toNat →
          (¬ (low ≠ 0) → F64.le s'.excess_threshold s'.anomaly_threshold = true) ∧
          (low ≠ 0 → F64.le s'.anomaly_threshold s'.excess_threshold = true))) := by
  have m1 : 1 ≤ me.toNat := R.1
  have m2 : me.toNat < 2 ^ 61 := R.2.1
  obtain ⟨a, xs, I, P, hx⟩ := reaches_nonneg R
  have hqs : s.q = q := P.pq
  have hud : s.up_down = if low ≠ 0 then lit (-1) else lit 1 := P.pud
  unfold spot_step
  split
  · exact ⟨_, _, _, rfl, fun h => by cases h⟩
  split
  · exact ⟨_, _, _, rfl, fun h => by cases h⟩
  dsimp only
  split
  swap
  · exact ⟨_, _, _, rfl, fun h => by cases h⟩
  next hex =>
  obtain ⟨p', h', hp, I', F⟩ := PeaksInv.push I (s.up_down *. (x -. s.excess_threshold))
  have hpush : tail_push h s.tail (s.up_down *. (x -. s.excess_threshold)) = .ok ({ s.tail with peaks := p' }, h') := by
    unfold tail_push; rw [hp]; rfl
  rw [hpush] at hr
  injection hr with hr
  subst hr
  have hx' : ∀ v ∈ xs ++ [s.up_down *. (x -. s.excess_threshold)], F64.le (F64.zero false) v = true := by
    intro v hv
    rcases List.mem_append.mp hv with hv | hv
    · exact hx v hv
    · rw [List.mem_singleton] at hv
      rw [hv, ← lit_zero]
      exact hex
  obtain ⟨ll, t', hfit, hpk, hM⟩ := fit_regular (t := { s.tail with peaks := p' }) I' m1 m2 hx' hreg
  have e1 : (s.Nt + 1).toNat = s.Nt.toNat + 1 := by rw [UInt64.toNat_add, Nat.mod_eq_of_lt] <;> (simp; try omega)
  have e2 : (s.n + 1).toNat = s.n.toNat + 1 := by rw [UInt64.toNat_add, Nat.mod_eq_of_lt] <;> (simp; try omega)
  set S : Spot F64 := { s with Nt := s.Nt + 1, n := s.n + 1, tail := t' } with hS
  have key : ∀ z, FittedF64 { S with anomaly_threshold := z } (low ≠ 0) := fun z => by
    refine ⟨?_, hef, hM.gamma, ⟨hM.sigma.1, (pow2_pos _).trans_le hM.sigma.2.1⟩, ?_, ?_, ?_⟩
    · by_cases hl : low ≠ 0
      · right; exact ⟨by change s.up_down = _; rw [hud, if_pos hl], hl⟩
      · left; exact ⟨by change s.up_down = _; rw [hud, if_neg hl], hl⟩
    · change 0 < (s.Nt + 1).toNat; omega
    · change (s.Nt + 1).toNat ≤ (s.n + 1).toNat; omega
    · change (s.n + 1).toNat ≤ _; omega
  obtain ⟨z, hz, hzn, hzr⟩ := quantile_regular (s := S) (low := low ≠ 0) (key S.anomaly_threshold) hM hq q0 q1
  refine ⟨1, { S with anomaly_threshold := z }, h', ?_, fun _ => ⟨hpk, key z, hM, hzn, hzr⟩⟩
  rw [hpush]
  simp only [C.ok_bind]
  rw [hfit]
  simp only [C.ok_bind]
  rw [← hqs] at hz
  change (spot_quantile (codeMath muslFU) S s.q >>= _) = _
  rw [hz]
  rfl

/-- the decidable content of `Regular` -/
def Sample.regularB (p : Peaks F64) : Bool :=
  decide (1 ≤ (peaks_size p).toNat) && decide ((peaks_size p).toNat ≤ 2 ^ 24) && decide (isFin p.min) && decide (1 / 2 ^ 400 ≤ toQ p.min) &&
    decide (isFin (peaks_mean p)) && decide (toQ p.min < toQ (peaks_mean p)) && decide (isFin p.max) &&
    decide (((peaks_size p).toNat : ℚ) / 2 ^ 24 ≤ toQ p.max) && decide (toQ p.max ≤ 2 ^ 100) &&
    decide ((1 + 1 / 2 ^ 18) * toQ (peaks_mean p) ≤ toQ p.max)

theorem Sample.regular_of {p : Peaks F64} (h : Sample.regularB p = true) : Spec.Regular p := by
  simp only [Sample.regularB, Bool.and_eq_true, decide_eq_true_iff] at h
  obtain ⟨⟨⟨⟨⟨⟨⟨⟨⟨a, b⟩, c⟩, d⟩, e⟩, f⟩, g⟩, i⟩, j⟩, k⟩ := h
  exact ⟨⟨a, b⟩, ⟨c, d⟩, ⟨e, f⟩, ⟨g, i, j⟩, k⟩

def Sample.data12 : List F64 := [1, 2, 3, 4, 5, 6, 7, 8, 9, 10, 11, 20].map fun n : ℕ => lit (n : ℚ)

/-- the loop of the fit of the freshly initialised sample detector -/
def Sample.loop (et : F64) (data : List F64) : C (Spot F64 × Heap F64) :=
  (data.take (UInt64.ofNat data.length).toNat).foldlM (m := C) (fit_body et)
    ({ Sample.init.2.1 with Nt := 0, n := UInt64.ofNat data.length, excess_threshold := et }, Sample.init.2.2)

theorem Sample.init_reaches : Reaches (codeMath muslFU) Sample.lib (lit (1 / 100)) 0 1 (lit (9 / 10)) 20 Sample.init.2.1 Sample.init.2.2 :=
  ⟨by decide, by decide, Sample.emptyHeap, Sample.zeroed, by decide +kernel, [], [], by simp, rfl⟩

/-- The hypotheses of the theorem on `spot_fit` are met by twelve numbers. -/
example : isFin (lit (1 / 100) : F64) ∧ 0 < toQ (lit (1 / 100) : F64) ∧ toQ (lit (1 / 100) : F64) ≤ 1 ∧
    ∃ et st, p2_quantile (lit (9 / 10)) Sample.data12 12 = .ok et ∧ isFin et ∧ Sample.loop et Sample.data12 = .ok st ∧ 0 < st.1.Nt.toNat ∧
      Spec.Regular st.1.tail.peaks := by
  refine ⟨by decide +kernel, by decide +kernel, by decide +kernel, ?_⟩
  have hd : (match p2_quantile (lit (9 / 10)) Sample.data12 12 with
    | .ok et => match Sample.loop et Sample.data12 with
      | .ok st => decide (isFin et) && decide (0 < st.1.Nt.toNat) && Sample.regularB st.1.tail.peaks
      | .error _ => false
    | .error _ => false) = true := by decide +kernel
  cases h1 : p2_quantile (lit (9 / 10)) Sample.data12 12 with
  | error e => rw [h1] at hd; cases hd
  | ok et =>
    rw [h1] at hd
    dsimp only at hd
    cases h2 : Sample.loop et Sample.data12 with
    | error e => rw [h2] at hd; cases hd
    | ok st =>
      rw [h2] at hd
      simp only [Bool.and_eq_true, decide_eq_true_iff] at hd
      exact ⟨et, st, rfl, hd.1.1, h2, hd.1.2, Sample.regular_of hd.2⟩

/-- The hypotheses of the theorem on `spot_step` are met by the value 15 after this fit, and it is an excess. -/
example : ∃ outs s h, runOps (codeMath muslFU) Sample.init.2.2 Sample.init.2.1 [.fit Sample.data12 12] = .ok (outs, s, h) ∧
    isFin s.excess_threshold ∧ s.Nt.toNat ≤ s.n.toNat ∧ s.n.toNat + 1 ≤ 2 ^ 53 ∧
    (∃ r, tail_push h s.tail (s.up_down *. (lit 15 -. s.excess_threshold)) = .ok r ∧ Spec.Regular r.1.peaks) ∧
    (spot_step (codeMath muslFU) h s (lit 15)).map (·.1) = .ok 1 := by
  have hd : (match runOps (codeMath muslFU) Sample.init.2.2 Sample.init.2.1 [.fit Sample.data12 12] with
    | .ok (_, s, h) => match tail_push h s.tail (s.up_down *. (lit 15 -. s.excess_threshold)) with
      | .ok r => decide (isFin s.excess_threshold) && decide (s.Nt.toNat ≤ s.n.toNat) && decide (s.n.toNat + 1 ≤ 2 ^ 53) &&
          Sample.regularB r.1.peaks && (match spot_step (codeMath muslFU) h s (lit 15) with | .ok r => decide (r.1 = 1) | .error _ => false)
      | .error _ => false
    | .error _ => false) = true := by decide +kernel
  cases h1 : runOps (codeMath muslFU) Sample.init.2.2 Sample.init.2.1 [.fit Sample.data12 12] with
  | error e => rw [h1] at hd; cases hd
  | ok w =>
    obtain ⟨outs, s, h⟩ := w
    rw [h1] at hd
    dsimp only at hd
    cases h2 : tail_push h s.tail (s.up_down *. (lit 15 -. s.excess_threshold)) with
    | error e => rw [h2] at hd; cases hd
    | ok r =>
      rw [h2] at hd
      simp only [Bool.and_eq_true, decide_eq_true_iff] at hd
      obtain ⟨⟨⟨⟨a, b⟩, c⟩, d⟩, e⟩ := hd
      refine ⟨outs, s, h, rfl, a, b, c, ⟨r, h2, Sample.regular_of d⟩, ?_⟩
      cases h3 : spot_step (codeMath muslFU) h s (lit 15) with
      | error e' => rw [h3] at e; cases e
      | ok w =>
        rw [h3] at e
        simp only [decide_eq_true_iff] at e
        change Except.ok w.1 = _
        rw [e]

/-- C88 does not hold: the fit of three times the value 3/10 finds excesses, and is undefined. -/
theorem C88_false : ∃ et st, p2_quantile (lit (9 / 10)) [lit (3 / 10), lit (3 / 10), lit (3 / 10)] 3 = .ok et ∧ isFin et ∧
    Sample.loop et [lit (3 / 10), lit (3 / 10), lit (3 / 10)] = .ok st ∧ 0 < st.1.Nt.toNat ∧
    ∃ e, spot_fit (codeMath muslFU) Sample.init.2.2 Sample.init.2.1 [lit (3 / 10), lit (3 / 10), lit (3 / 10)] 3 = .error e := by
  have hd : (match p2_quantile (lit (9 / 10)) ([lit (3 / 10), lit (3 / 10), lit (3 / 10)] : List F64) 3 with
    | .ok et => match Sample.loop et [lit (3 / 10), lit (3 / 10), lit (3 / 10)] with
      | .ok st => decide (isFin et) && decide (0 < st.1.Nt.toNat)
      | .error _ => false
    | .error _ => false) = true := by decide +kernel
  have hd2 : (match spot_fit (codeMath muslFU) Sample.init.2.2 Sample.init.2.1 [lit (3 / 10), lit (3 / 10), lit (3 / 10)] 3 with
    | .ok _ => false
    | .error _ => true) = true := by decide +kernel
  cases h1 : p2_quantile (lit (9 / 10)) ([lit (3 / 10), lit (3 / 10), lit (3 / 10)] : List F64) 3 with
  | error e => rw [h1] at hd; cases hd
  | ok et =>
    rw [h1] at hd
    dsimp only at hd
    cases h2 : Sample.loop et [lit (3 / 10), lit (3 / 10), lit (3 / 10)] with
    | error e => rw [h2] at hd; cases hd
    | ok st =>
      rw [h2] at hd
      simp only [Bool.and_eq_true, decide_eq_true_iff] at hd
      refine ⟨et, st, rfl, hd.1, h2, hd.2, ?_⟩
      cases h3 : spot_fit (codeMath muslFU) Sample.init.2.2 Sample.init.2.1 [lit (3 / 10), lit (3 / 10), lit (3 / 10)] 3 with
      | error e => exact ⟨e, rfl⟩
      | ok w => rw [h3] at hd2; cases hd2

end Verif

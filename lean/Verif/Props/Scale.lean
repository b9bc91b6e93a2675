/-
C85: the sign of the estimated scale, in binary64.
-/
import Verif.Proofs.SigmaPos
import Verif.Props.Drift
import Verif.Props.Estim

namespace Verif
open F64 Spec

/-! ### C85 -/

/-- C85 does not hold: with a single excess of 1e-12 the estimated scale is -0. -/
theorem C85_false :
    (peaksPushAll (peaks_init Sample.lib Sample.emptyHeap 4).2.2 (peaks_init Sample.lib Sample.emptyHeap 4).2.1 [lit (1 / 10 ^ 12)] >>= fun r => do
      let f ← tail_fit (codeMath muslFU) r.2 ⟨nan, nan, r.1⟩
      .ok (f.2.gamma, f.2.sigma)) = .ok (zero false, zero true) := by decide +kernel

theorem cap_bound {c : ℕ} (h : c * c ≤ 2 ^ 49) : c + 1 ≤ 2 ^ 25 := by
  by_contra hc
  have h1 : 2 ^ 25 ≤ c := by omega
  have h2 := Nat.mul_le_mul h1 h1
  norm_num at h h2
  omega

/-- the tracked sum is at least half of the greatest stored value -/
theorem sum_ge {S e m D : ℚ} (h : |e - S| ≤ D * m) (hD : D ≤ 1 / 2) (hm : m ≤ S) (m0 : 0 ≤ m) : m / 2 ≤ e := by
  have := (abs_le.mp h).1
  nlinarith

theorem sum_le {S e m D c : ℚ} (h : |e - S| ≤ D * m) (hD : D ≤ 1 / 2) (hS : S ≤ c * m) (m0 : 0 ≤ m) : e ≤ (c + 1) * m := by
  have := (abs_le.mp h).2
  nlinarith

theorem mem_le_sum {l : List F64} (hl : ∀ v ∈ l, Excess v) {m : F64} (hm : m ∈ l) : toQ m ≤ (l.map toQ).sum := by
  apply List.single_le_sum
  · intro q hq
    obtain ⟨v, hv, rfl⟩ := List.mem_map.mp hq
    exact (hl v hv).2.1
  · exact List.mem_map.mpr ⟨m, hm, rfl⟩

/-- what is known of the statistics of a container after insertions -/
theorem stats_facts {c : ℕ} (h1 : 1 ≤ c) (h2 : c < 2 ^ 61) (xs : List F64) (hne : xs ≠ []) (hx : ∀ v ∈ xs, Excess v) (hN : xs.length * c ≤ 2 ^ 49)
    (hc : c * c ≤ 2 ^ 49) :
    isFin (statsOf c xs).e ∧ toQ (statsOf c xs).max / 2 ≤ toQ (statsOf c xs).e ∧ toQ (statsOf c xs).e ≤ (c + 1) * toQ (statsOf c xs).max ∧
    (statsOf c xs).max ∈ slots c xs ∧ (statsOf c xs).min ∈ slots c xs ∧ (∀ v ∈ slots c xs, Excess v ∧ toQ v ≤ toQ (statsOf c xs).max) ∧
    (∀ v ∈ slots c xs, toQ (statsOf c xs).min ≤ toQ v) ∧ slots c xs ≠ [] := by
  obtain ⟨d1, d2⟩ := statsOf_drift h1 xs hx hN hc
  have hn : ∀ v ∈ xs, is_nan v = false := fun v hv => excess_nan (hx v hv)
  have hE := statsOf_extremes h1 h2 xs hn hne
  have hmem : ∀ v ∈ slots c xs, Excess v := fun v hv => hx v (slots_mem h1 hv)
  have hb := Extremes.max_bound hE hmem
  have hS := sum_bounds (l := slots c xs) (m := toQ (statsOf c xs).max) hb.2
  have hm0 := hb.1.2.1
  have hlen : (slots c xs).length ≤ c := by rw [slots_length]; exact min_le_right _ _
  have hSc : ((slots c xs).map toQ).sum ≤ c * toQ (statsOf c xs).max :=
    hS.2.trans (mul_le_mul_of_nonneg_right (by exact_mod_cast hlen) hm0)
  have hD : 8 * (c : ℚ) / 9007199254740992 * xs.length ≤ 1 / 2 := by
    have : (xs.length : ℚ) * c ≤ 2 ^ 49 := by exact_mod_cast hN
    linarith
  refine ⟨d1, sum_ge d2 hD (mem_le_sum hmem hE.2.1) hm0, sum_le d2 hD hSc hm0, hE.2.1, hE.1.1, fun v hv => ⟨hmem v hv, (hb.2 v hv).2⟩, ?_, ?_⟩
  · intro v hv
    have g1 : (v <. (statsOf c xs).min) = false := hE.1.2 v hv
    have n1 := hmem _ hE.1.1
    by_contra hlt
    rw [(lt_fin_iff (hmem v hv).1 n1.1).mpr (not_le.mp hlt)] at g1
    cases g1
  · intro h0
    have := hE.2.1
    rw [h0] at this
    simp at this

/-- The sign of the estimated scale after any sequence of at most 2^49 / c insertions of non-negative numbers up to 2^900,
if some stored value is at least 2^-800: a positive finite number, or else -0 with a shape equal to 0. In particular it is
never NaN, never infinite, never negative. Missing: the exception; it occurs (`C85_false`). -/
theorem C85_sign_partial (lib : Lib F64) (h : Heap F64) (cap : UInt64) (h1 : 1 ≤ cap.toNat) (h2 : cap.toNat < 2 ^ 61)
    (h0 : (peaks_init lib h cap).1 = 0) (xs : List F64)
    (hx : ∀ x ∈ xs, isFin x ∧ 0 ≤ toQ x ∧ toQ x ≤ 2 ^ 900) (hN : xs.length * cap.toNat ≤ 2 ^ 49) (hc : cap.toNat * cap.toNat ≤ 2 ^ 49)
    (hbig : ∃ v ∈ Spec.lastN cap.toNat xs, 1 / 2 ^ 800 ≤ toQ v) (gamma sigma : F64) :
    ∃ p h' ll t, peaksPushAll (peaks_init lib h cap).2.2 (peaks_init lib h cap).2.1 xs = .ok (p, h') ∧
      tail_fit (codeMath muslFU) h' ⟨gamma, sigma, p⟩ = .ok (ll, t) ∧
      ((isFin t.sigma ∧ 0 < toQ t.sigma) ∨ (isFin t.gamma ∧ toQ t.gamma = 0 ∧ t.sigma = zero true)) := by
  obtain ⟨a, I⟩ := peaks_init_inv h1 h2 h0
  obtain ⟨p', h', e, I'⟩ := peaksPushAll_inv I xs
  rw [List.nil_append] at I'
  have hne : xs ≠ [] := by
    rintro rfl
    obtain ⟨v, hv, -⟩ := hbig
    simp [Spec.lastN] at hv
  have p9 : pow2 900 = 2 ^ 900 := by decide +kernel
  have p8 : pow2 (-800) = 1 / 2 ^ 800 := by decide +kernel
  have hx' : ∀ v ∈ xs, Excess v := fun v hv => by unfold Excess; rw [p9]; exact hx v hv
  obtain ⟨s1, s2, s3, s4, s5, s6, s7, s8⟩ := stats_facts h1 h2 xs hne hx' hN hc
  have hst : p'.stats = statsOf cap.toNat xs := I'.stats
  rw [← hst] at s1 s2 s3 s4 s5 s6 s7
  have S := I'.ring.stored
  refine ⟨p', h', _, _, e, tail_fit_eq (t := ⟨gamma, sigma, p'⟩) S, ?_⟩
  have hm8 : pow2 (-800) ≤ toQ p'.max := by
    obtain ⟨v, hv, hv8⟩ := hbig
    rw [p8]
    exact hv8.trans (s6 v ((slots_perm h1 xs).mem_iff.mpr hv)).2
  have hm9 : toQ p'.max ≤ pow2 900 := (s6 _ s4).1.2.2
  have hcq : (cap.toNat : ℚ) + 1 ≤ 2 ^ 25 := by
    exact_mod_cast cap_bound hc
  have hlen : (slots cap.toNat xs).length ≤ 2 ^ 53 := by
    rw [slots_length]
    have := cap_bound hc
    exact (min_le_right _ _).trans (by omega)
  refine tailFit_scale ⟨gamma, sigma, p'⟩ (slots cap.toNat xs) s8 hlen (fun v hv => ⟨(s6 v hv).1.1, (s6 v hv).1.2.1⟩) s1 ?_ ?_
  · have s2 : toQ p'.max / 2 ≤ toQ p'.e := s2
    have : pow2 (-800) / 2 ≤ toQ p'.e := le_trans (by linarith) s2
    exact le_trans (by decide +kernel) this
  · have s3 : toQ p'.e ≤ (cap.toNat + 1) * toQ p'.max := s3
    refine s3.trans (le_trans (mul_le_mul hcq hm9 (s6 _ s4).1.2.1 (by norm_num)) ?_)
    decide +kernel

/-- one excess of 1e-12: the hypotheses hold, and the exception occurs -/
example : (peaks_init Sample.lib Sample.emptyHeap 4).1 = 0 ∧
    (∀ x ∈ ([lit (1 / 10 ^ 12)] : List F64), isFin x ∧ 0 ≤ toQ x ∧ toQ x ≤ 2 ^ 900) ∧
    (∃ v ∈ Spec.lastN 4 ([lit (1 / 10 ^ 12)] : List F64), 1 / 2 ^ 800 ≤ toQ v) := by decide +kernel

/-- The estimated scale is a positive finite number, after any sequence of at most 2^49 / c insertions (c the capacity, at most
2^24) of numbers between 2^-400 and 2^100, if the greatest stored value is at least c / 2^24 (1.2e-5 for a capacity of 200)
and the computed mean is not below the tracked minimum. Missing: smaller values, for which it fails (`C85_false`), and means
that rounding makes smaller than the minimum (only possible when the stored values are equal or almost). -/
theorem C85_partial (lib : Lib F64) (h : Heap F64) (cap : UInt64) (h1 : 1 ≤ cap.toNat) (h2 : cap.toNat ≤ 2 ^ 24)
    (h0 : (peaks_init lib h cap).1 = 0) (xs : List F64)
    (hx : ∀ x ∈ xs, isFin x ∧ 1 / 2 ^ 400 ≤ toQ x ∧ toQ x ≤ 2 ^ 100) (hN : xs.length * cap.toNat ≤ 2 ^ 49)
    (hbig : ∃ v ∈ Spec.lastN cap.toNat xs, cap.toNat / 2 ^ 24 ≤ toQ v) (gamma sigma : F64) (p : Peaks F64) (h' : Heap F64)
    (hp : peaksPushAll (peaks_init lib h cap).2.2 (peaks_init lib h cap).2.1 xs = .ok (p, h')) (hmean : (p.min <=. peaks_mean p) = true) :
    ∃ ll t, tail_fit (codeMath muslFU) h' ⟨gamma, sigma, p⟩ = .ok (ll, t) ∧ isFin t.sigma ∧ 0 < toQ t.sigma := by
  have h2' : cap.toNat < 2 ^ 61 := lt_of_le_of_lt h2 (by norm_num)
  obtain ⟨a, I⟩ := peaks_init_inv h1 h2' h0
  obtain ⟨p', h'', e, I'⟩ := peaksPushAll_inv I xs
  rw [List.nil_append] at I'
  rw [e] at hp
  cases hp
  have hne : xs ≠ [] := by
    rintro rfl
    obtain ⟨v, hv, -⟩ := hbig
    simp [Spec.lastN] at hv
  have p1 : pow2 100 = 2 ^ 100 := by decide +kernel
  have p4 : pow2 (-400) = 1 / 2 ^ 400 := by decide +kernel
  have p24 : pow2 (-24) = 1 / 2 ^ 24 := by decide +kernel
  have hc : cap.toNat * cap.toNat ≤ 2 ^ 49 := (Nat.mul_le_mul h2 h2).trans (by norm_num)
  have hx2 : ∀ v ∈ xs, isFin v ∧ pow2 (-400) ≤ toQ v ∧ toQ v ≤ pow2 100 := fun v hv => by rw [p1, p4]; exact hx v hv
  have hx' : ∀ v ∈ xs, Excess v := fun v hv => ⟨(hx2 v hv).1, (pow2_pos _).le.trans (hx2 v hv).2.1, (hx2 v hv).2.2.trans (pow2_le (by norm_num))⟩
  obtain ⟨s1, s2, s3, s4, s5, s6, s7, s8⟩ := stats_facts h1 h2' xs hne hx' hN hc
  have hst : p.stats = statsOf cap.toNat xs := I'.stats
  rw [← hst] at s1 s2 s3 s4 s5 s6 s7
  have S := I'.ring.stored
  have s2 : toQ p.max / 2 ≤ toQ p.e := s2
  have s3 : toQ p.e ≤ (cap.toNat + 1) * toQ p.max := s3
  refine ⟨_, _, tail_fit_eq (t := ⟨gamma, sigma, p⟩) S, ?_⟩
  have hlen : (slots cap.toNat xs).length ≤ cap.toNat := by rw [slots_length]; exact min_le_right _ _
  have hbig' : cap.toNat * pow2 (-24) ≤ toQ p.max := by
    obtain ⟨v, hv, hv8⟩ := hbig
    rw [p24]
    refine le_trans (le_of_eq ?_) (hv8.trans (s6 v ((slots_perm h1 xs).mem_iff.mpr hv)).2)
    ring
  have hcq : (cap.toNat : ℚ) + 1 ≤ 2 ^ 25 := by
    have : cap.toNat + 1 ≤ 2 ^ 25 := by omega
    exact_mod_cast this
  have hmx := hx2 _ (slots_mem h1 s4)
  have hmn := hx2 _ (slots_mem h1 s5)
  have hmx1 : toQ p.max ≤ pow2 100 := hmx.2.2
  have hmx0 : pow2 (-400) ≤ toQ p.max := hmx.2.1
  refine tailFit_scale_pos ⟨gamma, sigma, p⟩ (slots cap.toNat xs) s8 (hlen.trans h2) (fun v hv => ⟨(s6 v hv).1.1, (s6 v hv).1.2.1⟩) s4 ?_ hmx1 s5
    hmn.2.1 hmn.2.2 s1 ?_ ?_ ?_
  · exact le_trans (mul_le_mul_of_nonneg_right (by exact_mod_cast hlen) (pow2_pos _).le) hbig'
  · have : pow2 (-400) / 2 ≤ toQ p.e := le_trans (by linarith) s2
    exact le_trans (by decide +kernel) this
  · refine s3.trans (le_trans (mul_le_mul hcq hmx1 ((pow2_pos _).le.trans hmx0) (by norm_num)) ?_)
    decide +kernel
  · rw [peaks_mean_eq S] at hmean
    exact hmean

/-- three excesses: the hypotheses hold -/
example : (peaks_init Sample.lib Sample.emptyHeap 20).1 = 0 ∧
    (∀ x ∈ ([lit (1 / 2), lit 1, lit 100] : List F64), isFin x ∧ 1 / 2 ^ 400 ≤ toQ x ∧ toQ x ≤ 2 ^ 100) ∧
    (∃ v ∈ Spec.lastN 20 ([lit (1 / 2), lit 1, lit 100] : List F64), 20 / 2 ^ 24 ≤ toQ v) ∧
    Sample.tail3.map (fun r => r.1.min <=. peaks_mean r.1) = .ok true := by decide +kernel

end Verif

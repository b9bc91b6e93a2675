/-
C93: in binary64 the likelihood equation is only evaluated where it is defined.
-/
import Verif.Proofs.GrimshawF64
import Verif.Props.Scale

namespace Verif
open F64 Spec

/-! ### C93 -/

/-- the distance kept from 0 and from -1 / max -/
def Spec.margin (p : Peaks F64) : F64 := xmin (lit (2 / 10 ^ 8)) (lit (1 / 2) /. p.max)

/-- from just above -1 / max to just below 0 -/
def Spec.leftOf (p : Peaks F64) : F64 × F64 := (lit (-1) /. p.max +. margin p, -. margin p)

/-- from just above 0 to 2 (mean - min) / min² -/
def Spec.rightOf (p : Peaks F64) : F64 × F64 := (margin p, lit 2 *. (peaks_mean p -. p.min) /. (p.min *. p.min))

/-- The estimator looks for a root of the likelihood equation in these two intervals, and compares the results with the
exponential model. -/
theorem C93_searches (h : Heap F64) (p : Peaks F64) :
    grimshaw_estimator (codeMath muslFU) h p = (do
      let left ← brent (grimshaw_w (codeMath muslFU) h p) (leftOf p).1 (leftOf p).2 (lit (2 / 10 ^ 8))
      let right ← brent (grimshaw_w (codeMath muslFU) h p) (rightOf p).1 (rightOf p).2 (lit (2 / 10 ^ 8))
      let best ← grimshaw_simplified_log_likelihood (codeMath muslFU) h p (lit 0)
      let best ← grimshaw_better (codeMath muslFU) h p best left
      grimshaw_better (codeMath muslFU) h p best right) := rfl

/-- C93 does not hold for all positive excesses. With a single excess of 1e-12 the first point is -1 / max exactly, where the
argument of the logarithm is 0 and the equation is infinite; with excesses of 1e-200 and 1 the last point is infinite, where
the equation is NaN. -/
theorem C93_false :
    (peaksPushAll (peaks_init Sample.lib Sample.emptyHeap 4).2.2 (peaks_init Sample.lib Sample.emptyHeap 4).2.1 [lit (1 / 10 ^ 12)] >>= fun r => do
      grimshaw_w (codeMath muslFU) r.2 r.1 (leftOf r.1).1) = .ok (inf true) ∧
    (peaksPushAll (peaks_init Sample.lib Sample.emptyHeap 4).2.2 (peaks_init Sample.lib Sample.emptyHeap 4).2.1 [lit (1 / 10 ^ 200), lit 1] >>= fun r => do
      let w ← grimshaw_w (codeMath muslFU) r.2 r.1 (rightOf r.1).2
      .ok ((rightOf r.1).2, w)) = .ok (inf false, nan) := by decide +kernel

/-- What holds: after any sequence of at most 2^46 / c insertions (c the capacity, at most 2^24) of numbers between 2^-400 and
2^100, if the greatest stored value is at least 2^-24, then at every point evaluated by either search all the arguments of the
logarithms, as computed, are finite and positive, the value of the equation is a finite number, and so is its value at the
reported root. Missing: smaller and greater excesses, for which it fails (`C93_false`). -/
theorem C93_partial (lib : Lib F64) (h : Heap F64) (cap : UInt64) (h1 : 1 ≤ cap.toNat) (h2 : cap.toNat ≤ 2 ^ 24)
    (h0 : (peaks_init lib h cap).1 = 0) (xs : List F64)
    (hx : ∀ x ∈ xs, isFin x ∧ 1 / 2 ^ 400 ≤ toQ x ∧ toQ x ≤ 2 ^ 100) (hN : xs.length * cap.toNat ≤ 2 ^ 46)
    (hbig : ∃ v ∈ Spec.lastN cap.toNat xs, 1 / 2 ^ 24 ≤ toQ v) (p : Peaks F64) (h' : Heap F64)
    (hp : peaksPushAll (peaks_init lib h cap).2.2 (peaks_init lib h cap).2.1 xs = .ok (p, h')) :
    ∃ w : F64 → F64, (∀ x, grimshaw_w (codeMath muslFU) h' p x = .ok (w x)) ∧
      ∀ I ∈ [leftOf p, rightOf p],
        (∀ x ∈ (search w I.1 I.2 (lit (2 / 10 ^ 8))).2, isFin x ∧ isFin (w x) ∧
          ∀ y ∈ Spec.lastN cap.toNat xs, isFin (lit 1 +. x *. y) ∧ 0 < toQ (lit 1 +. x *. y)) ∧
        ∃ r : Bool × F64, brent (grimshaw_w (codeMath muslFU) h' p) I.1 I.2 (lit (2 / 10 ^ 8)) = .ok r ∧
          (r.1 = true → isFin r.2 ∧ isFin (w r.2) ∧
            ∀ y ∈ Spec.lastN cap.toNat xs, isFin (lit 1 +. r.2 *. y) ∧ 0 < toQ (lit 1 +. r.2 *. y)) := by
  have h2' : cap.toNat < 2 ^ 61 := lt_of_le_of_lt h2 (by norm_num)
  obtain ⟨a, I⟩ := peaks_init_inv h1 h2' h0
  obtain ⟨p', h'', e, I'⟩ := peaksPushAll_inv I xs
  rw [List.nil_append] at I'
  rw [e] at hp
  cases hp
  have hne : xs ≠ [] := by
    rintro rfl
    obtain ⟨v, hv, -⟩ := hbig
    simp [Spec.lastN] at hv
  have p1 : pow2 100 = 2 ^ 100 := by decide +kernel
  have p4 : pow2 (-400) = 1 / 2 ^ 400 := by decide +kernel
  have p24 : pow2 (-24) = 1 / 2 ^ 24 := by decide +kernel
  have hc : cap.toNat * cap.toNat ≤ 2 ^ 49 := (Nat.mul_le_mul h2 h2).trans (by norm_num)
  have hx2 : ∀ v ∈ xs, isFin v ∧ pow2 (-400) ≤ toQ v ∧ toQ v ≤ pow2 100 := fun v hv => by rw [p1, p4]; exact hx v hv
  have hx' : ∀ v ∈ xs, Excess v := fun v hv => ⟨(hx2 v hv).1, (pow2_pos _).le.trans (hx2 v hv).2.1, (hx2 v hv).2.2.trans (pow2_le (by norm_num))⟩
  have hN' : xs.length * cap.toNat ≤ 2 ^ 49 := hN.trans (by norm_num)
  obtain ⟨s1, -, -, s4, s5, s6, s7, s8⟩ := stats_facts h1 h2' xs hne hx' hN' hc
  obtain ⟨-, s9⟩ := statsOf_drift h1 xs hx' hN' hc
  have hst : p.stats = statsOf cap.toNat xs := I'.stats
  rw [← hst] at s1 s4 s5 s6 s7 s9
  have S := I'.ring.stored
  have hmem : ∀ y, y ∈ Spec.lastN cap.toNat xs ↔ y ∈ slots cap.toNat xs := fun y => (slots_perm h1 xs).mem_iff.symm
  simp only [hmem]
  have hbig' : pow2 (-24) ≤ toQ p.max := by
    obtain ⟨v, hv, hv8⟩ := hbig
    rw [p24]
    exact hv8.trans (s6 v ((hmem v).mp hv)).2
  have hlen : (slots cap.toNat xs).length ≤ 2 ^ 24 := by rw [slots_length]; exact (min_le_right _ _).trans h2
  have hmx := hx2 _ (slots_mem h1 s4)
  have hmn := hx2 _ (slots_mem h1 s5)
  have hsum := sum_ge_max s7 s4
  have hub := (sum_bounds (l := slots cap.toNat xs) (m := toQ p.max) fun v hv => ⟨(s6 v hv).1.2.1, (s6 v hv).2⟩).2
  have hD : 8 * (cap.toNat : ℚ) / 9007199254740992 * xs.length ≤ 1 / 16 := by
    have : (xs.length : ℚ) * cap.toNat ≤ 2 ^ 46 := by exact_mod_cast hN
    linarith
  have hle : toQ p.min ≤ toQ p.max := s7 _ s4
  have h1n : 1 ≤ (slots cap.toNat xs).length := List.length_pos_iff.mpr s8
  have hv : ∀ y ∈ slots cap.toNat xs, isFin y ∧ 0 ≤ toQ y ∧ toQ y ≤ toQ p.max := fun y hy => ⟨(s6 y hy).1.1, (s6 y hy).1.2.1, (s6 y hy).2⟩
  generalize hl : slots cap.toNat xs = l at *
  obtain ⟨n1, n2⟩ := lit_len h1n (hlen.trans (by norm_num))
  have nq : (1 : ℚ) ≤ l.length := by exact_mod_cast h1n
  have np : (0 : ℚ) < l.length := by linarith
  have s9 : |toQ p.e - (l.map toQ).sum| ≤ 8 * (cap.toNat : ℚ) / 9007199254740992 * xs.length * toQ p.max := s9
  have mx0 : 0 ≤ toQ p.max := (pow2_pos _).le.trans hbig'
  have mn0 : 0 < toQ p.min := lt_of_lt_of_le (pow2_pos _) hmn.2.1
  -- the mean
  have q1 : toQ p.e / l.length ≤ pow2 101 := by
    rw [div_le_iff₀ np, show pow2 101 = 2 * pow2 100 by decide +kernel]
    have k1 := (abs_le.mp s9).2
    have k2 := mul_le_mul_of_nonneg_right hD mx0
    have k3 : (l.length : ℚ) * toQ p.max ≤ l.length * pow2 100 := mul_le_mul_of_nonneg_left hmx.2.2 np.le
    have k4 : 1 / 16 * toQ p.max ≤ l.length * toQ p.max := mul_le_mul_of_nonneg_right (by linarith) mx0
    have k5 : toQ p.e ≤ 2 * (l.length * toQ p.max) := by
      clear k3
      linarith
    linarith
  have q0 : 0 ≤ toQ p.e / l.length := by
    refine div_nonneg ?_ np.le
    have k1 := (abs_le.mp s9).1
    have k2 := mul_le_mul_of_nonneg_right hD mx0
    have k3 : 0 ≤ ((l.length : ℚ) - 1) * toQ p.min := mul_nonneg (by linarith) mn0.le
    have k4 : ((l.length : ℚ) - 1) * toQ p.min + toQ p.max ≤ (l.map toQ).sum := hsum
    linarith
  have q2 : |toQ p.e / toQ (lit (l.length : ℚ) : F64)| ≤ pow2 101 := by rw [n2, abs_of_nonneg q0]; exact q1
  obtain ⟨m1, m2⟩ := div_fin' s1 n1 (by rw [n2]; exact np.ne') (q2.trans (pow2_le (by norm_num)))
  have hmean : peaks_mean p = F64.div p.e (lit (l.length : ℚ)) := by rw [peaks_mean_eq S]; rfl
  have m3 : toQ (F64.div p.e (lit (l.length : ℚ))) ≤ pow2 101 := by
    have m2 : toQ (F64.div p.e (lit (l.length : ℚ))) = rq (toQ p.e / toQ (lit (l.length : ℚ) : F64)) := m2
    rw [m2]
    exact (le_abs_self _).trans (rq_abs_le (by norm_num) q2)
  have m4 := mean_low nq mn0 hmn.2.1 (rq_toQ _) hD hle hsum s9
  have m2 : toQ (F64.div p.e (lit (l.length : ℚ))) = rq (toQ p.e / (l.length : ℚ)) := by rw [n2] at m2; exact m2
  rw [← m2] at m4
  have L := left_points hmx.1 hbig' hmx.2.2 (grimshawWL (codeMath muslFU) l)
  have R := right_points hmx.1 hbig' hmx.2.2 hmn.1 hmn.2.1 hle m1 m3 m4 (grimshawWL (codeMath muslFU) l)
  have all : ∀ I ∈ [leftOf p, rightOf p], ∀ x ∈ (search (grimshawWL (codeMath muslFU) l) I.1 I.2 (lit (2 / 10 ^ 8))).2,
      isFin x ∧ isFin (grimshawWL (codeMath muslFU) l x) ∧ ∀ y ∈ l, isFin (lit 1 +. x *. y) ∧ 0 < toQ (lit 1 +. x *. y) := by
    intro I hI x hx
    have hx : isFin x ∧ -1 + 1 / 2 ^ 50 ≤ toQ x * toQ p.max ∧ toQ x ≤ pow2 905 := by
      simp only [List.mem_cons, List.not_mem_nil, or_false] at hI
      rcases hI with rfl | rfl
      · obtain ⟨a1, a2, a3⟩ := L x hx
        exact ⟨a1, a2, a3.le.trans (pow2_pos _).le⟩
      · rw [rightOf, hmean] at hx
        exact R x hx
    refine ⟨hx.1, w_fin s8 hlen hx.1 hv hx.2.1 hx.2.2 hmx.2.2, fun y hy => ?_⟩
    obtain ⟨b1, b2, -⟩ := arg_pos hx.1 (hv y hy).1 (hv y hy).2.1 (hv y hy).2.2 hx.2.1 hx.2.2 hmx.2.2
    exact ⟨b1, lt_of_lt_of_le (by positivity) b2⟩
  refine ⟨grimshawWL (codeMath muslFU) l, grimshaw_w_eq S, fun I hI => ⟨all I hI, _, brent_eq (grimshaw_w_eq S) _ _ _, fun hr => ?_⟩⟩
  refine all I hI _ (C20_bracketed _ _ _ _ _ ?_).1
  rw [search_fst]
  exact Prod.ext hr rfl

/-- five insertions into a container of capacity four: the hypotheses hold, and both searches are non-trivial -/
example : (peaks_init Sample.lib Sample.emptyHeap 4).1 = 0 ∧
    (∀ x ∈ ([lit 1, lit (1 / 3), lit 2, lit 7, lit (1 / 10)] : List F64), isFin x ∧ 1 / 2 ^ 400 ≤ toQ x ∧ toQ x ≤ 2 ^ 100) ∧
    (∃ v ∈ Spec.lastN 4 ([lit 1, lit (1 / 3), lit 2, lit 7, lit (1 / 10)] : List F64), 1 / 2 ^ 24 ≤ toQ v) ∧
    (peaksPushAll (peaks_init Sample.lib Sample.emptyHeap 4).2.2 (peaks_init Sample.lib Sample.emptyHeap 4).2.1
        [lit 1, lit (1 / 3), lit 2, lit 7, lit (1 / 10)] >>= fun r => do
      let J := rightOf r.1
      let b ← brent (grimshaw_w (codeMath muslFU) r.2 r.1) J.1 J.2 (lit (2 / 10 ^ 8))
      .ok b.1) = .ok true := by decide +kernel

end Verif

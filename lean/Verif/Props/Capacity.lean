/-
C124: max_excess has no influence before the tail is full.
-/
import Verif.Props.Memory

namespace Verif

section
variable {α : Type} [CDouble α] {M : MathFns α}

omit [CDouble α] in
theorem slots_short {c : ℕ} (xs : List α) (h : xs.length ≤ c) : slots c xs = xs := by
  induction xs using List.reverseRecOn with
  | nil => rfl
  | append_singleton xs x ih =>
    simp only [List.length_append, List.length_cons, List.length_nil] at h
    rw [slots_snoc, if_pos (by omega), ih (by omega)]

theorem statsOf_short {c d : ℕ} (xs : List α) (hc : xs.length ≤ c) (hd : xs.length ≤ d) : statsOf c xs = statsOf d xs := by
  induction xs using List.reverseRecOn with
  | nil => rfl
  | append_singleton xs x ih =>
    have hc' := hc
    have hd' := hd
    simp only [List.length_append, List.length_cons, List.length_nil] at hc' hd'
    rw [statsOf_snoc, statsOf_snoc, ih (by omega) (by omega), slots_short _ hc, slots_short _ hd]
    unfold erasedOf
    rw [if_pos hc, if_pos hd, Nat.min_eq_left (by omega), Nat.min_eq_left (by omega)]

theorem refit_short {c d : ℕ} (k : Core α) (xs : List α) (hc : xs.length ≤ c) (hd : xs.length ≤ d) : refit M c k xs = refit M d k xs := by
  unfold refit
  rw [statsOf_short xs hc hd, slots_short xs hc, slots_short xs hd]

/-- a call that leaves at most `c` recorded excesses does the same with the capacities `c` and `d` -/
theorem execC_short {c d : ℕ} {k k' : Core α} {xs ys : List α} {op : Op α} {o : Out α} (hcd : c ≤ d)
    (he : execC M d k xs op = .ok (o, k', ys)) : xs.length ≤ ys.length ∧ (ys.length ≤ c → execC M c k xs op = .ok (o, k', ys)) := by
  cases op with
  | quantile q =>
    obtain ⟨v, hv, hr⟩ := C.bind_ok he
    cases hr
    exact ⟨le_rfl, fun _ => he⟩
  | probability z =>
    obtain ⟨v, hv, hr⟩ := C.bind_ok he
    cases hr
    exact ⟨le_rfl, fun _ => he⟩
  | step x =>
    obtain ⟨r, hr, hx⟩ := C.bind_ok he
    cases hx
    suffices H : xs.length ≤ r.2.2.length ∧ (r.2.2.length ≤ c → stepC M c k xs x = .ok r) by
      refine ⟨H.1, fun hl => ?_⟩
      unfold execC; dsimp only
      rw [H.2 hl]
      rfl
    unfold stepC at hr ⊢
    split at hr
    · next h1 => cases hr; exact ⟨le_rfl, fun _ => by rw [if_pos h1]⟩
    · next h1 =>
      rw [if_neg h1]
      split at hr
      · next h2 => cases hr; exact ⟨le_rfl, fun _ => by rw [if_pos h2]⟩
      · next h2 =>
        rw [if_neg h2]
        dsimp only at hr ⊢
        split at hr
        · next h3 =>
          rw [if_pos h3]
          obtain ⟨z, hz, hr⟩ := C.bind_ok hr
          cases hr
          refine ⟨by simp, fun hl => ?_⟩
          dsimp only at hl
          rw [refit_short (c := c) (d := d) _ _ hl (by omega), hz]
          rfl
        · next h3 => cases hr; exact ⟨le_rfl, fun _ => by rw [if_neg h3]⟩
  | fit data size =>
    obtain ⟨r, hr, hx⟩ := C.bind_ok he
    cases hx
    suffices H : xs.length ≤ r.2.2.length ∧ (r.2.2.length ≤ c → fitC M c k xs data size = .ok r) by
      refine ⟨H.1, fun hl => ?_⟩
      unfold execC; dsimp only
      rw [H.2 hl]
      rfl
    unfold fitC at hr ⊢
    dsimp only at hr ⊢
    obtain ⟨et, het, hr⟩ := C.bind_ok hr
    rw [het, C.ok_bind]
    split at hr
    · next h1 => cases hr; exact ⟨le_rfl, fun _ => by rw [if_pos h1]⟩
    · next h1 =>
      rw [if_neg h1]
      obtain ⟨z, hz, hr⟩ := C.bind_ok hr
      have hl : r.2.2 = xs ++ fitExcesses k.up_down et (data.take size.toNat) := by
        split at hr <;> cases hr <;> rfl
      refine ⟨by rw [hl]; simp, fun hle => ?_⟩
      rw [hl] at hle
      rw [refit_short (c := c) (d := d) _ _ hle (by omega), hz, C.ok_bind]
      exact hr

theorem runC_short {c d : ℕ} {k k' : Core α} {xs ys : List α} {ops : List (Op α)} {o : List (Out α)} (hcd : c ≤ d)
    (he : runC M d k xs ops = .ok (o, k', ys)) : xs.length ≤ ys.length ∧ (ys.length ≤ c → runC M c k xs ops = .ok (o, k', ys)) := by
  induction ops generalizing k xs o with
  | nil => cases he; exact ⟨le_rfl, fun _ => rfl⟩
  | cons op ops ih =>
    unfold runC at he ⊢
    obtain ⟨p, hp, he⟩ := C.bind_ok he
    obtain ⟨p', hp', he⟩ := C.bind_ok he
    cases he
    obtain ⟨a1, a2⟩ := execC_short hcd hp
    obtain ⟨b1, b2⟩ := ih hp'
    refine ⟨a1.trans b1, fun hl => ?_⟩
    rw [a2 (b1.trans hl), C.ok_bind, b2 hl]
    rfl
end

/-- **C124**. Two detectors that differ in `max_excess` only are given the same calls. If at the end the tail of the larger one holds no more excesses
than the smaller one can hold, then the smaller one returned the same values and holds the same scalars and the same excesses. The hypothesis is about the
larger one; with equality of the two capacities this is C58. -/
theorem C124_capacity (fu : FloatUtils F64) (m1 m2 : Option (MallocFn F64)) (f1 f2 : Bool) (h1 h2 : Heap F64) (s01 s02 : Spot F64)
    (q level : F64) (low disc : ℤ) (me1 me2 : UInt64) (b1 : 1 ≤ me1.toNat) (b12 : me1.toNat < me2.toNat) (b2 : me2.toNat < 2 ^ 61)
    (r1 : Init) (hr1 : r1 = spot_init ⟨m1, f1, fu⟩ h1 s01 q low disc level me1) (h01 : r1.1 = 0)
    (r2 : Init) (hr2 : r2 = spot_init ⟨m2, f2, fu⟩ h2 s02 q low disc level me2) (h02 : r2.1 = 0)
    (ops : List (Op F64)) (hv : ∀ op ∈ ops, op.valid) (outs : List (Out F64)) (s2 : Spot F64) (g2 : Heap F64)
    (hrun : runOps (codeMath fu) r2.2.2 r2.2.1 ops = .ok (outs, s2, g2)) (hsize : ubend_size s2.tail.peaks.container ≤ me1) :
    ∃ s1 g1, runOps (codeMath fu) r1.2.2 r1.2.1 ops = .ok (outs, s1, g1) ∧
      s1.anomaly_threshold = s2.anomaly_threshold ∧ s1.excess_threshold = s2.excess_threshold ∧ s1.Nt = s2.Nt ∧ s1.n = s2.n ∧
      s1.tail.gamma = s2.tail.gamma ∧ s1.tail.sigma = s2.tail.sigma ∧
      ubend_size s1.tail.peaks.container = ubend_size s2.tail.peaks.container ∧
      ∀ i < (ubend_size s2.tail.peaks.container).toNat,
        load g1 s1.tail.peaks.container.data i = load g2 s2.tail.peaks.container.data i := by
  subst hr1 hr2
  obtain ⟨a1, _, _, k1, I1⟩ := init_ok h01 b1 (b12.trans b2)
  obtain ⟨a2, _, _, k2, I2⟩ := init_ok h02 (by omega) b2
  have g1 := run_refines (M := codeMath fu) I1 ops hv
  have g2' := run_refines (M := codeMath fu) I2 ops hv
  rw [k1] at g1
  rw [k2] at g2'
  cases hp : runC (codeMath fu) me2.toNat (initCore q low disc level) [] ops with
  | error e =>
    simp only [hp, RefinesO] at g2'
    rw [g2'] at hrun
    cases hrun
  | ok p =>
    obtain ⟨o, k, ys⟩ := p
    simp only [hp, RefinesO] at g2'
    obtain ⟨s2', h2', e2, c2, J2, _⟩ := g2'
    rw [e2] at hrun
    cases hrun
    have hl : ys.length ≤ me1.toNat := by
      have := J2.ring.size
      have hs : (ubend_size s2.tail.peaks.container).toNat ≤ me1.toNat := hsize
      omega
    have hq := (runC_short b12.le hp).2 hl
    simp only [hq, RefinesO] at g1
    obtain ⟨s1, h1', e1, c1, J1, _⟩ := g1
    have hc : s1.core = s2.core := by rw [c1, c2]
    unfold Spot.core at hc
    simp only [Core.mk.injEq] at hc
    obtain ⟨-, -, -, -, -, d1, d2, d3, d4, d5, d6⟩ := hc
    refine ⟨s1, h1', e1, d1, d2, d3, d4, d5, d6, ?_, ?_⟩
    · rw [J1.ring.size_eq, J2.ring.size_eq, Nat.min_eq_left hl, Nat.min_eq_left (by omega)]
    · intro i hi
      have hi' : i < ys.length := by
        have := J2.ring.size
        omega
      rw [J1.ring.stored.read i (by rw [slots_short ys hl]; exact hi'), J2.ring.stored.read i (by rw [slots_short ys (by omega)]; exact hi')]
      simp only [slots_short ys hl, slots_short ys (show ys.length ≤ me2.toNat by omega)]

/-- The history of `Sample.ops` on detectors with room for 20 and for 6 excesses: it ends with 5 excesses in the tail of the first. -/
example : Sample.init.1 = 0 ∧ (spot_init Sample.lib Sample.emptyHeap Sample.zeroed (lit (1 / 100)) 0 1 (lit (9 / 10)) 6).1 = 0 ∧
    ((runOps (codeMath muslFU) Sample.heap Sample.spot Sample.ops).map (fun r => ubend_size r.2.1.tail.peaks.container)) = .ok 5 := by
  refine ⟨by decide +kernel, by decide +kernel, by decide +kernel⟩

end Verif

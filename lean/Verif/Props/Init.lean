/-
C01–C04: initialisation.
-/
import Verif.Proofs.InitF64
import Verif.Props.Samples

namespace Verif
open F64 (notNaN isFin toQ)

/-! ### C01 -/

/-- For non-NaN arguments `spot_init` rejects exactly the parameters outside of the documented region, `level` first, and
otherwise fails only for lack of memory. -/
theorem C01_region (lib : Lib F64) (h : Heap F64) (s0 : Spot F64) (q level : F64) (low disc : ℤ) (me : UInt64)
    (hq : notNaN q) (hl : notNaN level) :
    let r := (spot_init lib h s0 q low disc level me).1
    (r = -1001 ↔ ¬ Spec.LevelOK level) ∧
    (r = -1002 ↔ Spec.LevelOK level ∧ ¬ Spec.QOK q level) ∧
    (Spec.LevelOK level → Spec.QOK q level → r = 0 ∨ r = -1000) := by
  intro r
  have e1 := level_check hl
  have e2 := q_check hq hl
  by_cases h1 : Spec.LevelOK level
  · have h1' : ¬ ((level <. lit 0 || level >=. lit 1) = true) := fun hh => e1.mp hh h1
    by_cases h2 : Spec.QOK q level
    · have h2' : ¬ ((q >=. (lit 1 -. level) || q <=. lit 0) = true) := fun hh => e2.mp hh h2
      have hc : initChecks q level = true := by
        unfold initChecks
        simp only [Bool.not_eq_true] at h1' h2'
        rw [h1', h2']; rfl
      obtain ⟨g1, g2⟩ := init_of_checks (lib := lib) (h := h) (s0 := s0) (low := low) (disc := disc) (me := me) hc
      have hr : r = 0 ∨ r = -1000 := by
        cases hx : (xmalloc lib h (me * 8)).1 with
        | none => right; exact (g1 hx).1
        | some a => left; exact (g2 a hx).1
      refine ⟨⟨fun hh => ?_, fun hh => absurd h1 hh⟩, ⟨fun hh => ?_, fun hh => absurd h2 hh.2⟩, fun _ _ => hr⟩
      · rcases hr with hr | hr <;> rw [hr] at hh <;> norm_num at hh
      · rcases hr with hr | hr <;> rw [hr] at hh <;> norm_num at hh
    · have hr : r = -1002 := by
        show (spot_init lib h s0 q low disc level me).1 = _
        unfold spot_init
        rw [if_neg h1', if_pos (e2.mpr h2)]; rfl
      rw [hr]
      simp [h1, h2]
  · have hr : r = -1001 := by
      show (spot_init lib h s0 q low disc level me).1 = _
      unfold spot_init
      rw [if_pos (e1.mpr h1)]; rfl
    rw [hr]
    simp [h1]

/-- For `level` in [1/2, 1) the double `1 - level` is the real number `1 - level`. -/
theorem C01_difference_exact (level : F64) (hf : isFin level) (h1 : 1 / 2 ≤ toQ level) (h2 : toQ level < 1) :
    isFin (F64.sub (F64.ofRat false 1) level) ∧ toQ (F64.sub (F64.ofRat false 1) level) = 1 - toQ level :=
  F64.one_sub_exact hf h1 h2.le

example : notNaN (lit (1 / 100) : F64) ∧ notNaN (lit (9 / 10) : F64) := by decide +kernel
example : Sample.init.1 = 0 := by decide +kernel
example : (spot_init Sample.lib Sample.emptyHeap Sample.zeroed (lit (1 / 2)) 0 1 (lit (9 / 10)) 20).1 = -1002 := by
  decide +kernel
example : (spot_init Sample.lib Sample.emptyHeap Sample.zeroed (lit (1 / 2)) 0 1 (lit 1) 20).1 = -1001 := by
  decide +kernel
example : isFin (lit (9 / 10) : F64) ∧ 1 / 2 ≤ toQ (lit (9 / 10) : F64) ∧ toQ (lit (9 / 10) : F64) < 1 := by
  decide +kernel

/-! ### C02 -/

/-- C02 does not hold: a NaN `q` (or `level`) is accepted. -/
theorem C02_false : ¬ ∀ (lib : Lib F64) (h : Heap F64) (s0 : Spot F64) (q level : F64) (low disc : ℤ) (me : UInt64),
    (spot_init lib h s0 q low disc level me).1 = 0 → Spec.LevelOK level ∧ Spec.QOK q level := by
  intro H
  have := H Sample.lib Sample.emptyHeap Sample.zeroed F64.nan (lit (9 / 10)) 0 1 20 (by decide +kernel)
  exact this.2.1 rfl

/-- same with a NaN level and a `q` of 50 -/
theorem C02_false_level : (spot_init Sample.lib Sample.emptyHeap Sample.zeroed (lit 50) 0 1 F64.nan 20).1 = 0 := by
  decide +kernel

/-- What holds instead of C02: if `spot_init` returns 0 and neither `q` nor `level` is NaN, they are in the documented
region. Missing from C02: the case of a NaN argument, where it is false. -/
theorem C02_partial (lib : Lib F64) (h : Heap F64) (s0 : Spot F64) (q level : F64) (low disc : ℤ) (me : UInt64)
    (hr : (spot_init lib h s0 q low disc level me).1 = 0) (hq : notNaN q) (hl : notNaN level) :
    Spec.LevelOK level ∧ Spec.QOK q level := by
  obtain ⟨h1, h2, _⟩ := C01_region lib h s0 q level low disc me hq hl
  rw [hr] at h1 h2
  by_cases hL : Spec.LevelOK level
  · refine ⟨hL, ?_⟩
    by_contra hQ
    exact absurd (h2.mpr ⟨hL, hQ⟩) (by norm_num)
  · exact absurd (h1.mpr hL) (by norm_num)

example : Sample.init.1 = 0 ∧ notNaN (lit (1 / 100) : F64) ∧ notNaN (lit (9 / 10) : F64) := by decide +kernel

/-! ### C03 -/

/-- A successful `spot_init` determines the whole structure, whatever it contained before. -/
theorem C03_fresh (lib : Lib F64) (h : Heap F64) (s0 : Spot F64) (q level : F64) (low disc : ℤ) (me : UInt64)
    (hr : (spot_init lib h s0 q low disc level me).1 = 0) :
    let s := (spot_init lib h s0 q low disc level me).2.1
    s.q = q ∧ s.level = level ∧ s.low = (if low = 0 then 0 else 1) ∧
    s.discard_anomalies = (if disc = 0 then 0 else 1) ∧
    s.up_down = (if low = 0 then lit 1 else lit (-1)) ∧ s.n = 0 ∧ s.Nt = 0 ∧
    s.anomaly_threshold = F64.nan ∧ s.excess_threshold = F64.nan ∧ s.tail.gamma = F64.nan ∧ s.tail.sigma = F64.nan ∧
    s.tail.peaks.min = F64.nan ∧ s.tail.peaks.max = F64.nan ∧
    s.tail.peaks.e = lit 0 ∧ s.tail.peaks.e2 = lit 0 ∧
    ubend_size s.tail.peaks.container = 0 ∧ s.tail.peaks.container.capacity = me ∧
    s.tail.peaks.container.data ≠ none := by
  intro s
  have hc := init_checks hr
  obtain ⟨g1, g2⟩ := init_of_checks (lib := lib) (h := h) (s0 := s0) (low := low) (disc := disc) (me := me) hc
  cases hx : (xmalloc lib h (me * 8)).1 with
  | none => rw [(g1 hx).1] at hr; simp [ERR_MEMORY_ALLOCATION_FAILED] at hr
  | some a =>
    obtain ⟨_, k1, k2, _⟩ := g2 a hx
    have k1' : s.core = initCore q low disc level := k1
    have k2' : s.tail.peaks = (peaks_init lib h me).2.1 := k2
    rw [k2']
    have hn : (cNAN : F64) = F64.nan := by decide +kernel
    unfold Spot.core initCore at k1'
    simp only [Core.mk.injEq] at k1'
    obtain ⟨c1, c2, c3, c4, c5, c6, c7, c8, c9, c10, c11⟩ := k1'
    have i1 : ubend_size (peaks_init lib h me).2.1.container = 0 := rfl
    have i2 : (peaks_init lib h me).2.1.container.data = some a := hx
    refine ⟨c1, c2, ?_, ?_, ?_, c9, c8, by rw [c6, hn], by rw [c7, hn], by rw [c10, hn], by rw [c11, hn],
      hn, hn, rfl, rfl, i1, rfl, by rw [i2]; simp⟩
    · rw [c4]; by_cases hl : low = 0 <;> simp [hl]
    · rw [c3]; by_cases hl : disc = 0 <;> simp [hl]
    · rw [c5]; by_cases hl : low = 0 <;> simp [hl]

/-- A rejected `spot_init` writes nothing and allocates nothing. -/
theorem C03_rejected (lib : Lib F64) (h : Heap F64) (s0 : Spot F64) (q level : F64) (low disc : ℤ) (me : UInt64)
    (hr : (spot_init lib h s0 q low disc level me).1 = -1001 ∨ (spot_init lib h s0 q low disc level me).1 = -1002) :
    (spot_init lib h s0 q low disc level me).2 = (s0, h) := by
  by_cases h1 : (level <. lit 0 || level >=. lit 1) = true
  · unfold spot_init; rw [if_pos h1]
  · by_cases h2 : (q >=. (lit 1 -. level) || q <=. lit 0) = true
    · unfold spot_init; rw [if_neg h1, if_pos h2]
    · exfalso
      have hc : initChecks q level = true := by
        unfold initChecks
        simp only [Bool.not_eq_true] at h1 h2
        rw [h1, h2]; rfl
      obtain ⟨g1, g2⟩ := init_of_checks (lib := lib) (h := h) (s0 := s0) (low := low) (disc := disc) (me := me) hc
      cases hx : (xmalloc lib h (me * 8)).1 with
      | none => rw [(g1 hx).1] at hr; simp [ERR_MEMORY_ALLOCATION_FAILED] at hr
      | some a => rw [(g2 a hx).1] at hr; simp at hr

example : (spot_init Sample.lib Sample.emptyHeap Sample.zeroed (lit (1 / 2)) 0 1 (lit (9 / 10)) 20).1 = -1002 := by
  decide +kernel
example : Sample.init.1 = 0 := by decide +kernel

/-! ### C04 -/

/-- With parameters in the documented region, allocation failure is reported exactly when there is no malloc function or
it returns NULL for the requested `max_excess * 8` (modulo 2^64) bytes. -/
theorem C04_alloc_failure (lib : Lib F64) (h : Heap F64) (s0 : Spot F64) (q level : F64) (low disc : ℤ) (me : UInt64)
    (hl : Spec.LevelOK level) (hq : Spec.QOK q level) :
    ((spot_init lib h s0 q low disc level me).1 = -1000 ↔
      lib.malloc = none ∨ ∃ m, lib.malloc = some m ∧ m h (me * 8) = none) ∧
    ((spot_init lib h s0 q low disc level me).1 = -1000 → (spot_init lib h s0 q low disc level me).2.2 = h) := by
  have hc : initChecks q level = true := by
    unfold initChecks
    have h1 : ¬ ((level <. lit 0 || level >=. lit 1) = true) := fun hh => (level_check hl.1).mp hh hl
    have h2 : ¬ ((q >=. (lit 1 -. level) || q <=. lit 0) = true) := fun hh => (q_check hq.1 hl.1).mp hh hq
    simp only [Bool.not_eq_true] at h1 h2
    rw [h1, h2]; rfl
  obtain ⟨g1, g2⟩ := init_of_checks (lib := lib) (h := h) (s0 := s0) (low := low) (disc := disc) (me := me) hc
  have hm : (xmalloc lib h (me * 8)).1 = none ↔
      lib.malloc = none ∨ ∃ m, lib.malloc = some m ∧ m h (me * 8) = none := by
    unfold xmalloc
    cases hm : lib.malloc with
    | none => simp
    | some m =>
      have : ¬ ((me * 8).toNat > SIZE_MAX) := by
        have := (me * 8).toNat_lt; unfold SIZE_MAX; omega
      simp only [this, if_false]
      cases hmm : m h (me * 8) <;> simp [hmm]
  rw [← hm]
  cases hx : (xmalloc lib h (me * 8)).1 with
  | none => exact ⟨⟨fun _ => rfl, fun _ => (g1 hx).1⟩, fun _ => (g1 hx).2⟩
  | some a =>
    rw [(g2 a hx).1]
    simp

example : Spec.LevelOK (lit (9 / 10)) ∧ Spec.QOK (lit (1 / 100)) (lit (9 / 10)) :=
  C02_partial Sample.lib Sample.emptyHeap Sample.zeroed _ _ 0 1 20 (by decide +kernel) (by decide +kernel)
    (by decide +kernel)
example : (spot_init { Sample.lib with malloc := none } Sample.emptyHeap Sample.zeroed (lit (1 / 100)) 0 1
    (lit (9 / 10)) 20).1 = -1000 := by decide +kernel

end Verif

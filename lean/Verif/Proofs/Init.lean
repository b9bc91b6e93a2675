/-
`spot_init`.
-/
import Verif.Proofs.History

namespace Verif
variable {α : Type} [CDouble α]

/-- scalars after a successful initialisation -/
def initCore (q : α) (low discard : ℤ) (level : α) : Core α :=
  { q := q, level := level, discard := if discard ≠ 0 then 1 else 0, low := if low ≠ 0 then 1 else 0,
    up_down := if low ≠ 0 then lit (-1) else lit 1, at_ := cNAN, et := cNAN, Nt := 0, n := 0, gamma := cNAN,
    sigma := cNAN }

/-- the checks of `spot_init` (src/spot.c:28-34) pass -/
def initChecks (q level : α) : Bool :=
  !(level <. lit 0 || level >=. lit 1) && !(q >=. (lit 1 -. level) || q <=. lit 0)

variable {lib : Lib α} {h : Heap α} {s0 : Spot α} {q level : α} {low disc : ℤ} {me : UInt64}

theorem init_checks (hr : (spot_init lib h s0 q low disc level me).1 = 0) : initChecks q level = true := by
  unfold spot_init at hr
  unfold initChecks
  by_cases h1 : (level <. lit 0 || level >=. lit 1) = true
  · rw [if_pos h1] at hr; simp [ERR_LEVEL_OUT_OF_BOUNDS] at hr
  · rw [if_neg h1] at hr
    by_cases h2 : (q >=. (lit 1 -. level) || q <=. lit 0) = true
    · rw [if_pos h2] at hr; simp [ERR_Q_OUT_OF_BOUNDS] at hr
    · simp only [Bool.not_eq_true] at h1 h2
      rw [h1, h2]; rfl

/-- result of `spot_init` when the checks pass -/
theorem init_of_checks (hc : initChecks q level = true) :
    ((xmalloc lib h (me * 8)).1 = none →
      (spot_init lib h s0 q low disc level me).1 = -ERR_MEMORY_ALLOCATION_FAILED ∧
      (spot_init lib h s0 q low disc level me).2.2 = h) ∧
    (∀ a, (xmalloc lib h (me * 8)).1 = some a →
      (spot_init lib h s0 q low disc level me).1 = 0 ∧
      (spot_init lib h s0 q low disc level me).2.1.core = initCore q low disc level ∧
      (spot_init lib h s0 q low disc level me).2.1.tail.peaks = (peaks_init lib h me).2.1 ∧
      (spot_init lib h s0 q low disc level me).2.2 = (xmalloc lib h (me * 8)).2) := by
  unfold initChecks at hc
  have h1 : (level <. lit 0 || level >=. lit 1) = false := by
    cases hh : (level <. lit 0 || level >=. lit 1)
    · rfl
    · rw [hh] at hc; simp at hc
  have h2 : (q >=. (lit 1 -. level) || q <=. lit 0) = false := by
    cases hh : (q >=. (lit 1 -. level) || q <=. lit 0)
    · rfl
    · rw [hh, h1] at hc; simp at hc
  unfold spot_init
  rw [h1, h2]
  simp only [Bool.false_eq_true, if_false]
  unfold tail_init peaks_init ubend_init
  constructor
  · intro hx
    have hm : 0 < ERR_MEMORY_ALLOCATION_FAILED := by unfold ERR_MEMORY_ALLOCATION_FAILED; norm_num
    simp [hx, hm, xmalloc_none hx]
  · intro a hx
    simp only [hx, Option.isSome_some, if_true, lt_irrefl, if_false]
    refine ⟨trivial, ?_, ?_, trivial⟩
    · unfold Spot.core initCore
      by_cases hl : low = 0 <;> by_cases hd : disc = 0 <;> simp [hl, hd]
    · trivial

theorem init_ok (hr : (spot_init lib h s0 q low disc level me).1 = 0) (h1 : 1 ≤ me.toNat) (h2 : me.toNat < 2 ^ 61) :
    ∃ a, (xmalloc lib h (me * 8)).1 = some a ∧
      (spot_init lib h s0 q low disc level me).2.2 = Function.update h a (some (List.replicate me.toNat none)) ∧
      (spot_init lib h s0 q low disc level me).2.1.core = initCore q low disc level ∧
      SpotInv (spot_init lib h s0 q low disc level me).2.2 (spot_init lib h s0 q low disc level me).2.1 a me.toNat [] := by
  have hc := init_checks hr
  obtain ⟨g1, g2⟩ := init_of_checks (lib := lib) (h := h) (s0 := s0) (low := low) (disc := disc) (me := me) hc
  cases hx : (xmalloc lib h (me * 8)).1 with
  | none => rw [(g1 hx).1] at hr; exact absurd hr (by decide)
  | some a =>
    obtain ⟨_, k1, k2, k3⟩ := g2 a hx
    obtain ⟨r1, r2, r3⟩ := Ring.init (lib := lib) (h := h) (cap := me) (a := a) h1 h2 hx
    have hu : (ubend_init lib h me).2.2 = (xmalloc lib h (me * 8)).2 := rfl
    refine ⟨a, rfl, by rw [k3, ← hu, r2], k1, ?_⟩
    unfold SpotInv
    rw [k2, k3, ← hu]
    exact ⟨r3, rfl⟩

end Verif

/-
Sign symmetry of the arithmetic on doubles.
-/
import Verif.F64.Exact

namespace Verif
namespace F64

theorem ofRat_neg {z z' : Bool} {q : ℚ} (h : q ≠ 0) : ofRat z (-q) = neg (ofRat z' q) := by
  have h' : -q ≠ 0 := neg_ne_zero.mpr h
  unfold ofRat
  rw [if_neg h, if_neg h']
  simp only [abs_neg]
  have hs : decide (-q < 0) = !decide (q < 0) := by
    rw [← decide_not, decide_eq_decide]
    constructor
    · intro g; linarith
    · intro g
      rcases lt_or_gt_of_ne h with h1 | h1
      · exact absurd h1 g
      · linarith
  split <;> simp only [neg, hs]

/-- `-(x - y)` is `y - x`, except that both may be zeros of different signs -/
theorem neg_sub_cases (x y : F64) : neg (sub x y) = sub y x ∨ ∃ s t, sub x y = zero s ∧ sub y x = zero t := by
  rcases x with _ | (_ | _) | ⟨s, a⟩ <;> rcases y with _ | (_ | _) | ⟨t, b⟩ <;>
    try (left; simp [sub, add, neg]; done)
  have hx : isFin (fin s a) := trivial
  have hy : isFin (fin t b) := trivial
  obtain ⟨z, hz⟩ := sub_fin hx hy
  obtain ⟨w, hw⟩ := sub_fin hy hx
  by_cases h0 : toQ (fin s a) - toQ (fin t b) = 0
  · right
    have h1 : toQ (fin t b) - toQ (fin s a) = 0 := by linarith
    exact ⟨z, w, by rw [hz, h0, ofRat_zero], by rw [hw, h1, ofRat_zero]⟩
  · left
    have h1 : toQ (fin t b) - toQ (fin s a) = -(toQ (fin s a) - toQ (fin t b)) := by ring
    rw [hz, hw, h1]
    exact (ofRat_neg h0).symm

theorem neg_sub_pos (x y : F64) : lt (zero false) (neg (sub x y)) = lt x y := by
  rcases neg_sub_cases x y with h | ⟨s, t, h1, h2⟩
  · rw [h, sub_pos]
  · rw [← sub_pos y x, h1, h2]
    cases s <;> cases t <;> decide +kernel

theorem neg_sub_nonneg {x y : F64} (h : isFin x ∨ x ≠ y) : le (zero false) (neg (sub x y)) = le x y := by
  have h' : isFin x ∨ y ≠ x := h.imp_right Ne.symm
  rcases neg_sub_cases x y with e | ⟨s, t, h1, h2⟩
  · rw [e, sub_nonneg h']
  · rw [← sub_nonneg h', h1, h2]
    cases s <;> cases t <;> decide +kernel

theorem sub_nonneg' {x y : F64} (h : isFin y) : le (zero false) (neg (sub x y)) = le x y := by
  by_cases hx : x = y
  · exact neg_sub_nonneg (Or.inl (hx ▸ h))
  · exact neg_sub_nonneg (Or.inr hx)

end F64
end Verif

/-
C138: a more extreme value gets a more extreme answer.
-/
import Verif.Proofs.StepF64
import Verif.F64.Mirror
import Verif.Props.Samples

namespace Verif
open F64

namespace Answers

/-- the answer of a step is that of its two tests -/
theorem code {M : MathFns F64} {h h' : Heap F64} {s s' : Spot F64} {x : F64} {o : ℤ} (hx : notNaN x) (e : spot_step M h s x = .ok (o, s', h')) :
    o = if anomTest s x then 2 else if exTest s x then 1 else 0 := by
  unfold spot_step at e
  rw [if_neg (by rw [(F64.is_nan_false x).mpr hx]; decide)] at e
  unfold anomTest exTest
  split at e
  · rename_i c
    rw [if_pos c]
    cases e; rfl
  rename_i c
  rw [if_neg c]
  dsimp only at e
  split at e
  · rename_i d
    rw [if_pos d]
    obtain ⟨r, _, e⟩ := C.bind_ok e
    obtain ⟨f, _, e⟩ := C.bind_ok e
    obtain ⟨z, _, e⟩ := C.bind_ok e
    cases e; rfl
  · rename_i d
    rw [if_neg d]
    cases e; rfl

/-- the sign of a difference, upper tail -/
theorem up {x y t : F64} (hxy : F64.le x y = true) (hx : F64.le (zero false) (F64.sub x t) = true) : F64.le (zero false) (F64.sub y t) = true := by
  by_cases hf : isFin t
  · rw [F64.sub_nonneg (Or.inl hf), F64.le_iff] at hx ⊢
    rw [F64.le_iff] at hxy
    exact ⟨hx.1, hxy.2.1, hx.2.2.trans hxy.2.2⟩
  · rcases t with _ | (_ | _) | ⟨_, _⟩
    · rw [F64.sub_nan] at hx; cases hx
    all_goals revert hx hxy; rcases x with _ | (_ | _) | ⟨_, _⟩ <;> rcases y with _ | (_ | _) | ⟨_, _⟩ <;> simp [F64.le, F64.sub, F64.neg, F64.add, zero, isFin] at hf ⊢

/-- the sign of a difference, lower tail -/
theorem down {x y t : F64} (hxy : F64.le y x = true) (hx : F64.le (zero false) (F64.neg (F64.sub x t)) = true) : F64.le (zero false) (F64.neg (F64.sub y t)) = true := by
  by_cases hf : isFin t
  · rw [F64.sub_nonneg' hf, F64.le_iff] at hx ⊢
    rw [F64.le_iff] at hxy
    exact ⟨hxy.1, hx.2.1, hxy.2.2.trans hx.2.2⟩
  · rcases t with _ | (_ | _) | ⟨_, _⟩
    · rw [F64.sub_nan] at hx; cases hx
    all_goals revert hx hxy; rcases x with _ | (_ | _) | ⟨_, _⟩ <;> rcases y with _ | (_ | _) | ⟨_, _⟩ <;> simp [F64.le, F64.sub, F64.neg, F64.add, zero, isFin] at hf ⊢

end Answers

/-- **C138**. For every reachable detector on doubles, whatever its thresholds (NaN and infinities included) and whatever the elementary functions: of two values the more extreme one (the greater one, in lower
tail mode the smaller one) does not get the weaker answer, in the order NORMAL < EXCESS < ANOMALY. So the values that are flagged are a ray, and so are the values that are flagged or excesses. -/
theorem C138_order {M : MathFns F64} {lib : Lib F64} {q level : F64} {low disc : ℤ} {me : UInt64} {s : Spot F64} {h : Heap F64}
    (R : Reaches M lib q low disc level me s h) (x y : F64) (hxy : if low ≠ 0 then F64.le y x = true else F64.le x y = true)
    (o1 o2 : ℤ) (s1 s2 : Spot F64) (h1 h2 : Heap F64) (e1 : spot_step M h s x = .ok (o1, s1, h1)) (e2 : spot_step M h s y = .ok (o2, s2, h2)) : o1 ≤ o2 := by
  obtain ⟨a, xs, I, P⟩ := R.inv
  have hn : notNaN x ∧ notNaN y := by
    split at hxy
    · rw [F64.le_iff] at hxy; exact ⟨hxy.2.1, hxy.1⟩
    · rw [F64.le_iff] at hxy; exact ⟨hxy.1, hxy.2.1⟩
  have hA : anomTest s x = true → anomTest s y = true := by
    rw [anomTest_iff P, anomTest_iff P]
    rintro ⟨a1, a2, a3, a4⟩
    refine ⟨a1, hn.2, a3, ?_⟩
    split at hxy
    · rw [F64.le_iff] at hxy; rw [if_pos ‹_›] at a4 ⊢; exact hxy.2.2.trans_lt a4
    · rw [F64.le_iff] at hxy; rw [if_neg ‹_›] at a4 ⊢; exact a4.trans_le hxy.2.2
  have hE : exTest s x = true → exTest s y = true := by
    unfold exTest
    have hu : s.up_down = if low ≠ 0 then lit (-1) else lit 1 := P.pud
    have hz : (lit 0 : F64) = F64.zero false := by rw [lit_def, lit_zero]
    rw [hu, ud_mul, ud_mul]
    intro k
    change F64.le (lit 0) _ = true at k
    change F64.le (lit 0) _ = true
    rw [hz] at k ⊢
    split at hxy
    · rw [if_pos ‹_›] at k ⊢; exact Answers.down hxy k
    · rw [if_neg ‹_›] at k ⊢; exact Answers.up hxy k
  rw [Answers.code hn.1 e1, Answers.code hn.2 e2]
  by_cases a1 : anomTest s x = true
  · rw [if_pos a1, if_pos (hA a1)]
  · rw [if_neg a1]
    by_cases b1 : exTest s x = true
    · rw [if_pos b1]
      split
      · decide
      · rw [if_pos (hE b1)]
    · rw [if_neg b1]
      split
      · decide
      · split <;> decide

/-- The hypotheses are met by the sample detector after its fit, and the three answers occur: 1 ≤ 5 ≤ 1000 get the answers 0, 1, 2. -/
example : (match runOps (codeMath muslFU) Sample.init.2.2 Sample.init.2.1 [.fit Sample.data 7] with
    | .ok (_, s, h) =>
      match spot_step (codeMath muslFU) h s (lit 1), spot_step (codeMath muslFU) h s (lit 5), spot_step (codeMath muslFU) h s (lit 1000) with
      | .ok (o1, _, _), .ok (o2, _, _), .ok (o3, _, _) => decide (o1 = 0) && decide (o2 = 1) && decide (o3 = 2)
      | _, _, _ => false
    | .error _ => false) = true ∧ Reaches (codeMath muslFU) Sample.lib (lit (1 / 100)) 0 1 (lit (9 / 10)) 20 Sample.init.2.1 Sample.init.2.2 :=
  ⟨by decide +kernel, by decide, by decide, Sample.emptyHeap, Sample.zeroed, by decide +kernel, [], [], by simp, rfl⟩

end Verif

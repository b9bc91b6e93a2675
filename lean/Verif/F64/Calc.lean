/-
Monotonicity of the operations of binary64, infinities included, up to results that are NaN.
-/
import Verif.F64.Mirror

namespace Verif
namespace F64

/-- one of the two is NaN, or the first is at most the second -/
def LeN (u v : F64) : Prop := u = nan ∨ v = nan ∨ val u ≤ val v

theorem nan_or (u : F64) : u = nan ∨ notNaN u := by cases u <;> simp [notNaN]

theorem LeN.of_le {u v : F64} (h : le u v = true) : LeN u v := .inr (.inr ((le_iff u v).mp h).2.2)

theorem LeN.le {u v : F64} (h : LeN u v) (hu : notNaN u) (hv : notNaN v) : F64.le u v = true := by
  rcases h with rfl | rfl | h
  · exact absurd hu (by simp [notNaN])
  · exact absurd hv (by simp [notNaN])
  · exact (le_iff u v).mpr ⟨hu, hv, h⟩

theorem LeN.cases {u v : F64} (h : LeN u v) : u = nan ∨ v = nan ∨ F64.le u v = true := by
  rcases nan_or u with hu | hu
  · exact .inl hu
  rcases nan_or v with hv | hv
  · exact .inr (.inl hv)
  exact .inr (.inr (h.le hu hv))

theorem LeN.neg {u v : F64} (h : LeN u v) : LeN (F64.neg v) (F64.neg u) := by
  rcases h with rfl | rfl | h
  · exact .inr (.inl rfl)
  · exact .inl rfl
  · exact .inr (.inr (by rw [val_neg, val_neg]; exact EReal.neg_le_neg_iff.mpr h))

theorem mul_comm' (x y : F64) : mul x y = mul y x := by
  cases x <;> cases y <;> simp only [mul] <;> first
    | rfl
    | (rw [mul_comm (toQ _) (toQ _), bne_comm])
    | (rw [bne_comm])

theorem add_comm' (x y : F64) : add x y = add y x := by
  rcases x with _ | s | ⟨s, k⟩ <;> rcases y with _ | t | ⟨t, j⟩ <;> simp only [add]
  · cases s <;> cases t <;> rfl
  · rw [_root_.add_comm, Bool.and_comm]

theorem val_inf_false : val (inf false) = ⊤ := by simp [val]
theorem val_inf_true : val (inf true) = ⊥ := by simp [val]

theorem val_fin_le {x y : F64} (hx : isFin x) (hy : isFin y) : val x ≤ val y ↔ toQ x ≤ toQ y := by
  rw [val_fin hx, val_fin hy, ratCast_le_EReal]

theorem val_fin_nonneg {x : F64} (hx : isFin x) : 0 ≤ val x ↔ 0 ≤ toQ x := by
  rw [val_fin hx]
  have := ratCast_le_EReal 0 (toQ x)
  rw [← this]; simp

theorem sign_of_pos {s : Bool} {k} (h : 0 < toQ (fin s k)) : s = false := by
  cases s
  · rfl
  · rw [toQ_fin] at h
    have := mag_nonneg k.val
    simp at h; linarith

theorem sign_of_neg {s : Bool} {k} (h : toQ (fin s k) < 0) : s = true := by
  cases s
  · rw [toQ_fin] at h
    have := mag_nonneg k.val
    simp at h; linarith
  · rfl

theorem le_val_inf (u : F64) : LeN u (inf false) := .inr (.inr (by rw [val_inf_false]; exact le_top))
theorem inf_le_val (u : F64) : LeN (inf true) u := .inr (.inr (by rw [val_inf_true]; exact bot_le))

theorem LeN.add_left {a b : F64} (c : F64) (h : LeN a b) : LeN (add c a) (add c b) := by
  rcases h with rfl | rfl | h
  · left; cases c <;> rfl
  · right; left; cases c <;> rfl
  rcases c with _ | t | ⟨t, j⟩
  · left; cases a <;> rfl
  · rcases a with _ | s | ⟨s, k⟩
    · exact .inl rfl
    all_goals rcases b with _ | s' | ⟨s', k'⟩
    · exact .inr (.inl rfl)
    · cases s <;> cases s' <;> cases t <;> simp_all [LeN, add, val]
    · cases s <;> cases t <;> simp_all [LeN, add, val]
    · exact .inr (.inl rfl)
    · cases s' <;> cases t <;> simp_all [LeN, add, val]
    · exact .inr (.inr le_rfl)
  · rcases a with _ | s | ⟨s, k⟩
    · exact .inl rfl
    · cases s
      · rw [val_inf_false, top_le_iff] at h
        rcases b with _ | s' | ⟨s', k'⟩
        · exact .inr (.inl rfl)
        · cases s'
          · exact .inr (.inr le_rfl)
          · simp [val] at h
        · rw [val_fin (by trivial)] at h; exact absurd h (EReal.coe_ne_top _)
      · exact inf_le_val _
    · rcases b with _ | s' | ⟨s', k'⟩
      · exact .inr (.inl rfl)
      · cases s'
        · exact le_val_inf _
        · rw [val_inf_true, le_bot_iff, val_fin (by trivial)] at h; exact absurd h (EReal.coe_ne_bot _)
      · rw [val_fin_le (by trivial) (by trivial)] at h
        exact .inr (.inr (ofRat_mono (by linarith)))

theorem LeN.add_right {a b : F64} (c : F64) (h : LeN a b) : LeN (add a c) (add b c) := by
  rw [add_comm' a, add_comm' b]; exact h.add_left c

theorem LeN.sub_right {a b : F64} (c : F64) (h : LeN a b) : LeN (sub a c) (sub b c) := h.add_right _

theorem LeN.mul_left {a b c : F64} (hc : 0 ≤ val c) (h : LeN a b) : LeN (mul c a) (mul c b) := by
  rcases h with rfl | rfl | h
  · left; cases c <;> rfl
  · right; left; cases c <;> rfl
  rcases c with _ | t | ⟨t, j⟩
  · left; cases a <;> rfl
  · cases t
    swap
    · rw [val_inf_true] at hc; simp at hc
    rcases a with _ | s | ⟨s, k⟩
    · exact .inl rfl
    · cases s
      · rw [val_inf_false, top_le_iff] at h
        rcases b with _ | s' | ⟨s', k'⟩
        · exact .inr (.inl rfl)
        · cases s'
          · exact .inr (.inr le_rfl)
          · simp [val] at h
        · rw [val_fin (by trivial)] at h; exact absurd h (EReal.coe_ne_top _)
      · exact inf_le_val _
    · by_cases hk : k.val = 0
      · left; show mul _ _ = _; simp [mul, hk]
      rcases b with _ | s' | ⟨s', k'⟩
      · exact .inr (.inl rfl)
      · cases s'
        · exact le_val_inf _
        · rw [val_inf_true, le_bot_iff, val_fin (by trivial)] at h; exact absurd h (EReal.coe_ne_bot _)
      · by_cases hk' : k'.val = 0
        · right; left; simp [mul, hk']
        rw [val_fin_le (by trivial) (by trivial)] at h
        have e1 : mul (inf false) (fin s k) = inf s := by simp [mul, hk]
        have e2 : mul (inf false) (fin s' k') = inf s' := by simp [mul, hk']
        rw [e1, e2]
        cases s
        · have : toQ (fin false k) ≠ 0 := fun e => hk (toQ_eq_zero.mp e)
          have : 0 < toQ (fin false k) := lt_of_le_of_ne (by rw [toQ_fin]; simpa using mag_nonneg _) this.symm
          rw [sign_of_pos (this.trans_le h)]
          exact .inr (.inr le_rfl)
        · exact inf_le_val _
  · rw [val_fin_nonneg (by trivial)] at hc
    by_cases hj : j.val = 0
    · have z : toQ (fin t j) = 0 := toQ_eq_zero.mpr hj
      rcases a with _ | s | ⟨s, k⟩
      · exact .inl rfl
      · left; simp [mul, hj]
      · rcases b with _ | s' | ⟨s', k'⟩
        · exact .inr (.inl rfl)
        · right; left; simp [mul, hj]
        · right; right
          simp only [mul]
          exact ofRat_mono (by rw [z]; simp)
    have hp : 0 < toQ (fin t j) := lt_of_le_of_ne hc fun e => hj (toQ_eq_zero.mp e.symm)
    obtain rfl := sign_of_pos hp
    rcases a with _ | s | ⟨s, k⟩
    · exact .inl rfl
    · have e : mul (fin false j) (inf s) = inf s := by simp [mul, hj]
      rw [e]
      cases s
      · rw [val_inf_false, top_le_iff] at h
        rcases b with _ | s' | ⟨s', k'⟩
        · exact .inr (.inl rfl)
        · cases s'
          · simp [mul, hj, LeN]
          · simp [val] at h
        · rw [val_fin (by trivial)] at h; exact absurd h (EReal.coe_ne_top _)
      · exact inf_le_val _
    · rcases b with _ | s' | ⟨s', k'⟩
      · exact .inr (.inl rfl)
      · have e : mul (fin false j) (inf s') = inf s' := by simp [mul, hj]
        rw [e]
        cases s'
        · exact le_val_inf _
        · rw [val_inf_true, le_bot_iff, val_fin (by trivial)] at h; exact absurd h (EReal.coe_ne_bot _)
      · rw [val_fin_le (by trivial) (by trivial)] at h
        exact .inr (.inr (ofRat_mono (mul_le_mul_of_nonneg_left h hc)))

theorem neg_mul' (x y : F64) : val (mul (neg x) y) = val (neg (mul x y)) ∧ (mul (neg x) y = nan ↔ mul x y = nan) := by
  rcases x with _ | s | ⟨s, k⟩ <;> rcases y with _ | t | ⟨t, j⟩
  · exact ⟨rfl, Iff.rfl⟩
  · exact ⟨rfl, Iff.rfl⟩
  · exact ⟨rfl, Iff.rfl⟩
  · exact ⟨rfl, Iff.rfl⟩
  · cases s <;> cases t <;> simp [val, mul, neg]
  · by_cases hj : j.val = 0
    · simp [hj, neg, mul]
    · simp only [hj, if_false, neg, mul]
      cases s <;> cases t <;> simp [val]
  · exact ⟨rfl, Iff.rfl⟩
  · by_cases hj : k.val = 0
    · simp [hj, neg, mul]
    · simp only [hj, if_false, neg, mul]
      cases s <;> cases t <;> simp [val]
  · have e : toQ (fin (!s) k) = -toQ (fin s k) := toQ_neg (fin s k)
    constructor
    · show val (ofRat ((!s) != t) (toQ (fin (!s) k) * toQ (fin t j))) = val (neg (ofRat (s != t) (toQ (fin s k) * toQ (fin t j))))
      rw [e, neg_mul]
      by_cases h0 : toQ (fin s k) * toQ (fin t j) = 0
      · rw [h0, _root_.neg_zero, val_neg, ofRat_zero, ofRat_zero, val_zero, val_zero, _root_.neg_zero]
      · rw [ofRat_neg (z' := (s != t)) h0]
    · have a := ofRat_notNaN ((!s) != t) (toQ (fin (!s) k) * toQ (fin t j))
      have b := ofRat_notNaN (s != t) (toQ (fin s k) * toQ (fin t j))
      exact ⟨fun h => absurd h a, fun h => absurd h b⟩

/-- multiplication by a number that is not positive -/
theorem LeN.mul_left_neg {a b c : F64} (hc : val c ≤ 0) (h : LeN a b) : LeN (mul c b) (mul c a) := by
  have hc' : 0 ≤ val (F64.neg c) := by rw [val_neg]; simpa using hc
  have := (h.mul_left hc').neg
  have ea := neg_mul' c a
  have eb := neg_mul' c b
  rcases this with e | e | e
  · have : mul (F64.neg c) b = nan := by revert e; cases mul (F64.neg c) b <;> simp [F64.neg]
    exact .inl (eb.2.mp this)
  · have : mul (F64.neg c) a = nan := by revert e; cases mul (F64.neg c) a <;> simp [F64.neg]
    exact .inr (.inl (ea.2.mp this))
  · right; right
    rw [val_neg, val_neg, eb.1, ea.1, val_neg, val_neg, _root_.neg_neg, _root_.neg_neg] at e
    exact e

theorem LeN.mul_right {a b c : F64} (hc : 0 ≤ val c) (h : LeN a b) : LeN (mul a c) (mul b c) := by
  rw [mul_comm' a, mul_comm' b]; exact h.mul_left hc

theorem LeN.mul_right_neg {a b c : F64} (hc : val c ≤ 0) (h : LeN a b) : LeN (mul b c) (mul a c) := by
  rw [mul_comm' a, mul_comm' b]; exact h.mul_left_neg hc

theorem LeN.div_right {a b c : F64} (hc : isFin c) (h0 : 0 < toQ c) (h : LeN a b) : LeN (div a c) (div b c) := by
  rcases h with rfl | rfl | h
  · left; cases c <;> rfl
  · right; left; cases c <;> rfl
  rcases c with _ | t | ⟨t, j⟩
  · exact absurd hc (by simp [isFin])
  · exact absurd hc (by simp [isFin])
  obtain rfl := sign_of_pos h0
  have hj : j.val ≠ 0 := fun e => h0.ne' (toQ_eq_zero.mpr e)
  rcases a with _ | s | ⟨s, k⟩
  · exact .inl rfl
  · have e : div (inf s) (fin false j) = inf s := by simp [div]
    rw [e]
    cases s
    · rw [val_inf_false, top_le_iff] at h
      rcases b with _ | s' | ⟨s', k'⟩
      · exact .inr (.inl rfl)
      · cases s'
        · simp [div, LeN]
        · simp [val] at h
      · rw [val_fin (by trivial)] at h; exact absurd h (EReal.coe_ne_top _)
    · exact inf_le_val _
  · rcases b with _ | s' | ⟨s', k'⟩
    · exact .inr (.inl rfl)
    · have e : div (fin false j) (inf s') = zero (false != s') := rfl
      have e : div (inf s') (fin false j) = inf s' := by simp [div]
      rw [e]
      cases s'
      · exact le_val_inf _
      · rw [val_inf_true, le_bot_iff, val_fin (by trivial)] at h; exact absurd h (EReal.coe_ne_bot _)
    · rw [val_fin_le (by trivial) (by trivial)] at h
      right; right
      simp only [div, hj, if_false]
      exact ofRat_mono (div_le_div_of_nonneg_right h h0.le)

/-- the sign of a quotient of finite numbers -/
theorem val_div_nonneg {a c : F64} (ha : isFin a) (hc : isFin c) (h0 : 0 < toQ c) (h : 0 ≤ toQ a) : 0 ≤ val (div a c) := by
  obtain ⟨z, e⟩ := div_fin ha hc h0.ne'
  rw [e]
  have := ofRat_mono (z := false) (z' := z) (div_nonneg h h0.le)
  rwa [ofRat_zero, val_zero] at this

theorem val_div_nonpos {a c : F64} (ha : isFin a) (hc : isFin c) (h0 : toQ c < 0) (h : 0 ≤ toQ a) : val (div a c) ≤ 0 := by
  obtain ⟨z, e⟩ := div_fin ha hc h0.ne
  rw [e]
  have := ofRat_mono (z := z) (z' := false) (div_nonpos_of_nonneg_of_nonpos h h0.le)
  rwa [ofRat_zero, val_zero] at this

end F64
end Verif

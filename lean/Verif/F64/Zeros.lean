/-
Doubles up to the sign of zero.
-/
import Verif.F64.Mirror
import Verif.Laws

namespace Verif
namespace F64

/-- equal, or both zeros (possibly of different signs) -/
def Zeq (x y : F64) : Prop := x = y ∨ ∃ s t, x = zero s ∧ y = zero t

theorem Zeq.refl (x : F64) : Zeq x x := Or.inl rfl

theorem Zeq.symm {x y : F64} (h : Zeq x y) : Zeq y x := by
  rcases h with rfl | ⟨s, t, h1, h2⟩
  · exact Or.inl rfl
  · exact Or.inr ⟨t, s, h2, h1⟩

theorem zero_ne_nan (s : Bool) : zero s ≠ nan := by unfold zero; exact fun h => by cases h

theorem Zeq.trans {x y z : F64} (h : Zeq x y) (g : Zeq y z) : Zeq x z := by
  rcases h with rfl | ⟨s, t, h1, h2⟩
  · exact g
  · rcases g with rfl | ⟨s', t', g1, g2⟩
    · exact Or.inr ⟨s, t, h1, h2⟩
    · exact Or.inr ⟨s, t', h1, g2⟩

theorem Zeq.neg {x y : F64} (h : Zeq x y) : Zeq (neg x) (neg y) := by
  rcases h with rfl | ⟨s, t, rfl, rfl⟩
  · exact Or.inl rfl
  · exact Or.inr ⟨!s, !t, rfl, rfl⟩

theorem Zeq.val {x y : F64} (h : Zeq x y) : val x = val y := by
  rcases h with rfl | ⟨s, t, rfl, rfl⟩
  · rfl
  · rw [val_zero, val_zero]

theorem Zeq.notNaN {x y : F64} (h : Zeq x y) : notNaN x ↔ notNaN y := by
  rcases h with rfl | ⟨s, t, rfl, rfl⟩
  · rfl
  · exact ⟨fun _ => zero_ne_nan t, fun _ => zero_ne_nan s⟩

theorem Zeq.lt {x y x' y' : F64} (h : Zeq x x') (g : Zeq y y') : lt x y = lt x' y' := by
  rw [Bool.eq_iff_iff, lt_iff, lt_iff, h.val, g.val, h.notNaN, g.notNaN]

theorem Zeq.le {x y x' y' : F64} (h : Zeq x x') (g : Zeq y y') : le x y = le x' y' := by
  rw [Bool.eq_iff_iff, le_iff, le_iff, h.val, g.val, h.notNaN, g.notNaN]

theorem Zeq.is_nan {x y : F64} (h : Zeq x y) : is_nan x = is_nan y := by
  rcases h with rfl | ⟨s, t, rfl, rfl⟩
  · rfl
  · cases s <;> cases t <;> decide +kernel

theorem zero_of_val {x : F64} (h : notNaN x) (h0 : val x = 0) : ∃ s, x = zero s := by
  have hf : isFin x := isFin_iff_val.mpr ⟨h, by rw [h0]; simp, by rw [h0]; simp⟩
  rcases x with _ | _ | ⟨s, k⟩
  · exact absurd rfl h
  · cases hf
  · rw [val_fin hf] at h0
    have h1 : toQ (fin s k) = 0 := by
      have : ((toQ (fin s k) : ℚ) : ℝ) = 0 := by exact_mod_cast h0
      exact_mod_cast this
    rw [toQ_eq_zero] at h1
    refine ⟨s, ?_⟩
    unfold zero
    congr 1
    exact Fin.ext h1

theorem Zeq.of_val {x y : F64} (hx : F64.notNaN x) (hy : F64.notNaN y) (h : F64.val x = 0) (g : F64.val y = 0) : Zeq x y := by
  obtain ⟨s, hs⟩ := zero_of_val hx h
  obtain ⟨t, ht⟩ := zero_of_val hy g
  exact Or.inr ⟨s, t, hs, ht⟩

theorem toQ_zero (s : Bool) : toQ (zero s) = 0 := by
  unfold zero; rw [toQ_eq_zero]

/-- adding a zero to anything but `-0` changes nothing -/
theorem add_zero_eq {e : F64} (h : e ≠ zero true) (s : Bool) : add e (zero s) = e := by
  rcases e with _ | _ | ⟨t, k⟩
  · rfl
  · rfl
  · have hf : isFin (fin t k) := trivial
    by_cases h0 : k.val = 0
    · have ht : t = false := by
        cases t
        · rfl
        · exact absurd (by unfold zero; congr 1; exact Fin.ext h0) h
      subst ht
      show ofRat (false && s) (toQ (fin false k) + toQ (zero s)) = _
      rw [toQ_zero, toQ_eq_zero.mpr h0, add_zero, ofRat_zero]
      unfold zero
      congr 1
      exact Fin.ext h0.symm
    · show ofRat (t && s) (toQ (fin t k) + toQ (zero s)) = _
      rw [toQ_zero, add_zero]
      exact ofRat_toQ _ hf (fun hh => h0 (toQ_eq_zero.mp hh))

theorem sub_zero_eq {e : F64} (h : e ≠ zero true) (s : Bool) : sub e (zero s) = e := add_zero_eq h (!s)

theorem Zeq.add {e v w : F64} (h : e ≠ zero true) (g : Zeq v w) : add e v = add e w := by
  rcases g with rfl | ⟨s, t, rfl, rfl⟩
  · rfl
  · rw [add_zero_eq h, add_zero_eq h]

theorem Zeq.sub {e v w : F64} (h : e ≠ zero true) (g : Zeq v w) : sub e v = sub e w := by
  rcases g with rfl | ⟨s, t, rfl, rfl⟩
  · rfl
  · rw [sub_zero_eq h, sub_zero_eq h]

theorem Zeq.sq {v w : F64} (g : Zeq v w) : mul v v = mul w w := by
  rcases g with rfl | ⟨s, t, rfl, rfl⟩
  · rfl
  · cases s <;> cases t <;> decide +kernel

/-- a sum is `-0` only if both terms are -/
theorem add_ne_negzero {e v : F64} (h : e ≠ zero true) : add e v ≠ zero true := by
  intro H
  rcases e with _ | s | ⟨s, a⟩
  · cases v <;> exact zero_ne_nan true H.symm
  · rcases v with _ | t | _
    · exact zero_ne_nan true H.symm
    · simp only [F64.add] at H
      split at H <;> cases H
    · cases H
  · rcases v with _ | t | ⟨t, b⟩
    · exact zero_ne_nan true H.symm
    · cases H
    · have H' : ofRat (s && t) (toQ (fin s a) + toQ (fin t b)) = zero true := H
      obtain ⟨m, hm⟩ := toQ_multiple (fin s a)
      obtain ⟨n, hn⟩ := toQ_multiple (fin t b)
      have hmul : ∃ c : ℤ, toQ (fin s a) + toQ (fin t b) = c * pow2 (-1074) :=
        ⟨m + n, by rw [hm, hn]; push_cast; ring⟩
      have hv : F64.val (ofRat (s && t) (toQ (fin s a) + toQ (fin t b))) = 0 := by rw [H', val_zero]
      have h1 : ¬ 0 < toQ (fin s a) + toQ (fin t b) := by
        rw [← ofRat_pos_iff (z := s && t) hmul, hv]; exact lt_irrefl _
      have h2 : 0 ≤ toQ (fin s a) + toQ (fin t b) := by
        rw [← ofRat_nonneg_iff (z := s && t) hmul, hv]
      have h3 : toQ (fin s a) + toQ (fin t b) = 0 := le_antisymm (not_lt.mp h1) h2
      rw [h3, ofRat_zero] at H'
      have hst : (s && t) = true := by
        unfold zero at H'; injection H'
      rw [Bool.and_eq_true] at hst
      obtain ⟨rfl, rfl⟩ := hst
      simp only [toQ] at h3
      have ha : mag a = 0 := by
        have := mag_nonneg a.val; have := mag_nonneg b.val; linarith
      apply h
      unfold zero
      congr 1
      exact Fin.ext (mag_eq_zero.mp ha)

theorem sub_ne_negzero {e v : F64} (h : e ≠ zero true) : sub e v ≠ zero true := add_ne_negzero h

/-- `1 + x * v` does not see the sign of a zero `v` -/
theorem Zeq.one_add_mul {v w : F64} (x : F64) (g : Zeq v w) : F64.add (ofRat false 1) (mul x v) = F64.add (ofRat false 1) (mul x w) := by
  rcases g with rfl | ⟨s, t, rfl, rfl⟩
  · rfl
  · have hone : ofRat false 1 ≠ zero true := by decide +kernel
    have hz : ∀ u : Bool, isFin x → ∃ z, mul x (zero u) = zero z := by
      intro u hx
      obtain ⟨z, hz⟩ := mul_fin (x := x) (y := zero u) hx trivial
      exact ⟨z, by rw [hz, toQ_zero, mul_zero, ofRat_zero]⟩
    rcases x with _ | u | ⟨u, k⟩
    · rfl
    · rfl
    · obtain ⟨z, hz1⟩ := hz s trivial
      obtain ⟨z', hz2⟩ := hz t trivial
      rw [hz1, hz2, add_zero_eq hone, add_zero_eq hone]

theorem add_comm' (a b : F64) : F64.add a b = F64.add b a := by
  rcases a with _ | s | ⟨s, a⟩ <;> rcases b with _ | t | ⟨t, b⟩ <;> simp only [F64.add]
  · by_cases h : s = t
    · subst h; rfl
    · rw [if_neg h, if_neg (Ne.symm h)]
  · rw [Bool.and_comm, add_comm]

/-- the difference of the opposites is the opposite of the difference -/
theorem Zeq.neg_sub {x y y' : F64} (g : Zeq y' (F64.neg y)) : Zeq (F64.neg (F64.sub (F64.neg x) y')) (F64.sub x y) := by
  rcases g with rfl | ⟨s, t, rfl, h2⟩
  · have h1 : F64.sub (F64.neg x) (F64.neg y) = F64.sub y x := by
      show F64.add (F64.neg x) (F64.neg (F64.neg y)) = F64.add y (F64.neg x)
      rw [F64.neg_neg, add_comm']
    rw [h1]
    rcases neg_sub_cases y x with h | ⟨s, t, g1, g2⟩
    · exact Or.inl h
    · exact Or.inr ⟨!s, t, by rw [g1]; rfl, g2⟩
  · have hy : y = zero (!t) := by
      rw [← F64.neg_neg y, h2]; rfl
    subst hy
    by_cases hx : F64.val x = 0 ∧ F64.notNaN x
    · obtain ⟨u, rfl⟩ := zero_of_val hx.2 hx.1
      have : ∀ a b : Bool, ∃ c, F64.sub (zero a) (zero b) = zero c := by
        intro a b
        obtain ⟨z, hz⟩ := sub_fin (x := zero a) (y := zero b) trivial trivial
        exact ⟨z, by rw [hz, toQ_zero, toQ_zero, _root_.sub_zero, ofRat_zero]⟩
      obtain ⟨c, hc⟩ := this (!u) s
      obtain ⟨d, hd⟩ := this u (!t)
      exact Or.inr ⟨!c, d, by rw [show F64.neg (zero u) = zero (!u) from rfl, hc]; rfl, hd⟩
    · have hx1 : x ≠ zero true := fun hh => hx ⟨by rw [hh, val_zero], by rw [hh]; exact zero_ne_nan _⟩
      have hx2 : F64.neg x ≠ zero true := by
        intro hh
        have : x = zero false := by rw [← F64.neg_neg x, hh]; rfl
        exact hx ⟨by rw [this, val_zero], by rw [this]; exact zero_ne_nan _⟩
      rw [sub_zero_eq hx2, sub_zero_eq hx1, F64.neg_neg]
      exact Or.inl rfl

theorem Zeq.nonzero {x y : F64} (h : Zeq x y) (hx : F64.lt (zero false) x = true) : x = y := by
  rcases h with rfl | ⟨s, t, rfl, rfl⟩
  · rfl
  · exfalso; revert hx; cases s <;> decide +kernel

/-- doubles of the same value are equal up to the sign of zero -/
theorem zeq_of_val {x y : F64} (hx : F64.notNaN x) (hy : F64.notNaN y) (h : F64.val x = F64.val y) : Zeq x y := by
  by_cases h0 : F64.val x = 0
  · exact Zeq.of_val hx hy h0 (h ▸ h0)
  · left
    by_cases hfx : isFin x
    · have hfy : isFin y := by
        rw [isFin_iff_val] at hfx ⊢
        rw [← h]; exact ⟨hy, hfx.2⟩
      rw [val_fin hfx] at h h0
      rw [val_fin hfy] at h
      have h1 : toQ x = toQ y := by
        have : ((toQ x : ℚ) : ℝ) = ((toQ y : ℚ) : ℝ) := EReal.coe_injective h
        exact_mod_cast this
      have h2 : toQ x ≠ 0 := by
        intro hh; apply h0; rw [hh]; simp
      rw [← ofRat_toQ false hfx h2, h1, ofRat_toQ false hfy (h1 ▸ h2)]
    · have hfy : ¬ isFin y := by
        rw [isFin_iff_val] at hfx ⊢
        rw [← h]; exact fun hh => hfx ⟨hx, hh.2⟩
      rcases x with _ | s | ⟨s, a⟩
      · exact absurd rfl hx
      · rcases y with _ | t | ⟨t, b⟩
        · exact absurd rfl hy
        · cases s <;> cases t <;> first | rfl | (simp [F64.val] at h)
        · exact absurd trivial hfy
      · exact absurd trivial hfx

end F64
end Verif

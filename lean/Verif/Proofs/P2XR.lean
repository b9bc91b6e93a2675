/-
The P2 estimator in exact arithmetic: equivariance under affine maps.
-/
import Verif.Proofs.P2
import Verif.XR.Simp
import Mathlib.Tactic.FieldSimp

set_option linter.unusedSectionVars false

namespace Verif
open XR

/-- strictly increasing finite positions -/
def PosX (n : Arr5 XR) : Prop := ∃ k0 k1 k2 k3 k4 : ℤ,
  n = ⟨fin k0, fin k1, fin k2, fin k3, fin k4⟩ ∧ k0 < k1 ∧ k1 < k2 ∧ k2 < k3 ∧ k3 < k4

theorem XR.lt_val (x y : XR) : (x <. y) = true ↔ x ≠ nan ∧ y ≠ nan ∧ XR.val x < XR.val y := by
  simp [CDouble.lt, XR.lt]
theorem XR.le_val (x y : XR) : (x <=. y) = true ↔ x ≠ nan ∧ y ≠ nan ∧ XR.val x ≤ XR.val y := by
  simp [CDouble.le, XR.le]

theorem movesX_dir {npi : XR} {km ki ku : ℤ} (h : moves npi (fin km) (fin ki) (fin ku) = true) :
    (dirOf (npi -. fin ki) = 1 ∧ ki + 1 < ku) ∨ (dirOf (npi -. fin ki) = -1 ∧ km + 1 < ki) := by
  unfold moves at h
  rw [Bool.or_eq_true, Bool.and_eq_true, Bool.and_eq_true] at h
  generalize npi -. fin (ki : ℝ) = d at h ⊢
  rw [sub_ff, sub_ff, lit_fin, lit_fin, lt_ff, lt_ff, decide_eq_true_eq, decide_eq_true_eq] at h
  rcases h with ⟨h1, h2⟩ | ⟨h1, h2⟩
  · left
    constructor
    · unfold dirOf; rw [if_pos]
      rw [XR.le_val] at h1
      rw [XR.lt_val]
      refine ⟨by simp [lit_fin], h1.2.1, lt_of_lt_of_le ?_ h1.2.2⟩
      simp [lit_fin, XR.val]
    · push_cast at h2; have : ((ki + 1 : ℤ) : ℝ) < ku := by push_cast; linarith
      exact_mod_cast this
  · right
    rw [XR.le_val] at h1
    have hlt : XR.val d < 0 := lt_of_le_of_lt h1.2.2 (by
      simp only [XR.val]; exact_mod_cast (by norm_num : ((-1 : ℚ) : ℝ) < 0))
    constructor
    · unfold dirOf; rw [if_neg, if_pos]
      · rw [XR.lt_val]; exact ⟨h1.1, by simp [lit_fin], by simpa [lit_fin, XR.val] using hlt⟩
      · rw [XR.lt_val]; rintro ⟨-, -, h'⟩; simp [lit_fin, XR.val] at h'; exact absurd h' (not_lt.mpr hlt.le)
    · push_cast at h2; have : ((km + 1 : ℤ) : ℝ) < ki := by push_cast; linarith
      exact_mod_cast this

theorem newN_X {npi : XR} {km ki ku : ℤ} (l1 : km < ki) (l2 : ki < ku) :
    ∃ k : ℤ, newN (fin km) (fin ki) (fin ku) npi = fin k ∧ km < k ∧ k < ku := by
  unfold newN
  split
  · next h =>
    rcases movesX_dir h with ⟨e, h⟩ | ⟨e, h⟩ <;> rw [e, lit_fin, add_ff]
    · exact ⟨ki + 1, by push_cast; rfl, by omega, by omega⟩
    · exact ⟨ki - 1, by push_cast; ring_nf, by omega, by omega⟩
  · exact ⟨ki, rfl, l1, l2⟩

/-- heights that are reals -/
def realQ (r : Arr5 ℝ) : Arr5 XR := ⟨fin r.a0, fin r.a1, fin r.a2, fin r.a3, fin r.a4⟩

/-- the affine map on an array -/
def aff (a b : ℝ) (r : Arr5 ℝ) : Arr5 ℝ := ⟨a * r.a0 + b, a * r.a1 + b, a * r.a2 + b, a * r.a3 + b, a * r.a4 + b⟩

theorem newQ_X {a b : ℝ} (ha : 0 < a) (rm ri ru : ℝ) {npi : XR} {km ki ku : ℤ} (l1 : km < ki) (l2 : ki < ku) :
    ∃ r : ℝ, newQ (fin rm) (fin ri) (fin ru) (fin km) (fin ki) (fin ku) npi = fin r ∧
      newQ (fin (a * rm + b)) (fin (a * ri + b)) (fin (a * ru + b)) (fin km) (fin ki) (fin ku) npi = fin (a * r + b) := by
  have c1 : (ku : ℝ) - km ≠ 0 := by have : (km : ℝ) < ku := by exact_mod_cast l1.trans l2
                                    linarith
  have c2 : (ku : ℝ) - ki ≠ 0 := by have : (ki : ℝ) < ku := by exact_mod_cast l2
                                    linarith
  have c3 : (ki : ℝ) - km ≠ 0 := by have : (km : ℝ) < ki := by exact_mod_cast l1
                                    linarith
  have c4 : (km : ℝ) - ki ≠ 0 := by have : (km : ℝ) < ki := by exact_mod_cast l1
                                    linarith
  unfold newQ
  split
  · next h =>
    have hd : dirOf (npi -. fin (ki : ℝ)) = 1 ∨ dirOf (npi -. fin (ki : ℝ)) = -1 := by
      rcases movesX_dir h with ⟨e, _⟩ | ⟨e, _⟩ <;> simp [e]
    generalize dirOf (npi -. fin (ki : ℝ)) = d at hd
    have hp : ∀ sm si su : ℝ, parab (fin sm) (fin si) (fin su) (fin (km : ℝ)) (fin (ki : ℝ)) (fin (ku : ℝ)) d =
        fin (si + ((d : ℚ) : ℝ) / (ku - km) * (((ki : ℝ) - km + ((d : ℚ) : ℝ)) * (su - si) / (ku - ki) +
          ((ku : ℝ) - ki - ((d : ℚ) : ℝ)) * (si - sm) / (ki - km))) := by
      intro sm si su
      unfold parab
      simp only [lit_fin, sub_ff, add_ff, mul_ff, div_ff c1, div_ff c2, div_ff c3]
    have hl : ∀ sm si su : ℝ, ∃ l : ℝ, linp (fin sm) (fin si) (fin su) (fin (km : ℝ)) (fin (ki : ℝ)) (fin (ku : ℝ)) d =
        fin l ∧ l = (if d = 1 then si + (su - si) / (ku - ki) else si - (sm - si) / (km - ki)) := by
      intro sm si su
      unfold linp
      rcases hd with rfl | rfl
      · exact ⟨_, by rw [if_pos rfl, sub_ff, sub_ff, lit_fin, mul_ff, div_ff c2, add_ff], by simp⟩
      · refine ⟨_, by rw [if_neg (by norm_num), if_pos rfl, sub_ff, sub_ff, lit_fin, mul_ff, div_ff c4, add_ff], ?_⟩
        rw [if_neg (by norm_num)]; push_cast; ring
    set P := ri + ((d : ℚ) : ℝ) / (ku - km) * (((ki : ℝ) - km + ((d : ℚ) : ℝ)) * (ru - ri) / (ku - ki) +
          ((ku : ℝ) - ki - ((d : ℚ) : ℝ)) * (ri - rm) / (ki - km)) with hP
    have hP' : (a * ri + b) + ((d : ℚ) : ℝ) / (ku - km) * (((ki : ℝ) - km + ((d : ℚ) : ℝ)) * ((a * ru + b) - (a * ri + b)) / (ku - ki) +
          ((ku : ℝ) - ki - ((d : ℚ) : ℝ)) * ((a * ri + b) - (a * rm + b)) / (ki - km)) = a * P + b := by
      rw [hP]; field_simp; ring
    obtain ⟨l, e1, e2⟩ := hl rm ri ru
    obtain ⟨l', e1', e2'⟩ := hl (a * rm + b) (a * ri + b) (a * ru + b)
    have hll : l' = a * l + b := by
      rw [e2, e2']; split
      · field_simp; ring
      · field_simp; ring
    rw [hp, hp, e1, e1', ← hP, hP', hll]
    rw [lt_ff, lt_ff, lt_ff, lt_ff]
    have b1 : (a * rm + b < a * P + b) ↔ rm < P := by
      constructor <;> intro h <;> nlinarith
    have b2 : (a * P + b < a * ru + b) ↔ P < ru := by
      constructor <;> intro h <;> nlinarith
    simp only [b1, b2]
    split
    · exact ⟨P, rfl, rfl⟩
    · exact ⟨l, rfl, rfl⟩
  · exact ⟨ri, rfl, rfl⟩

/-- two runs side by side: same positions, heights related by the affine map -/
def Twin (a b : ℝ) (s t : P2 XR) : Prop :=
  ∃ r : Arr5 ℝ, s.q = realQ r ∧ t.q = realQ (aff a b r) ∧ s.n = t.n ∧ s.np = t.np ∧ s.dn = t.dn ∧ PosX s.n

section
variable {a b : ℝ} (ha : 0 < a)
include ha

theorem Twin.adj1 {s t : P2 XR} (h : Twin a b s t) : Twin a b (adj1 s) (adj1 t) := by
  obtain ⟨sq, sn, snp, sdn⟩ := s; obtain ⟨tq, tn, tnp, tdn⟩ := t
  obtain ⟨r, hs, ht, hn, hnp, hdn, k0, k1, k2, k3, k4, hk, l0, l1, l2, l3⟩ := h
  dsimp only at hs ht hn hnp hdn hk; subst hn hnp hdn hs ht hk
  obtain ⟨k, hk, m1, m2⟩ := newN_X (npi := snp.a1) l0 l1
  obtain ⟨v, hv, hv'⟩ := newQ_X (b := b) ha r.a0 r.a1 r.a2 (npi := snp.a1) l0 l1
  refine ⟨{ r with a1 := v }, ?_, ?_, rfl, rfl, rfl, k0, k, k2, k3, k4, ?_, m1, m2, l2, l3⟩
  · simp only [Verif.adj1, realQ, hv]
  · simp only [Verif.adj1, realQ, aff, hv']
  · simp only [Verif.adj1, hk]

theorem Twin.adj2 {s t : P2 XR} (h : Twin a b s t) : Twin a b (adj2 s) (adj2 t) := by
  obtain ⟨sq, sn, snp, sdn⟩ := s; obtain ⟨tq, tn, tnp, tdn⟩ := t
  obtain ⟨r, hs, ht, hn, hnp, hdn, k0, k1, k2, k3, k4, hk, l0, l1, l2, l3⟩ := h
  dsimp only at hs ht hn hnp hdn hk; subst hn hnp hdn hs ht hk
  obtain ⟨k, hk, m1, m2⟩ := newN_X (npi := snp.a2) l1 l2
  obtain ⟨v, hv, hv'⟩ := newQ_X (b := b) ha r.a1 r.a2 r.a3 (npi := snp.a2) l1 l2
  refine ⟨{ r with a2 := v }, ?_, ?_, rfl, rfl, rfl, k0, k1, k, k3, k4, ?_, l0, m1, m2, l3⟩
  · simp only [Verif.adj2, realQ, hv]
  · simp only [Verif.adj2, realQ, aff, hv']
  · simp only [Verif.adj2, hk]

theorem Twin.adj3 {s t : P2 XR} (h : Twin a b s t) : Twin a b (adj3 s) (adj3 t) := by
  obtain ⟨sq, sn, snp, sdn⟩ := s; obtain ⟨tq, tn, tnp, tdn⟩ := t
  obtain ⟨r, hs, ht, hn, hnp, hdn, k0, k1, k2, k3, k4, hk, l0, l1, l2, l3⟩ := h
  dsimp only at hs ht hn hnp hdn hk; subst hn hnp hdn hs ht hk
  obtain ⟨k, hk, m1, m2⟩ := newN_X (npi := snp.a3) l2 l3
  obtain ⟨v, hv, hv'⟩ := newQ_X (b := b) ha r.a2 r.a3 r.a4 (npi := snp.a3) l2 l3
  refine ⟨{ r with a3 := v }, ?_, ?_, rfl, rfl, rfl, k0, k1, k2, k, k4, ?_, l0, l1, m1, m2⟩
  · simp only [Verif.adj3, realQ, hv]
  · simp only [Verif.adj3, realQ, aff, hv']
  · simp only [Verif.adj3, hk]

theorem aff_lt (x y : ℝ) : (fin (a * x + b) <. fin (a * y + b)) = (fin x <. fin y) := by
  rw [lt_ff, lt_ff, decide_eq_decide]
  constructor <;> intro h <;> nlinarith

theorem Twin.upd {s t : P2 XR} (h : Twin a b s t) (x : ℝ) : Twin a b (upd s (fin x)) (upd t (fin (a * x + b))) := by
  obtain ⟨r, hs, ht, hn, hnp, hdn, hp⟩ := h
  have L := aff_lt (b := b) ha
  unfold Verif.upd
  have e1 : (fin (a * x + b) <. t.q.a0) = (fin x <. s.q.a0) := by rw [hs, ht]; exact L _ _
  have e2 : (t.q.a4 <. fin (a * x + b)) = (s.q.a4 <. fin x) := by rw [hs, ht]; exact L _ _
  rw [e1, e2]
  split
  · exact ⟨{ r with a0 := x }, by simp [hs, realQ], by simp [ht, realQ, aff], hn, hnp, hdn, hp⟩
  · split
    · exact ⟨{ r with a4 := x }, by simp [hs, realQ], by simp [ht, realQ, aff], hn, hnp, hdn, hp⟩
    · refine Twin.adj3 ha (Twin.adj2 ha (Twin.adj1 ha ⟨r, hs, ht, ?_, ?_, hdn, ?_⟩))
      · have : firstNotBelow t.q (fin (a * x + b)) = firstNotBelow s.q (fin x) := by
          simp only [firstNotBelow, hs, ht, realQ, aff, L]
        simp only [hn, this]
      · simp only [hnp, hdn]
      · obtain ⟨k0, k1, k2, k3, k4, hk, l0, l1, l2, l3⟩ := hp
        generalize firstNotBelow s.q (fin x) = k
        refine ⟨if k ≤ 0 then k0 + 1 else k0, if k ≤ 1 then k1 + 1 else k1, if k ≤ 2 then k2 + 1 else k2,
          if k ≤ 3 then k3 + 1 else k3, k4 + 1, ?_, ?_, ?_, ?_, ?_⟩
        · simp only [bumpFrom, hk, lit_fin, add_ff]
          have : ∀ (c : Prop) [Decidable c] (i : ℤ), (if c then fin ((i : ℝ) + ((1 : ℚ) : ℝ)) else fin (i : ℝ)) =
              fin (((if c then i + 1 else i : ℤ)) : ℝ) := by
            intro c _ i; split <;> push_cast <;> rfl
          simp only [this]; push_cast; rfl
        all_goals split_ifs <;> omega

theorem Twin.fold {s t : P2 XR} (h : Twin a b s t) (l : List ℝ) :
    Twin a b ((l.map fin).foldl Verif.upd s) ((l.map fun x => fin (a * x + b)).foldl Verif.upd t) := by
  induction l generalizing s t with
  | nil => exact h
  | cons x l ih => exact ih (Twin.upd ha h x)

theorem sort5_twin (r : Arr5 ℝ) : ∃ r' : Arr5 ℝ, sort5 (realQ r) = realQ r' ∧ sort5 (realQ (aff a b r)) = realQ (aff a b r') := by
  have L := aff_lt (b := b) ha
  have sa : ∀ r : Arr5 ℝ, ∃ r' : Arr5 ℝ, sort5a (realQ r) = realQ r' ∧ sort5a (realQ (aff a b r)) = realQ (aff a b r') := by
    intro r
    by_cases h1 : (fin r.a1 <. fin r.a0) = true <;> by_cases h2 : (fin r.a3 <. fin r.a2) = true <;>
      simp only [sort5a, realQ, aff, L, Arr5.swap01, Arr5.swap23, h1, h2, if_true, if_false, Bool.false_eq_true]
    · exact ⟨⟨r.a1, r.a0, r.a3, r.a2, r.a4⟩, rfl, rfl⟩
    · exact ⟨⟨r.a1, r.a0, r.a2, r.a3, r.a4⟩, rfl, rfl⟩
    · exact ⟨⟨r.a0, r.a1, r.a3, r.a2, r.a4⟩, rfl, rfl⟩
    · exact ⟨r, rfl, rfl⟩
  have sb : ∀ r : Arr5 ℝ, ∃ r' : Arr5 ℝ, sort5b (realQ r) = realQ r' ∧ sort5b (realQ (aff a b r)) = realQ (aff a b r') := by
    intro r
    by_cases h1 : (fin r.a0 <. fin r.a2) = true <;>
      simp only [sort5b, realQ, aff, L, Arr5.swap01, Arr5.swap12, Arr5.swap23, h1, if_true, if_false, Bool.false_eq_true]
    · exact ⟨⟨r.a0, r.a2, r.a3, r.a1, r.a4⟩, rfl, rfl⟩
    · exact ⟨⟨r.a2, r.a0, r.a1, r.a3, r.a4⟩, rfl, rfl⟩
  have sc : ∀ r : Arr5 ℝ, ∃ r' : Arr5 ℝ, sort5c (realQ r) = realQ r' ∧ sort5c (realQ (aff a b r)) = realQ (aff a b r') := by
    intro r
    by_cases h1 : (fin r.a4 <. fin r.a1) = true <;> by_cases h2 : (fin r.a4 <. fin r.a0) = true <;>
      by_cases h3 : (fin r.a4 <. fin r.a2) = true <;>
      simp only [sort5c, realQ, aff, L, Arr5.swap01, Arr5.swap12, Arr5.swap23, Arr5.swap34, h1, h2, h3, if_true, if_false,
        Bool.false_eq_true]
    · exact ⟨⟨r.a4, r.a0, r.a1, r.a2, r.a3⟩, rfl, rfl⟩
    · exact ⟨⟨r.a4, r.a0, r.a1, r.a2, r.a3⟩, rfl, rfl⟩
    · exact ⟨⟨r.a0, r.a4, r.a1, r.a2, r.a3⟩, rfl, rfl⟩
    · exact ⟨⟨r.a0, r.a4, r.a1, r.a2, r.a3⟩, rfl, rfl⟩
    · exact ⟨⟨r.a0, r.a1, r.a4, r.a2, r.a3⟩, rfl, rfl⟩
    · exact ⟨⟨r.a0, r.a1, r.a2, r.a4, r.a3⟩, rfl, rfl⟩
    · exact ⟨⟨r.a0, r.a1, r.a4, r.a2, r.a3⟩, rfl, rfl⟩
    · exact ⟨⟨r.a0, r.a1, r.a2, r.a4, r.a3⟩, rfl, rfl⟩
  have sd : ∀ r : Arr5 ℝ, ∃ r' : Arr5 ℝ, sort5d (realQ r) = realQ r' ∧ sort5d (realQ (aff a b r)) = realQ (aff a b r') := by
    intro r
    by_cases h1 : (fin r.a4 <. fin r.a2) = true <;> by_cases h2 : (fin r.a4 <. fin r.a1) = true <;>
      by_cases h3 : (fin r.a4 <. fin r.a3) = true <;>
      simp only [sort5d, realQ, aff, L, Arr5.swap12, Arr5.swap23, Arr5.swap34, h1, h2, h3, if_true, if_false,
        Bool.false_eq_true]
    · exact ⟨⟨r.a0, r.a4, r.a1, r.a2, r.a3⟩, rfl, rfl⟩
    · exact ⟨⟨r.a0, r.a4, r.a1, r.a2, r.a3⟩, rfl, rfl⟩
    · exact ⟨⟨r.a0, r.a1, r.a4, r.a2, r.a3⟩, rfl, rfl⟩
    · exact ⟨⟨r.a0, r.a1, r.a4, r.a2, r.a3⟩, rfl, rfl⟩
    · exact ⟨⟨r.a0, r.a1, r.a2, r.a4, r.a3⟩, rfl, rfl⟩
    · exact ⟨r, rfl, rfl⟩
    · exact ⟨⟨r.a0, r.a1, r.a2, r.a4, r.a3⟩, rfl, rfl⟩
    · exact ⟨r, rfl, rfl⟩
  obtain ⟨r1, h1, h1'⟩ := sa r
  obtain ⟨r2, h2, h2'⟩ := sb r1
  obtain ⟨r3, h3, h3'⟩ := sc r2
  obtain ⟨r4, h4, h4'⟩ := sd r3
  exact ⟨r4, by rw [sort5_eq, h1, h2, h3, h4], by rw [sort5_eq, h1', h2', h3', h4']⟩

theorem Twin.start (p : XR) (x0 x1 x2 x3 x4 : ℝ) :
    Twin a b (start p (fin x0) (fin x1) (fin x2) (fin x3) (fin x4))
      (start p (fin (a * x0 + b)) (fin (a * x1 + b)) (fin (a * x2 + b)) (fin (a * x3 + b)) (fin (a * x4 + b))) := by
  obtain ⟨r, h1, h2⟩ := sort5_twin (b := b) ha ⟨x0, x1, x2, x3, x4⟩
  refine ⟨r, h1, h2, rfl, rfl, rfl, 0, 1, 2, 3, 4, ?_, by norm_num, by norm_num, by norm_num, by norm_num⟩
  simp [Verif.start, init_p2, lit_fin]

end

end Verif

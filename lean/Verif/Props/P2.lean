/-
C41–C47, C65: the P2 quantile estimator.
-/
import Verif.Proofs.P2F64
import Verif.Proofs.P2XR
import Verif.Spec.P2
import Verif.Props.Step
import Mathlib.Data.Finset.Max

set_option linter.unusedSectionVars false

namespace Verif
open F64 (isFin toQ notNaN)

/-! ### C41 -/

/-- For every order and every buffer of at least `size` values (in particular one that ends right after them) the estimator
terminates without undefined behaviour, and its result depends on the first `size` values only. -/
theorem C41_p2_safe (p : F64) (data : List F64) (size : UInt64) (hs : size.toNat ≤ data.length) :
    ∃ v, p2_quantile p data size = .ok v ∧ p2_quantile p (data.take size.toNat) size = .ok v := by
  by_cases h5 : 5 ≤ size.toNat
  · rcases data with _ | ⟨x0, _ | ⟨x1, _ | ⟨x2, _ | ⟨x3, _ | ⟨x4, l⟩⟩⟩⟩⟩ <;> simp only [List.length_cons, List.length_nil] at hs <;>
      try omega
    have e : size.toNat = (l.take (size.toNat - 5)).length + 5 := by rw [List.length_take]; omega
    have e1 := p2_quantile_eq p x0 x1 x2 x3 x4 (l.take (size.toNat - 5)) (l.drop (size.toNat - 5)) size e
    have e2 := p2_quantile_eq p x0 x1 x2 x3 x4 (l.take (size.toNat - 5)) [] size e
    rw [List.take_append_drop] at e1
    rw [List.append_nil] at e2
    refine ⟨_, e1, ?_⟩
    obtain ⟨m, hm⟩ : ∃ m, size.toNat = m + 5 := ⟨size.toNat - 5, by omega⟩
    rw [hm] at e2 ⊢
    simpa using e2
  · exact ⟨lit 0, by unfold p2_quantile quantile; rw [if_pos (by omega)],
      by unfold p2_quantile quantile; rw [if_pos (by omega)]⟩

/-- The hypothesis is the real boundary: a buffer one value too short is read out of bounds. -/
example : p2_quantile (lit (1 / 2) : F64) [lit 1, lit 2, lit 3, lit 4, lit 5] 6 = .error .outOfBounds ∧
    p2_quantile (lit (1 / 2) : F64) [lit 1, F64.nan, F64.inf true, F64.inf false, lit 5, F64.nan] 6 = .ok F64.nan := by
  decide +kernel

/-! ### C42 -/

/-- With fewer than five values the estimate is 0, and the fit of a reachable detector uses that threshold. -/
theorem C42_few (lib : Lib F64) (q level : F64) (low disc : ℤ) (me : UInt64) (s : Spot F64) (h : Heap F64)
    (R : Reaches (codeMath lib.fu) lib q low disc level me s h) (data : List F64) (size : UInt64)
    (hsz : size.toNat ≤ data.length) (h5 : size.toNat < 5) :
    (∀ p : F64, p2_quantile p data size = .ok (lit 0)) ∧
    ∀ r s1 h1, spot_fit (codeMath lib.fu) h s data size = .ok (r, s1, h1) → s1.excess_threshold = lit 0 ∧ r ≠ -1003 := by
  have hp : ∀ p : F64, p2_quantile p data size = .ok (lit 0) := by
    intro p; unfold p2_quantile quantile; rw [if_pos h5]
  refine ⟨hp, ?_⟩
  intro r s1 h1 hfit
  obtain ⟨et, e1, -, e2, -, e3, -⟩ := C36_fit_code lib q level low disc me s h R data size hsz r s1 h1 hfit
  rw [hp] at e1
  have e1 := Except.ok.inj e1
  have : r ≠ -1003 := fun hc => by
    have := e2.mp hc
    rw [← e1] at this
    exact absurd this (by decide +kernel)
  exact ⟨by rw [e3 this, e1], this⟩

example : Sample.init.1 = 0 ∧
    (spot_fit (codeMath muslFU) Sample.heap Sample.spot [lit 3, lit 4] 2).map
      (fun r => (r.2.1.excess_threshold, r.2.1.Nt)) = .ok (lit 0, 2) := by
  decide +kernel

theorem IsMedian5.of_sorted (a : Arr5 F64) (hn : a.NoNaN) (hs : a.Sorted) : Spec.IsMedian5 a.toList a.a2 := by
  obtain ⟨n0, n1, n2, n3, n4⟩ := hn
  obtain ⟨h0, h1, h2, h3⟩ := hs
  have L : ∀ x y : F64, is_nan x = false → is_nan y = false → CDoubleLaws.val x ≤ CDoubleLaws.val y → (x <=. y) = true :=
    fun x y hx hy h => (CDoubleLaws.le_iff x y).mpr ⟨hx, hy, h⟩
  refine ⟨by simp [Arr5.toList], ?_, ?_⟩
  · have a0 := L a.a0 a.a2 n0 n2 (h0.trans h1)
    have a1 := L a.a1 a.a2 n1 n2 h1
    have a2 := L a.a2 a.a2 n2 n2 le_rfl
    simp only [Arr5.toList, List.countP_cons, List.countP_nil, a0, a1, a2, if_true]
    omega
  · have a2 := L a.a2 a.a2 n2 n2 le_rfl
    have a3 := L a.a2 a.a3 n2 n3 h2
    have a4 := L a.a2 a.a4 n2 n4 (h2.trans h3)
    simp only [Arr5.toList, List.countP_cons, List.countP_nil, a2, a3, a4, if_true]
    omega

/-- With exactly five values, none of them NaN, the estimate is their median, whatever the order asked for. -/
theorem C42_five (p : F64) (data : List F64) (h5 : 5 ≤ data.length) (hn : ∀ x ∈ data.take 5, notNaN x) :
    ∃ v, p2_quantile p data 5 = .ok v ∧ Spec.IsMedian5 (data.take 5) v := by
  rcases data with _ | ⟨x0, _ | ⟨x1, _ | ⟨x2, _ | ⟨x3, _ | ⟨x4, l⟩⟩⟩⟩⟩ <;> simp only [List.length_cons, List.length_nil] at h5 <;>
    try omega
  have e := p2_quantile_eq p x0 x1 x2 x3 x4 [] l 5 rfl
  rw [List.nil_append] at e
  refine ⟨_, e, ?_⟩
  have hN : (⟨x0, x1, x2, x3, x4⟩ : Arr5 F64).NoNaN := by
    rw [noNaN_iff]; intro x hx
    exact (F64.is_nan_false x).mpr (hn x (by simpa [Arr5.toList] using hx))
  have hP := sort5_perm (⟨x0, x1, x2, x3, x4⟩ : Arr5 F64)
  have hN' : (sort5 (⟨x0, x1, x2, x3, x4⟩ : Arr5 F64)).NoNaN := by
    rw [noNaN_iff] at hN ⊢; intro x hx; exact hN x (hP.mem_iff.mp hx)
  obtain ⟨m1, m2, m3⟩ := IsMedian5.of_sorted _ hN' (sort5_sorted _ hN)
  refine ⟨?_, ?_, ?_⟩
  · simpa [Arr5.toList, start] using hP.mem_iff.mp m1
  · rw [hP.countP_eq] at m2; simpa [Arr5.toList, start] using m2
  · rw [hP.countP_eq] at m3; simpa [Arr5.toList, start] using m3

example : p2_quantile (lit (98 / 100) : F64) [lit 5, lit 1, lit 4, lit 2, lit 9] 5 = .ok (lit 4) ∧
    Spec.IsMedian5 [lit 5, lit 1, lit 4, lit 2, lit 9] (lit 4) := by
  refine ⟨by decide +kernel, by decide +kernel, by decide +kernel, by decide +kernel⟩

/-! ### C43 -/

/-- The estimate lies within the data: finite, not below the least datum and not above the greatest. No assumption on the
order `p`, which may even be NaN. -/
theorem C43_within (p : F64) (data : List F64) (size : UInt64) (h5 : 5 ≤ size.toNat) (hs : size.toNat ≤ data.length)
    (h53 : size.toNat ≤ 2 ^ 53) (hd : ∀ x ∈ data.take size.toNat, isFin x ∧ |toQ x| ≤ 2 ^ 1022) :
    ∃ v, p2_quantile p data size = .ok v ∧ isFin v ∧ (∃ x ∈ data.take size.toNat, toQ x ≤ toQ v) ∧
      ∃ y ∈ data.take size.toNat, toQ v ≤ toQ y := by
  have e1022 : (2 : ℚ) ^ 1022 = pow2 1022 := by rw [pow2_eq]; exact (zpow_natCast (2 : ℚ) 1022).symm
  rw [e1022] at hd
  set D := data.take size.toNat with hD
  have hne : D.toFinset.Nonempty := by
    rw [List.toFinset_nonempty_iff]; intro hc
    have := congrArg List.length hc
    rw [hD, List.length_take, List.length_nil] at this; omega
  obtain ⟨lo, hlo, hlo'⟩ := D.toFinset.exists_min_image toQ hne
  obtain ⟨hi, hhi, hhi'⟩ := D.toFinset.exists_max_image toQ hne
  rw [List.mem_toFinset] at hlo hhi
  have hin : ∀ x ∈ D, InQ (toQ lo) (toQ hi) x := fun x hx =>
    ⟨(hd x hx).1, hlo' x (List.mem_toFinset.mpr hx), hhi' x (List.mem_toFinset.mpr hx)⟩
  have b1 : -pow2 1022 ≤ toQ lo := (abs_le.mp (hd lo hlo).2).1
  have b2 : toQ hi ≤ pow2 1022 := (abs_le.mp (hd hi hhi).2).2
  obtain ⟨v, ev, ev'⟩ := C41_p2_safe p data size hs
  have hlen : D.length = size.toNat := by rw [hD, List.length_take]; omega
  rw [← hD] at ev'
  clear_value D
  rcases D with _ | ⟨x0, _ | ⟨x1, _ | ⟨x2, _ | ⟨x3, _ | ⟨x4, l⟩⟩⟩⟩⟩ <;>
    simp only [List.length_cons, List.length_nil] at hlen <;> try omega
  have e := p2_quantile_eq p x0 x1 x2 x3 x4 l [] size (by omega)
  rw [List.append_nil, ev'] at e
  have e := Except.ok.inj e
  have H := Heights.fold b1 b2 (m := 4) l (Heights.start (p := p) (x0 := x0) (x1 := x1) (x2 := x2) (x3 := x3) (x4 := x4)
    (fun x hx => hin x (by
      simp only [List.mem_cons, List.not_mem_nil, or_false] at hx ⊢
      rcases hx with h | h | h | h | h <;> simp [h]))) (Pos.start p x0 x1 x2 x3 x4) (by omega)
    (fun x hx => hin x (by simp [hx]))
  have H2 := H.2.2.1
  rw [← e] at H2
  exact ⟨v, ev, H2.1, ⟨lo, hlo, H2.2.1⟩, hi, hhi, H2.2.2⟩

/-- The bound on the magnitudes is needed: here all the data are finite and the estimate is infinite. -/
example : p2_quantile (lit (99 / 100) : F64) ((List.replicate 3 (lit (-17 * 10 ^ 307))) ++ List.replicate 7 (lit (17 * 10 ^ 307))) 10 =
    .ok (F64.inf false) := by decide +kernel

/-- So the fit finds a finite excess threshold within the training data. -/
theorem C43_fit (lib : Lib F64) (q level : F64) (low disc : ℤ) (me : UInt64) (s : Spot F64) (h : Heap F64)
    (R : Reaches (codeMath lib.fu) lib q low disc level me s h) (data : List F64) (size : UInt64) (h5 : 5 ≤ size.toNat)
    (hs : size.toNat ≤ data.length) (h53 : size.toNat ≤ 2 ^ 53)
    (hd : ∀ x ∈ data.take size.toNat, isFin x ∧ |toQ x| ≤ 2 ^ 1022) (r : ℤ) (s1 : Spot F64) (h1 : Heap F64)
    (hfit : spot_fit (codeMath lib.fu) h s data size = .ok (r, s1, h1)) :
    r ≠ -1003 ∧ isFin s1.excess_threshold ∧ (∃ x ∈ data.take size.toNat, toQ x ≤ toQ s1.excess_threshold) ∧
      ∃ y ∈ data.take size.toNat, toQ s1.excess_threshold ≤ toQ y := by
  obtain ⟨et, e1, -, e2, -, e3, -⟩ := C36_fit_code lib q level low disc me s h R data size hs r s1 h1 hfit
  obtain ⟨v, v1, v2, v3, v4⟩ := C43_within (if low ≠ 0 then lit 1 -. level else level) data size h5 hs h53 hd
  rw [e1] at v1
  have v1 := Except.ok.inj v1
  subst v1
  have hr : r ≠ -1003 := fun hc => v2.notNaN (e2.mp hc)
  exact ⟨hr, by rw [e3 hr]; exact v2, by rw [e3 hr]; exact v3, by rw [e3 hr]; exact v4⟩

/-- a concrete case: the estimate is rounded, and lies strictly inside -/
example : ∀ x ∈ ([lit 5, lit 1, lit 4, lit 2, lit 3, lit 3, lit (7 / 2), lit (5 / 2), lit 3, lit 2, lit 1] : List F64).take 11,
    isFin x ∧ |toQ x| ≤ 2 ^ 1022 := by
  decide +kernel

/-! ### C44 -/

/-- `sort5` permutes its elements, and sorts them when none is NaN. -/
theorem C44_sort5 (a : Arr5 F64) :
    (sort5 a).toList.Perm a.toList ∧
    ((∀ x ∈ a.toList, notNaN x) → (sort5 a).toList.Pairwise (fun x y => (x <=. y) = true)) := by
  have hP := sort5_perm a
  refine ⟨hP, fun hn => ?_⟩
  have hN : a.NoNaN := by
    rw [noNaN_iff]; intro x hx; exact (F64.is_nan_false x).mpr (hn x hx)
  have hN' : (sort5 a).NoNaN := by
    rw [noNaN_iff] at hN ⊢; intro x hx; exact hN x (hP.mem_iff.mp hx)
  obtain ⟨h0, h1, h2, h3⟩ := sort5_sorted a hN
  obtain ⟨n0, n1, n2, n3, n4⟩ := hN'
  have L : ∀ {x y : F64}, is_nan x = false → is_nan y = false → CDoubleLaws.val x ≤ CDoubleLaws.val y → (x <=. y) = true :=
    fun hx hy h => (CDoubleLaws.le_iff _ _).mpr ⟨hx, hy, h⟩
  simp only [Arr5.toList, List.pairwise_cons, List.mem_cons, List.not_mem_nil, or_false, forall_eq_or_imp, forall_eq,
    List.Pairwise.nil, and_true, IsEmpty.forall_iff, implies_true]
  exact ⟨⟨L n0 n1 h0, L n0 n2 (h0.trans h1), L n0 n3 (h0.trans (h1.trans h2)), L n0 n4 (h0.trans (h1.trans (h2.trans h3)))⟩,
    ⟨L n1 n2 h1, L n1 n3 (h1.trans h2), L n1 n4 (h1.trans (h2.trans h3))⟩, ⟨L n2 n3 h2, L n2 n4 (h2.trans h3)⟩, L n3 n4 h3⟩

example : sort5 (⟨lit 5, lit 1, F64.inf true, lit 2, lit 3⟩ : Arr5 F64) = ⟨F64.inf true, lit 1, lit 2, lit 3, lit 5⟩ ∧
    ¬ (sort5 (⟨lit 5, lit 1, F64.nan, lit 2, lit 3⟩ : Arr5 F64)).toList.Pairwise (fun x y => (x <=. y) = true) := by
  decide +kernel

/-! ### C45 -/

theorem p2State_eq (p x0 x1 x2 x3 x4 : F64) (l : List F64) :
    Spec.p2State p (x0 :: x1 :: x2 :: x3 :: x4 :: l) = .ok (l.foldl upd (start p x0 x1 x2 x3 x4)) := by
  have e : (p2_update : P2 F64 → F64 → C (P2 F64)) = fun s x => .ok (upd s x) := by
    funext s x; exact p2_update_eq s x
  unfold Spec.p2State
  rw [e]
  exact foldlM_ok upd l _

/-- link between the state at the end of the loop and the value returned -/
theorem p2State_result (p : F64) (data : List F64) (h5 : 5 ≤ data.length) (h64 : data.length < 2 ^ 64) :
    ∃ st, Spec.p2State p data = .ok st ∧ p2_quantile p data (UInt64.ofNat data.length) = .ok st.q.a2 := by
  rcases data with _ | ⟨x0, _ | ⟨x1, _ | ⟨x2, _ | ⟨x3, _ | ⟨x4, l⟩⟩⟩⟩⟩ <;> simp only [List.length_cons, List.length_nil] at h5 <;>
    try omega
  refine ⟨_, p2State_eq p x0 x1 x2 x3 x4 l, ?_⟩
  · have := p2_quantile_eq p x0 x1 x2 x3 x4 l [] (UInt64.ofNat (x0 :: x1 :: x2 :: x3 :: x4 :: l).length)
      (by rw [UInt64.toNat_ofNat']; simp only [List.length_cons] at h64 ⊢; omega)
    rwa [List.append_nil] at this

/-- After any data the positions are strictly increasing integers, at most the number of data minus 1. -/
theorem C45_positions (p : F64) (data : List F64) (h5 : 5 ≤ data.length) (h53 : data.length ≤ 2 ^ 53) :
    ∃ st, Spec.p2State p data = .ok st ∧ Spec.Increasing st.n (data.length - 1) := by
  rcases data with _ | ⟨x0, _ | ⟨x1, _ | ⟨x2, _ | ⟨x3, _ | ⟨x4, l⟩⟩⟩⟩⟩ <;> simp only [List.length_cons, List.length_nil] at h5 h53 <;>
    try omega
  refine ⟨_, p2State_eq p x0 x1 x2 x3 x4 l, ?_⟩
  have := Pos.fold l (Pos.start p x0 x1 x2 x3 x4) (by omega)
  exact this.mono (by simp only [List.length_cons]; omega)

/-- Inside the treatment of one value: if the positions are strictly increasing integers below 2^53, they remain so through
the adjustment of each marker, and the three denominators of the interpolation formulas are non-zero numbers. -/
theorem C45_adjust (s : P2 F64) (m : ℕ) (hm : m ≤ 2 ^ 53) (h : Spec.Increasing s.n m) (i : ℕ) (h1 : 1 ≤ i) (h3 : i ≤ 3) :
    ∃ s', adjust s i = .ok s' ∧ Spec.Increasing s'.n m ∧
      ∃ a b c, s.n.get (i - 1) = .ok a ∧ s.n.get i = .ok b ∧ s.n.get (i + 1) = .ok c ∧
        ∀ d ∈ [c -. a, c -. b, b -. a], isFin d ∧ 0 < toQ d := by
  have P : Pos s.n m := h
  have H : ∀ {x y : F64} {k l : ℕ}, HasInt x k → HasInt y l → k < l → l ≤ 2 ^ 53 → isFin (y -. x) ∧ 0 < toQ (y -. x) := by
    intro x y k l hx hy hkl hl
    obtain ⟨f, e⟩ := hy.sub hx hl (by omega)
    refine ⟨f, ?_⟩
    rw [e]
    have : (0 : ℤ) < (l : ℤ) - k := by omega
    exact_mod_cast this
  have P' := P
  obtain ⟨k0, k1, k2, k3, k4, h0, h1', h2, h3', h4, l0, l1, l2, l3, l4⟩ := P'
  rcases (by omega : i = 1 ∨ i = 2 ∨ i = 3) with rfl | rfl | rfl
  · refine ⟨_, adjust1 s, P.adj1 hm, _, _, _, rfl, rfl, rfl, ?_⟩
    simp only [List.mem_cons, List.not_mem_nil, or_false, forall_eq_or_imp, forall_eq]
    exact ⟨H h0 h2 (by omega) (by omega), H h1' h2 (by omega) (by omega), H h0 h1' (by omega) (by omega)⟩
  · refine ⟨_, adjust2 s, P.adj2 hm, _, _, _, rfl, rfl, rfl, ?_⟩
    simp only [List.mem_cons, List.not_mem_nil, or_false, forall_eq_or_imp, forall_eq]
    exact ⟨H h1' h3' (by omega) (by omega), H h2 h3' (by omega) (by omega), H h1' h2 (by omega) (by omega)⟩
  · refine ⟨_, adjust3 s, P.adj3 hm, _, _, _, rfl, rfl, rfl, ?_⟩
    simp only [List.mem_cons, List.not_mem_nil, or_false, forall_eq_or_imp, forall_eq]
    exact ⟨H h2 h4 (by omega) (by omega), H h3' h4 (by omega) (by omega), H h2 h3' (by omega) (by omega)⟩

example : Spec.Increasing (init_p2 (lit (1 / 2) : F64)).n 4 := Pos.start (lit (1 / 2)) (lit 0) (lit 0) (lit 0) (lit 0) (lit 0)

example : (Spec.p2State (lit (1 / 2)) [lit 1, lit 5, lit 2, lit 4, lit 3, lit 2, F64.nan, lit 1, lit 3]).map (·.n) =
    .ok ⟨lit 2, lit 3, lit 4, lit 6, lit 8⟩ := by rw [p2State_eq]; decide +kernel

/-! ### C46 -/

/-- In exact arithmetic, changing the unit and the origin of the data changes the estimate likewise. -/
theorem C46_equivariant (p : XR) (data : List ℝ) (size : UInt64) (h5 : 5 ≤ size.toNat) (hs : size.toNat ≤ data.length)
    (a b : ℝ) (ha : 0 < a) :
    ∃ r : ℝ, p2_quantile p (data.map XR.fin) size = .ok (XR.fin r) ∧
      p2_quantile p (data.map fun x => XR.fin (a * x + b)) size = .ok (XR.fin (a * r + b)) := by
  rcases data with _ | ⟨x0, _ | ⟨x1, _ | ⟨x2, _ | ⟨x3, _ | ⟨x4, l⟩⟩⟩⟩⟩ <;> simp only [List.length_cons, List.length_nil] at hs <;>
    try omega
  have e : size.toNat = (l.take (size.toNat - 5)).length + 5 := by rw [List.length_take]; omega
  have T := Twin.fold ha (Twin.start ha (b := b) p x0 x1 x2 x3 x4) (l.take (size.toNat - 5))
  obtain ⟨r, h1, h2, -⟩ := T
  refine ⟨r.a2, ?_, ?_⟩
  · have := p2_quantile_eq p (XR.fin x0) (XR.fin x1) (XR.fin x2) (XR.fin x3) (XR.fin x4)
      ((l.take (size.toNat - 5)).map XR.fin) ((l.drop (size.toNat - 5)).map XR.fin) size (by rw [List.length_map]; exact e)
    rw [← List.map_append, List.take_append_drop, h1] at this
    exact this
  · have := p2_quantile_eq p (XR.fin (a * x0 + b)) (XR.fin (a * x1 + b)) (XR.fin (a * x2 + b)) (XR.fin (a * x3 + b))
      (XR.fin (a * x4 + b)) ((l.take (size.toNat - 5)).map fun x => XR.fin (a * x + b))
      ((l.drop (size.toNat - 5)).map fun x => XR.fin (a * x + b)) size (by rw [List.length_map]; exact e)
    rw [← List.map_append, List.take_append_drop, h2] at this
    exact this

example : 5 ≤ (7 : UInt64).toNat ∧ (7 : UInt64).toNat ≤ ([1, 5, 2, 4, 3, 2, 1] : List ℝ).length ∧ (0 : ℝ) < 2 := by
  refine ⟨by decide, by decide, by norm_num⟩

/-- With fewer than five data it fails for shifts (the estimate is 0): the bound on `size` is needed. -/
example (p : XR) (data : List XR) : p2_quantile p data 4 = .ok (lit 0) := by
  unfold p2_quantile quantile; rw [if_pos (by decide)]

/-! ### C47 -/

/-- False of the code: a new maximum does not move the last position, and a value equal to the current minimum moves the
first one. -/
theorem C47_false : ∃ data1 data2 : List F64, data1.length = 6 ∧ data2.length = 6 ∧
    (∀ x ∈ data1 ++ data2, isFin x) ∧
    (Spec.p2State (lit (1 / 2)) data1).map (·.n.a4) = .ok (lit 4) ∧
    (Spec.p2State (lit (1 / 2)) data2).map (·.n.a0) = .ok (lit 1) :=
  ⟨[lit 1, lit 2, lit 3, lit 4, lit 5, lit 6], [lit 1, lit 2, lit 3, lit 4, lit 5, lit 1], rfl, rfl, by decide +kernel,
    by decide +kernel, by decide +kernel⟩

/-- every treated value lies between the extreme markers -/
def Between (s : P2 F64) (done : List F64) : Prop :=
  ∀ y ∈ done, (s.q.a0 <=. y) = true ∧ (y <=. s.q.a4) = true

theorem Between.upd {s : P2 F64} {done : List F64} (h : Between s done) {x : F64} (hx : notNaN x) (hne : done ≠ []) :
    Between (upd s x) (done ++ [x]) := by
  have hxx : (x <=. x) = true := (CDoubleLaws.le_iff _ _).mpr ⟨(F64.is_nan_false x).mpr hx, (F64.is_nan_false x).mpr hx, le_rfl⟩
  obtain ⟨y0, hy0⟩ := List.exists_mem_of_ne_nil done hne
  have g0 := (CDoubleLaws.le_iff _ _).mp (h y0 hy0).1
  have g4 := (CDoubleLaws.le_iff _ _).mp (h y0 hy0).2
  have hnx := (F64.is_nan_false x).mpr hx
  intro y hy
  rw [List.mem_append, List.mem_singleton] at hy
  unfold Verif.upd
  by_cases c1 : (x <. s.q.a0) = true
  · rw [if_pos c1]
    have k1 := (CDoubleLaws.lt_iff _ _).mp c1
    rcases hy with hy | rfl
    · have k2 := (CDoubleLaws.le_iff _ _).mp (h y hy).1
      exact ⟨(CDoubleLaws.le_iff _ _).mpr ⟨k1.1, k2.2.1, k1.2.2.le.trans k2.2.2⟩, (h y hy).2⟩
    · exact ⟨hxx, (CDoubleLaws.le_iff _ _).mpr ⟨k1.1, g4.2.1, k1.2.2.le.trans (g0.2.2.trans g4.2.2)⟩⟩
  rw [if_neg c1]
  have k1 : CDoubleLaws.val s.q.a0 ≤ CDoubleLaws.val x := by
    by_contra hc; exact c1 ((CDoubleLaws.lt_iff _ _).mpr ⟨hnx, g0.1, not_le.mp hc⟩)
  by_cases c2 : (s.q.a4 <. x) = true
  · rw [if_pos c2]
    have k2 := (CDoubleLaws.lt_iff _ _).mp c2
    rcases hy with hy | rfl
    · have k3 := (CDoubleLaws.le_iff _ _).mp (h y hy).2
      exact ⟨(h y hy).1, (CDoubleLaws.le_iff _ _).mpr ⟨k3.1, k2.2.1, k3.2.2.trans k2.2.2.le⟩⟩
    · exact ⟨(CDoubleLaws.le_iff _ _).mpr ⟨g0.1, hnx, k1⟩, hxx⟩
  rw [if_neg c2]
  have k2 : CDoubleLaws.val x ≤ CDoubleLaws.val s.q.a4 := by
    by_contra hc; exact c2 ((CDoubleLaws.lt_iff _ _).mpr ⟨g4.2.1, hnx, not_le.mp hc⟩)
  show (s.q.a0 <=. y) = true ∧ (y <=. s.q.a4) = true
  rcases hy with hy | rfl
  · exact h y hy
  · exact ⟨(CDoubleLaws.le_iff _ _).mpr ⟨g0.1, hnx, k1⟩, (CDoubleLaws.le_iff _ _).mpr ⟨hnx, g4.2.1, k2⟩⟩

theorem Between.start (p x0 x1 x2 x3 x4 : F64) (hn : ∀ x ∈ [x0, x1, x2, x3, x4], notNaN x) :
    Between (start p x0 x1 x2 x3 x4) [x0, x1, x2, x3, x4] := by
  intro y hy
  have hN : (⟨x0, x1, x2, x3, x4⟩ : Arr5 F64).NoNaN := by
    rw [noNaN_iff]; intro x hx; exact (F64.is_nan_false x).mpr (hn x hx)
  have hP := sort5_perm (⟨x0, x1, x2, x3, x4⟩ : Arr5 F64)
  have hN' : (sort5 (⟨x0, x1, x2, x3, x4⟩ : Arr5 F64)).NoNaN := by
    rw [noNaN_iff] at hN ⊢; intro x hx; exact hN x (hP.mem_iff.mp hx)
  obtain ⟨h0, h1, h2, h3⟩ := sort5_sorted _ hN
  have hy' := hP.mem_iff.mpr hy
  show ((sort5 _).a0 <=. y) = true ∧ (y <=. (sort5 _).a4) = true
  rw [CDoubleLaws.le_iff, CDoubleLaws.le_iff]
  obtain ⟨n0, n1, n2, n3, n4⟩ := hN'
  simp only [Arr5.toList, List.mem_cons, List.not_mem_nil, or_false] at hy'
  rcases hy' with e | e | e | e | e <;> rw [e]
  · exact ⟨⟨n0, n0, le_rfl⟩, n0, n4, h0.trans (h1.trans (h2.trans h3))⟩
  · exact ⟨⟨n0, n1, h0⟩, n1, n4, h1.trans (h2.trans h3)⟩
  · exact ⟨⟨n0, n2, h0.trans h1⟩, n2, n4, h2.trans h3⟩
  · exact ⟨⟨n0, n3, h0.trans (h1.trans h2)⟩, n3, n4, h3⟩
  · exact ⟨⟨n0, n4, h0.trans (h1.trans (h2.trans h3))⟩, n4, n4, le_rfl⟩

theorem ends_fold {s : P2 F64} {done : List F64} (l : List F64) (hb : Between s done) (hne : done ≠ []) (m : ℕ)
    (h0 : HasInt s.n.a0 0) (h4 : HasInt s.n.a4 m) (hm : m + l.length ≤ 2 ^ 53) (hn : ∀ x ∈ l, notNaN x)
    (hl : ∀ j (hj : j < l.length), (∃ y ∈ done ++ l.take j, (y <. l[j]) = true) ∧ (∃ y ∈ done ++ l.take j, (l[j] <=. y) = true)) :
    HasInt (l.foldl upd s).n.a0 0 ∧ HasInt (l.foldl upd s).n.a4 (m + l.length) := by
  induction l generalizing s done m with
  | nil => exact ⟨h0, h4⟩
  | cons x l ih =>
    simp only [List.length_cons] at hm hl
    obtain ⟨⟨y, hy, y1⟩, z, hz, z1⟩ := hl 0 (by omega)
    simp only [List.take_zero, List.append_nil, List.getElem_cons_zero] at hy y1 hz z1
    have c1 : ¬ (x <. s.q.a0) = true := by
      intro hc
      have a1 := (CDoubleLaws.lt_iff _ _).mp hc
      have a2 := (CDoubleLaws.le_iff _ _).mp (hb y hy).1
      have a3 := (CDoubleLaws.lt_iff _ _).mp y1
      exact absurd (a1.2.2.trans (lt_of_le_of_lt a2.2.2 a3.2.2)) (lt_irrefl _)
    have c2 : ¬ (s.q.a4 <. x) = true := by
      intro hc
      have a1 := (CDoubleLaws.lt_iff _ _).mp hc
      have a2 := (CDoubleLaws.le_iff _ _).mp (hb z hz).2
      have a3 := (CDoubleLaws.le_iff _ _).mp z1
      exact absurd (lt_of_lt_of_le a1.2.2 (a3.2.2.trans a2.2.2)) (lt_irrefl _)
    have c3 : (s.q.a0 <. x) = true := by
      have a2 := (CDoubleLaws.le_iff _ _).mp (hb y hy).1
      have a3 := (CDoubleLaws.lt_iff _ _).mp y1
      exact (CDoubleLaws.lt_iff _ _).mpr ⟨a2.1, a3.2.1, lt_of_le_of_lt a2.2.2 a3.2.2⟩
    have e : (upd s x).n.a0 = s.n.a0 ∧ (upd s x).n.a4 = s.n.a4 +. lit 1 := by
      unfold upd
      rw [if_neg c1, if_neg c2]
      refine ⟨?_, rfl⟩
      show (if firstNotBelow s.q x ≤ 0 then _ else _) = _
      rw [if_neg]
      unfold firstNotBelow
      rw [if_pos c3]; split_ifs <;> omega
    rw [List.foldl_cons, List.length_cons, show m + (l.length + 1) = m + 1 + l.length by omega]
    refine ih (done := done ++ [x]) (hb.upd (hn x (by simp)) hne) (by simp) (m + 1) (by rw [e.1]; exact h0)
      (by rw [e.2]; exact h4.succ (by omega)) (by omega) (fun y hy => hn y (by simp [hy])) ?_
    intro j hj
    have := hl (j + 1) (by omega)
    simpa using this

/-- The positions of the extreme markers are 0 and m - 1 when no datum after the fifth is a new maximum, a new minimum or a
repetition of the minimum. -/
theorem C47_partial (p : F64) (data : List F64) (h5 : 5 ≤ data.length) (h53 : data.length ≤ 2 ^ 53)
    (hn : ∀ x ∈ data, notNaN x)
    (hd : ∀ j (hj : j < data.length), 5 ≤ j →
      (∃ y ∈ data.take j, (y <. data[j]) = true) ∧ (∃ y ∈ data.take j, (data[j] <=. y) = true)) :
    ∃ st, Spec.p2State p data = .ok st ∧ Spec.IsInt st.n.a0 0 ∧ Spec.IsInt st.n.a4 (data.length - 1) := by
  rcases data with _ | ⟨x0, _ | ⟨x1, _ | ⟨x2, _ | ⟨x3, _ | ⟨x4, l⟩⟩⟩⟩⟩ <;> simp only [List.length_cons, List.length_nil] at h5 h53 <;>
    try omega
  refine ⟨_, p2State_eq p x0 x1 x2 x3 x4 l, ?_⟩
  have H := ends_fold l (Between.start p x0 x1 x2 x3 x4 (fun x hx => hn x (by simp at hx ⊢; tauto))) (by simp) 4
    (by have := HasInt.ofLit (k := 0) (by norm_num); simpa [start, init_p2] using this)
    (by have := HasInt.ofLit (k := 4) (by norm_num); simpa [start, init_p2] using this) (by omega)
    (fun x hx => hn x (by simp [hx])) (by
      intro j hj
      have := hd (j + 5) (by simp; omega) (by omega)
      simpa using this)
  exact ⟨H.1, by have := H.2; simp only [List.length_cons]; rwa [show l.length + 1 + 1 + 1 + 1 + 1 - 1 = 4 + l.length by omega]⟩

example : (Spec.p2State (lit (1 / 2)) [lit 1, lit 5, lit 2, lit 4, lit 3, lit 2, lit 5]).map (fun st => (st.n.a0, st.n.a4)) =
      .ok (lit 0, lit 6) ∧
    (∀ j : Fin 7, 5 ≤ j.val → ∃ y ∈ ([lit 1, lit 5, lit 2, lit 4, lit 3, lit 2, lit 5] : List F64).take j,
      (y <. ([lit 1, lit 5, lit 2, lit 4, lit 3, lit 2, lit 5] : List F64)[j.val]) = true) := by
  decide +kernel

/-! ### C65 -/

theorem sort5_increasing {x0 x1 x2 x3 x4 : F64} (h : [x0, x1, x2, x3, x4].Pairwise (fun x y => (x <. y) = true)) :
    sort5 ⟨x0, x1, x2, x3, x4⟩ = ⟨x0, x1, x2, x3, x4⟩ := by
  simp only [List.pairwise_cons, List.mem_cons, List.not_mem_nil, or_false, forall_eq_or_imp, forall_eq,
    List.Pairwise.nil, and_true, IsEmpty.forall_iff, implies_true] at h
  obtain ⟨⟨a01, a02, a03, a04⟩, ⟨a12, a13, a14⟩, ⟨a23, a24⟩, a34⟩ := h
  have N : ∀ {x y : F64}, (x <. y) = true → (y <. x) = false := by
    intro x y h
    rw [← Bool.not_eq_true, CDoubleLaws.lt_iff]
    rw [CDoubleLaws.lt_iff] at h
    rintro ⟨-, -, h'⟩; exact absurd (h.2.2.trans h') (lt_irrefl _)
  simp only [sort5_eq, sort5a, sort5b, sort5c, sort5d, N a01, N a23, a02, N a24, N a34, a13, a12, Arr5.swap12, Arr5.swap23, Arr5.swap34,
    if_true, if_false, Bool.false_eq_true]

theorem fold_increasing {s : P2 F64} (l : List F64) (hs : CDoubleLaws.val s.q.a0 ≤ CDoubleLaws.val s.q.a4)
    (h : (s.q.a4 :: l).Pairwise (fun x y => (x <. y) = true)) : (l.foldl upd s).q.a2 = s.q.a2 := by
  induction l generalizing s with
  | nil => rfl
  | cons x l ih =>
    rw [List.pairwise_cons] at h
    have hx := (CDoubleLaws.lt_iff _ _).mp (h.1 x (by simp))
    have c1 : ¬ (x <. s.q.a0) = true := by
      intro hc; have := (CDoubleLaws.lt_iff _ _).mp hc
      exact absurd (lt_of_lt_of_le (hx.2.2.trans this.2.2) hs) (lt_irrefl _)
    have e : upd s x = { s with q := { s.q with a4 := x } } := by
      unfold upd; rw [if_neg c1, if_pos (h.1 x (by simp))]
    rw [List.foldl_cons, e]
    exact ih (s := { s with q := { s.q with a4 := x } }) (hs.trans hx.2.2.le) h.2

/-- On strictly increasing data the estimate is the third datum, whatever the order asked for and the number of data. -/
theorem C65_increasing (p : F64) (data : List F64) (size : UInt64) (h5 : 5 ≤ size.toNat) (hs : size.toNat ≤ data.length)
    (h : data.Pairwise (fun x y => (x <. y) = true)) :
    p2_quantile p data size = .ok data[2] := by
  rcases data with _ | ⟨x0, _ | ⟨x1, _ | ⟨x2, _ | ⟨x3, _ | ⟨x4, l⟩⟩⟩⟩⟩ <;> simp only [List.length_cons, List.length_nil] at hs <;>
    try omega
  have e := p2_quantile_eq p x0 x1 x2 x3 x4 (l.take (size.toNat - 5)) (l.drop (size.toNat - 5)) size
    (by rw [List.length_take]; omega)
  rw [List.take_append_drop] at e
  have h' : [x0, x1, x2, x3, x4].Pairwise (fun x y => (x <. y) = true) := h.sublist (by simp)
  have e2 : start p x0 x1 x2 x3 x4 = { init_p2 p with q := ⟨x0, x1, x2, x3, x4⟩ } := by unfold start; rw [sort5_increasing h']
  have h04 : (x0 <. x4) = true := by
    rw [List.pairwise_cons] at h'; exact h'.1 x4 (by simp)
  rw [e, e2, fold_increasing]
  · simp
  · exact ((CDoubleLaws.lt_iff _ _).mp h04).2.2.le
  · refine List.Pairwise.sublist ?_ h
    refine List.Sublist.cons _ (List.Sublist.cons _ (List.Sublist.cons _ (List.Sublist.cons _ ?_)))
    exact List.Sublist.cons_cons _ (List.take_sublist _ _)

/-- So all the training data but three exceed the threshold: false that the threshold is near the requested quantile. -/
theorem C65_false : ∃ data : List F64, data.length = 100 ∧ (∀ x ∈ data, isFin x) ∧
    ∃ v, p2_quantile (lit (98 / 100)) data 100 = .ok v ∧ data.countP (fun x => v <. x) = 97 := by
  refine ⟨(List.range 100).map (fun k => lit (k : ℚ)), by decide +kernel, by decide +kernel, lit 2, ?_, by decide +kernel⟩
  rw [C65_increasing _ _ _ (by decide) (by decide) (by decide +kernel)]
  decide +kernel

/-- With exactly five distinct data at most two exceed the threshold. -/
theorem C65_partial (p : F64) (data : List F64) (h5 : data.length = 5) (hn : ∀ x ∈ data, notNaN x) :
    ∃ v, p2_quantile p data 5 = .ok v ∧ data.countP (fun x => v <. x) ≤ 2 := by
  obtain ⟨v, e, hm, h1, h2⟩ := C42_five p data (by omega) (fun x hx => hn x (List.mem_of_mem_take hx))
  rw [List.take_of_length_le (by omega)] at h1 h2 hm
  refine ⟨v, e, ?_⟩
  have h3 := List.length_eq_countP_add_countP (fun x => x <=. v) (l := data)
  have h4 : data.countP (fun x => v <. x) ≤ data.countP (fun x => decide ¬ (x <=. v) = true) := by
    apply List.countP_mono_left
    intro x _ hx
    rw [decide_eq_true_eq, CDoubleLaws.le_iff]
    rw [CDoubleLaws.lt_iff] at hx
    rintro ⟨-, -, h'⟩
    exact absurd (lt_of_lt_of_le hx.2.2 h') (lt_irrefl _)
  omega

example : p2_quantile (lit (98 / 100) : F64) [lit 5, lit 1, lit 4, lit 2, lit 9] 5 = .ok (lit 4) := by decide +kernel

end Verif

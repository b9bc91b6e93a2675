/-
The parameters estimated from excesses that are not almost equal are moderate numbers, in binary64.
-/
import Verif.Proofs.SigmaPos

namespace Verif
open F64 Spec

/-! ### The shape of Grimshaw's estimator -/

theorem isFin_cases (x : F64) : isFin x ∨ x = nan ∨ ∃ s, x = inf s := by
  rcases x with _ | s | ⟨s, k⟩
  · exact .inr (.inl rfl)
  · exact .inr (.inr ⟨s, rfl⟩)
  · exact .inl trivial

theorem fold_bounded (g : F64 → F64) (l : List F64) (k : ℕ) (r : F64) (hr : isFin r) (hrb : |toQ r| ≤ 752 * k) (hk : k + l.length ≤ 2 ^ 40)
    (hg : ∀ v ∈ l, isFin (g v) ∧ |toQ (g v)| ≤ 752) :
    isFin (l.foldl (fun r v => r +. g v) r) ∧ |toQ (l.foldl (fun r v => r +. g v) r)| ≤ 752 * (k + l.length) := by
  induction l generalizing r k with
  | nil => simpa using ⟨hr, hrb⟩
  | cons v l ih =>
    rw [List.foldl_cons]
    rw [List.length_cons] at hk
    obtain ⟨g1, g2⟩ := hg v (by simp)
    have hb : |toQ r + toQ (g v)| ≤ 752 * (k + 1) := (abs_add_le _ _).trans (by linarith)
    have hk0 : (0 : ℚ) ≤ 752 * ((k : ℚ) + 1) := by positivity
    have hq : (752 * (k + 1) : ℚ) = (752 * ((k : ℤ) + 1) : ℤ) := by push_cast; ring
    have hi : |(752 * ((k : ℤ) + 1))| ≤ 2 ^ 53 := by
      rw [abs_of_nonneg (by positivity)]
      have : (k : ℤ) + (l.length + 1) ≤ 2 ^ 40 := by exact_mod_cast hk
      have : (0 : ℤ) ≤ l.length := by positivity
      linarith
    have hbig : |toQ r + toQ (g v)| ≤ pow2 1023 := by
      refine hb.trans ?_
      rw [hq]
      have := abs_int_le hi
      rwa [abs_of_nonneg (by positivity)] at this
    obtain ⟨a1, a2⟩ := add_fin' hr g1 hbig
    have a3 : |toQ (r +. g v)| ≤ 752 * ((k + 1 : ℕ) : ℚ) := by
      have a2 : toQ (r +. g v) = rq (toQ r + toQ (g v)) := a2
      rw [a2]
      have h1 : |toQ r + toQ (g v)| ≤ |(752 * ((k : ℚ) + 1))| := by rw [abs_of_nonneg hk0]; exact hb
      have h2 := rq_abs_mono h1
      rw [hq, rq_rep (rep_int hi)] at h2
      refine h2.trans (le_of_eq ?_)
      rw [← hq, abs_of_nonneg hk0, Nat.cast_add, Nat.cast_one]
    have := ih (k + 1) (r +. g v) a1 a3 (by omega) (fun w hw => hg w (by simp [hw]))
    refine ⟨this.1, this.2.trans (le_of_eq ?_)⟩
    push_cast
    rw [List.length_cons]
    push_cast
    ring

theorem add_isFin {x y : F64} (h : isFin (x +. y)) : isFin x ∧ isFin y := by
  change isFin (F64.add x y) at h
  rcases x with _ | s | ⟨s, k⟩ <;> rcases y with _ | t | ⟨t, j⟩ <;> simp only [F64.add] at h <;> first
    | exact ⟨trivial, trivial⟩
    | (cases s <;> cases t <;> exact absurd h (by simp [isFin]))
    | exact absurd h (by simp [isFin])

theorem mul_isFin_left {x y : F64} (h : isFin (x *. y)) : isFin x := by
  change isFin (F64.mul x y) at h
  rcases x with _ | s | ⟨s, k⟩ <;> rcases y with _ | t | ⟨t, j⟩ <;> simp only [F64.mul] at h <;> first
    | exact trivial
    | (split at h <;> exact absurd h (by simp [isFin]))
    | exact absurd h (by simp [isFin])

theorem div_isFin_left {x y : F64} (h : isFin (x /. y)) : isFin x := by
  change isFin (F64.div x y) at h
  rcases x with _ | s | ⟨s, k⟩ <;> rcases y with _ | t | ⟨t, j⟩ <;> simp only [F64.div] at h <;> first
    | exact trivial
    | exact absurd h (by simp [isFin])

theorem sub_isFin_left {x y : F64} (h : isFin (x -. y)) : isFin x := (add_isFin (x := x) (y := F64.neg y) h).1

theorem fold_isFin (g : F64 → F64) (l : List F64) (r : F64) (h : isFin (l.foldl (fun r v => r +. g v) r)) : isFin r ∧ ∀ v ∈ l, isFin (g v) := by
  induction l generalizing r with
  | nil => exact ⟨h, by simp⟩
  | cons v l ih =>
    rw [List.foldl_cons] at h
    obtain ⟨h1, h2⟩ := ih _ h
    obtain ⟨h3, h4⟩ := add_isFin h1
    refine ⟨h3, fun w hw => ?_⟩
    rcases List.mem_cons.mp hw with rfl | hw
    · exact h4
    · exact h2 w hw

theorem xlog_isFin {s : F64} (h : isFin (xlog muslFU s)) : |toQ (xlog muslFU s)| ≤ 752 := by
  by_cases hp : isFin s ∧ 0 < toQ s
  · exact (xlog_fin hp.1 hp.2).2
  · rcases xlog_not_pos hp with g | ⟨-, g⟩
    · rw [g] at h; exact absurd h (by simp [isFin])
    · rw [g] at h; exact absurd h (by simp [isFin])

/-- a finite shape from a root is moderate -/
theorem root_shape {l : List F64} {x : F64} (hl : l ≠ []) (hn : l.length ≤ 2 ^ 24) (h : isFin (grimshawVL (codeMath muslFU) l x -. lit 1)) :
    |toQ (grimshawVL (codeMath muslFU) l x -. lit 1)| ≤ 754 := by
  have h1n : 1 ≤ l.length := List.length_pos_iff.mpr hl
  obtain ⟨n1, n2⟩ := lit_len h1n (hn.trans (by norm_num))
  have nq : (1 : ℚ) ≤ l.length := by exact_mod_cast h1n
  have one : isFin (lit 1 : F64) ∧ toQ (lit 1 : F64) = 1 := by decide +kernel
  have b10 : (1000 : ℚ) ≤ pow2 1023 := by decide +kernel
  have hV := sub_isFin_left h
  unfold grimshawVL at hV h ⊢
  have hlog : ∀ y : F64, (codeMath muslFU).log y = xlog muslFU y := fun _ => rfl
  simp only [hlog] at hV h ⊢
  have hD := (add_isFin hV).2
  have hS := div_isFin_left hD
  obtain ⟨-, ht⟩ := fold_isFin (fun y => xlog muslFU (lit 1 +. x *. y)) l (lit 0) hS
  obtain ⟨-, s2⟩ := fold_bounded (fun y => xlog muslFU (lit 1 +. x *. y)) l 0 (lit 0) (by decide +kernel) (by decide +kernel)
    (by omega) (fun v hv => ⟨ht v hv, xlog_isFin (ht v hv)⟩)
  generalize (l.foldl (fun v y => v +. xlog muslFU (lit 1 +. x *. y)) (lit 0) : F64) = S at *
  have int : ∀ (i : ℕ) (q : ℚ), i ≤ 1000 → |q| ≤ i → |rq q| ≤ i := by
    intro i q hi hq
    have hi0 : (0 : ℚ) ≤ ((i : ℤ) : ℚ) := by exact_mod_cast Nat.zero_le i
    have h1 : |q| ≤ |((i : ℤ) : ℚ)| := by rw [abs_of_nonneg hi0]; exact_mod_cast hq
    have h2 := rq_abs_mono h1
    rw [rq_rep (rep_int (by rw [abs_of_nonneg (by omega)]; omega)), abs_of_nonneg hi0] at h2
    exact_mod_cast h2
  have q1 : |toQ S / toQ (lit (l.length : ℚ) : F64)| ≤ (752 : ℕ) := by
    rw [n2, abs_div, abs_of_pos (by linarith : (0 : ℚ) < l.length), div_le_iff₀ (by linarith)]
    simpa using s2
  obtain ⟨-, d2⟩ := div_fin' hS n1 (by rw [n2]; linarith) (q1.trans (le_trans (by norm_num) b10))
  have d3 := int 752 _ (by norm_num) q1
  rw [← d2] at d3
  have q2 : |toQ (lit 1 : F64) + toQ (F64.div S (lit (l.length : ℚ)))| ≤ (753 : ℕ) := by
    rw [one.2]
    refine (abs_add_le _ _).trans ?_
    push_cast at d3 ⊢
    norm_num
    linarith
  obtain ⟨v1, v2⟩ := add_fin' (y := F64.div S (lit (l.length : ℚ))) one.1 hD (q2.trans (le_trans (by norm_num) b10))
  have v3 := int 753 _ (by norm_num) q2
  rw [← v2] at v3
  have q3 : |toQ (F64.add (lit 1) (F64.div S (lit (l.length : ℚ)))) - toQ (lit 1 : F64)| ≤ (754 : ℕ) := by
    rw [one.2]
    refine (abs_sub _ _).trans ?_
    push_cast at v3 ⊢
    norm_num
    linarith
  obtain ⟨w1, w2⟩ := sub_fin' v1 one.1 (q3.trans (le_trans (by norm_num) b10))
  have w3 := int 754 _ (by norm_num) q3
  rw [← w2] at w3
  exact_mod_cast w3

/-! ### Bounds -/

/-- the neighbours of 1 and -1 -/
theorem near_one {v : F64} (hv : isFin v) : (toQ v ≠ 1 → pow2 (-53) ≤ |1 - toQ v|) ∧ (toQ v ≠ -1 → pow2 (-53) ≤ |1 + toQ v|) := by
  have hp : 0 < pow2 (-53) ∧ pow2 (-53) ≤ 1 := by decide +kernel
  have key : |toQ v| ≤ 1 - pow2 (-53) ∨ |toQ v| = 1 ∨ 1 + pow2 (-53) ≤ |toQ v| := by
    rcases v with _ | s | ⟨s, k⟩
    · exact absurd hv (by simp [isFin])
    · exact absurd hv (by simp [isFin])
    rw [abs_toQ_fin]
    rcases lt_trichotomy k.val 4607182418800017408 with h | h | h
    · left
      have := mag_le_iff.mpr (show k.val ≤ 4607182418800017407 by omega)
      refine this.trans (le_of_eq ?_)
      decide +kernel
    · right; left
      rw [h, mag_one]
    · right; right
      have := mag_le_iff.mpr (show 4607182418800017409 ≤ k.val by omega)
      refine le_trans ?_ this
      decide +kernel
  rcases key with h | h | h
  · obtain ⟨a, b⟩ := abs_le.mp h
    exact ⟨fun _ => le_trans (by linarith) (le_abs_self _), fun _ => le_trans (by linarith) (le_abs_self _)⟩
  · rcases abs_eq (by norm_num : (0 : ℚ) ≤ 1) |>.mp h with e | e
    · exact ⟨fun hc => absurd e hc, fun _ => le_trans (by linarith) (le_abs_self _)⟩
    · exact ⟨fun _ => le_trans (by linarith) (le_abs_self _), fun hc => absurd e hc⟩
  · rcases le_abs.mp h with h | h
    · exact ⟨fun _ => le_trans (by linarith) (neg_le_abs _), fun _ => le_trans (by linarith) (le_abs_self _)⟩
    · exact ⟨fun _ => le_trans (by linarith) (le_abs_self _), fun _ => le_trans (by linarith) (neg_le_abs _)⟩

theorem le_rq_abs {q : ℚ} {e : ℤ} (he : -1074 ≤ e) (h : pow2 e ≤ |q|) : pow2 e ≤ |rq q| := by
  rw [rq_abs]
  have := le_rq he h
  rwa [rq_of_nonneg (abs_nonneg q)] at this

/-- a shape that is zero or neither small nor large, and a scale that is neither small nor large -/
structure Moderate (γ σ : F64) : Prop where
  gamma : isFin γ ∧ |toQ γ| ≤ 2 ^ 20
  gamma0 : toQ γ = 0 ∨ pow2 (-54) ≤ |toQ γ|
  sigma : isFin σ ∧ pow2 (-1054) ≤ toQ σ ∧ toQ σ ≤ pow2 700

/-- the quotient of scale and shape -/
theorem Moderate.ratio {γ σ : F64} (H : Moderate γ σ) : toQ γ = 0 ∨ isFin (σ /. γ) ∧ toQ (σ /. γ) ≠ 0 ∧ |toQ (σ /. γ)| ≤ pow2 754 := by
  rcases H.gamma0 with h | h
  · exact .inl h
  right
  have g0 : 0 < |toQ γ| := (pow2_pos _).trans_le h
  have s0 : 0 < toQ σ := (pow2_pos _).trans_le H.sigma.2.1
  have q1 : |toQ σ / toQ γ| ≤ pow2 754 := by
    rw [abs_div, abs_of_pos s0, div_le_iff₀ g0]
    refine H.sigma.2.2.trans (le_trans ?_ (mul_le_mul_of_nonneg_left h (pow2_pos _).le))
    decide +kernel
  obtain ⟨d1, d2⟩ := div_fin' H.sigma.1 H.gamma.1 (abs_pos.mp g0) (q1.trans (pow2_le (by norm_num)))
  have d2 : toQ (σ /. γ) = rq (toQ σ / toQ γ) := d2
  have q0 : pow2 (-1074) ≤ |toQ σ / toQ γ| := by
    rw [abs_div, abs_of_pos s0, le_div_iff₀ g0]
    refine le_trans (mul_le_mul_of_nonneg_left H.gamma.2 (pow2_pos _).le) (le_trans ?_ H.sigma.2.1)
    decide +kernel
  refine ⟨d1, ?_, ?_⟩
  · have := le_rq_abs (by norm_num) q0
    rw [← d2] at this
    exact abs_pos.mp ((pow2_pos _).trans_le this)
  · rw [d2]; exact rq_abs_le (by norm_num) q1

/-! ### The shape of the moment estimator -/

theorem rq_pos_bounds {q : ℚ} (h : pow2 (-1022) ≤ q) : q * (1 - 1 / 9007199254740992) ≤ rq q ∧ rq q ≤ q * (1 + 1 / 9007199254740992) := by
  have q0 : 0 < q := lt_of_lt_of_le (pow2_pos _) h
  have := rq_rel (q := q) (.inr (by rw [abs_of_pos q0]; exact h))
  rw [pow2_m53, abs_of_pos q0, abs_le] at this
  constructor <;> linarith [this.1, this.2]

/-- the real estimate behind `mom_shape` -/
theorem mom_chain {E R A B h w σ g r mx : ℚ} (E0 : 0 < E) (hR : 2 ^ 20 < R) (hA : A = R - 1) (hB : B = R + 1)
    (h2 : h ≤ E / 2 * (1 + 1 / 9007199254740992))
    (w2 : w ≤ B * (1 + 1 / 9007199254740992)) (w0 : 0 < w) (s2 : σ ≤ h * w * (1 + 1 / 9007199254740992)) (s0 : 0 < σ)
    (g1 : A / 2 * (1 - 1 / 9007199254740992) ^ 2 ≤ g) (r1 : g / σ * (1 - 1 / 9007199254740992) ≤ r) (m1 : (1 + 1 / 2 ^ 18) * E ≤ mx) :
    1 + 1 / 2 ^ 20 ≤ r * mx := by
  subst hA hB
  set u : ℚ := 1 / 9007199254740992 with hu
  have u0 : 0 < u := by rw [hu]; norm_num
  have u1 : 0 ≤ 1 - u := by rw [hu]; norm_num
  have hσ : σ ≤ E / 2 * (R + 1) * (1 + u) ^ 3 := by
    have : h * w ≤ (E / 2 * (1 + u)) * ((R + 1) * (1 + u)) := mul_le_mul h2 w2 w0.le (by positivity)
    calc σ ≤ h * w * (1 + u) := s2
      _ ≤ (E / 2 * (1 + u)) * ((R + 1) * (1 + u)) * (1 + u) := mul_le_mul_of_nonneg_right this (by positivity)
      _ = _ := by ring
  have D0 : 0 < E / 2 * (R + 1) * (1 + u) ^ 3 := by positivity
  have g0 : 0 ≤ (R - 1) / 2 * (1 - u) ^ 2 := by
    have : 0 < R - 1 := by linarith
    positivity
  have hgs : (R - 1) / 2 * (1 - u) ^ 2 / (E / 2 * (R + 1) * (1 + u) ^ 3) ≤ g / σ := div_le_div₀ (g0.trans g1) g1 s0 hσ
  have hr : (R - 1) / 2 * (1 - u) ^ 2 / (E / 2 * (R + 1) * (1 + u) ^ 3) * (1 - u) ≤ r :=
    (mul_le_mul_of_nonneg_right hgs u1).trans r1
  have hr0 : 0 ≤ (R - 1) / 2 * (1 - u) ^ 2 / (E / 2 * (R + 1) * (1 + u) ^ 3) * (1 - u) := mul_nonneg (div_nonneg g0 D0.le) u1
  refine le_trans ?_ (mul_le_mul hr m1 (by positivity) (hr0.trans hr))
  have e : (R - 1) / 2 * (1 - u) ^ 2 / (E / 2 * (R + 1) * (1 + u) ^ 3) * (1 - u) * ((1 + 1 / 2 ^ 18) * E) =
      (R - 1) * ((1 - u) ^ 3 * (1 + 1 / 2 ^ 18)) / ((R + 1) * (1 + u) ^ 3) := by
    field_simp
  rw [e, le_div_iff₀ (by positivity)]
  have k1 : 1 + 1 / 2 ^ 18 - 1 / 2 ^ 40 ≤ (1 - u) ^ 3 * (1 + 1 / 2 ^ 18) := by rw [hu]; norm_num
  have k2 : (1 + u) ^ 3 ≤ 1 + 1 / 2 ^ 40 := by rw [hu]; norm_num
  have l1 := mul_le_mul_of_nonneg_left k1 (by linarith : 0 ≤ R - 1)
  have l2 := mul_le_mul_of_nonneg_left k2 (by linarith : 0 ≤ (1 + 1 / 2 ^ 20) * (R + 1))
  nlinarith

theorem mom_chain_up {E R h w σ g : ℚ} (E0 : 0 < E) (hR : 2 ^ 20 < R)
    (h2 : E / 2 * (1 - 1 / 9007199254740992) ≤ h) (w2 : (R + 1) * (1 - 1 / 9007199254740992) ≤ w) (s2 : h * w * (1 - 1 / 9007199254740992) ≤ σ)
    (g1 : g ≤ (R - 1) / 2 * (1 + 1 / 9007199254740992) ^ 2) : g / σ ≤ 2 / E := by
  set u : ℚ := 1 / 9007199254740992 with hu
  have u0 : 0 < u := by rw [hu]; norm_num
  have u1 : 0 < 1 - u := by rw [hu]; norm_num
  have hσ : E / 2 * (R + 1) * (1 - u) ^ 3 ≤ σ := by
    have hE : 0 < E / 2 * (1 - u) := mul_pos (by positivity) u1
    have hW : 0 < (R + 1) * (1 - u) := mul_pos (by linarith) u1
    have : (E / 2 * (1 - u)) * ((R + 1) * (1 - u)) ≤ h * w := mul_le_mul h2 w2 hW.le (hE.le.trans h2)
    calc _ = (E / 2 * (1 - u)) * ((R + 1) * (1 - u)) * (1 - u) := by ring
      _ ≤ h * w * (1 - u) := mul_le_mul_of_nonneg_right this u1.le
      _ ≤ σ := s2
  have D0 : 0 < E / 2 * (R + 1) * (1 - u) ^ 3 := mul_pos (mul_pos (by positivity) (by linarith)) (pow_pos u1 3)
  have s0 := D0.trans_le hσ
  rw [div_le_div_iff₀ s0 E0]
  have k1 : (1 + u) ^ 2 ≤ 1 + 1 / 2 ^ 40 := by rw [hu]; norm_num
  have k2 : 1 - 1 / 2 ^ 40 ≤ (1 - u) ^ 3 := by rw [hu]; norm_num
  have l1 := mul_le_mul_of_nonneg_left k1 (by linarith : 0 ≤ (R - 1) / 2)
  have l2 := mul_le_mul_of_nonneg_left k2 (mul_nonneg (by positivity) (by linarith) : 0 ≤ E / 2 * (R + 1))
  have l3 : g ≤ (R + 1) * (1 - 1 / 2 ^ 40) := by
    have := g1.trans l1
    nlinarith
  have := mul_le_mul_of_nonneg_right l3 E0.le
  nlinarith

theorem fin_toQ {z : Bool} {q : ℚ} (h : isFin (ofRat z q)) : toQ (ofRat z q) = rq q := toQ_ofRat (ofRat_isFin.mp h)

theorem fin_of_abs_le {z : Bool} {q : ℚ} {y : F64} (h : |q| ≤ |toQ y|) : isFin (ofRat z q) ∧ toQ (ofRat z q) = rq q := by
  have := noOverflow_mono h (noOverflow_toQ y)
  exact ⟨ofRat_isFin.mpr this, toQ_ofRat this⟩

theorem mom_aux1 {R a : ℚ} (hR : 2 ^ 20 < R) (h : (R - 1) * (1 - 1 / 9007199254740992) ≤ a) : 1 ≤ a / 2 := by linarith
theorem mom_aux2 {R w : ℚ} (hR : 2 ^ 20 < R) (h : (1 + R) * (1 - 1 / 9007199254740992) ≤ w) : 1 ≤ w := by linarith
theorem mom_aux3 {x g : ℚ} (h1 : 1 ≤ x) (h : x * (1 - 1 / 9007199254740992) ≤ g) : 0 < g := by linarith
theorem mom_aux4 {R a g : ℚ} (h1 : (R - 1) * (1 - 1 / 9007199254740992) ≤ a) (h : a / 2 * (1 - 1 / 9007199254740992) ≤ g) :
    (R - 1) / 2 * (1 - 1 / 9007199254740992) ^ 2 ≤ g := by linarith
theorem mom_aux5 {R a g : ℚ} (h1 : a ≤ (R - 1) * (1 + 1 / 9007199254740992)) (h : g ≤ a / 2 * (1 + 1 / 9007199254740992)) :
    g ≤ (R - 1) / 2 * (1 + 1 / 9007199254740992) ^ 2 := by linarith
theorem mom_aux6 {x p : ℚ} (h0 : 0 < x) (h : x < p) : x * (1 - 1 / 9007199254740992) ≤ p := by linarith
theorem mom_aux7 {E : ℚ} (h : pow2 (-400) ≤ E) : pow2 (-401) ≤ 1 / 2 * E := by
  rw [show pow2 (-401) = 1 / 2 * pow2 (-400) by decide +kernel]; linarith
theorem mom_aux8 {E : ℚ} (h0 : 0 < E) (h : E ≤ pow2 100) : 1 / 2 * E ≤ pow2 100 := by linarith
theorem mom_aux9 {p m : ℚ} (h5 : p * m ≤ 1) (h : 1 + 1 / 2 ^ 20 ≤ p * m) : False := by
  have := h.trans h5
  norm_num at this

/-- the moment estimator gives moderate parameters, if the likelihood is defined and the greatest value is not too near to the
mean -/
theorem mom_shape {e e2 : F64} {l : List F64} {mx : F64} (hm : isFin (meanL e l)) (m0 : pow2 (-400) ≤ toQ (meanL e l))
    (m1 : toQ (meanL e l) ≤ pow2 100) (hl : mx ∈ l) (hmx : isFin mx) (hgap : (1 + 1 / 2 ^ 18) * toQ (meanL e l) ≤ toQ mx) (mx1 : toQ mx ≤ pow2 100)
    (hll : notNaN (momL (codeMath muslFU) e e2 l).llhood) (hs : isFin (momL (codeMath muslFU) e e2 l).sigma)
    (s0 : 0 < toQ (momL (codeMath muslFU) e e2 l).sigma) :
    Moderate (momL (codeMath muslFU) e e2 l).gamma (momL (codeMath muslFU) e e2 l).sigma := by
  unfold momL at hll hs s0 ⊢
  dsimp only at hll hs s0 ⊢
  generalize meanL e l = E at *
  generalize E *. E /. varL e e2 l = R at *
  have E0 : 0 < toQ E := lt_of_lt_of_le (pow2_pos _) m0
  have hh : isFin (lit (1 / 2) : F64) ∧ toQ (lit (1 / 2) : F64) = 1 / 2 := by decide +kernel
  have one : isFin (lit 1 : F64) ∧ toQ (lit 1 : F64) = 1 := by decide +kernel
  -- half of the mean
  have H0 : pow2 (-401) ≤ toQ (lit (1 / 2) : F64) * toQ E := by
    rw [hh.2]; exact mom_aux7 m0
  have H1 : toQ (lit (1 / 2) : F64) * toQ E ≤ pow2 100 := by rw [hh.2]; exact mom_aux8 E0 m1
  have H00 : 0 < toQ (lit (1 / 2) : F64) * toQ E := lt_of_lt_of_le (pow2_pos _) H0
  obtain ⟨h1, h2⟩ := mul_fin' hh.1 hm (by rw [abs_of_pos H00]; exact H1.trans (pow2_le (by norm_num)))
  have h3 := rq_pos_bounds (H0.trans' (pow2_le (by norm_num)))
  rw [← h2] at h3
  have hlo : pow2 (-401) ≤ toQ (F64.mul (lit (1 / 2)) E) := by rw [h2]; exact le_rq (by norm_num) H0
  have h0 : 0 < toQ (F64.mul (lit (1 / 2)) E) := lt_of_lt_of_le (pow2_pos _) hlo
  rw [hh.2] at h3
  -- 1 + R is finite and positive
  have hw : isFin (lit 1 +. R : F64) := by
    have : isFin ((lit 1 +. R) *. (lit (1 / 2) *. E) : F64) := by
      change isFin (F64.mul _ _)
      rw [F64.mul_comm']
      exact hs
    exact mul_isFin_left this
  have hRf := (add_isFin hw).2
  obtain ⟨zw, hzw⟩ := add_fin one.1 hRf
  have hw' : isFin (F64.add (lit 1) R) := hw
  have w1 : toQ (F64.add (lit 1) R) = rq (1 + toQ R) := by
    rw [hzw] at hw' ⊢
    rw [fin_toQ hw', one.2]
  obtain ⟨zs, hzs⟩ := mul_fin h1 hw'
  have hs' : isFin (F64.mul (F64.mul (lit (1 / 2)) E) (F64.add (lit 1) R)) := hs
  have s0' : 0 < toQ (F64.mul (F64.mul (lit (1 / 2)) E) (F64.add (lit 1) R)) := s0
  have s1 : toQ (F64.mul (F64.mul (lit (1 / 2)) E) (F64.add (lit 1) R)) = rq (toQ (F64.mul (lit (1 / 2)) E) * toQ (F64.add (lit 1) R)) := by
    rw [hzs] at hs' ⊢
    rw [fin_toQ hs']
  have w0 : 0 < toQ (F64.add (lit 1) R) := by
    by_contra hc
    have := rq_mono (mul_nonpos_of_nonneg_of_nonpos h0.le (not_lt.mp hc))
    rw [rq_zero, ← s1] at this
    linarith
  have hR1 : 0 < 1 + toQ R := by
    by_contra hc
    have := rq_mono (not_lt.mp hc)
    rw [rq_zero, ← w1] at this
    linarith
  obtain ⟨za, hza⟩ := sub_fin one.1 hRf
  rw [one.2] at hza
  rcases le_or_gt (toQ R) (2 ^ 20) with hR | hR
  · -- a small ratio
    have hA : |1 - toQ R| ≤ pow2 21 := by
      rw [show pow2 21 = 2 ^ 21 by decide +kernel, abs_le]
      constructor <;> linarith
    have hA' := fin_ofRat (z := za) (hA.trans (pow2_le (by norm_num)))
    rw [← hza] at hA'
    have hB : |toQ (F64.sub (lit 1) R)| ≤ pow2 21 := by rw [hA'.2]; exact rq_abs_le (by norm_num) hA
    have hG : |toQ (lit (1 / 2) : F64) * toQ (F64.sub (lit 1) R)| ≤ pow2 20 := by
      rw [hh.2, abs_mul, abs_of_pos (by norm_num : (0 : ℚ) < 1 / 2), show pow2 20 = 1 / 2 * pow2 21 by decide +kernel]
      linarith
    obtain ⟨g1, g2⟩ := mul_fin' hh.1 hA'.1 (hG.trans (pow2_le (by norm_num)))
    have hRne : toQ R ≠ -1 := by intro h; rw [h] at hR1; norm_num at hR1
    have wlo : pow2 (-53) ≤ toQ (F64.add (lit 1) R) := by
      rw [w1]
      refine le_rq (by norm_num) ?_
      have := (near_one hRf).2 hRne
      rwa [abs_of_pos hR1] at this
    have whi : toQ (F64.add (lit 1) R) ≤ pow2 21 := by
      have hle : |1 + toQ R| ≤ pow2 21 := by
        rw [abs_of_pos hR1, show pow2 21 = 2 ^ 21 by decide +kernel]; linarith
      have := rq_abs_le (by norm_num) hle
      rw [← w1] at this
      exact (le_abs_self _).trans this
    have hhi : toQ (F64.mul (lit (1 / 2)) E) ≤ pow2 100 := by
      have := rq_abs_le (by norm_num : (-1074 : ℤ) ≤ 100) (by rw [abs_of_pos H00]; exact H1)
      rw [← h2] at this
      exact (le_abs_self _).trans this
    refine ⟨⟨g1, ?_⟩, ?_, hs, ?_, ?_⟩
    · have := rq_abs_le (by norm_num) hG
      rw [← g2, show pow2 20 = 2 ^ 20 by decide +kernel] at this
      exact this
    · by_cases hR1' : toQ R = 1
      · left
        change toQ (F64.mul (lit (1 / 2)) (F64.sub (lit 1) R)) = 0
        rw [g2, hA'.2, hR1', sub_self, rq_zero, mul_zero, rq_zero]
      · right
        change pow2 (-54) ≤ |toQ (F64.mul (lit (1 / 2)) (F64.sub (lit 1) R))|
        rw [g2]
        refine le_rq_abs (by norm_num) ?_
        have : pow2 (-53) ≤ |toQ (F64.sub (lit 1) R)| := by
          rw [hA'.2]; exact le_rq_abs (by norm_num) ((near_one hRf).1 hR1')
        rw [hh.2, abs_mul, abs_of_pos (by norm_num : (0 : ℚ) < 1 / 2), show pow2 (-54) = 1 / 2 * pow2 (-53) by decide +kernel]
        exact mul_le_mul_of_nonneg_left this (by norm_num)
    · change _ ≤ toQ (F64.mul (F64.mul (lit (1 / 2)) E) (F64.add (lit 1) R))
      rw [s1]
      refine le_rq (by norm_num) ?_
      refine le_trans ?_ (mul_le_mul hlo wlo (pow2_pos _).le h0.le)
      decide +kernel
    · change toQ (F64.mul (F64.mul (lit (1 / 2)) E) (F64.add (lit 1) R)) ≤ _
      have hle : |toQ (F64.mul (lit (1 / 2)) E) * toQ (F64.add (lit 1) R)| ≤ pow2 700 := by
        rw [abs_of_pos (mul_pos h0 w0)]
        refine (mul_le_mul hhi whi w0.le (pow2_pos _).le).trans ?_
        decide +kernel
      have := rq_abs_le (by norm_num) hle
      rw [s1]
      exact (le_abs_self _).trans this
  · -- a large ratio: the likelihood is NaN
    exfalso
    have hRp : 0 < toQ R := by linarith
    have hA1 : |1 - toQ R| ≤ |toQ R| := by
      rw [abs_of_pos hRp, abs_le]; constructor <;> linarith
    have hA' := fin_of_abs_le (z := za) hA1
    rw [← hza] at hA'
    have hA2 : toQ (F64.sub (lit 1) R) = -rq (toQ R - 1) := by rw [hA'.2, ← rq_neg]; congr 1; ring
    have p22 : pow2 (-1022) ≤ 1 := by decide +kernel
    have hA3 := rq_pos_bounds (q := toQ R - 1) (p22.trans (by linarith))
    obtain ⟨zg, hzg⟩ := mul_fin hh.1 hA'.1
    rw [hh.2] at hzg
    have hG' := fin_of_abs_le (z := zg) (q := 1 / 2 * toQ (F64.sub (lit 1) R)) (y := F64.sub (lit 1) R) (by
      rw [abs_mul, abs_of_pos (by norm_num : (0 : ℚ) < 1 / 2)]
      linarith [abs_nonneg (toQ (F64.sub (lit 1) R))])
    rw [← hzg] at hG'
    have hG2 : toQ (F64.mul (lit (1 / 2)) (F64.sub (lit 1) R)) = -rq (rq (toQ R - 1) / 2) := by
      rw [hG'.2, hA2, show (1 / 2 * -rq (toQ R - 1) : ℚ) = -(rq (toQ R - 1) / 2) by ring, rq_neg]
    have a1 : 1 ≤ rq (toQ R - 1) / 2 := mom_aux1 hR hA3.1
    have hG3 := rq_pos_bounds (p22.trans a1)
    have hW3 := rq_pos_bounds (q := 1 + toQ R) (p22.trans (by linarith))
    rw [← w1] at hW3
    have hS0 : pow2 (-402) ≤ toQ (F64.mul (lit (1 / 2)) E) * toQ (F64.add (lit 1) R) := by
      have hw1 : 1 ≤ toQ (F64.add (lit 1) R) := mom_aux2 hR hW3.1
      refine le_trans (pow2_le (by norm_num)) (hlo.trans ?_)
      exact le_mul_of_one_le_right h0.le hw1
    have hS3 := rq_pos_bounds (hS0.trans' (pow2_le (by norm_num)))
    rw [← s1] at hS3
    set γ := F64.mul (lit (1 / 2)) (F64.sub (lit 1) R) with hγ
    set σ := F64.mul (F64.mul (lit (1 / 2)) E) (F64.add (lit 1) R) with hσ
    have gpos : 0 < rq (rq (toQ R - 1) / 2) := mom_aux3 a1 hG3.1
    -- the quotient
    have up : rq (rq (toQ R - 1) / 2) / toQ σ ≤ 2 / toQ E := by
      refine mom_chain_up (R := toQ R) (h := toQ (F64.mul (lit (1 / 2)) E)) (w := toQ (F64.add (lit 1) R)) E0 hR ?_ ?_ hS3.1 ?_
      · linarith [h3.1]
      · linarith [hW3.1]
      · exact mom_aux5 hA3.2 hG3.2
    have qle : rq (rq (toQ R - 1) / 2) / toQ σ ≤ pow2 401 := by
      refine up.trans ?_
      rw [div_le_iff₀ E0]
      have := mul_le_mul_of_nonneg_left m0 (pow2_pos 401).le
      refine le_trans (le_of_eq ?_) this
      decide +kernel
    have qabs : |toQ γ / toQ σ| = rq (rq (toQ R - 1) / 2) / toQ σ := by
      rw [hG2, neg_div, abs_neg, abs_of_pos (div_pos gpos s0')]
    obtain ⟨d1, d2⟩ := div_fin' hG'.1 hs' s0'.ne' (by rw [qabs]; exact qle.trans (pow2_le (by norm_num)))
    have d3 : toQ (F64.div γ σ) = -rq (rq (rq (toQ R - 1) / 2) / toQ σ) := by
      rw [d2, hG2, neg_div, rq_neg]
    have mxp : 0 < toQ mx := lt_of_lt_of_le (by positivity) hgap
    have qlow : pow2 (-1022) ≤ rq (rq (toQ R - 1) / 2) / toQ σ := by
      by_contra hc
      have hc := not_le.mp hc
      have hle : rq (rq (toQ R - 1) / 2) / toQ σ * (1 - 1 / 9007199254740992) ≤ pow2 (-1022) := mom_aux6 (div_pos gpos s0') hc
      have := mom_chain (E := toQ E) (R := toQ R) (h := toQ (F64.mul (lit (1 / 2)) E)) (w := toQ (F64.add (lit 1) R)) (σ := toQ σ)
        (g := rq (rq (toQ R - 1) / 2)) (mx := toQ mx) E0 hR rfl rfl (by linarith [h3.2]) (by linarith [hW3.2]) w0 hS3.2 s0' (mom_aux4 hA3.1 hG3.1) hle hgap
      have h5 : pow2 (-1022) * toQ mx ≤ pow2 (-1022) * pow2 100 := mul_le_mul_of_nonneg_left mx1 (pow2_pos _).le
      have h6 : pow2 (-1022) * pow2 100 ≤ 1 := by decide +kernel
      exact mom_aux9 (h5.trans h6) this
    have hr := rq_pos_bounds qlow
    set r := rq (rq (rq (toQ R - 1) / 2) / toQ σ) with hrd
    have key := mom_chain (E := toQ E) (R := toQ R) (h := toQ (F64.mul (lit (1 / 2)) E)) (w := toQ (F64.add (lit 1) R)) (σ := toQ σ)
        (g := rq (rq (toQ R - 1) / 2)) (mx := toQ mx) E0 hR rfl rfl (by linarith [h3.2]) (by linarith [hW3.2]) w0 hS3.2 s0' (mom_aux4 hA3.1 hG3.1) hr.1 hgap
    have r0 : 0 ≤ r := rq_nonneg (div_pos gpos s0').le
    have rle : r ≤ pow2 401 := by
      have := rq_abs_le (q := rq (rq (toQ R - 1) / 2) / toQ σ) (e := 401) (by norm_num) (by rw [abs_of_pos (div_pos gpos s0')]; exact qle)
      exact (le_abs_self _).trans this
    have ple : r * toQ mx ≤ pow2 501 := by
      refine (mul_le_mul rle mx1 mxp.le (pow2_pos _).le).trans ?_
      decide +kernel
    have pneg : toQ (F64.div γ σ) * toQ mx = -(r * toQ mx) := by rw [d3]; ring
    have pabs : |toQ (F64.div γ σ) * toQ mx| ≤ pow2 501 := by
      rw [pneg, abs_neg, abs_of_nonneg (mul_nonneg r0 mxp.le)]; exact ple
    obtain ⟨t1, t2⟩ := mul_fin' d1 hmx (pabs.trans (pow2_le (by norm_num)))
    have rep1 : Rep (1 + 1 / 2 ^ 20 : ℚ) := by
      have := rep_scaled (i := 2 ^ 20 + 1) (e := -20) (by norm_num) (by norm_num)
      rwa [show ((2 ^ 20 + 1 : ℤ) : ℚ) * pow2 (-20) = 1 + 1 / 2 ^ 20 by decide +kernel] at this
    have t3 : toQ (F64.mul (F64.div γ σ) mx) ≤ -(1 + 1 / 2 ^ 20) := by
      rw [t2, pneg, rq_neg]
      have := rq_mono key
      rw [rq_rep rep1] at this
      linarith
    have t4 : |toQ (F64.mul (F64.div γ σ) mx)| ≤ pow2 501 := by rw [t2]; exact rq_abs_le (by norm_num) pabs
    have t5 : |toQ (lit 1 : F64) + toQ (F64.mul (F64.div γ σ) mx)| ≤ pow2 1023 := by
      refine (abs_add_le _ _).trans ?_
      rw [one.2, abs_one]
      have b : 1 + pow2 501 ≤ pow2 1023 := by decide +kernel
      linarith
    obtain ⟨a1', a2'⟩ := add_fin' one.1 t1 t5
    have a3' : toQ (F64.add (lit 1) (F64.mul (F64.div γ σ) mx)) < 0 := by
      rw [a2', one.2]
      have hm20 : Rep (-(1 / 2 ^ 20) : ℚ) := by
        have := rep_scaled (i := -1) (e := -20) (by norm_num) (by norm_num)
        rwa [show ((-1 : ℤ) : ℚ) * pow2 (-20) = -(1 / 2 ^ 20) by decide +kernel] at this
      have hle : 1 + toQ (F64.mul (F64.div γ σ) mx) ≤ -(1 / 2 ^ 20) := by linarith
      have := rq_mono hle
      rw [rq_rep hm20] at this
      exact lt_of_le_of_lt this (by norm_num)
    have hz := toQ_of_lit0
    have hnan : xlog muslFU (F64.add (lit 1) (F64.mul (F64.div γ σ) mx)) = nan :=
      (C52_partial _).2.1 ((lt_fin_iff a1' hz.1).mpr (by rw [hz.2]; exact a3'))
    apply hll
    have hγ0 : ¬ ((lit (1 / 2) *. (lit 1 -. R) : F64) ==. lit 0) = true := by
      intro h
      have := ((eq_zero_iff _).mp h).2
      change toQ γ = 0 at this
      rw [hG2] at this
      linarith
    unfold logLikL
    rw [if_neg hγ0]
    refine foldl_nan_mem _ _ _ ⟨mx, hl, ?_⟩
    have : (codeMath muslFU).log (lit 1 +. γ /. σ *. mx : F64) = nan := hnan
    change _ *. (codeMath muslFU).log (lit 1 +. γ /. σ *. mx : F64) = nan
    rw [this]
    exact mul_nan_right _

/-! ### The estimated parameters -/

/-- a shape from a root is moderate -/
theorem root_moderate {l : List F64} {x : F64} (hl : l ≠ []) (hn : l.length ≤ 2 ^ 24) (hx : isFin x) (x0 : pow2 (-652) ≤ |toQ x|)
    (x1 : |toQ x| ≤ pow2 1000) (hs : isFin ((grimshawVL (codeMath muslFU) l x -. lit 1) /. x))
    (s0 : 0 < toQ ((grimshawVL (codeMath muslFU) l x -. lit 1) /. x)) :
    Moderate (grimshawVL (codeMath muslFU) l x -. lit 1) ((grimshawVL (codeMath muslFU) l x -. lit 1) /. x) := by
  have hf := div_isFin_left hs
  have hb := root_shape hl hn hf
  have hV := sub_isFin_left hf
  have xp : 0 < |toQ x| := (pow2_pos _).trans_le x0
  have one : isFin (lit 1 : F64) ∧ toQ (lit 1 : F64) = 1 := by decide +kernel
  obtain ⟨zg, hzg⟩ := sub_fin hV one.1
  rw [one.2] at hzg
  generalize grimshawVL (codeMath muslFU) l x = V at *
  have hzg' : (V -. lit 1 : F64) = ofRat zg (toQ V - 1) := hzg
  obtain ⟨zs, hzs⟩ := div_fin hf hx (abs_pos.mp xp)
  have hzs' : ((V -. lit 1) /. x : F64) = ofRat zs (toQ (V -. lit 1) / toQ x) := hzs
  have hg2 : toQ (V -. lit 1 : F64) = rq (toQ V - 1) := by
    have h := hf
    rw [hzg'] at h ⊢
    exact fin_toQ h
  have hs2 : toQ ((V -. lit 1) /. x : F64) = rq (toQ (V -. lit 1 : F64) / toQ x) := by
    have h := hs
    rw [hzs'] at h ⊢
    exact fin_toQ h
  have hV1 : toQ V ≠ 1 := by
    intro h
    rw [h, sub_self, rq_zero] at hg2
    rw [hg2, zero_div, rq_zero] at hs2
    rw [hs2] at s0
    exact lt_irrefl _ s0
  have hglo : pow2 (-53) ≤ |toQ (V -. lit 1 : F64)| := by
    rw [hg2]
    refine le_rq_abs (by norm_num) ?_
    rw [abs_sub_comm]
    exact (near_one hV).1 hV1
  have hb10 : |toQ (V -. lit 1 : F64)| ≤ pow2 10 := hb.trans (by decide +kernel)
  generalize (V -. lit 1 : F64) = g at *
  refine ⟨⟨hf, hb.trans (by norm_num)⟩, .inr (le_trans (pow2_le (by norm_num)) hglo), hs, ?_, ?_⟩
  · have h1 : pow2 (-1054) ≤ |toQ g / toQ x| := by
      rw [abs_div, le_div_iff₀ xp]
      refine le_trans (mul_le_mul_of_nonneg_left x1 (pow2_pos _).le) (le_trans ?_ hglo)
      decide +kernel
    have h2 := le_rq_abs (by norm_num) h1
    rwa [← hs2, abs_of_pos s0] at h2
  · have h1 : |toQ g / toQ x| ≤ pow2 700 := by
      rw [abs_div, div_le_iff₀ xp]
      refine hb10.trans (le_trans ?_ (mul_le_mul_of_nonneg_left x0 (pow2_pos _).le))
      decide +kernel
    have h2 := rq_abs_le (by norm_num) h1
    rw [← hs2] at h2
    exact (le_abs_self _).trans h2

/-- The parameters estimated from regular excesses are moderate. -/
theorem tailFit_regular (t : Tail F64) (l : List F64) (hl : l ≠ []) (hn : l.length ≤ 2 ^ 24) (hv : ∀ v ∈ l, isFin v ∧ 0 ≤ toQ v)
    (hmx : t.peaks.max ∈ l) (m0 : l.length * pow2 (-24) ≤ toQ t.peaks.max) (m1 : toQ t.peaks.max ≤ pow2 100)
    (hmn : t.peaks.min ∈ l) (n0 : pow2 (-400) ≤ toQ t.peaks.min) (n1 : toQ t.peaks.min ≤ pow2 100)
    (he : isFin t.peaks.e) (e0 : pow2 (-900) ≤ toQ t.peaks.e) (e1 : toQ t.peaks.e ≤ pow2 149)
    (hmf : isFin (meanL t.peaks.e l)) (hmean : toQ t.peaks.min < toQ (meanL t.peaks.e l)) (hm1 : toQ (meanL t.peaks.e l) ≤ pow2 100)
    (hgap : (1 + 1 / 2 ^ 18) * toQ (meanL t.peaks.e l) ≤ toQ t.peaks.max) :
    Moderate (tailFitL (codeMath muslFU) t l).2.gamma (tailFitL (codeMath muslFU) t l).2.sigma := by
  have hs := tailFit_scale_pos t l hl hn hv hmx m0 m1 hmn n0 n1 he e0 e1 ((le_fin_iff (hv _ hmn).1 hmf).mpr hmean.le)
  have hz := toQ_of_lit0
  have h1n : 1 ≤ l.length := List.length_pos_iff.mpr hl
  have nq : (1 : ℚ) ≤ l.length := by exact_mod_cast h1n
  have m0' : pow2 (-24) ≤ toQ t.peaks.max := le_trans (le_mul_of_one_le_left (pow2_pos _).le nq) m0
  have mp : 0 < toQ t.peaks.max := (pow2_pos _).trans_le m0'
  have hmean0 : pow2 (-400) ≤ toQ (meanL t.peaks.e l) := n0.trans hmean.le
  have case0 : Moderate (lit 0) (meanL t.peaks.e l) :=
    ⟨⟨hz.1, by rw [hz.2]; norm_num⟩, .inl hz.2, hmf, le_trans (pow2_le (by norm_num)) hmean0, hm1.trans (pow2_le (by norm_num))⟩
  have := tailFitL_cases (codeMath muslFU) t l (fun γ σ => isFin σ → 0 < toQ σ → Moderate γ σ) ?_ ?_ ?_
  · exact this hs.1 hs.2
  · intro _ _
    exact case0
  · intro hll h1 h2
    exact mom_shape hmf hmean0 hm1 hmx (hv _ hmx).1 hgap m1 hll h1 h2
  · intro x hx hll
    unfold simplifiedL at hll ⊢
    split
    · intro _ _
      exact case0
    · intro h1 h2
      have hb : isFin x ∧ pow2 (-652) ≤ |toQ x| ∧ |toQ x| ≤ pow2 1000 := by
        rcases hx with hx | hx
        · obtain ⟨a1, a2, a3, a4⟩ := left_interval (hv _ hmx).1 m0 h1n hn m1 _ x hx
          rw [abs_of_nonpos a2]
          refine ⟨a1, ?_, ?_⟩
          · have hlo : pow2 (-50) ≤ -toQ x * toQ t.peaks.max := by
              have := le_mul_of_one_le_left (pow2_pos (-50)).le nq
              linarith
            have hx0 : 0 ≤ -toQ x := by linarith
            have := hlo.trans (mul_le_mul_of_nonneg_left m1 hx0)
            have h3 : pow2 (-652) * pow2 100 ≤ -toQ x * pow2 100 := le_trans (by decide +kernel) this
            exact le_of_mul_le_mul_right h3 (pow2_pos _)
          · have hx0 : 0 ≤ -toQ x := by linarith
            have h3 := mul_le_mul_of_nonneg_left m0' hx0
            have h4 : -toQ x * pow2 (-24) ≤ 2 := by linarith
            have h5 : -toQ x * pow2 (-24) ≤ pow2 1000 * pow2 (-24) := h4.trans (by decide +kernel)
            exact le_of_mul_le_mul_right h5 (pow2_pos _)
        · obtain ⟨a1, a2, a3, a4⟩ := right_interval (hv _ hmx).1 m0' m1 (hv _ hmn).1 n0 n1 hmf hmean.le (hm1.trans (pow2_le (by norm_num))) _ x hx
          rw [abs_of_nonneg a2]
          exact ⟨a1, a4 hmean, a3⟩
      exact root_moderate hl hn hb.1 hb.2.1 hb.2.2 h1 h2

end Verif

/-
C126: a fit that finds no excess.
-/
import Verif.Props.P2
import Verif.Props.Fit
import Verif.Proofs.SigmaPos

namespace Verif
open F64

theorem zero_div_cases (y : F64) : (lit 0 : F64) /. y = nan ∨ ∃ b, (lit 0 : F64) /. y = zero b := by
  have h0 : (lit 0 : F64) = zero false := by decide +kernel
  rw [h0]
  cases y with
  | nan => exact .inl rfl
  | inf b => exact .inr ⟨_, rfl⟩
  | fin b k =>
    change F64.div (F64.fin false ⟨0, by decide⟩) (F64.fin b k) = nan ∨ ∃ b', F64.div (F64.fin false ⟨0, by decide⟩) (F64.fin b k) = zero b'
    unfold F64.div
    by_cases hk : k.val = 0
    · simp [hk]
    · right
      dsimp only
      rw [if_neg hk, show toQ (F64.fin false ⟨0, by decide⟩) = 0 by decide +kernel, zero_div]
      exact ⟨_, ofRat_zero _⟩

theorem div_zero_cases (q : F64) (b : Bool) : q /. zero b = nan ∨ ∃ b', q /. zero b = inf b' := by
  cases q with
  | nan => exact .inl rfl
  | inf b => exact .inr ⟨_, rfl⟩
  | fin c k =>
    change F64.div (F64.fin c k) (F64.fin b ⟨0, by decide⟩) = nan ∨ ∃ b', F64.div (F64.fin c k) (F64.fin b ⟨0, by decide⟩) = inf b'
    unfold F64.div
    by_cases hk : k.val = 0
    · left; simp [hk]
    · right; simp [hk]

/-- the logarithm of q / s for s = 0 / n -/
theorem xlog_no_excess (q y : F64) : xlog muslFU (q /. (lit 0 /. y)) = nan := by
  have hn : xlog muslFU nan = nan := by decide +kernel
  rcases zero_div_cases y with h | ⟨b, h⟩
  · rw [h, show q /. (nan : F64) = nan by cases q <;> rfl, hn]
  · rw [h]
    rcases div_zero_cases q b with h | ⟨b', h⟩ <;> rw [h]
    · exact hn
    · cases b' <;> decide +kernel

theorem quantileC_no_excess (k : Core F64) (hN : k.Nt = 0) (q : F64) : quantileC (codeMath muslFU) k q = .ok nan := by
  have h0 : (lit k.Nt.toNat : F64) = lit 0 := by rw [hN]; rfl
  have hl := xlog_no_excess q (lit k.n.toNat)
  have hx : xexp muslFU nan = .ok (nan : F64) := rfl
  have ht : tail_quantile (codeMath muslFU) (mkTail k.gamma k.sigma) (lit k.Nt.toNat /. lit k.n.toNat) q = .ok nan := by
    unfold tail_quantile
    rw [h0]
    dsimp only [codeMath]
    rw [hl]
    split
    · rw [mul_nan_right]
    · unfold xpow
      dsimp only
      rw [hl, mul_nan_right, hx]
      change Except.ok _ = _
      rw [nan_sub_left, mul_nan_right]
  unfold quantileC
  rw [ht]
  change Except.ok _ = _
  rw [mul_nan_right, add_nan_right]

/-- **C126**. Without recorded excesses `spot_quantile` is NaN for every `q`, whatever the tail holds. -/
theorem C126_quantile (s : Spot F64) (hN : s.Nt = 0) (q : F64) : spot_quantile (codeMath muslFU) s q = .ok nan := by
  rw [spot_quantile_core]
  exact quantileC_no_excess _ hN q

/-- **C126**. A fit whose excess threshold `et` is a number, on a detector reached by any calls, when no training value is strictly beyond `et`: it is
defined, returns -1004, leaves `Nt` = 0 and an anomaly threshold that is NaN, and the next step flags nothing. -/
theorem C126_fit (lib : Lib F64) (q level : F64) (low disc : ℤ) (me : UInt64) (s : Spot F64) (h : Heap F64)
    (R : Reaches (codeMath muslFU) lib q low disc level me s h) (data : List F64) (size : UInt64) (hs : size.toNat ≤ data.length) (et : F64)
    (het : p2_quantile (if low ≠ 0 then lit 1 -. level else level) data size = .ok et) (hn : notNaN et)
    (hno : ∀ x ∈ data.take size.toNat, ¬ Spec.Beyond low et x) :
    ∃ s' h', spot_fit (codeMath muslFU) h s data size = .ok (-1004, s', h') ∧ s'.Nt = 0 ∧ s'.n = size ∧ s'.excess_threshold = et ∧
      s'.anomaly_threshold = nan ∧
      ∀ x r s'' h'', spot_step (codeMath muslFU) h' s' x = .ok (r, s'', h'') → r ≠ ANOMALY := by
  obtain ⟨a, xs, I, P⟩ := R.inv
  have href := fit_refines (M := codeMath muslFU) I data size hs
  have hlow : s.core.low ≠ 0 ↔ low ≠ 0 := by rw [P.plow]; split <;> simp [*]
  have hp : (if s.core.low ≠ 0 then p2_quantile (lit 1 -. s.core.level) data size else p2_quantile s.core.level data size : C F64) = .ok et := by
    rw [← het, P.plevel]
    by_cases c : low ≠ 0
    · rw [if_pos c, if_pos (hlow.mpr c)]
    · rw [if_neg c, if_neg (fun c' => c (hlow.mp c'))]
  have hex : fitExcesses s.core.up_down et (data.take size.toNat) = [] := by
    rw [P.pud, fitExcesses_eq _ _ _ hn]
    unfold Spec.excesses Spec.beyond
    rw [List.map_eq_nil_iff, List.filter_eq_nil_iff]
    intro x hx
    simpa using hno x hx
  have hf : fitC (codeMath muslFU) me.toNat s.core xs data size = .ok (-1004,
      { refit (codeMath muslFU) me.toNat { s.core with n := size, et := et, Nt := 0 } xs with at_ := nan }, xs) := by
    unfold fitC
    dsimp only
    rw [hp]
    change (if is_nan et = true then _ else _) = _
    rw [if_neg (by rw [(is_nan_false et).mpr hn]; simp), hex, List.append_nil, quantileC_no_excess _ (by rfl)]
    rfl
  unfold Refines at href
  rw [hf] at href
  obtain ⟨s', h', e, hc, _, _⟩ := href
  have eat : s'.anomaly_threshold = nan := congrArg Core.at_ hc
  refine ⟨s', h', e, congrArg Core.Nt hc, congrArg Core.n hc, congrArg Core.et hc, eat, fun x r s'' h'' hst hr => ?_⟩
  rcases step_cases hst with ⟨_, h2, _⟩ | ⟨_, h2, _⟩ | ⟨_, _, _, h2, _⟩ | ⟨_, _, _, h2, _⟩
  · rw [h2] at hr; exact absurd hr (by decide)
  · unfold anomTest at h2
    rw [eat, show x -. (nan : F64) = nan by cases x <;> rfl, mul_nan_right] at h2
    simp at h2
    exact absurd h2.2 (by decide +kernel)
  · rw [h2] at hr; exact absurd hr (by decide)
  · rw [h2] at hr; exact absurd hr (by decide)

/-- **C126**. Training with one repeated value: the fit is refused with -1004, and the excess threshold is that value. -/
theorem C126_constant (lib : Lib F64) (q level : F64) (low disc : ℤ) (me : UInt64) (s : Spot F64) (h : Heap F64)
    (R : Reaches (codeMath muslFU) lib q low disc level me s h) (c : F64) (hc : isFin c) (hb : |toQ c| ≤ 2 ^ 1022) (data : List F64) (size : UInt64)
    (h5 : 5 ≤ size.toNat) (hs : size.toNat ≤ data.length) (h53 : size.toNat ≤ 2 ^ 53) (hd : ∀ x ∈ data.take size.toNat, x = c) :
    ∃ s' h', spot_fit (codeMath muslFU) h s data size = .ok (-1004, s', h') ∧ s'.Nt = 0 ∧ isFin s'.excess_threshold ∧
      toQ s'.excess_threshold = toQ c ∧ s'.anomaly_threshold = nan := by
  obtain ⟨et, e, hf, ⟨x, hx, hx'⟩, ⟨y, hy, hy'⟩⟩ := C43_within (if low ≠ 0 then lit 1 -. level else level) data size h5 hs h53
    (fun x hx => by rw [hd x hx]; exact ⟨hc, hb⟩)
  rw [hd x hx] at hx'
  rw [hd y hy] at hy'
  have he : toQ et = toQ c := le_antisymm hy' hx'
  obtain ⟨s', h', e1, e2, _, e3, e4, _⟩ := C126_fit lib q level low disc me s h R data size hs et e hf.notNaN (fun x hx hB => by
    rw [hd x hx] at hB
    have hv : c.val = et.val := by rw [val_fin hc, val_fin hf, he]
    have := hB.2
    rw [hv] at this
    simp at this)
  exact ⟨s', h', e1, e2, by rw [e3]; exact hf, by rw [e3, he], e4⟩

/-- eight times the value 0.3 on a fresh detector -/
example : (spot_fit (codeMath muslFU) Sample.heap Sample.spot (List.replicate 8 (lit (3 / 10))) 8).map
    (fun r => (r.1, r.2.1.Nt, r.2.1.excess_threshold, r.2.1.anomaly_threshold)) = .ok (-1004, 0, lit (3 / 10), nan) := by decide +kernel


end Verif

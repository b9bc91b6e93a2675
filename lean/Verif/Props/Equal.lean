/-
C128: equal excesses.
-/
import Verif.Proofs.Equal
import Verif.Props.Order
import Verif.Props.Regular

namespace Verif
open XR Equal

/-- **C128** (negation). On doubles the fit of three equal values 0.3 (threshold 0, so three equal excesses) is not defined: the rounded moments
give parameters for which the exponential leaves the range of the conversion. -/
theorem C128_false : ∃ et : F64, p2_quantile (lit (9 / 10)) [lit (3 / 10), lit (3 / 10), lit (3 / 10)] 3 = .ok et ∧ et = lit 0 ∧
    ∃ e, spot_fit (codeMath muslFU) Sample.init.2.2 Sample.init.2.1 [lit (3 / 10), lit (3 / 10), lit (3 / 10)] 3 = .error e := by
  obtain ⟨et, st, h1, -, -, -, he⟩ := C88_false
  refine ⟨et, h1, ?_, he⟩
  unfold p2_quantile quantile at h1
  rw [if_pos (by decide)] at h1
  exact (Except.ok.inj h1).symm

theorem quantileC_exp {K : Core XR} (q et σ u : ℝ) (hq : 0 < q) (hg : K.gamma = lit 0) (hσ : K.sigma = fin σ) (hu : K.up_down = fin u)
    (he : K.et = fin et) (hN : 0 < K.Nt.toNat) (hn : 0 < K.n.toNat) :
    quantileC exactMath K (fin q) = .ok (fin (et + u * (σ * Real.log (K.Nt.toNat / (K.n.toNat * q))))) := by
  have a : (0 : ℝ) < K.Nt.toNat := by exact_mod_cast hN
  have b : (0 : ℝ) < K.n.toNat := by exact_mod_cast hn
  unfold quantileC tail_quantile mkTail
  dsimp only
  rw [hg, if_pos (by rw [lit_fin, eq_ff]; simp), he, hu, hσ, lit_fin, lit_fin]
  push_cast
  rw [div_ff b.ne', div_ff (div_pos a b).ne', log_f (div_pos hq (div_pos a b)), neg_f, mul_ff]
  show Except.ok (fin et +. fin u *. fin _) = _
  rw [mul_ff, add_ff]
  congr 3
  have : (K.Nt.toNat : ℝ) / (K.n.toNat * q) = (q / (K.Nt.toNat / K.n.toNat))⁻¹ := by field_simp
  rw [this, Real.log_inv]
  ring

theorem exs_const {low : ℤ} {et y : ℝ} {d : List ℝ} (h : ∀ x ∈ d, (if low ≠ 0 then x < et else et < x) → x = y) :
    exs low et d = List.replicate (exs low et d).length |y - et| := by
  refine List.eq_replicate_of_mem fun b hb => ?_
  unfold exs at hb
  obtain ⟨x, hx, rfl⟩ := List.mem_map.mp hb
  obtain ⟨m, hx⟩ := List.mem_filter.mp hx
  by_cases c : low ≠ 0
  · simp only [if_pos c, decide_eq_true_eq] at hx h ⊢
    have := h x m hx
    subst this
    rw [abs_of_neg (by linarith)]
    ring
  · simp only [if_neg c, decide_eq_true_eq] at hx h ⊢
    have := h x m hx
    subst this
    rw [abs_of_pos (by linarith)]

/-- **C128** (partial). In exact arithmetic, on a fresh detector with any capacity and either tail: if all `k ≥ 1` training values beyond the excess
threshold `et` are equal to one number `y`, the fit succeeds with `γ = 0`, `σ = |y - et|`, that is the exponential model, and the anomaly threshold is
`et + (y - et) log (k / (n q))`. Missing: the rounding of doubles (`C128_false`). -/
theorem C128_partial (lib : Lib XR) (h0 : Heap XR) (s0 : Spot XR) (q : ℝ) (level : XR) (low disc : ℤ) (me : UInt64) (h1 : 1 ≤ me.toNat)
    (h2 : me.toNat < 2 ^ 61) (hi : (spot_init lib h0 s0 (fin q) low disc level me).1 = 0) (hq : 0 < q) (data : List ℝ) (size : UInt64)
    (hs : size.toNat = data.length) (et y : ℝ) (k : ℕ)
    (het : p2_quantile (if low ≠ 0 then lit 1 -. level else level) (data.map fin) size = .ok (fin et))
    (hk : k = (data.filter (fun x => if low ≠ 0 then x < et else et < x)).length) (hk1 : 1 ≤ k)
    (hy : ∀ x ∈ data, (if low ≠ 0 then x < et else et < x) → x = y) :
    ∃ s' h', spot_fit exactMath (spot_init lib h0 s0 (fin q) low disc level me).2.2 (spot_init lib h0 s0 (fin q) low disc level me).2.1
        (data.map fin) size = .ok (0, s', h') ∧
      s'.tail.gamma = fin 0 ∧ s'.tail.sigma = fin |y - et| ∧ s'.excess_threshold = fin et ∧ s'.Nt.toNat = k ∧ s'.n = size ∧
      s'.anomaly_threshold = fin (et + (y - et) * Real.log (k / (data.length * q))) := by
  obtain ⟨a, _, _, hK, I⟩ := init_ok hi h1 h2
  generalize spot_init lib h0 s0 (fin q) low disc level me = r at *
  have hl : (exs low et data).length = k := by rw [exs_length, hk]
  have hex := exs_const hy
  rw [hl] at hex
  obtain ⟨x, hx⟩ : ∃ x, x ∈ data.filter (fun x => if low ≠ 0 then x < et else et < x) := by
    apply List.exists_mem_of_length_pos
    omega
  obtain ⟨hm, hx⟩ := List.mem_filter.mp hx
  have hx : if low ≠ 0 then x < et else et < x := by
    by_cases c : low ≠ 0
    · simpa only [if_pos c, decide_eq_true_eq] using hx
    · simpa only [if_neg c, decide_eq_true_eq] using hx
  have := hy x hm hx
  subst this
  have hne : x ≠ et := by
    rintro rfl
    simp at hx
  have hpos : 0 < |x - et| := abs_pos.mpr (sub_ne_zero.mpr hne)
  have hkd : k ≤ data.length := by rw [hk]; exact List.length_filter_le _ _
  have hkN : (UInt64.ofNat k).toNat = k := by
    have := size.toNat_lt
    rw [UInt64.toNat_ofNat']
    exact Nat.mod_eq_of_lt (by omega)
  have key := fitC_fresh exactMath (c := me.toNat) (q := fin q) (disc := disc) hs.symm het
  rw [hl] at key
  rw [hex] at key
  have hf := fitL_equal hpos h1 h2 hk1 (nan : XR) nan
  have e1 := congrArg Prod.fst hf
  have e2 := congrArg Prod.snd hf
  have hu : (initCore (fin q) low disc level).up_down = fin (if low ≠ 0 then -1 else 1) := by
    unfold initCore
    dsimp only
    split <;> rw [lit_fin] <;> simp
  have hq' := quantileC_exp (K := refit exactMath me.toNat { initCore (fin q) low disc level with n := size, et := fin et, Nt := UInt64.ofNat k }
      ((List.replicate k |x - et|).map fin)) q et |x - et| _ hq (by unfold refit; dsimp only; exact (by simpa only [refit, initCore, cNAN_eq] using e1))
      (by unfold refit; dsimp only; exact (by simpa only [refit, initCore, cNAN_eq] using e2)) hu rfl (by show 0 < (UInt64.ofNat k).toNat; omega)
      (by show 0 < size.toNat; omega)
  have hr := fit_refines (M := exactMath) I (data.map fin) size (by simp [hs])
  unfold Refines at hr
  rw [hK] at hr
  cases hc : fitC exactMath me.toNat (initCore (fin q) low disc level) [] (data.map fin) size with
  | error e =>
    rw [hc] at key
    unfold fitTail at key
    change _ = Except.bind (quantileC _ _ (fin q)) _ at key
    rw [hq'] at key
    simp only [Except.bind, nan_f] at key
    cases key
  | ok w =>
    rw [hc] at key hr
    unfold fitTail at key
    change _ = Except.bind (quantileC _ _ (fin q)) _ at key
    rw [hq'] at key
    simp only [Except.bind, nan_f] at key
    have key := Except.ok.inj key
    obtain ⟨s', h', e, hcore, -⟩ := hr
    have k1 : w.1 = 0 := congrArg Prod.fst key
    have k2 : w.2.1 = _ := congrArg Prod.snd key
    rw [k1] at e
    rw [k2] at hcore
    refine ⟨s', h', e, ?_, ?_, ?_, ?_, ?_, ?_⟩
    · have := congrArg Core.gamma hcore
      refine this.trans ?_
      refine Eq.trans (by simpa only [refit, initCore, cNAN_eq] using e1) ?_
      rw [lit_fin]; simp
    · exact (congrArg Core.sigma hcore).trans (by simpa only [refit, initCore, cNAN_eq] using e2)
    · exact congrArg Core.et hcore
    · have := congrArg (fun k => k.Nt.toNat) hcore
      exact this.trans hkN
    · exact congrArg Core.n hcore
    · refine (congrArg Core.at_ hcore).trans ?_
      show fin (et + (if low ≠ 0 then -1 else 1) * (|x - et| * Real.log ((UInt64.ofNat k).toNat / (size.toNat * q)))) = _
      rw [hkN, hs]
      congr 2
      by_cases c : low ≠ 0
      · simp only [if_pos c] at hx ⊢
        rw [abs_of_neg (by linarith)]
        ring
      · simp only [if_neg c] at hx ⊢
        rw [abs_of_pos (by linarith)]
        ring

/-- the hypotheses of `C128_partial` can be met: three values 3 above the threshold 0 and one value below, with room for two excesses -/
example : (spot_init Sample.xlib Sample.emptyHeap Sample.xfitted (fin (1 / 100)) 0 1 (lit (9 / 10)) 2).1 = 0 ∧
    ∃ s' h', spot_fit exactMath (spot_init Sample.xlib Sample.emptyHeap Sample.xfitted (fin (1 / 100)) 0 1 (lit (9 / 10)) 2).2.2
        (spot_init Sample.xlib Sample.emptyHeap Sample.xfitted (fin (1 / 100)) 0 1 (lit (9 / 10)) 2).2.1 ([3, -1, 3, 3].map fin) 4 = .ok (0, s', h') ∧
      s'.tail.gamma = fin 0 ∧ s'.tail.sigma = fin 3 ∧ s'.Nt.toNat = 3 ∧ s'.anomaly_threshold = fin (3 * Real.log 75) := by
  have hi : (spot_init Sample.xlib Sample.emptyHeap Sample.xfitted (fin (1 / 100)) 0 1 (lit (9 / 10)) 2).1 = 0 := by
    have hm : ¬ (((2 : UInt64) * 8).toNat > SIZE_MAX) := by decide
    unfold spot_init
    simp only [XR.lit_fin, XR.sub_ff, XR.lt_ff, XR.le_ff]
    norm_num
    unfold tail_init peaks_init ubend_init xmalloc Sample.xlib
    simp only [hm, if_false]
    rfl
  have hq : ∀ p : XR, ∀ d : List XR, p2_quantile p d 4 = .ok (fin 0) := fun p d => by
    unfold p2_quantile quantile
    rw [if_pos (by decide), lit_fin]
    push_cast
    rfl
  refine ⟨hi, ?_⟩
  obtain ⟨s', h', e, g, σ, -, n, -, z⟩ := C128_partial Sample.xlib Sample.emptyHeap Sample.xfitted (1 / 100) (lit (9 / 10)) 0 1 2 (by decide) (by decide) hi (by norm_num)
    [3, -1, 3, 3] 4 rfl 0 3 3 (hq _ _) (by simp) (by norm_num) (by simp)
  refine ⟨s', h', e, g, by rw [σ]; norm_num, n, ?_⟩
  rw [z]
  norm_num

end Verif

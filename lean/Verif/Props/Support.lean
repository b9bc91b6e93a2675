/-
C129: the fitted model covers the stored excesses.
-/
import Verif.Proofs.Support
import Verif.Props.Order
import Verif.Props.Regular

namespace Verif
open XR

namespace Spec

/-- all the numbers given to the call are real numbers -/
def realOp : Op XR → Prop
  | .fit data _ => ∀ x ∈ data, ∃ r : ℝ, x = XR.fin r
  | .step x => ∃ r : ℝ, x = XR.fin r
  | _ => True

end Spec

/-- **C129** (negation). On doubles: a detector fitted with the single value 1e-12 reports success; the excess 1e-12 is stored, but the scale is -0, and
the anomaly threshold is 0, below the stored excess. -/
theorem C129_false : ∃ r : ℤ × Spot F64 × Heap F64, spot_fit (codeMath muslFU) Sample.init.2.2 Sample.init.2.1 [lit (1 / 10 ^ 12)] 1 = .ok r ∧ r.1 = 0 ∧
    r.2.1.Nt = 1 ∧ r.2.1.tail.gamma = lit 0 ∧ r.2.1.tail.sigma = F64.zero true ∧ r.2.1.anomaly_threshold = F64.zero false := by
  have a : (spot_fit (codeMath muslFU) Sample.init.2.2 Sample.init.2.1 [lit (1 / 10 ^ 12)] 1).map
      (fun r => (r.1, r.2.1.Nt, r.2.1.tail.gamma, r.2.1.tail.sigma, r.2.1.anomaly_threshold)) = .ok (0, 1, lit 0, F64.zero true, F64.zero false) := by
    decide +kernel
  generalize spot_fit (codeMath muslFU) Sample.init.2.2 Sample.init.2.1 [lit (1 / 10 ^ 12)] 1 = x at a ⊢
  match x, a with
  | .ok r, a =>
    have a := Except.ok.inj a
    simp only [Prod.mk.injEq] at a
    exact ⟨r, rfl, a⟩
  | .error _, a => cases a

namespace Support

/-- what is kept by all calls with real numbers -/
structure Good (c : ℕ) (low : ℤ) (q : XR) (k : Core XR) (xs : List XR) (ys : List ℝ) : Prop where
  hist : xs = ys.map fin
  pos : ∀ y ∈ ys, 0 ≤ y
  et : k.et = nan ∨ ∃ r, k.et = fin r
  ud : k.up_down = fin (if low ≠ 0 then -1 else 1)
  kq : k.q = q
  ok : (∃ y ∈ slots c ys, 0 < y) → Ok (slots c ys) k.gamma k.sigma

theorem refit_ok {c : ℕ} (h1 : 1 ≤ c) (k : Core XR) {ys : List ℝ} (h : ∀ y ∈ ys, 0 ≤ y) (hp : ∃ y ∈ slots c ys, 0 < y) :
    Ok (slots c ys) (refit exactMath c k (ys.map fin)).gamma (refit exactMath c k (ys.map fin)).sigma := by
  obtain ⟨e2, he2⟩ := e2_real h1 ys
  have he := statsOf_sum h1 ys
  have hn : ∀ y ∈ slots c ys, 0 ≤ y := fun y hy => h y (slots_mem h1 hy)
  have hne : slots c ys ≠ [] := by
    obtain ⟨y, hy, -⟩ := hp
    exact List.ne_nil_of_mem hy
  have hs : 0 < (slots c ys).sum := by
    obtain ⟨y, hy, h0⟩ := hp
    exact lt_of_lt_of_le h0 (List.single_le_sum (fun x hx => hn x hx) y hy)
  have := fit_ok hne hn hp hs (e2 := e2) (statsOf c (ys.map fin)).min (statsOf c (ys.map fin)).max k.gamma k.sigma
  unfold refit
  dsimp only
  rw [slots_map]
  have hst : statsOf c (ys.map fin) = ⟨fin (slots c ys).sum, fin e2, (statsOf c (ys.map fin)).min, (statsOf c (ys.map fin)).max⟩ := by
    cases h : statsOf c (ys.map fin)
    rw [h] at he he2
    simp_all
  rw [hst]
  exact this.2

/-- the quantile of a covered tail is a number -/
theorem quantile_real {K : Core XR} {l : List ℝ} {q et u : ℝ} (hq : 0 < q) (ho : Ok l K.gamma K.sigma) (hu : K.up_down = fin u) (he : K.et = fin et)
    (hN : K.Nt ≠ 0) (hn : K.n ≠ 0) : ∃ z, quantileC exactMath K (fin q) = .ok (fin z) := by
  have nz : ∀ x : UInt64, x ≠ 0 → (0 : ℝ) < x.toNat := fun x h => by
    have : x.toNat ≠ 0 := fun h' => h (UInt64.toNat_inj.mp (by simpa using h'))
    exact_mod_cast Nat.pos_of_ne_zero this
  have a := nz _ hN
  have b := nz _ hn
  obtain ⟨γ, σ, hg, hs, -, -⟩ := ho
  unfold quantileC tail_quantile mkTail
  dsimp only
  rw [hg, hs, lit_fin (K.Nt.toNat : ℚ), lit_fin (K.n.toNat : ℚ), Rat.cast_natCast, Rat.cast_natCast, div_ff b.ne', div_ff (div_pos a b).ne']
  have hr := div_pos hq (div_pos a b)
  by_cases g0 : γ = 0
  · rw [if_pos (by rw [lit_fin, eq_ff]; simp [g0]), log_f hr, neg_f, mul_ff, he, hu]
    exact ⟨_, rfl⟩
  · rw [if_neg (by rw [lit_fin, eq_ff]; simpa using g0), neg_f, xpow_f hr, div_ff g0, he, hu]
    exact ⟨_, rfl⟩

theorem excess_real {k : Core XR} {low : ℤ} (hu : k.up_down = fin (if low ≠ 0 then -1 else 1)) {x et : ℝ} (he : k.et = fin et) :
    k.up_down *. (fin x -. k.et) = fin ((if low ≠ 0 then -1 else 1) * (x - et)) := by
  rw [hu, he, sub_ff, mul_ff]

theorem p2_real (p : XR) (d : List ℝ) (size : UInt64) (hs : size.toNat ≤ d.length) : ∃ r, p2_quantile p (d.map fin) size = .ok (fin r) := by
  by_cases h5 : 5 ≤ size.toNat
  · obtain ⟨r, h, -⟩ := C46_equivariant p d size h5 hs 1 0 one_pos
    exact ⟨r, h⟩
  · refine ⟨0, ?_⟩
    unfold p2_quantile quantile
    rw [if_pos (by omega), lit_fin]
    push_cast
    rfl

theorem real_list {l : List XR} (h : ∀ x ∈ l, ∃ r : ℝ, x = fin r) : ∃ d : List ℝ, l = d.map fin := by
  induction l with
  | nil => exact ⟨[], rfl⟩
  | cons x l ih =>
    obtain ⟨r, rfl⟩ := h x List.mem_cons_self
    obtain ⟨d, rfl⟩ := ih fun y hy => h y (List.mem_cons_of_mem _ hy)
    exact ⟨r :: d, rfl⟩

theorem step_good {c : ℕ} (h1 : 1 ≤ c) {low : ℤ} {q : XR} {k : Core XR} {xs : List XR} {ys : List ℝ} (G : Good c low q k xs ys) (x : ℝ)
    {r : ℤ × Core XR × List XR} (hr : stepC exactMath c k xs (fin x) = .ok r) : ∃ ys', Good c low q r.2.1 r.2.2 ys' ∧ (r.1 = 1 → ∃ et, r.2.1.et = fin et ∧
        quantileC exactMath r.2.1 q = .ok r.2.1.at_) := by
  unfold stepC at hr
  rw [nan_f, if_neg (by simp)] at hr
  split at hr
  · cases hr
    exact ⟨ys, G, fun h => absurd (h : (_ : ℤ) = 1) (by simp [ANOMALY])⟩
  dsimp only at hr
  split at hr
  · rename_i hex
    rcases G.et with he | ⟨et, he⟩
    · rw [he, G.ud] at hex
      have := ((CDoubleLaws.le_iff _ _).mp hex).2.1
      rw [show (fin (if low ≠ 0 then -1 else 1) *. (fin x -. nan) : XR) = nan from rfl, nan_nan] at this
      cases this
    · have ex := excess_real G.ud (x := x) he
      rw [ex] at hr hex
      set e := (if low ≠ 0 then (-1 : ℝ) else 1) * (x - et) with hee
      have e0 : 0 ≤ e := by
        rw [lit_fin, le_ff] at hex
        simpa using hex
      obtain ⟨z, hz, hr⟩ := C.bind_ok hr
      cases hr
      have hist : xs ++ [fin e] = (ys ++ [e]).map fin := by rw [G.hist, List.map_append]; rfl
      have hpos : ∀ y ∈ ys ++ [e], 0 ≤ y := by
        intro y hy
        rcases List.mem_append.mp hy with hy | hy
        · exact G.pos y hy
        · rw [List.mem_singleton.mp hy]; exact e0
      refine ⟨ys ++ [e], ⟨hist, hpos, G.et, G.ud, G.kq, fun hp => ?_⟩, fun _ => ⟨et, he, ?_⟩⟩
      · rw [hist]
        exact refit_ok h1 _ hpos hp
      · rw [← G.kq]; exact hz
  · cases hr
    exact ⟨ys, ⟨G.hist, G.pos, G.et, G.ud, G.kq, G.ok⟩, fun h => absurd (h : (_ : ℤ) = 1) (by simp [NORMAL])⟩


theorem fit_good {c : ℕ} (h1 : 1 ≤ c) {low : ℤ} {q : XR} {k : Core XR} {xs : List XR} {ys : List ℝ} (G : Good c low q k xs ys) (d : List ℝ) (size : UInt64)
    (hs : size.toNat ≤ d.length) {r : ℤ × Core XR × List XR} (hr : fitC exactMath c k xs (d.map fin) size = .ok r) :
    ∃ et : ℝ, Good c low q r.2.1 r.2.2 (ys ++ exs low et (d.take size.toNat)) ∧ r.2.1.et = fin et ∧ r.2.1.n = size ∧
      r.2.1.Nt = UInt64.ofNat (exs low et (d.take size.toNat)).length ∧
      quantileC exactMath r.2.1 q = .ok r.2.1.at_ ∧ (is_nan r.2.1.at_ = false → r.1 = 0) := by
  obtain ⟨et, he⟩ : ∃ et, (if k.low ≠ 0 then p2_quantile (lit 1 -. k.level) (d.map fin) size else p2_quantile k.level (d.map fin) size) = .ok (fin et) := by
    split <;> exact p2_real _ d size hs
  unfold fitC at hr
  dsimp only at hr
  rw [he] at hr
  change (if is_nan (fin et) = true then _ else _) = _ at hr
  rw [nan_f, if_neg (by simp), ← List.map_take] at hr
  have hf : fitExcesses k.up_down (fin et) ((d.take size.toNat).map fin) = (exs low et (d.take size.toNat)).map fin := by
    rw [← fitExcesses_real, G.ud]
    congr 1
    split <;> rw [lit_fin] <;> simp
  rw [hf] at hr
  set e := exs low et (d.take size.toNat) with hee
  have hpe : ∀ y ∈ e, 0 < y := by
    intro y hy
    rw [hee] at hy
    unfold exs at hy
    obtain ⟨x, hx, rfl⟩ := List.mem_map.mp hy
    have := (List.mem_filter.mp hx).2
    by_cases c : low ≠ 0
    · simp only [if_pos c, decide_eq_true_eq] at this ⊢; linarith
    · simp only [if_neg c, decide_eq_true_eq] at this ⊢; linarith
  have hist : xs ++ e.map fin = (ys ++ e).map fin := by rw [G.hist, List.map_append]
  have hpos : ∀ y ∈ ys ++ e, 0 ≤ y := by
    intro y hy
    rcases List.mem_append.mp hy with hy | hy
    · exact G.pos y hy
    · exact (hpe y hy).le
  obtain ⟨z, hz, hr⟩ := C.bind_ok hr
  have hg : ∀ K : Core XR, (∃ a, K = { refit exactMath c { k with Nt := UInt64.ofNat e.length, n := size, et := fin et } (xs ++ e.map fin) with at_ := a }) →
      Good c low q K (xs ++ e.map fin) (ys ++ e) := by
    rintro K ⟨a, rfl⟩
    refine ⟨hist, hpos, .inr ⟨et, rfl⟩, G.ud, G.kq, fun hp => ?_⟩
    rw [hist]
    exact refit_ok h1 _ hpos hp
  refine ⟨et, ?_⟩
  rw [List.length_map] at hr hz
  split at hr
  · rename_i hn
    cases hr
    refine ⟨hg _ ⟨_, rfl⟩, rfl, rfl, rfl, by rw [← G.kq]; exact hz, fun h => ?_⟩
    change is_nan z = false at h
    rw [h] at hn
    cases hn
  · cases hr
    exact ⟨hg _ ⟨_, rfl⟩, rfl, rfl, rfl, by rw [← G.kq]; exact hz, fun _ => rfl⟩

theorem exec_good {c : ℕ} (h1 : 1 ≤ c) {low : ℤ} {q : XR} {k : Core XR} {xs : List XR} {ys : List ℝ} (G : Good c low q k xs ys) (op : Op XR)
    (hv : op.valid) (ho : Spec.realOp op) {r : Out XR × Core XR × List XR} (hr : execC exactMath c k xs op = .ok r) : ∃ ys', Good c low q r.2.1 r.2.2 ys' := by
  cases op with
  | fit data size =>
    obtain ⟨d, rfl⟩ := real_list ho
    obtain ⟨w, hw, hr⟩ := C.bind_ok hr
    cases hr
    obtain ⟨et, g, -⟩ := fit_good h1 G d size (by simpa [Op.valid] using hv) hw
    exact ⟨_, g⟩
  | step x =>
    obtain ⟨x, rfl⟩ := ho
    obtain ⟨w, hw, hr⟩ := C.bind_ok hr
    cases hr
    obtain ⟨ys', g, -⟩ := step_good h1 G x hw
    exact ⟨ys', g⟩
  | quantile p =>
    obtain ⟨w, hw, hr⟩ := C.bind_ok hr
    cases hr
    exact ⟨ys, G⟩
  | probability z =>
    obtain ⟨w, hw, hr⟩ := C.bind_ok hr
    cases hr
    exact ⟨ys, G⟩

theorem run_good {c : ℕ} (h1 : 1 ≤ c) {low : ℤ} {q : XR} (ops : List (Op XR)) : ∀ {k : Core XR} {xs : List XR} {ys : List ℝ} (_ : Good c low q k xs ys)
    (_ : ∀ op ∈ ops, op.valid) (_ : ∀ op ∈ ops, Spec.realOp op) {r : List (Out XR) × Core XR × List XR} (_ : runC exactMath c k xs ops = .ok r),
    ∃ ys', Good c low q r.2.1 r.2.2 ys' := by
  induction ops with
  | nil => intro k xs ys G _ _ r hr; cases hr; exact ⟨ys, G⟩
  | cons op ops ih =>
    intro k xs ys G hv ho r hr
    obtain ⟨w, hw, hr⟩ := C.bind_ok hr
    obtain ⟨w', hw', hr⟩ := C.bind_ok hr
    cases hr
    obtain ⟨ys', g⟩ := exec_good h1 G op (hv _ List.mem_cons_self) (ho _ List.mem_cons_self) hw
    obtain ⟨ys', g'⟩ := ih g (fun o h => hv o (List.mem_cons_of_mem _ h)) (fun o h => ho o (List.mem_cons_of_mem _ h)) hw'
    exact ⟨ys', g'⟩

theorem init_good (c : ℕ) (q level : XR) (low disc : ℤ) : Good c low q (initCore q low disc level) [] [] := by
  refine ⟨rfl, by simp, .inl cNAN_eq, ?_, rfl, ?_⟩
  · unfold initCore
    dsimp only
    split <;> rw [lit_fin] <;> simp
  · rintro ⟨y, hy, -⟩
    simp [slots_nil] at hy

theorem last_mem {c : ℕ} (h1 : 1 ≤ c) (xs : List ℝ) (x : ℝ) : x ∈ slots c (xs ++ [x]) := by
  rw [slots_snoc]
  split
  · simp
  · rename_i h
    have hl : xs.length % c < (slots c xs).length := by
      rw [slots_length, min_eq_right (by omega)]
      exact Nat.mod_lt _ h1
    exact List.mem_iff_getElem.mpr ⟨xs.length % c, by rw [List.length_set]; exact hl, List.getElem_set_self _⟩

theorem quantile_total (K : Core XR) (q : XR) : ∃ z, quantileC exactMath K q = .ok z := by
  unfold quantileC tail_quantile mkTail
  dsimp only
  split <;> exact ⟨_, rfl⟩

theorem fit_total {c : ℕ} {k : Core XR} {xs : List XR} (d : List ℝ) (size : UInt64) (hs : size.toNat ≤ d.length) :
    ∃ r, fitC exactMath c k xs (d.map fin) size = .ok r := by
  obtain ⟨et, he⟩ : ∃ et, (if k.low ≠ 0 then p2_quantile (lit 1 -. k.level) (d.map fin) size else p2_quantile k.level (d.map fin) size) = .ok (fin et) := by
    split <;> exact p2_real _ d size hs
  unfold fitC
  dsimp only
  rw [he]
  change ∃ r, (if is_nan (fin et) = true then _ else _) = _
  rw [nan_f, if_neg (by simp)]
  obtain ⟨z, hz⟩ := quantile_total (refit exactMath c { k with Nt := UInt64.ofNat (fitExcesses k.up_down (fin et) ((d.map fin).take size.toNat)).length, n := size, et := fin et }
    (xs ++ fitExcesses k.up_down (fin et) ((d.map fin).take size.toNat))) k.q
  erw [hz]
  change ∃ r, (if is_nan z = true then _ else _) = _
  split <;> exact ⟨_, rfl⟩

end Support

section
open Support
variable {lib : Lib XR} {h0 : Heap XR} {s0 : Spot XR} {q level : XR} {low disc : ℤ} {me : UInt64}

theorem reached_good (h1 : 1 ≤ me.toNat) (h2 : me.toNat < 2 ^ 61) (hi : (spot_init lib h0 s0 q low disc level me).1 = 0) (ops : List (Op XR))
    (hv : ∀ op ∈ ops, op.valid) (ho : ∀ op ∈ ops, Spec.realOp op) {outs : List (Out XR)} {s : Spot XR} {h : Heap XR}
    (hr : runOps exactMath (spot_init lib h0 s0 q low disc level me).2.2 (spot_init lib h0 s0 q low disc level me).2.1 ops = .ok (outs, s, h)) :
    ∃ a ys, SpotInv h s a me.toNat (ys.map fin) ∧ Good me.toNat low q s.core (ys.map fin) ys := by
  obtain ⟨a, _, _, hk, I⟩ := init_ok hi h1 h2
  have R := run_refines (M := exactMath) I ops hv
  rw [hr, hk] at R
  unfold RefinesO at R
  cases hc : runC exactMath me.toNat (initCore q low disc level) [] ops with
  | error e => rw [hc] at R; cases R
  | ok w =>
    obtain ⟨ys, G⟩ := run_good h1 ops (init_good _ q level low disc) hv ho hc
    rw [hc] at R
    obtain ⟨s', h', e, hcore, I', -⟩ := R
    cases e
    rw [G.hist] at I'
    have G' := G
    rw [← hcore, G.hist] at G'
    exact ⟨a, ys, I', G'⟩

theorem cells_iff {h : Heap XR} {s : Spot XR} {a c : ℕ} {ys : List ℝ} (I : SpotInv h s a c (ys.map fin)) {b : ℕ} {cells : List (Option XR)}
    (hb : s.tail.peaks.container.data = some b) (hc : h b = some cells) (v : XR) : some v ∈ cells ↔ v ∈ (slots c ys).map fin := by
  have := I.ring.data
  rw [hb] at this
  cases this
  have := I.ring.cells
  rw [hc] at this
  rw [Option.some.inj this, slots_map]
  simp

/-- **C129** (partial). In exact arithmetic. Any detector, after any sequence of calls with real numbers: every stored excess is a real number and not
negative, and if one of them is positive then `γ` and `σ` are real numbers, `σ` is positive and no stored excess lies beyond the end of the model,
`1 + γ x / σ ≥ 0`. Missing: the rounding of doubles (`C129_false`). -/
theorem C129_partial (lib : Lib XR) (h0 : Heap XR) (s0 : Spot XR) (q level : XR) (low disc : ℤ) (me : UInt64) (h1 : 1 ≤ me.toNat) (h2 : me.toNat < 2 ^ 61)
    (hi : (spot_init lib h0 s0 q low disc level me).1 = 0) (ops : List (Op XR)) (hv : ∀ op ∈ ops, op.valid) (ho : ∀ op ∈ ops, Spec.realOp op)
    (outs : List (Out XR)) (s : Spot XR) (h : Heap XR)
    (hr : runOps exactMath (spot_init lib h0 s0 q low disc level me).2.2 (spot_init lib h0 s0 q low disc level me).2.1 ops = .ok (outs, s, h)) :
    ∃ b cells, s.tail.peaks.container.data = some b ∧ h b = some cells ∧ (∀ v, some v ∈ cells → ∃ x : ℝ, v = fin x ∧ 0 ≤ x) ∧
      ((∃ x : ℝ, 0 < x ∧ some (fin x) ∈ cells) → ∃ γ σ : ℝ, s.tail.gamma = fin γ ∧ s.tail.sigma = fin σ ∧ 0 < σ ∧
        ∀ x : ℝ, some (fin x) ∈ cells → 0 ≤ 1 + γ / σ * x) := by
  obtain ⟨a, ys, I, G⟩ := reached_good h1 h2 hi ops hv ho hr
  have hm := cells_iff I I.ring.data I.ring.cells
  refine ⟨a, _, I.ring.data, I.ring.cells, fun v hv => ?_, ?_⟩
  · obtain ⟨y, hy, rfl⟩ := List.mem_map.mp ((hm v).mp hv)
    exact ⟨y, rfl, G.pos y (slots_mem h1 hy)⟩
  · rintro ⟨x, x0, hx⟩
    have inj : ∀ x : ℝ, fin x ∈ (slots me.toNat ys).map fin → x ∈ slots me.toNat ys := fun x hx => by
      obtain ⟨y, hy, e⟩ := List.mem_map.mp hx
      exact fin_inj.mp e ▸ hy
    obtain ⟨γ, σ, e1, e2, e3, e4⟩ := G.ok ⟨x, inj x ((hm _).mp hx), x0⟩
    exact ⟨γ, σ, e1, e2, e3, fun x hx => e4 x (inj x ((hm _).mp hx))⟩

/-- In exact arithmetic, for a real `q`: after any sequence of calls with real numbers, a fit with real numbers one of which lies beyond the excess
threshold succeeds: it returns 0 and the anomaly threshold is a real number. -/
theorem C129_fit (lib : Lib XR) (h0 : Heap XR) (s0 : Spot XR) (q : ℝ) (level : XR) (low disc : ℤ) (me : UInt64) (h1 : 1 ≤ me.toNat) (h2 : me.toNat < 2 ^ 61)
    (hi : (spot_init lib h0 s0 (fin q) low disc level me).1 = 0) (hq : 0 < q) (ops : List (Op XR)) (hv : ∀ op ∈ ops, op.valid)
    (ho : ∀ op ∈ ops, Spec.realOp op) (outs : List (Out XR)) (s : Spot XR) (h : Heap XR)
    (hr : runOps exactMath (spot_init lib h0 s0 (fin q) low disc level me).2.2 (spot_init lib h0 s0 (fin q) low disc level me).2.1 ops = .ok (outs, s, h))
    (data : List ℝ) (size : UInt64) (hs : size.toNat = data.length) :
    ∃ code s' h' et, spot_fit exactMath h s (data.map fin) size = .ok (code, s', h') ∧ s'.excess_threshold = fin et ∧ ((∃ x ∈ data, if low ≠ 0 then x < et else et < x) → code = 0 ∧ ∃ z, s'.anomaly_threshold = fin z) := by
  obtain ⟨a, ys, I, G⟩ := reached_good h1 h2 hi ops hv ho hr
  have R := fit_refines (M := exactMath) I (data.map fin) size (by simp [hs])
  unfold Refines at R
  obtain ⟨w, hc⟩ := fit_total (c := me.toNat) (k := s.core) (xs := ys.map fin) data size hs.le
  · obtain ⟨et, G', e1, e2, e3, e4, e5⟩ := fit_good h1 G data size hs.le hc
    rw [hc] at R
    obtain ⟨s', h', e, hcore, -, -⟩ := R
    rw [← hcore] at G' e1 e2 e3 e4 e5
    refine ⟨_, s', h', et, e, e1, ?_⟩
    rintro ⟨x, hx, hb⟩
    rw [List.take_of_length_le hs.ge] at G' e3
    set ex := exs low et data with hex
    have hne : ex ≠ [] := by
      intro h
      have : ex.length = 0 := by rw [h]; rfl
      rw [hex, exs_length, List.length_eq_zero_iff, List.filter_eq_nil_iff] at this
      exact this x hx (by simpa using hb)
    obtain ⟨l, y, hly⟩ := List.eq_nil_or_concat ex |>.resolve_left hne
    have hy0 : 0 < y := by
      have hy : y ∈ ex := by rw [hly]; simp
      rw [hex] at hy
      unfold exs at hy
      obtain ⟨x, hx, rfl⟩ := List.mem_map.mp hy
      have := (List.mem_filter.mp hx).2
      by_cases c : low ≠ 0
      · simp only [if_pos c, decide_eq_true_eq] at this ⊢; linarith
      · simp only [if_neg c, decide_eq_true_eq] at this ⊢; linarith
    have hok := G'.ok ⟨y, by rw [hly, List.concat_eq_append, ← List.append_assoc]; exact last_mem h1 _ _, hy0⟩
    have hle : ex.length ≤ size.toNat := by
      rw [hex, exs_length, hs]
      exact List.length_filter_le _ _
    have hlt := size.toNat_lt
    have hpos : 0 < ex.length := List.length_pos_iff.mpr hne
    have hN : s'.core.Nt ≠ 0 := by
      rw [e3]
      intro h
      have := congrArg UInt64.toNat h
      rw [UInt64.toNat_ofNat_of_lt' (by simpa using hle.trans_lt hlt)] at this
      exact hpos.ne' this
    have hn : s'.core.n ≠ 0 := by
      rw [e2]
      rintro rfl
      exact absurd hle (by simpa using hne)
    obtain ⟨z, hz⟩ := quantile_real hq hok G'.ud e1 hN hn
    rw [hz] at e4
    have hat := Except.ok.inj e4
    refine ⟨e5 ?_, z, hat.symm⟩
    rw [← hat, nan_f]

/-- In exact arithmetic, for a real `q`: after any sequence of calls with real numbers, a step with a real number that reports an excess and leaves a
positive excess in the buffer sets the anomaly threshold to a real number, if both counts are not 0. -/
theorem C129_step (lib : Lib XR) (h0 : Heap XR) (s0 : Spot XR) (q : ℝ) (level : XR) (low disc : ℤ) (me : UInt64) (h1 : 1 ≤ me.toNat) (h2 : me.toNat < 2 ^ 61)
    (hi : (spot_init lib h0 s0 (fin q) low disc level me).1 = 0) (hq : 0 < q) (ops : List (Op XR)) (hv : ∀ op ∈ ops, op.valid)
    (ho : ∀ op ∈ ops, Spec.realOp op) (outs : List (Out XR)) (s : Spot XR) (h : Heap XR)
    (hr : runOps exactMath (spot_init lib h0 s0 (fin q) low disc level me).2.2 (spot_init lib h0 s0 (fin q) low disc level me).2.1 ops = .ok (outs, s, h))
    (x : ℝ) (s' : Spot XR) (h' : Heap XR) (hf : spot_step exactMath h s (fin x) = .ok (1, s', h')) (hN : s'.Nt ≠ 0) (hn : s'.n ≠ 0) (b : ℕ)
    (cells : List (Option XR)) (hb : s'.tail.peaks.container.data = some b) (hc : h' b = some cells) (y : ℝ) (hy : 0 < y) (hm : some (fin y) ∈ cells) :
    ∃ z, s'.anomaly_threshold = fin z := by
  obtain ⟨a, ys, I, G⟩ := reached_good h1 h2 hi ops hv ho hr
  have R := step_refines (M := exactMath) I (fin x)
  rw [hf] at R
  unfold Refines at R
  cases hw : stepC exactMath me.toNat s.core (ys.map fin) (fin x) with
  | error e => rw [hw] at R; cases R
  | ok w =>
    obtain ⟨ys', G', hstep⟩ := step_good h1 G x hw
    rw [hw] at R
    obtain ⟨w1, w2, w3⟩ := w
    obtain ⟨s'', h'', e, hcore, I', -⟩ := R
    cases e
    obtain ⟨et, het, hqt⟩ := hstep rfl
    change s'.core = w2 at hcore
    rw [← hcore] at G' het hqt
    have hist : w3 = ys'.map fin := G'.hist
    rw [hist] at I'
    obtain ⟨y', hy', e'⟩ := List.mem_map.mp ((cells_iff I' hb hc _).mp hm)
    cases fin_inj.mp e'
    have hok := G'.ok ⟨_, hy', hy⟩
    obtain ⟨z, hz⟩ := quantile_real hq hok G'.ud het hN hn
    rw [hz] at hqt
    exact ⟨z, (Except.ok.inj hqt).symm⟩

end

/-- a detector with room for three excesses fitted with the values 4, 1 and 2 (with fewer than five values the excess threshold is 0, so all three are
excesses) -/
theorem Support.sample (disc : ℤ) : (spot_init Sample.xlib Sample.emptyHeap Sample.xfitted (fin (1 / 100)) 0 disc (lit (9 / 10)) 3).1 = 0 ∧ ∃ s h z a, spot_fit exactMath (spot_init Sample.xlib Sample.emptyHeap Sample.xfitted (fin (1 / 100)) 0 disc (lit (9 / 10)) 3).2.2 (spot_init Sample.xlib Sample.emptyHeap Sample.xfitted (fin (1 / 100)) 0 disc (lit (9 / 10)) 3).2.1 ([4, 1, 2].map fin) 3 = .ok (0, s, h) ∧
    s.anomaly_threshold = fin z ∧ SpotInv h s a (3 : UInt64).toNat (([4, 1, 2] : List ℝ).map fin) ∧ s.excess_threshold = fin 0 ∧ s.Nt = 3 ∧ s.n = 3 ∧
    (disc = 0 → s.discard_anomalies = 0) ∧ s.up_down = lit 1 ∧ runOps exactMath (spot_init Sample.xlib Sample.emptyHeap Sample.xfitted (fin (1 / 100)) 0 disc (lit (9 / 10)) 3).2.2 (spot_init Sample.xlib Sample.emptyHeap Sample.xfitted (fin (1 / 100)) 0 disc (lit (9 / 10)) 3).2.1 [.fit ([4, 1, 2].map fin) 3] = .ok ([.code 0], s, h) := by
  have hi : (spot_init Sample.xlib Sample.emptyHeap Sample.xfitted (fin (1 / 100)) 0 disc (lit (9 / 10)) 3).1 = 0 := by
    have hm : ¬ (((3 : UInt64) * 8).toNat > SIZE_MAX) := by decide
    unfold spot_init
    simp only [XR.lit_fin, XR.sub_ff, XR.lt_ff, XR.le_ff]
    norm_num
    unfold tail_init peaks_init ubend_init xmalloc Sample.xlib
    simp only [hm, if_false]
    rfl
  refine ⟨hi, ?_⟩
  obtain ⟨code, s, h, et, hf, het, hz⟩ := C129_fit Sample.xlib Sample.emptyHeap Sample.xfitted (1 / 100) (lit (9 / 10)) 0 disc 3 (by decide) (by decide) hi
    (by norm_num) [] (by simp) (by simp) [] _ _ rfl [4, 1, 2] 3 rfl
  obtain ⟨a, _, _, hk, I⟩ := init_ok hi (by decide) (by decide)
  obtain ⟨et', he', hcase⟩ := fit_cases (M := exactMath) I (by decide) hf
  have e0 : et' = fin 0 := by
    unfold fitEt p2_quantile quantile at he'
    rw [if_pos (show (3 : UInt64).toNat < 5 by decide), if_pos (show (3 : UInt64).toNat < 5 by decide)] at he'
    have l0 : (lit 0 : XR) = fin 0 := by rw [lit_fin]; push_cast; rfl
    split at he' <;> exact (Except.ok.inj he').symm.trans l0
  subst e0
  rcases hcase with ⟨hn, -⟩ | ⟨-, ⟨t, ht⟩, I', -⟩
  · rw [nan_f] at hn; cases hn
  have hu : (spot_init Sample.xlib Sample.emptyHeap Sample.xfitted (fin (1 / 100)) 0 disc (lit (9 / 10)) 3).2.1.up_down = lit 1 := congrArg Core.up_down hk
  have hd : (spot_init Sample.xlib Sample.emptyHeap Sample.xfitted (fin (1 / 100)) 0 disc (lit (9 / 10)) 3).2.1.discard_anomalies = (initCore (fin (1 / 100)) 0 disc (lit (9 / 10))).discard := congrArg Core.discard hk
  have he : et = 0 := by
    rw [ht] at het
    exact (fin_inj.mp het).symm
  subst he
  obtain ⟨rfl, z, hz⟩ := hz ⟨4, by simp, by norm_num⟩
  have hx := fitExcesses_real 0 0 [4, 1, 2]
  rw [if_neg (by simp)] at hx
  have hex : exs 0 0 [4, 1, 2] = [4, 1, 2] := by simp [exs]
  have hl : ([4, 1, 2].map fin : List XR).take (3 : UInt64).toNat = [4, 1, 2].map fin := rfl
  rw [hl, hu, hx, hex] at I' ht
  refine ⟨s, h, z, a, hf, hz, I', het, by rw [ht]; rfl, by rw [ht], fun h0 => by rw [ht]; subst h0; exact hd, by rw [ht], ?_⟩
  unfold runOps exec
  simp only [hf]
  rfl

/-- the hypotheses of `C129_partial` and `C129_fit` can be met -/
example (disc : ℤ) : ∃ s h γ σ z, (spot_init Sample.xlib Sample.emptyHeap Sample.xfitted (fin (1 / 100)) 0 disc (lit (9 / 10)) 3).1 = 0 ∧ spot_fit exactMath (spot_init Sample.xlib Sample.emptyHeap Sample.xfitted (fin (1 / 100)) 0 disc (lit (9 / 10)) 3).2.2 (spot_init Sample.xlib Sample.emptyHeap Sample.xfitted (fin (1 / 100)) 0 disc (lit (9 / 10)) 3).2.1 ([4, 1, 2].map fin) 3 = .ok (0, s, h) ∧
    s.tail.gamma = fin γ ∧ s.tail.sigma = fin σ ∧ 0 < σ ∧ 0 ≤ 1 + γ / σ * 4 ∧ s.anomaly_threshold = fin z := by
  obtain ⟨hi, s, h, z, a, hf, hz, I, -, -, -, -, -, hr⟩ := Support.sample disc
  obtain ⟨b, cells, hb, hc, -, hcov⟩ := C129_partial Sample.xlib Sample.emptyHeap Sample.xfitted (fin (1 / 100)) (lit (9 / 10)) 0 disc 3 (by decide) (by decide) hi
    [.fit ([4, 1, 2].map fin) 3] (by simp [Op.valid]) (by simp [Spec.realOp]) [.code 0] s h hr
  have h4 : some (fin 4) ∈ cells := (cells_iff I hb hc _).mpr (by
    have : slots (3 : UInt64).toNat ([4, 1, 2] : List ℝ) = [4, 1, 2] := rfl
    rw [this]
    simp)
  obtain ⟨γ, σ, e1, e2, e3, e4⟩ := hcov ⟨4, by norm_num, h4⟩
  exact ⟨s, h, γ, σ, z, hi, hf, e1, e2, e3, e4 4 h4, hz⟩

/-- the hypotheses of `C129_step` can be met: the same detector, told to keep anomalies, is given the value 5 -/
example : ∃ s h s' h' z, runOps exactMath (spot_init Sample.xlib Sample.emptyHeap Sample.xfitted (fin (1 / 100)) 0 0 (lit (9 / 10)) 3).2.2 (spot_init Sample.xlib Sample.emptyHeap Sample.xfitted (fin (1 / 100)) 0 0 (lit (9 / 10)) 3).2.1 [.fit ([4, 1, 2].map fin) 3] = .ok ([.code 0], s, h) ∧
    spot_step exactMath h s (fin 5) = .ok (1, s', h') ∧ s'.anomaly_threshold = fin z := by
  obtain ⟨hi, s, h, z, a, hf, hz, I, het, hN, hn, hd, hu, hr⟩ := Support.sample 0
  have R := step_refines (M := exactMath) I (fin 5)
  have l1 : (lit 1 : XR) = fin 1 := by rw [lit_fin]; push_cast; rfl
  have hex : s.core.up_down *. (fin 5 -. s.core.et) = fin 5 := by
    change s.up_down *. (fin 5 -. s.excess_threshold) = fin 5
    rw [hu, het, l1, sub_ff, mul_ff]
    norm_num
  have hst : ∃ k, stepC exactMath (3 : UInt64).toNat s.core (([4, 1, 2] : List ℝ).map fin) (fin 5) =
      .ok (1, k, ([4, 1, 2] : List ℝ).map fin ++ [fin 5]) ∧ k.Nt = 4 ∧ k.n = 4 := by
    unfold stepC
    rw [nan_f, if_neg (by simp), if_neg (by rw [show s.core.discard = 0 from hd rfl]; simp)]
    dsimp only
    rw [hex, if_pos (by rw [lit_fin, le_ff]; simp)]
    obtain ⟨z, hz⟩ := Support.quantile_total (refit exactMath (3 : UInt64).toNat { s.core with n := s.core.n + 1, Nt := s.core.Nt + 1 } (([4, 1, 2] : List ℝ).map fin ++ [fin 5]))
      s.core.q
    erw [hz]
    refine ⟨_, rfl, ?_, ?_⟩
    · change s.Nt + 1 = 4
      rw [hN]; rfl
    · change s.n + 1 = 4
      rw [hn]; rfl
  obtain ⟨k, hk, k1, k2⟩ := hst
  rw [hk] at R
  obtain ⟨s', h', e, hcore, I', -⟩ := R
  have I'' : SpotInv h' s' a (3 : UInt64).toNat (([4, 1, 2, 5] : List ℝ).map fin) := I'
  obtain ⟨z', hz'⟩ := C129_step Sample.xlib Sample.emptyHeap Sample.xfitted (1 / 100) (lit (9 / 10)) 0 0 3 (by decide) (by decide) hi (by norm_num)
    [.fit ([4, 1, 2].map fin) 3] (by simp [Op.valid]) (by simp [Spec.realOp]) [.code 0] s h hr 5 s' h' e
    (by rw [show s'.Nt = k.Nt from congrArg Core.Nt hcore, k1]; decide) (by rw [show s'.n = k.n from congrArg Core.n hcore, k2]; decide) a _
    I''.ring.data I''.ring.cells 5 (by norm_num) ((cells_iff I'' I''.ring.data I''.ring.cells _).mpr (by
      have : slots (3 : UInt64).toNat ([4, 1, 2, 5] : List ℝ) = [5, 1, 2] := rfl
      rw [this]
      simp))
  exact ⟨s, h, s', h', z', hr, e, hz'⟩

end Verif

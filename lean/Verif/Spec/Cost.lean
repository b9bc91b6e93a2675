/-
What a call costs: the functions of the library that touch the stored excesses, written once more with a counter. The
counter goes up by one at every access to an element of the buffer and at every call of an elementary function
(logarithm or exponential). That the counted functions compute what the model computes is proved (C137_same).
-/
import Verif.Model.Spot

namespace Verif
namespace Cost
variable {α : Type} [CDouble α]

/-- a computation that may end in undefined behaviour and that counts -/
abbrev CT := StateT ℕ C

/-- one more operation -/
def tick : CT Unit := fun n => .ok ((), n + 1)

/-- a computation that is not counted -/
def free {β : Type} (f : C β) : CT β := fun n => f.map (fun r => (r, n))

/-- a counted access -/
def load (h : Heap α) (p : Ptr) (i : ℕ) : CT α := do tick; free (Verif.load h p i)
/-- a counted access -/
def store (h : Heap α) (p : Ptr) (i : ℕ) (v : α) : CT (Heap α) := do tick; free (Verif.store h p i v)
/-- a counted call -/
def log (M : MathFns α) (x : α) : CT α := do tick; pure (M.log x)
/-- a counted call -/
def exp (M : MathFns α) (x : α) : CT α := do tick; free (M.exp x)
/-- src/xmath.c:369 -/
def xpow (M : MathFns α) (a x : α) : CT α := do let l ← log M a; exp M (x *. l)

/-- src/ubend.c:41-61 -/
def ubend_push (h : Heap α) (u : Ubend α) (x : α) : CT (α × Ubend α × Heap α) := do
  let last ← (if u.filled ≠ 0 then load h u.data u.cursor.toNat else pure u.last_erased_data : CT α)
  let h' ← store h u.data u.cursor.toNat x
  let u' : Ubend α :=
    if u.cursor = u.capacity - 1 then { u with last_erased_data := last, cursor := 0, filled := 1 }
    else { u with last_erased_data := last, cursor := u.cursor + 1 }
  pure (u'.last_erased_data, u', h')

/-- src/peaks.c:29-54 -/
def peaks_update_stats (h : Heap α) (p : Peaks α) : CT (Peaks α) :=
  (List.range (ubend_size p.container).toNat).foldlM
    (fun acc i => do
      let value ← load h acc.container.data i
      pure (update_stats_body acc value))
    { p with min := cNAN, max := cNAN, e := lit 0, e2 := lit 0 }

/-- src/peaks.c:60-89 -/
def peaks_push (h : Heap α) (p : Peaks α) (x : α) : CT (Peaks α × Heap α) := do
  let r ← ubend_push h p.container x
  let erased := r.1
  let p : Peaks α := { p with container := r.2.1 }
  let h := r.2.2
  let size := peaks_size p
  let p : Peaks α := { p with e := p.e +. x, e2 := p.e2 +. x *. x }
  let p : Peaks α := if size = 1 || x <. p.min then { p with min := x } else p
  let p : Peaks α := if size = 1 || x >. p.max then { p with max := x } else p
  if !is_nan erased then
    let p : Peaks α := { p with e := p.e -. erased, e2 := p.e2 -. erased *. erased }
    if erased <=. p.min || erased >=. p.max then do
      let p ← peaks_update_stats h p
      pure (p, h)
    else pure (p, h)
  else pure (p, h)

/-- src/peaks.c:101-115 -/
def log_likelihood (M : MathFns α) (h : Heap α) (p : Peaks α) (gamma sigma : α) : CT α := do
  let Nt_local := ubend_size p.container
  let Nt : α := lit Nt_local.toNat
  let l ← log M sigma
  if gamma ==. lit 0 then pure ((-. Nt) *. l -. p.e /. sigma)
  else
    let r := (-. Nt) *. l
    let c := lit 1 +. lit 1 /. gamma
    let x := gamma /. sigma
    (List.range Nt_local.toNat).foldlM
      (fun r i => do
        let v ← load h p.container.data i
        let l ← log M (lit 1 +. x *. v)
        pure (r +. (-. c) *. l))
      r

/-- src/estimator.c:12-20 -/
def mom_estimator (M : MathFns α) (h : Heap α) (p : Peaks α) : CT (Est α) := do
  let E := peaks_mean p
  let V := peaks_var p
  let R := E *. E /. V
  let gamma := lit (1 / 2) *. (lit 1 -. R)
  let sigma := lit (1 / 2) *. E *. (lit 1 +. R)
  let l ← log_likelihood M h p gamma sigma
  pure ⟨l, gamma, sigma⟩

/-- src/estimator.c:22-34 -/
def grimshaw_w (M : MathFns α) (h : Heap α) (p : Peaks α) (x : α) : CT α := do
  let Nt_local := peaks_size p
  let uv ← (List.range Nt_local.toNat).foldlM
    (fun (uv : α × α) i => do
      let y ← load h p.container.data i
      let s := lit 1 +. x *. y
      let l ← log M s
      pure (uv.1 +. lit 1 /. s, uv.2 +. l))
    (lit 0, lit 0)
  pure ((uv.1 /. lit Nt_local.toNat) *. (lit 1 +. uv.2 /. lit Nt_local.toNat) -. lit 1)

/-- src/estimator.c:36-43 -/
def grimshaw_v (M : MathFns α) (h : Heap α) (p : Peaks α) (x : α) : CT α := do
  let Nt_local := peaks_size p
  let v ← (List.range Nt_local.toNat).foldlM
    (fun (v : α) i => do
      let y ← load h p.container.data i
      let l ← log M (lit 1 +. x *. y)
      pure (v +. l))
    (lit 0)
  pure (lit 1 +. v /. lit Nt_local.toNat)

/-- src/estimator.c:45-57 -/
def grimshaw_simplified_log_likelihood (M : MathFns α) (h : Heap α) (p : Peaks α) (x_star : α) : CT (Est α) := do
  if x_star ==. lit 0 then
    let gamma : α := lit 0
    let sigma := peaks_mean p
    let l ← log_likelihood M h p gamma sigma
    pure ⟨l, gamma, sigma⟩
  else
    let v ← grimshaw_v M h p x_star
    let gamma := v -. lit 1
    let sigma := gamma /. x_star
    let l ← log_likelihood M h p gamma sigma
    pure ⟨l, gamma, sigma⟩

/-- src/estimator.c:99-112 -/
def grimshaw_better (M : MathFns α) (h : Heap α) (p : Peaks α) (best : Est α) (root : Bool × α) : CT (Est α) := do
  if root.1 then
    let cand ← grimshaw_simplified_log_likelihood M h p root.2
    if cand.llhood >. best.llhood then pure cand else pure best
  else pure best

/-- src/estimator.c:59-114 -/
def grimshaw_estimator (M : MathFns α) (h : Heap α) (p : Peaks α) : CT (Est α) := do
  let mini := p.min
  let maxi := p.max
  let mean := peaks_mean p
  let epsilon := grimshaw_eps p
  let left ← brent (grimshaw_w M h p) (lit (-1) /. maxi +. epsilon) (-. epsilon) BRENT_DEFAULT_EPSILON
  let right ← brent (grimshaw_w M h p) epsilon (lit 2 *. (mean -. mini) /. (mini *. mini)) BRENT_DEFAULT_EPSILON
  let best ← grimshaw_simplified_log_likelihood M h p (lit 0)
  let best ← grimshaw_better M h p best left
  grimshaw_better M h p best right

/-- src/tail.c:31-34 -/
def tail_push (h : Heap α) (t : Tail α) (x : α) : CT (Tail α × Heap α) := do
  let r ← peaks_push h t.peaks x
  pure ({ t with peaks := r.1 }, r.2)

/-- src/tail.c:54-73 -/
def tail_fit (M : MathFns α) (h : Heap α) (t : Tail α) : CT (α × Tail α) := do
  let e1 ← mom_estimator M h t.peaks
  let acc := tail_fit_step (cNAN, t) e1
  let e2 ← grimshaw_estimator M h t.peaks
  pure (tail_fit_step acc e2)

/-- src/tail.c:46-52 -/
def tail_quantile (M : MathFns α) (t : Tail α) (s q : α) : CT α := do
  let r := q /. s
  if t.gamma ==. lit 0 then
    let l ← log M r
    pure ((-. t.sigma) *. l)
  else
    let y ← xpow M r (-. t.gamma)
    pure ((t.sigma /. t.gamma) *. (y -. lit 1))

/-- src/tail.c:36-44 -/
def tail_probability (M : MathFns α) (t : Tail α) (s d : α) : CT α := do
  if t.gamma ==. lit 0 then
    let y ← exp M ((-. d) /. t.sigma)
    pure (s *. y)
  else
    let r := d *. (t.gamma /. t.sigma)
    let y ← xpow M (lit 1 +. r) (lit (-1) /. t.gamma)
    pure (s *. y)

/-- src/spot.c:149-153 -/
def spot_quantile (M : MathFns α) (spot : Spot α) (q : α) : CT α := do
  let s : α := lit spot.Nt.toNat /. lit spot.n.toNat
  let t ← tail_quantile M spot.tail s q
  pure (spot.excess_threshold +. spot.up_down *. t)

/-- src/spot.c:155-159 -/
def spot_probability (M : MathFns α) (spot : Spot α) (z : α) : CT α :=
  let s : α := lit spot.Nt.toNat /. lit spot.n.toNat
  tail_probability M spot.tail s (spot.up_down *. (z -. spot.excess_threshold))

/-- src/spot.c:122-147 -/
def spot_step (M : MathFns α) (h : Heap α) (spot : Spot α) (x : α) : CT (ℤ × Spot α × Heap α) := do
  if is_nan x then pure (-ERR_DATA_IS_NAN, spot, h)
  else if spot.discard_anomalies ≠ 0 && spot.up_down *. (x -. spot.anomaly_threshold) >. lit 0 then
    pure (ANOMALY, spot, h)
  else
    let spot : Spot α := { spot with n := spot.n + 1 }
    let ex := spot.up_down *. (x -. spot.excess_threshold)
    if ex >=. lit 0 then
      let r ← tail_push h spot.tail ex
      let f ← tail_fit M r.2 r.1
      let spot : Spot α := { spot with Nt := spot.Nt + 1, tail := f.2 }
      let z ← spot_quantile M spot spot.q
      pure (EXCESS, { spot with anomaly_threshold := z }, r.2)
    else pure (NORMAL, spot, h)

/-- a counted access to the data of the caller -/
def loadBuf (data : List α) (i : ℕ) : CT α := do tick; free (Verif.loadBuf data i)

/-- src/p2.c:112-167; an update works on fifteen numbers and is counted by its access to the data -/
def quantile (p2 : P2 α) (data : List α) (size : UInt64) : CT α := do
  if size.toNat < 5 then pure (lit 0)
  else
    let x0 ← loadBuf data 0
    let x1 ← loadBuf data 1
    let x2 ← loadBuf data 2
    let x3 ← loadBuf data 3
    let x4 ← loadBuf data 4
    let p2 : P2 α := { p2 with q := sort5 ⟨x0, x1, x2, x3, x4⟩ }
    let p2 ← (List.range' 5 (size.toNat - 5)).foldlM
      (fun p2 j => do
        let xj ← loadBuf data j
        free (p2_update p2 xj))
      p2
    pure p2.q.a2

/-- src/p2.c:169-173 -/
def p2_quantile (p : α) (data : List α) (size : UInt64) : CT α := quantile (init_p2 p) data size

/-- src/spot.c:100-108 -/
def fit_body (et : α) (st : Spot α × Heap α) (x : α) : CT (Spot α × Heap α) := do
  let excess := st.1.up_down *. (x -. et)
  if excess >. lit 0 then
    let r ← tail_push st.2 st.1.tail excess
    pure ({ st.1 with Nt := st.1.Nt + 1, tail := r.1 }, r.2)
  else pure st

/-- src/spot.c:80-120 -/
def spot_fit (M : MathFns α) (h : Heap α) (spot : Spot α) (data : List α) (size : UInt64) :
    CT (ℤ × Spot α × Heap α) := do
  let spot : Spot α := { spot with Nt := 0, n := size }
  let et ← (if spot.low ≠ 0 then p2_quantile (lit 1 -. spot.level) data size
            else p2_quantile spot.level data size : CT α)
  if is_nan et then pure (-ERR_EXCESS_THRESHOLD_IS_NAN, spot, h)
  else
    let spot : Spot α := { spot with excess_threshold := et }
    let st ← (List.range size.toNat).foldlM
      (fun st i => do
        let x ← loadBuf data i
        fit_body et st x)
      (spot, h)
    let f ← tail_fit M st.2 st.1.tail
    let spot : Spot α := { st.1 with tail := f.2 }
    let z ← spot_quantile M spot spot.q
    let spot : Spot α := { spot with anomaly_threshold := z }
    if is_nan z then pure (-ERR_ANOMALY_THRESHOLD_IS_NAN, spot, st.2)
    else pure (0, spot, st.2)

end Cost
end Verif

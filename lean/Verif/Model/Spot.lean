/-
src/spot.c — the detector
-/
import Verif.Model.Tail
import Verif.Model.P2

namespace Verif
variable {α : Type} [CDouble α]

/-- include/structs.h:64-77 `enum LibspotError` (1000 is in Ubend.lean) -/
def ERR_LEVEL_OUT_OF_BOUNDS : ℤ := 1001
def ERR_Q_OUT_OF_BOUNDS : ℤ := 1002
def ERR_EXCESS_THRESHOLD_IS_NAN : ℤ := 1003
def ERR_ANOMALY_THRESHOLD_IS_NAN : ℤ := 1004
def ERR_DATA_IS_NAN : ℤ := 1005

/-- include/structs.h:83-90 `enum SpotResult` -/
def NORMAL : ℤ := 0
def EXCESS : ℤ := 1
def ANOMALY : ℤ := 2

/-- include/structs.h:147-168 `struct Spot` -/
structure Spot (α : Type) where
  q : α
  level : α
  discard_anomalies : ℤ
  low : ℤ
  up_down : α
  anomaly_threshold : α
  excess_threshold : α
  Nt : UInt64
  n : UInt64
  tail : Tail α

/-- src/spot.c:24-63 `spot_init`; `spot` is the previous content of the structure. Result: return code, structure, heap. -/
def spot_init (lib : Lib α) (h : Heap α) (spot : Spot α) (q : α) (low discard_anomalies : ℤ) (level : α)
    (max_excess : UInt64) : ℤ × Spot α × Heap α :=
  if level <. lit 0 || level >=. lit 1 then (-ERR_LEVEL_OUT_OF_BOUNDS, spot, h)
  else if q >=. (lit 1 -. level) || q <=. lit 0 then (-ERR_Q_OUT_OF_BOUNDS, spot, h)
  else
    let spot : Spot α := { spot with q := q, level := level }
    let spot : Spot α :=
      if low ≠ 0 then { spot with low := 1, up_down := lit (-1) } else { spot with low := 0, up_down := lit 1 }
    let spot : Spot α :=
      if discard_anomalies ≠ 0 then { spot with discard_anomalies := 1 } else { spot with discard_anomalies := 0 }
    let spot : Spot α := { spot with n := 0, Nt := 0 }
    let r := tail_init lib h max_excess
    let spot : Spot α := { spot with tail := r.2.1 }
    let h := r.2.2
    if r.1 < 0 then (-ERR_MEMORY_ALLOCATION_FAILED, spot, h)
    else (0, { spot with anomaly_threshold := cNAN, excess_threshold := cNAN }, h)

/-- src/spot.c:65-78 `spot_free` -/
def spot_free (lib : Lib α) (h : Heap α) (spot : Spot α) : C (Spot α × Heap α) := do
  let r ← tail_free lib h spot.tail
  .ok ({ q := cNAN, level := cNAN, discard_anomalies := -1, low := -1, up_down := cNAN,
         anomaly_threshold := cNAN, excess_threshold := cNAN, Nt := 0, n := 0, tail := r.1 }, r.2)

/-- src/spot.c:149-153 `spot_quantile` -/
def spot_quantile (M : MathFns α) (spot : Spot α) (q : α) : C α := do
  let s : α := lit spot.Nt.toNat /. lit spot.n.toNat
  let t ← tail_quantile M spot.tail s q
  .ok (spot.excess_threshold +. spot.up_down *. t)

/-- src/spot.c:155-159 `spot_probability` -/
def spot_probability (M : MathFns α) (spot : Spot α) (z : α) : C α :=
  let s : α := lit spot.Nt.toNat /. lit spot.n.toNat
  tail_probability M spot.tail s (spot.up_down *. (z -. spot.excess_threshold))

/-- src/spot.c:100-108: the body of the loop of `spot_fit` for the value `x = data[i]` -/
def fit_body (et : α) (st : Spot α × Heap α) (x : α) : C (Spot α × Heap α) := do
  let excess := st.1.up_down *. (x -. et)
  if excess >. lit 0 then
    let r ← tail_push st.2 st.1.tail excess
    .ok ({ st.1 with Nt := st.1.Nt + 1, tail := r.1 }, r.2)
  else .ok st

/-- src/spot.c:80-120 `spot_fit`; the buffer holds the list `data`. Result: return code, structure, heap. -/
def spot_fit (M : MathFns α) (h : Heap α) (spot : Spot α) (data : List α) (size : UInt64) :
    C (ℤ × Spot α × Heap α) := do
  let spot : Spot α := { spot with Nt := 0, n := size }
  let et ← (if spot.low ≠ 0 then p2_quantile (lit 1 -. spot.level) data size
            else p2_quantile spot.level data size : C α)
  if is_nan et then .ok (-ERR_EXCESS_THRESHOLD_IS_NAN, spot, h)
  else
    let spot : Spot α := { spot with excess_threshold := et }
    let st ← (List.range size.toNat).foldlM
      (fun st i => do
        let x ← loadBuf data i
        fit_body et st x)
      (spot, h)
    let f ← tail_fit M st.2 st.1.tail
    let spot : Spot α := { st.1 with tail := f.2 }
    let z ← spot_quantile M spot spot.q
    let spot : Spot α := { spot with anomaly_threshold := z }
    if is_nan z then .ok (-ERR_ANOMALY_THRESHOLD_IS_NAN, spot, st.2)
    else .ok (0, spot, st.2)

/-- src/spot.c:122-147 `spot_step`. Result: return code, structure, heap. -/
def spot_step (M : MathFns α) (h : Heap α) (spot : Spot α) (x : α) : C (ℤ × Spot α × Heap α) := do
  if is_nan x then .ok (-ERR_DATA_IS_NAN, spot, h)
  else if spot.discard_anomalies ≠ 0 && spot.up_down *. (x -. spot.anomaly_threshold) >. lit 0 then
    .ok (ANOMALY, spot, h)
  else
    let spot : Spot α := { spot with n := spot.n + 1 }
    let ex := spot.up_down *. (x -. spot.excess_threshold)
    if ex >=. lit 0 then
      let r ← tail_push h spot.tail ex
      let f ← tail_fit M r.2 r.1
      let spot : Spot α := { spot with Nt := spot.Nt + 1, tail := f.2 }
      let z ← spot_quantile M spot spot.q
      .ok (EXCESS, { spot with anomaly_threshold := z }, r.2)
    else .ok (NORMAL, spot, h)

end Verif

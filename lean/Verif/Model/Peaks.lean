/-
src/peaks.c — statistics of the stored peaks
-/
import Verif.Model.Ubend
import Verif.Model.Xmath

namespace Verif
variable {α : Type} [CDouble α]

/-- include/structs.h:116-127 `struct Peaks` -/
structure Peaks (α : Type) where
  e : α
  e2 : α
  min : α
  max : α
  container : Ubend α

/-- src/peaks.c:12-18 `peaks_init` -/
def peaks_init (lib : Lib α) (h : Heap α) (size : UInt64) : ℤ × Peaks α × Heap α :=
  let r := ubend_init lib h size
  (r.1, ⟨lit 0, lit 0, cNAN, cNAN, r.2.1⟩, r.2.2)

/-- src/peaks.c:20-27 `peaks_free` -/
def peaks_free (lib : Lib α) (h : Heap α) (p : Peaks α) : C (Peaks α × Heap α) := do
  let r ← ubend_free lib h p.container
  .ok (⟨cNAN, cNAN, cNAN, cNAN, r.1⟩, r.2)

/-- src/peaks.c:43-51: one iteration of the loop of `peaks_update_stats` on `value = data[i]`.
Line 45 is `peaks->e2 = value * value`. -/
def update_stats_body (p : Peaks α) (value : α) : Peaks α :=
  let p : Peaks α := { p with e := p.e +. value, e2 := value *. value }
  let p : Peaks α := if is_nan p.min || value <. p.min then { p with min := value } else p
  if is_nan p.max || value >. p.max then { p with max := value } else p

/-- src/peaks.c:29-54 `peaks_update_stats` (its return value is never used) -/
def peaks_update_stats (h : Heap α) (p : Peaks α) : C (Peaks α) :=
  (List.range (ubend_size p.container).toNat).foldlM
    (fun acc i => do
      let value ← load h acc.container.data i
      .ok (update_stats_body acc value))
    { p with min := cNAN, max := cNAN, e := lit 0, e2 := lit 0 }

/-- src/peaks.c:56-58 `peaks_size` -/
def peaks_size (p : Peaks α) : UInt64 := ubend_size p.container

/-- src/peaks.c:60-89 `peaks_push` -/
def peaks_push (h : Heap α) (p : Peaks α) (x : α) : C (Peaks α × Heap α) := do
  let r ← ubend_push h p.container x
  let erased := r.1
  let p : Peaks α := { p with container := r.2.1 }
  let h := r.2.2
  let size := peaks_size p
  let p : Peaks α := { p with e := p.e +. x, e2 := p.e2 +. x *. x }
  let p : Peaks α := if size = 1 || x <. p.min then { p with min := x } else p
  let p : Peaks α := if size = 1 || x >. p.max then { p with max := x } else p
  if !is_nan erased then
    let p : Peaks α := { p with e := p.e -. erased, e2 := p.e2 -. erased *. erased }
    if erased <=. p.min || erased >=. p.max then do
      let p ← peaks_update_stats h p
      .ok (p, h)
    else .ok (p, h)
  else .ok (p, h)

/-- src/peaks.c:91-93 `peaks_mean` -/
def peaks_mean (p : Peaks α) : α := p.e /. lit (peaks_size p).toNat

/-- src/peaks.c:95-99 `peaks_var` -/
def peaks_var (p : Peaks α) : α :=
  let size : α := lit (peaks_size p).toNat
  let mean := p.e /. size
  p.e2 /. size -. mean *. mean

/-- src/peaks.c:101-115 `log_likelihood` -/
def log_likelihood (M : MathFns α) (h : Heap α) (p : Peaks α) (gamma sigma : α) : C α :=
  let Nt_local := ubend_size p.container
  let Nt : α := lit Nt_local.toNat
  if gamma ==. lit 0 then .ok ((-. Nt) *. M.log sigma -. p.e /. sigma)
  else
    let r := (-. Nt) *. M.log sigma
    let c := lit 1 +. lit 1 /. gamma
    let x := gamma /. sigma
    (List.range Nt_local.toNat).foldlM
      (fun r i => do
        let v ← load h p.container.data i
        .ok (r +. (-. c) *. M.log (lit 1 +. x *. v)))
      r

end Verif

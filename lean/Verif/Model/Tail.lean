/-
src/tail.c — GPD tail
-/
import Verif.Model.Estimator

namespace Verif
variable {α : Type} [CDouble α]

/-- include/structs.h:133-140 `struct Tail` -/
structure Tail (α : Type) where
  gamma : α
  sigma : α
  peaks : Peaks α

/-- src/tail.c:18-22 `tail_init` -/
def tail_init (lib : Lib α) (h : Heap α) (size : UInt64) : ℤ × Tail α × Heap α :=
  let r := peaks_init lib h size
  (r.1, ⟨cNAN, cNAN, r.2.1⟩, r.2.2)

/-- src/tail.c:24-29 `tail_free` -/
def tail_free (lib : Lib α) (h : Heap α) (t : Tail α) : C (Tail α × Heap α) := do
  let r ← peaks_free lib h t.peaks
  .ok (⟨cNAN, cNAN, r.1⟩, r.2)

/-- src/tail.c:31-34 `tail_push` -/
def tail_push (h : Heap α) (t : Tail α) (x : α) : C (Tail α × Heap α) := do
  let r ← peaks_push h t.peaks x
  .ok ({ t with peaks := r.1 }, r.2)

/-- src/tail.c:36-44 `tail_probability` -/
def tail_probability (M : MathFns α) (t : Tail α) (s d : α) : C α := do
  if t.gamma ==. lit 0 then
    let y ← M.exp ((-. d) /. t.sigma)
    .ok (s *. y)
  else
    let r := d *. (t.gamma /. t.sigma)
    let y ← xpow M (lit 1 +. r) (lit (-1) /. t.gamma)
    .ok (s *. y)

/-- src/tail.c:46-52 `tail_quantile` -/
def tail_quantile (M : MathFns α) (t : Tail α) (s q : α) : C α := do
  let r := q /. s
  if t.gamma ==. lit 0 then .ok ((-. t.sigma) *. M.log r)
  else
    let y ← xpow M r (-. t.gamma)
    .ok ((t.sigma /. t.gamma) *. (y -. lit 1))

/-- src/tail.c:61-70: one iteration of the loop of `tail_fit`: `(max_llhood, tail)` after trying one estimator -/
def tail_fit_step (acc : α × Tail α) (est : Est α) : α × Tail α :=
  if is_nan acc.1 || est.llhood >. acc.1 then (est.llhood, { acc.2 with gamma := est.gamma, sigma := est.sigma })
  else acc

/-- src/tail.c:54-73 `tail_fit`, `ESTIMATORS = {mom_estimator, grimshaw_estimator}` (src/tail.c:14). Result: returned
log-likelihood and the new tail. -/
def tail_fit (M : MathFns α) (h : Heap α) (t : Tail α) : C (α × Tail α) := do
  let e1 ← mom_estimator M h t.peaks
  let acc := tail_fit_step (cNAN, t) e1
  let e2 ← grimshaw_estimator M h t.peaks
  .ok (tail_fit_step acc e2)

end Verif

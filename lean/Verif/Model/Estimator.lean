/-
src/estimator.c — GPD parameter estimators
-/
import Verif.Model.Peaks
import Verif.Model.Brent

namespace Verif
variable {α : Type} [CDouble α]

/-- result of an estimator: the returned log-likelihood and the two output parameters -/
structure Est (α : Type) where
  llhood : α
  gamma : α
  sigma : α

/-- src/estimator.c:12-20 `mom_estimator` -/
def mom_estimator (M : MathFns α) (h : Heap α) (p : Peaks α) : C (Est α) := do
  let E := peaks_mean p
  let V := peaks_var p
  let R := E *. E /. V
  let gamma := lit (1 / 2) *. (lit 1 -. R)
  let sigma := lit (1 / 2) *. E *. (lit 1 +. R)
  let l ← log_likelihood M h p gamma sigma
  .ok ⟨l, gamma, sigma⟩

/-- src/estimator.c:22-34 `grimshaw_w` -/
def grimshaw_w (M : MathFns α) (h : Heap α) (p : Peaks α) (x : α) : C α := do
  let Nt_local := peaks_size p
  let uv ← (List.range Nt_local.toNat).foldlM
    (fun (uv : α × α) i => do
      let y ← load h p.container.data i
      let s := lit 1 +. x *. y
      .ok (uv.1 +. lit 1 /. s, uv.2 +. M.log s))
    (lit 0, lit 0)
  .ok ((uv.1 /. lit Nt_local.toNat) *. (lit 1 +. uv.2 /. lit Nt_local.toNat) -. lit 1)

/-- src/estimator.c:36-43 `grimshaw_v` -/
def grimshaw_v (M : MathFns α) (h : Heap α) (p : Peaks α) (x : α) : C α := do
  let Nt_local := peaks_size p
  let v ← (List.range Nt_local.toNat).foldlM
    (fun (v : α) i => do
      let y ← load h p.container.data i
      .ok (v +. M.log (lit 1 +. x *. y)))
    (lit 0)
  .ok (lit 1 +. v /. lit Nt_local.toNat)

/-- src/estimator.c:45-57 `grimshaw_simplified_log_likelihood` -/
def grimshaw_simplified_log_likelihood (M : MathFns α) (h : Heap α) (p : Peaks α) (x_star : α) : C (Est α) := do
  if x_star ==. lit 0 then
    let gamma : α := lit 0
    let sigma := peaks_mean p
    let l ← log_likelihood M h p gamma sigma
    .ok ⟨l, gamma, sigma⟩
  else
    let v ← grimshaw_v M h p x_star
    let gamma := v -. lit 1
    let sigma := gamma /. x_star
    let l ← log_likelihood M h p gamma sigma
    .ok ⟨l, gamma, sigma⟩

/-- src/estimator.c:99-112: one iteration of the comparison of the roots -/
def grimshaw_better (M : MathFns α) (h : Heap α) (p : Peaks α) (best : Est α) (root : Bool × α) : C (Est α) := do
  if root.1 then
    let cand ← grimshaw_simplified_log_likelihood M h p root.2
    if cand.llhood >. best.llhood then .ok cand else .ok best
  else .ok best

/-- src/estimator.c:65 `epsilon` -/
def grimshaw_eps (p : Peaks α) : α := xmin BRENT_DEFAULT_EPSILON (lit (1 / 2) /. p.max)

/-- src/estimator.c:59-114 `grimshaw_estimator` -/
def grimshaw_estimator (M : MathFns α) (h : Heap α) (p : Peaks α) : C (Est α) := do
  let mini := p.min
  let maxi := p.max
  let mean := peaks_mean p
  let epsilon := grimshaw_eps p
  let left ← brent (grimshaw_w M h p) (lit (-1) /. maxi +. epsilon) (-. epsilon) BRENT_DEFAULT_EPSILON
  let right ← brent (grimshaw_w M h p) epsilon (lit 2 *. (mean -. mini) /. (mini *. mini)) BRENT_DEFAULT_EPSILON
  let best ← grimshaw_simplified_log_likelihood M h p (lit 0)
  let best ← grimshaw_better M h p best left
  grimshaw_better M h p best right

end Verif

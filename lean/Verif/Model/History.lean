/-
Client programs: finite sequences of API calls on one detector (include/spot.h).
-/
import Verif.Model.Spot

namespace Verif
variable {α : Type} [CDouble α]

/-- one API call on an initialised detector -/
inductive Op (α : Type) where
  /-- `spot_fit(&spot, data, size)`; the caller's buffer holds the list `data` -/
  | fit (data : List α) (size : UInt64)
  /-- `spot_step(&spot, x)` -/
  | step (x : α)
  /-- `spot_quantile(&spot, q)` -/
  | quantile (q : α)
  /-- `spot_probability(&spot, z)` -/
  | probability (z : α)

/-- The caller's obligation: the buffer has at least `size` elements. -/
def Op.valid : Op α → Prop
  | .fit data size => size.toNat ≤ data.length
  | _ => True

/-- what a call returns -/
inductive Out (α : Type) where
  | code (r : ℤ)
  | value (v : α)
  deriving DecidableEq

/-- execution of one call -/
def exec (M : MathFns α) (h : Heap α) (s : Spot α) : Op α → C (Out α × Spot α × Heap α)
  | .fit data size => do
    let r ← spot_fit M h s data size
    .ok (.code r.1, r.2.1, r.2.2)
  | .step x => do
    let r ← spot_step M h s x
    .ok (.code r.1, r.2.1, r.2.2)
  | .quantile q => do
    let v ← spot_quantile M s q
    .ok (.value v, s, h)
  | .probability z => do
    let v ← spot_probability M s z
    .ok (.value v, s, h)

/-- execution of a sequence of calls: the returned values, final structure and heap -/
def runOps (M : MathFns α) (h : Heap α) (s : Spot α) : List (Op α) → C (List (Out α) × Spot α × Heap α)
  | [] => .ok ([], s, h)
  | op :: ops => do
    let r ← exec M h s op
    let rs ← runOps M r.2.2 r.2.1 ops
    .ok (r.1 :: rs.1, rs.2.1, rs.2.2)

/-- interleaved execution of calls on two detectors that share the heap; `true` marks a call on the first one. Result: the
values returned to the first and to the second, final structures and heap. -/
def runTwo (M : MathFns α) (h : Heap α) (s1 s2 : Spot α) :
    List (Bool × Op α) → C ((List (Out α) × List (Out α)) × Spot α × Spot α × Heap α)
  | [] => .ok (([], []), s1, s2, h)
  | (true, op) :: prog => do
    let r ← exec M h s1 op
    let rs ← runTwo M r.2.2 r.2.1 s2 prog
    .ok ((r.1 :: rs.1.1, rs.1.2), rs.2)
  | (false, op) :: prog => do
    let r ← exec M h s2 op
    let rs ← runTwo M r.2.2 s1 r.2.1 prog
    .ok ((rs.1.1, r.1 :: rs.1.2), rs.2)

/-- the calls on the first (`true`) or second (`false`) detector -/
def callsOf (b : Bool) (prog : List (Bool × Op α)) : List (Op α) := (prog.filter (fun p => p.1 == b)).map Prod.snd

/-- `(s, h)` is a state reached by a client: a successful `spot_init` with these parameters, `1 ≤ me < 2^61`, followed by any
sequence of calls that respects the caller's obligation and has no undefined behaviour -/
def Reaches (M : MathFns α) (lib : Lib α) (q : α) (low disc : ℤ) (level : α) (me : UInt64) (s : Spot α) (h : Heap α) : Prop :=
  1 ≤ me.toNat ∧ me.toNat < 2 ^ 61 ∧ ∃ h0 s0, (spot_init lib h0 s0 q low disc level me).1 = 0 ∧
    ∃ ops outs, (∀ op ∈ ops, op.valid) ∧
      runOps M (spot_init lib h0 s0 q low disc level me).2.2 (spot_init lib h0 s0 q low disc level me).2.1 ops =
        .ok (outs, s, h)

/-- the call is not `spot_fit` -/
def Op.notFit : Op α → Prop
  | .fit _ _ => False
  | _ => True

/-- successive insertions in a container: returned (evicted) values, container, heap -/
def pushAll (h : Heap α) (u : Ubend α) : List α → C (List α × Ubend α × Heap α)
  | [] => .ok ([], u, h)
  | x :: xs => do
    let r ← ubend_push h u x
    let rs ← pushAll r.2.2 r.2.1 xs
    .ok (r.1 :: rs.1, rs.2)

/-- successive insertions of peaks -/
def peaksPushAll (h : Heap α) (p : Peaks α) : List α → C (Peaks α × Heap α)
  | [] => .ok (p, h)
  | x :: xs => do
    let r ← peaks_push h p x
    peaksPushAll r.2 r.1 xs

/-- contract of a malloc function: the address returned is not the one of a live block (C99 7.20.3) -/
def MallocOK (lib : Lib α) : Prop := ∀ m, lib.malloc = some m → ∀ h n a, m h n = some a → h a = none

end Verif

/-
src/p2.c — the P² quantile estimator
-/
import Verif.Model.Mem

namespace Verif
variable {α : Type} [CDouble α]

/-- a C array `double a[5]` -/
structure Arr5 (α : Type) where
  a0 : α
  a1 : α
  a2 : α
  a3 : α
  a4 : α
  deriving DecidableEq, Repr

namespace Arr5

/-- `a[i]`, undefined outside of 0..4 -/
def get (a : Arr5 α) : ℕ → C α
  | 0 => .ok a.a0
  | 1 => .ok a.a1
  | 2 => .ok a.a2
  | 3 => .ok a.a3
  | 4 => .ok a.a4
  | _ => .error .outOfBounds

/-- `a[i] = v`, undefined outside of 0..4 -/
def set (a : Arr5 α) (i : ℕ) (v : α) : C (Arr5 α) :=
  match i with
  | 0 => .ok { a with a0 := v }
  | 1 => .ok { a with a1 := v }
  | 2 => .ok { a with a2 := v }
  | 3 => .ok { a with a3 := v }
  | 4 => .ok { a with a4 := v }
  | _ => .error .outOfBounds

def toList (a : Arr5 α) : List α := [a.a0, a.a1, a.a2, a.a3, a.a4]

/-! `swap(&a[i], &a[j])` (src/p2.c:12-16) for the index pairs used by `sort5` -/
def swap01 (a : Arr5 α) : Arr5 α := { a with a0 := a.a1, a1 := a.a0 }
def swap12 (a : Arr5 α) : Arr5 α := { a with a1 := a.a2, a2 := a.a1 }
def swap23 (a : Arr5 α) : Arr5 α := { a with a2 := a.a3, a3 := a.a2 }
def swap34 (a : Arr5 α) : Arr5 α := { a with a3 := a.a4, a4 := a.a3 }

end Arr5

open Arr5 in
/-- src/p2.c:18-67 `sort5`. `swap` is symmetric, so `swap(&a[3], &a[2])` is written `swap23`. -/
def sort5 (a : Arr5 α) : Arr5 α :=
  let a := if a.a1 <. a.a0 then a.swap01 else a
  let a := if a.a3 <. a.a2 then a.swap23 else a
  let a := if a.a0 <. a.a2 then a.swap12.swap23 else a.swap12.swap01
  let a :=
    if a.a4 <. a.a1 then
      if a.a4 <. a.a0 then a.swap34.swap23.swap12.swap01
      else a.swap34.swap23.swap12
    else
      if a.a4 <. a.a2 then a.swap34.swap23
      else a.swap34
  if a.a4 <. a.a2 then
    if a.a4 <. a.a1 then a.swap34.swap23.swap12
    else a.swap34.swap23
  else
    if a.a4 <. a.a3 then a.swap34 else a

/-- src/p2.c:5-10 `struct P2` -/
structure P2 (α : Type) where
  q : Arr5 α
  n : Arr5 α
  np : Arr5 α
  dn : Arr5 α

/-- src/p2.c:69-86 `init_p2` -/
def init_p2 (p : α) : P2 α where
  q := ⟨lit 0, lit 0, lit 0, lit 0, lit 0⟩
  n := ⟨lit 0, lit 1, lit 2, lit 3, lit 4⟩
  np := ⟨lit 0, lit 2 *. p, lit 4 *. p, lit 2 +. lit 2 *. p, lit 4⟩
  dn := ⟨lit 0, p /. lit 2, p, (p +. lit 1) /. lit 2, lit 1⟩

/-- src/p2.c:88-96 `sign` -/
def sign (d : α) : α := if d >. lit 0 then lit 1 else if d <. lit 0 then lit (-1) else lit 0

/-- conversion of a double to `int`; undefined when the integer part does not fit -/
def toInt32 (x : α) : C ℤ :=
  match CDouble.trunc x with
  | some k => if -2 ^ 31 ≤ k ∧ k < 2 ^ 31 then .ok k else .error .floatConv
  | none => .error .floatConv

/-- the array index `i + d` with `unsigned int i`, `int d`: computed modulo 2^32 -/
def idx (i : ℕ) (d : ℤ) : ℕ := (((i : ℤ) + d) % 2 ^ 32).toNat

/-- src/p2.c:98-101 `linear` -/
def linear (p2 : P2 α) (i : ℕ) (d : ℤ) : C α := do
  let qi ← p2.q.get i
  let qd ← p2.q.get (idx i d)
  let ni ← p2.n.get i
  let nd ← p2.n.get (idx i d)
  .ok (qi +. lit d *. (qd -. qi) /. (nd -. ni))

/-- src/p2.c:103-110 `parabolic` -/
def parabolic (p2 : P2 α) (i : ℕ) (d : ℤ) : C α := do
  let qi ← p2.q.get i
  let qp ← p2.q.get (idx i 1)
  let qm ← p2.q.get (idx i (-1))
  let ni ← p2.n.get i
  let np ← p2.n.get (idx i 1)
  let nm ← p2.n.get (idx i (-1))
  .ok (qi +. (lit d /. (np -. nm)) *.
    ((ni -. nm +. lit d) *. (qp -. qi) /. (np -. ni) +.
     (np -. ni -. lit d) *. (qi -. qm) /. (ni -. nm)))

/-- src/p2.c:137-140: `k = 0; while (xj > q[k]) k++;`. `fuel` bounds the number of iterations: with 6 it is never exhausted,
since `q[5]` is already an out-of-bounds access. -/
def findK (q : Arr5 α) (xj : α) : ℕ → ℕ → C ℕ
  | 0, k => .ok k
  | fuel + 1, k => do
    let qk ← q.get k
    if xj >. qk then findK q xj fuel (k + 1) else .ok k

/-- src/p2.c:143-145: `for (i = k + 1; i < 5; i++) n[i] += 1.0;` from index `i` on -/
def bumpN (n : Arr5 α) (i : ℕ) : C (Arr5 α) :=
  if h : i < 5 then do
    let ni ← n.get i
    let n ← n.set i (ni +. lit 1)
    bumpN n (i + 1)
  else .ok n
termination_by 5 - i

/-- src/p2.c:146-148: `np[i] += dn[i]` for the five markers -/
def bumpNP (np dn : Arr5 α) : Arr5 α :=
  ⟨np.a0 +. dn.a0, np.a1 +. dn.a1, np.a2 +. dn.a2, np.a3 +. dn.a3, np.a4 +. dn.a4⟩

/-- src/p2.c:151-163: adjust marker `i` -/
def adjust (p2 : P2 α) (i : ℕ) : C (P2 α) := do
  let npi ← p2.np.get i
  let ni ← p2.n.get i
  let nup ← p2.n.get (idx i 1)
  let ndn ← p2.n.get (idx i (-1))
  let d := npi -. ni
  if (d >=. lit 1 && (nup -. ni) >. lit 1) || (d <=. lit (-1) && (ndn -. ni) <. lit (-1)) then
    let d := sign d
    let di ← toInt32 d
    let qp ← parabolic p2 i di
    let qm ← p2.q.get (idx i (-1))
    let qu ← p2.q.get (idx i 1)
    let qp ← (if !(qm <. qp && qp <. qu) then linear p2 i di else .ok qp : C α)
    let q ← p2.q.set i qp
    let n ← p2.n.set i (ni +. d)
    .ok { p2 with q := q, n := n }
  else .ok p2

/-- src/p2.c:128-165: treat one value `xj`. `k` is an `unsigned int`, `k--` at 0 wraps to 2^32-1 and `k + 1` back to 0. -/
def p2_update (p2 : P2 α) (xj : α) : C (P2 α) := do
  if xj <. p2.q.a0 then .ok { p2 with q := { p2.q with a0 := xj } }
  else if xj >. p2.q.a4 then .ok { p2 with q := { p2.q with a4 := xj } }
  else
    let k ← findK p2.q xj 6 0
    let k := idx k (-1)
    let n ← bumpN p2.n (idx k 1)
    let p2 : P2 α := { p2 with n := n, np := bumpNP p2.np p2.dn }
    let p2 ← adjust p2 1
    let p2 ← adjust p2 2
    adjust p2 3

/-- src/p2.c:112-167 `quantile`; the buffer `x` holds the list `data`. -/
def quantile (p2 : P2 α) (data : List α) (size : UInt64) : C α := do
  if size.toNat < 5 then .ok (lit 0)
  else
    let x0 ← loadBuf data 0
    let x1 ← loadBuf data 1
    let x2 ← loadBuf data 2
    let x3 ← loadBuf data 3
    let x4 ← loadBuf data 4
    let p2 : P2 α := { p2 with q := sort5 ⟨x0, x1, x2, x3, x4⟩ }
    let p2 ← (List.range' 5 (size.toNat - 5)).foldlM
      (fun p2 j => do
        let xj ← loadBuf data j
        p2_update p2 xj)
      p2
    .ok p2.q.a2

/-- src/p2.c:169-173 `p2_quantile` -/
def p2_quantile (p : α) (data : List α) (size : UInt64) : C α := quantile (init_p2 p) data size

end Verif

/-
src/brent.c — Brent's root search
-/
import Verif.Model.Mem

namespace Verif
variable {α : Type} [CDouble α]

/-- src/brent.c:12 -/
def BRENT_DEFAULT_EPSILON : α := lit (2 / 10 ^ 8)

/-- src/brent.c:14 -/
def BRENT_ITMAX : ℕ := 200

/-- src/brent.c:17-22 `_fabs` -/
def fabs (a : α) : α := if a <. lit 0 then -. a else a

/-- the local variables of `brent` that live across iterations (src/brent.c:30-40) -/
structure BrentSt (α : Type) where
  a : α
  b : α
  c : α
  d : α
  e : α
  fa : α
  fb : α
  fc : α

/-- C `(fb > 0.0 && fc > 0.0) || (fb < 0.0 && fc < 0.0)` (src/brent.c:48 and :55) -/
def sameSign (u v : α) : Bool := (u >. lit 0 && v >. lit 0) || (u <. lit 0 && v <. lit 0)

/-- src/brent.c:55-67: rename a, b, c and adjust the bounding interval -/
def brentAdjust (s : BrentSt α) : BrentSt α :=
  let s : BrentSt α :=
    if sameSign s.fb s.fc then { s with c := s.a, fc := s.fa, d := s.b -. s.a, e := s.b -. s.a } else s
  if fabs s.fc <. fabs s.fb then
    { s with a := s.b, b := s.c, c := s.b, fa := s.fb, fb := s.fc, fc := s.fb }
  else s

/-- src/brent.c:68-69 `tol1` -/
def brentTol1 (tol b : α) : α := lit 2 *. BRENT_DEFAULT_EPSILON *. fabs b +. lit (1 / 2) *. tol

/-- src/brent.c:70 `xm` -/
def brentXm (s : BrentSt α) : α := lit (1 / 2) *. (s.c -. s.b)

/-- src/brent.c:71 the convergence test -/
def brentDone (tol : α) (s : BrentSt α) : Bool :=
  fabs (brentXm s) <=. brentTol1 tol s.b || s.fb ==. lit 0

/-- src/brent.c:74-89: `p` and `q` of the attempted interpolation, after the sign normalisation -/
def brentPQ (s : BrentSt α) : α × α :=
  let xm := brentXm s
  let s' := s.fb /. s.fa
  let pq : α × α :=
    if s.a ==. s.c then (lit 2 *. xm *. s', lit 1 -. s')
    else
      let q := s.fa /. s.fc
      let r := s.fb /. s.fc
      (s' *. (lit 2 *. xm *. q *. (q -. r) -. (s.b -. s.a) *. (r -. lit 1)),
       (q -. lit 1) *. (r -. lit 1) *. (s' -. lit 1))
  let q := if pq.1 >. lit 0 then -. pq.2 else pq.2
  (fabs pq.1, q)

/-- src/brent.c:73-102: the new values of `d` and `e` -/
def brentDE (tol : α) (s : BrentSt α) : α × α :=
  let tol1 := brentTol1 tol s.b
  let xm := brentXm s
  if fabs s.e >=. tol1 && fabs s.fa >. fabs s.fb then
    let pq := brentPQ s
    let min1 := lit 3 *. xm *. pq.2 -. fabs (tol1 *. pq.2)
    let min2 := fabs (s.e *. pq.2)
    if lit 2 *. pq.1 <. (if min1 <. min2 then min1 else min2) then (pq.1 /. pq.2, s.d)
    else (xm, xm)
  else (xm, xm)

/-- src/brent.c:105-108: the next trial point -/
def brentNext (tol : α) (s : BrentSt α) (d : α) : α :=
  let tol1 := brentTol1 tol s.b
  if fabs d >. tol1 then s.b +. d
  else s.b +. (if brentXm s >=. lit 0 then fabs tol1 else -. fabs tol1)

/-- src/brent.c:54-113: the loop with `fuel` iterations left; result `(found, root)`.
The function pointer `func` may have any effect `m` (undefined behaviour `C` in the library; a log of the calls in
Spec/Brent.lean). -/
def brentLoop {m : Type → Type} [Monad m] (func : α → m α) (tol : α) : ℕ → BrentSt α → m (Bool × α)
  | 0, _ => pure (false, lit 0)
  | fuel + 1, s => do
    let s := brentAdjust s
    if brentDone tol s then pure (true, s.b)
    else
      let de := brentDE tol s
      let b' := brentNext tol s de.1
      let fb' ← func b'
      brentLoop func tol fuel { s with a := s.b, fa := s.fb, d := de.1, e := de.2, b := b', fb := fb' }

/-- src/brent.c:24-114 `brent(&found, x1, x2, func, extra, tol)`; result `(found, return value)`.
`extra` is captured by the function `func`. -/
def brent {m : Type → Type} [Monad m] (func : α → m α) (x1 x2 tol : α) : m (Bool × α) := do
  let fa ← func x1
  let fb ← func x2
  if sameSign fa fb then pure (false, lit 0)
  else brentLoop func tol BRENT_ITMAX ⟨x1, x2, x2, lit 0, lit 0, fa, fb, fb⟩

end Verif

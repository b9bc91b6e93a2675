/-
benchmark/log_cf_accuracy.c, benchmark/exp_cf_accuracy.c, benchmark/p2.c — the functions that the programs behind the accuracy tables of
docs/internals/50_math.md and 60_fit.md measure. The recursions of `K` are modelled by the number of levels that are left, `d - m` modulo 2^32
(the recursion ends when `m == d`); the size of the call stack is not modelled.
-/
import Verif.Model.P2

namespace Verif
namespace Bench
variable {α : Type} [CDouble α]

/-- benchmark/log_cf_accuracy.c:37-45 `K` -/
def logK (x : α) : ℕ → UInt32 → α
  | 0, _ => lit 0
  | n + 1, m =>
    let md : α := lit m.toNat
    let a := (-. md) *. md
    let b := md +. md +. lit 1
    a *. x *. x /. (b *. (lit 2 +. x) +. logK x n (m + 1))

/-- benchmark/log_cf_accuracy.c:47-50 `log_cf` -/
def log_cf (x : α) (d : UInt32) : α :=
  let z := x -. lit 1
  lit 2 *. z /. (lit 2 +. z +. logK z (d - 1).toNat 1)

/-- benchmark/exp_cf_accuracy.c:36-43 `K`; `2 * m` is computed modulo 2^32 -/
def expK (z2 : α) : ℕ → UInt32 → α
  | 0, _ => lit 0
  | n + 1, m =>
    let mm : α := lit (2 * m).toNat
    let a := lit 1 /. (lit 4 *. (mm -. lit 1) *. (mm +. lit 1))
    z2 *. a /. (lit 1 +. expK z2 n (m + 1))

/-- benchmark/exp_cf_accuracy.c:45-48 `exp_cf` -/
def exp_cf (z : α) (d : UInt32) : α :=
  let z2 := z *. z
  lit 1 +. lit 2 *. z /. (lit 2 -. z +. lit 2 *. expK z2 (d - 1).toNat 1)

/-- benchmark/log_cf_accuracy.c:101-108 and benchmark/exp_cf_accuracy.c:93-100: the maximum relative error of `approx` with respect to `exact`
over the points `xs`; `error->relative` starts at 0 (reset_errors, log_cf_accuracy.c:29-35 and exp_cf_accuracy.c:28-34) -/
def relative (exact approx : α → α) (xs : List α) : α :=
  xs.foldl (fun r x =>
    if !(exact x ==. lit 0) then
      let relative_err := (approx x -. exact x) /. exact x
      if relative_err >. r then relative_err else r
    else r) (lit 0)

open Arr5 in
/-- benchmark/p2.c:44-93 `sort5`: all comparisons are the opposite of those of src/p2.c -/
def sort5 (a : Arr5 α) : Arr5 α :=
  let a := if a.a1 >. a.a0 then a.swap01 else a
  let a := if a.a3 >. a.a2 then a.swap23 else a
  let a := if a.a0 >. a.a2 then a.swap12.swap23 else a.swap12.swap01
  let a :=
    if a.a4 >. a.a1 then
      if a.a4 >. a.a0 then a.swap34.swap23.swap12.swap01
      else a.swap34.swap23.swap12
    else
      if a.a4 >. a.a2 then a.swap34.swap23
      else a.swap34
  if a.a4 >. a.a2 then
    if a.a4 >. a.a1 then a.swap34.swap23.swap12
    else a.swap34.swap23
  else
    if a.a4 >. a.a3 then a.swap34 else a

/-- benchmark/p2.c:138-194 `p2_quantile`. The loop body (154-191) and the functions that it calls (95-136) are those of src/p2.c
(`p2_update`, `init_p2`); the assignments of `k` in 156 and 159 are never read. -/
def p2_quantile (p2 : P2 α) (data : List α) (size : UInt64) : C α := do
  if size.toNat < 5 then .ok cNAN
  else
    let x0 ← loadBuf data 0
    let x1 ← loadBuf data 1
    let x2 ← loadBuf data 2
    let x3 ← loadBuf data 3
    let x4 ← loadBuf data 4
    let p2 : P2 α := { p2 with q := sort5 ⟨x0, x1, x2, x3, x4⟩ }
    let p2 ← (List.range' 5 (size.toNat - 5)).foldlM
      (fun p2 j => do
        let xj ← loadBuf data j
        p2_update p2 xj)
      p2
    .ok p2.q.a2

/-- benchmark/p2.c:196-201 `quantile` -/
def quantile (p : α) (data : List α) (size : UInt64) : C α := p2_quantile (init_p2 p) data size

end Bench
end Verif

/-
benchmark/exp_cf_accuracy.c — the recursive exponential whose accuracy this program measures.
-/
import Verif.Model.BenchMath

namespace Verif
namespace Bench

/-- benchmark/exp_cf_accuracy.c:50-67 `_exp`; `cf` is the function called at 66, `exp_cf(·, d)` in the program. The first argument bounds the
depth of the calls: `none` stands for an execution that needs more nested calls than that. -/
def expDeep (cf : F64 → F64) : ℕ → F64 → Option (C F64)
  | 0, _ => none
  | n + 1, x =>
    if x <. lit 0 then
      (expDeep cf n (-. x)).map fun c => do
        let r ← c
        .ok (lit 1 /. r)
    else if x >. LOG2 then
      match toULL (x /. LOG2) with
      | .error e => some (.error e)
      | .ok k =>
        let r := x -. LOG2 *. lit k.toNat
        (expDeep cf n r).map fun c => do
          let w ← c
          .ok (setExponent w (exponentBits w + k))
    else some (.ok (cf x))

end Bench
end Verif

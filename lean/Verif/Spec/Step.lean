/-
Specification of the classification of an observation and of what counts as an excess.
-/
import Verif.F64.Order

namespace Verif
namespace Spec

/-- the code documented for an observation `x`: 2 (anomaly), 1 (excess) or 0 (normal); `disc` = discard_anomalies,
`low` = lower tail, `at_` and `et` the anomaly and excess thresholds -/
noncomputable def stepCode (disc low : ℤ) (at_ et x : EReal) : ℤ :=
  open Classical in
  if disc ≠ 0 ∧ (if low ≠ 0 then x < at_ else at_ < x) then 2
  else if (if low ≠ 0 then x ≤ et else et ≤ x) then 1
  else 0

/-- the double `x` is strictly beyond the threshold `et` (above it; below it for the lower tail) -/
def Beyond (low : ℤ) (et x : F64) : Prop :=
  F64.notNaN x ∧ (if low ≠ 0 then x.val < et.val else et.val < x.val)

/-- the values of `l` strictly beyond the threshold, in order -/
noncomputable def beyond (low : ℤ) (et : F64) (l : List F64) : List F64 :=
  open Classical in
  l.filter (fun x => Beyond low et x)

/-- the differences of those values to the threshold, rounded to a double -/
noncomputable def excesses (low : ℤ) (et : F64) (l : List F64) : List F64 :=
  (beyond low et l).map (fun x => if low ≠ 0 then F64.neg (F64.sub x et) else F64.sub x et)

end Spec
end Verif

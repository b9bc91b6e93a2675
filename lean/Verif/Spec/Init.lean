/-
Documented parameter region of `spot_init` (include/spot.h).
-/
import Verif.F64.Order

namespace Verif
open F64 (notNaN)

namespace Spec

/-- a non-NaN double with value in [0,1) -/
def LevelOK (level : F64) : Prop := notNaN level ∧ 0 ≤ level.val ∧ level.val < 1

/-- a non-NaN double with value in (0, 1 ⊖ level), `⊖` being the IEEE subtraction -/
def QOK (q level : F64) : Prop := notNaN q ∧ 0 < q.val ∧ q.val < (F64.sub (F64.ofRat false 1) level).val

end Spec

end Verif

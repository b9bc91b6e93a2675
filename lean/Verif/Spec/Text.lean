/-
What the text functions should store.
-/
import Verif.Model.Text

namespace Verif.Spec

/-- A buffer `b` after `size` bytes (at least 1) have been filled with the text: the longest prefix that leaves room for a
NUL, then NUL up to `size`, then what was there before. -/
def stored (text : List UInt8) (size : ℕ) (b : List UInt8) : List UInt8 :=
  let t := text.take (size - 1)
  t ++ List.replicate (size - t.length) 0 ++ b.drop size

/-- a C string holds no NUL -/
def NoNul (s : List UInt8) : Prop := ∀ c ∈ s, c ≠ 0

instance (s : List UInt8) : Decidable (NoNul s) := by unfold NoNul; infer_instance

/-- The message of each error code (the comments at src/spot.c:194-199 name the codes, include/structs.h:64-77 numbers them). -/
def message : ℕ → Option String
  | 1000 => some "Memory allocation failed"
  | 1001 => some "The level parameter is out of bounds (it must be between 0 and 1, but close to 1)"
  | 1002 => some "The q parameter must between 0 and 1-level"
  | 1003 => some "The excess threshold has not been initialized"
  | 1004 => some "The anomaly threshold has not been initialized"
  | 1005 => some "The input data is NaN"
  | _ => none

end Verif.Spec

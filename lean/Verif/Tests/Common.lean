/-
The tests of the project (test/src), run on the model: assertions of Unity and sample environment.

The modules under Verif/Tests validate the model against what the project expects of its code; no property rests on them. Tests that
need little computation are checked by the kernel (`decide +kernel`); the bulky tables are evaluated by the interpreter while the module
is built (`#guard`), which proves nothing but fails the build if an expectation is not met.
-/
import Verif.Model.Spot
import Verif.Model.Text
import Verif.F64.Basic

namespace Verif.Tests
open Verif F64

/-- `TEST_ASSERT_DOUBLE_WITHIN(delta, expected, actual)`: Unity ignores the sign of `delta` and accepts only finite numbers here -/
def within (delta : ℚ) (expected actual : F64) : Bool := match expected, actual with
  | fin s k, fin s' k' => decide (|(fin s k).toQ - (fin s' k').toQ| ≤ |delta|)
  | _, _ => false

/-- `TEST_ASSERT_EQUAL_DOUBLE(expected, actual)` on finite numbers: a relative error of 1e-12 is accepted -/
def equal (expected actual : F64) : Bool := within (|expected.toQ| / 10 ^ 12) expected actual

/-- the decimal constant `n * 10^-d` -/
def dec (n : ℤ) (d : ℕ) : F64 := lit ((n : ℚ) / 10 ^ d)

/-- `internal_set_allocators(malloc, free)` in `setUp`: an allocator that finds a free address -/
def lib : Lib F64 := ⟨some (fun h _ => (List.range 100).find? (fun i => (h (i + 1)).isNone) |>.map (· + 1)), true, muslFU⟩

/-- no block is allocated -/
def emptyHeap : Heap F64 := fun _ => none

/-- the mathematical functions of the library -/
def M : MathFns F64 := codeMath muslFU

/-- the assertions after a computation; undefined behaviour fails the test -/
def passes {β : Type} (x : C β) (f : β → Bool) : Bool := match x with
  | .ok v => f v
  | .error _ => false

end Verif.Tests

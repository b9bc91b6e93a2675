/-
src/ubend.c — the circular container
-/
import Verif.Model.Mem

namespace Verif
variable {α : Type} [CDouble α]

/-- include/structs.h:99-110 `struct Ubend` -/
structure Ubend (α : Type) where
  cursor : UInt64
  capacity : UInt64
  last_erased_data : α
  filled : ℤ
  data : Ptr

/-- include/structs.h:66 `ERR_MEMORY_ALLOCATION_FAILED = 1000` -/
def ERR_MEMORY_ALLOCATION_FAILED : ℤ := 1000

/-- src/ubend.c:12-22 `ubend_init`: all fields are assigned; the size `capacity * 8` is computed modulo 2^64. -/
def ubend_init (lib : Lib α) (h : Heap α) (capacity : UInt64) : ℤ × Ubend α × Heap α :=
  let r := xmalloc lib h (capacity * 8)
  let u : Ubend α := ⟨0, capacity, cNAN, 0, r.1⟩
  (if r.1.isSome then 0 else -ERR_MEMORY_ALLOCATION_FAILED, u, r.2)

/-- src/ubend.c:24-32 `ubend_free`; the pointer itself is left as it is. -/
def ubend_free (lib : Lib α) (h : Heap α) (u : Ubend α) : C (Ubend α × Heap α) :=
  let u' : Ubend α := { u with cursor := 0, capacity := 0, filled := -1, last_erased_data := cNAN }
  if u.data.isSome then do
    let h' ← xfree lib h u.data
    .ok (u', h')
  else .ok (u', h)

/-- src/ubend.c:34-39 `ubend_size` -/
def ubend_size (u : Ubend α) : UInt64 := if u.filled ≠ 0 then u.capacity else u.cursor

/-- src/ubend.c:41-61 `ubend_push` -/
def ubend_push (h : Heap α) (u : Ubend α) (x : α) : C (α × Ubend α × Heap α) := do
  let last ← (if u.filled ≠ 0 then load h u.data u.cursor.toNat else .ok u.last_erased_data : C α)
  let h' ← store h u.data u.cursor.toNat x
  let u' : Ubend α :=
    if u.cursor = u.capacity - 1 then { u with last_erased_data := last, cursor := 0, filled := 1 }
    else { u with last_erased_data := last, cursor := u.cursor + 1 }
  .ok (u'.last_erased_data, u', h')

end Verif

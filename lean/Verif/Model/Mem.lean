/-
Memory and undefined behaviour of the C abstract machine, as far as libspot needs them.
-/
import Verif.CDouble

namespace Verif

/-- Kinds of undefined behaviour that the modelled code can run into. -/
inductive UB where
  /-- access outside of a live block / array -/
  | outOfBounds
  /-- access through NULL or through a pointer to a block that is not live (never allocated or freed) -/
  | badPointer
  /-- read of a cell that was never written -/
  | uninitRead
  /-- `free` of a pointer that is not the address of a live block (double free, garbage) -/
  | badFree
  /-- conversion of a double to an integer type that cannot represent it (C99 6.3.1.4) -/
  | floatConv
  deriving DecidableEq, Repr

/-- Result of a C computation: a value, or undefined behaviour. -/
abbrev C := Except UB

/-- Heap: for each address, `none` if no live block starts there, otherwise the cells (one per `double`) of the live block;
a cell is `none` as long as it has not been written. -/
abbrev Heap (α : Type) := ℕ → Option (List (Option α))

/-- A `double *`: `none` is NULL. -/
abbrev Ptr := Option ℕ

variable {α : Type}

/-- `p[i]` as an rvalue -/
def load (h : Heap α) (p : Ptr) (i : ℕ) : C α :=
  match p with
  | none => .error .badPointer
  | some a =>
    match h a with
    | none => .error .badPointer
    | some cells =>
      match cells[i]? with
      | none => .error .outOfBounds
      | some none => .error .uninitRead
      | some (some v) => .ok v

/-- `p[i] = v` -/
def store (h : Heap α) (p : Ptr) (i : ℕ) (v : α) : C (Heap α) :=
  match p with
  | none => .error .badPointer
  | some a =>
    match h a with
    | none => .error .badPointer
    | some cells =>
      if i < cells.length then .ok (Function.update h a (some (cells.set i (some v))))
      else .error .outOfBounds

/-- `data[i]` for a caller-provided read-only buffer `double const *data` holding the list `data`. -/
def loadBuf (data : List α) (i : ℕ) : C α :=
  match data[i]? with
  | none => .error .outOfBounds
  | some v => .ok v

/-- include/structs.h:23 `malloc_fn`: a user-provided allocator is an arbitrary function of the heap and of the requested
number of bytes; it returns NULL or an address. (That the address is not the one of a live block is the C standard's
contract for malloc, stated as a hypothesis `MallocOK` where it is needed.) -/
abbrev MallocFn (α : Type) := Heap α → UInt64 → Ptr

/-- include/structs.h:41, :52: `frexp_fn`: argument and old content of `*e` to result and new content of `*e`;
`ldexp_fn`. -/
structure FloatUtils (α : Type) where
  ldexp : α → ℤ → α
  frexp : α → ℤ → α × ℤ

/-- The library's global variables: src/allocator.c:16,22 (`libspot_malloc`, `libspot_free`, both NULL at start) and
src/xmath.c:237,242 (`libspot_frexp`, `libspot_ldexp`). A registered free function is the standard `free`
(`freeSet = true`), the only thing that differs between free functions being which blocks they accept. -/
structure Lib (α : Type) where
  malloc : Option (MallocFn α)
  freeSet : Bool
  fu : FloatUtils α

/-- src/allocator.c:24-27 `internal_set_allocators` (= `set_allocators`, src/spot.c:163) -/
def internal_set_allocators (lib : Lib α) (m : Option (MallocFn α)) (f : Bool) : Lib α :=
  { lib with malloc := m, freeSet := f }

/-- `__SIZE_MAX__` on an LP64 platform -/
def SIZE_MAX : ℕ := 2 ^ 64 - 1

/-- src/allocator.c:29-42 `xmalloc`. The block returned by a successful malloc holds `size/8` uninitialised doubles. -/
def xmalloc (lib : Lib α) (h : Heap α) (size : UInt64) : Ptr × Heap α :=
  match lib.malloc with
  | none => (none, h)
  | some m =>
    if size.toNat > SIZE_MAX then (none, h)
    else
      match m h size with
      | none => (none, h)
      | some a => (some a, Function.update h a (some (List.replicate (size.toNat / 8) none)))

/-- src/allocator.c:44-49 `xfree`: nothing if no free function is registered; otherwise the standard `free`
(`free(NULL)` does nothing; freeing anything but a live block is undefined). -/
def xfree (lib : Lib α) (h : Heap α) (p : Ptr) : C (Heap α) :=
  if lib.freeSet then
    match p with
    | none => .ok h
    | some a =>
      match h a with
      | none => .error .badFree
      | some _ => .ok (Function.update h a none)
  else .ok h

end Verif

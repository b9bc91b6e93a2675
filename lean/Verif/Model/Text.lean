/-
src/spot.c — text functions
-/
import Verif.Model.Spot

namespace Verif

/-- a C string constant: its bytes without the terminating NUL -/
abbrev CStr := List UInt8

/-- `src[i]` of a NUL-terminated constant -/
def CStr.get (s : CStr) (i : ℕ) : C UInt8 :=
  if i < s.length then .ok (s.getD i 0) else if i = s.length then .ok 0 else .error .outOfBounds

/-- a caller-provided `char *`: NULL, or a buffer with its current bytes -/
abbrev CBuf := Option (List UInt8)

/-- `dst[i] = v` -/
def putByte (b : List UInt8) (i : ℕ) (v : UInt8) : C (List UInt8) :=
  if i < b.length then .ok (b.set i v) else .error .outOfBounds

/-- src/spot.c:177-179: `for (; (i < size) && (src[i] != '\0'); i++) dst[i] = src[i];` -/
def copyLoop (dst : List UInt8) (src : CStr) (size i : ℕ) : C (List UInt8 × ℕ) :=
  if h : i < size then do
    let ch ← src.get i
    if ch ≠ 0 then do
      let dst ← putByte dst i ch
      copyLoop dst src size (i + 1)
    else .ok (dst, i)
  else .ok (dst, i)
termination_by size - i

/-- src/spot.c:180-182: `for (; i < size; i++) dst[i] = '\0';` -/
def fillLoop (dst : List UInt8) (size i : ℕ) : C (List UInt8) :=
  if h : i < size then do
    let dst ← putByte dst i 0
    fillLoop dst size (i + 1)
  else .ok dst
termination_by size - i

/-- src/spot.c:174-186 `strncpy`: the new content of the buffer. `size - 1` is computed modulo 2^64. -/
def strncpy (dst : CBuf) (src : CStr) (size : UInt64) : C CBuf :=
  match dst with
  | none => .ok none
  | some b => do
    let r ← copyLoop b src size.toNat 0
    let b ← fillLoop r.1 size.toNat r.2
    let b ← putByte b (size - 1).toNat 0
    .ok (some b)

/-- bytes of a string literal -/
def cstr (s : String) : CStr := s.toUTF8.toList

/-- src/spot.c:193-200 `errors` -/
def errors : List String := [
  "Memory allocation failed",
  "The level parameter is out of bounds (it must be between 0 and 1, but close to 1)",
  "The q parameter must between 0 and 1-level",
  "The excess threshold has not been initialized",
  "The anomaly threshold has not been initialized",
  "The input data is NaN"]

/-- src/spot.c:202-207 `libspot_error`; `err` is an enumeration (unsigned int) value. -/
def libspot_error (err : ℕ) (buffer : CBuf) (size : UInt64) : C CBuf :=
  if 1000 ≤ err ∧ err < 1005 then
    match errors[err - 1000]? with
    | some m => strncpy buffer (cstr m) size
    | none => .error .outOfBounds
  else .ok buffer

/-- src/spot.c:209-211 `libspot_version`; `version` is the compile-time constant VERSION (src/spot.c:12-14, :21). -/
def libspot_version (version : CStr) (buffer : CBuf) (size : UInt64) : C CBuf := strncpy buffer version size

/-- src/spot.c:16-18, :22 -/
def LICENSE : String := "LGPL-3.0-or-later"

/-- src/spot.c:213-215 `libspot_license` -/
def libspot_license (buffer : CBuf) (size : UInt64) : C CBuf := strncpy buffer (cstr LICENSE) size

end Verif

/-
IEEE-754 binary64 values and operations (the C type `double`, see Round.lean).
-/
import Verif.F64.Round
import Verif.CDouble

namespace Verif

/-- number of finite magnitudes: codes `k < 2047 * 2^52` -/
def finCodes : ℕ := 9218868437227405312

/-- A double: NaN (payloads and sign are not distinguished), an infinity, or a finite number given by its sign bit and its
63-bit magnitude code. `fin true 0` is -0. -/
inductive F64 where
  | nan
  | inf (neg : Bool)
  | fin (neg : Bool) (k : Fin finCodes)
  deriving DecidableEq, Repr

namespace F64

/-- exact rational value of a finite double (0 for the others, never used for them) -/
def toQ : F64 → ℚ
  | fin false k => mag k
  | fin true k => -mag k
  | _ => 0

/-- Round a rational number to the nearest double; an exact zero gets the sign `z`. -/
def ofRat (z : Bool) (q : ℚ) : F64 :=
  if q = 0 then fin z ⟨0, by decide⟩
  else
    let k := rnd |q|
    if h : k < finCodes then fin (decide (q < 0)) ⟨k, h⟩ else inf (decide (q < 0))

def zero (s : Bool) : F64 := fin s ⟨0, by decide⟩

def neg : F64 → F64
  | nan => nan
  | inf s => inf (!s)
  | fin s k => fin (!s) k

def add : F64 → F64 → F64
  | nan, _ => nan
  | _, nan => nan
  | inf s, inf t => if s = t then inf s else nan
  | inf s, fin _ _ => inf s
  | fin _ _, inf t => inf t
  | fin s a, fin t b => ofRat (s && t) (toQ (fin s a) + toQ (fin t b))

def sub (x y : F64) : F64 := add x (neg y)

def mul : F64 → F64 → F64
  | nan, _ => nan
  | _, nan => nan
  | inf s, inf t => inf (s != t)
  | inf s, fin t b => if b.val = 0 then nan else inf (s != t)
  | fin s a, inf t => if a.val = 0 then nan else inf (s != t)
  | fin s a, fin t b => ofRat (s != t) (toQ (fin s a) * toQ (fin t b))

def div : F64 → F64 → F64
  | nan, _ => nan
  | _, nan => nan
  | inf _, inf _ => nan
  | inf s, fin t _ => inf (s != t)
  | fin s _, inf t => zero (s != t)
  | fin s a, fin t b =>
    if b.val = 0 then (if a.val = 0 then nan else inf (s != t))
    else ofRat (s != t) (toQ (fin s a) / toQ (fin t b))

def lt : F64 → F64 → Bool
  | nan, _ => false
  | _, nan => false
  | inf s, inf t => s && !t
  | inf s, fin _ _ => s
  | fin _ _, inf t => !t
  | fin s a, fin t b => decide (toQ (fin s a) < toQ (fin t b))

def le : F64 → F64 → Bool
  | nan, _ => false
  | _, nan => false
  | inf s, inf t => s || !t
  | inf s, fin _ _ => s
  | fin _ _, inf t => !t
  | fin s a, fin t b => decide (toQ (fin s a) ≤ toQ (fin t b))

def eq : F64 → F64 → Bool
  | nan, _ => false
  | _, nan => false
  | inf s, inf t => s == t
  | inf _, fin _ _ => false
  | fin _ _, inf _ => false
  | fin s a, fin t b => decide (toQ (fin s a) = toQ (fin t b))

/-- integer part (towards zero) -/
def trunc : F64 → Option ℤ
  | fin false k => some (mag k).floor
  | fin true k => some (-(mag k).floor)
  | _ => none

instance : CDouble F64 where
  lit := ofRat false
  add := add
  sub := sub
  mul := mul
  div := div
  neg := neg
  lt := lt
  le := le
  eq := eq
  trunc := trunc

/-! Bit patterns, as seen through the `double_cast` union of src/xmath.c:80-83. -/

/-- IEEE interchange encoding (one quiet NaN pattern is chosen for NaN). -/
def toBits : F64 → UInt64
  | nan => 0x7ff8000000000000
  | inf s => (if s then 0x8000000000000000 else 0) ||| 0x7ff0000000000000
  | fin s k => (if s then 0x8000000000000000 else 0) ||| UInt64.ofNat k.val

/-- decoding of a 64-bit pattern -/
def ofBits (b : UInt64) : F64 :=
  let s : Bool := 2 ^ 63 ≤ b.toNat
  let m : ℕ := b.toNat % 2 ^ 63
  if h : m < finCodes then fin s ⟨m, h⟩
  else if m = finCodes then inf s else nan

end F64
end Verif

import Verif.Rust
/-!
# IEEE 754 binary32 arithmetic

Values are the mathematical values of `f32`: a NaN, signed infinities, signed zeros and nonzero rationals. Every operation
computes the exact result and rounds it to the nearest representable value, ties to even, gradual underflow and overflow to
infinity included. NaN payloads are not modelled; no operation used by the crate depends on them.

The constructor `fin` accepts any rational. The values of `f32` are those with `F32.Valid`, and all operations return valid
values (`Verif.Lemmas.F32`). A theorem about all `F32` is about more than the 2^32 bit patterns, never about less.
-/

namespace Rust

/-- `2^e` -/
def pow2 (e : Int) : Rat := if 0 ≤ e then ((2 ^ e.toNat : Nat) : Rat) else mkRat 1 (2 ^ (-e).toNat)

/-- The exponent `e` with `2^e ≤ q < 2^(e+1)`, for positive `q`. -/
def log2Rat (q : Rat) : Int :=
  let l := (Nat.log2 q.num.natAbs : Int) - (Nat.log2 q.den : Int)
  if pow2 l ≤ q then l else l - 1

/-- The nearest integer, ties to even. -/
def rne (q : Rat) : Int :=
  let f := q.floor
  if q - (f : Rat) < 1 / 2 then f
  else if 1 / 2 < q - (f : Rat) then f + 1
  else if f % 2 = 0 then f else f + 1

/-- Exponent of the last place of the binary32 values around `q`: 24 significant bits, at least `2^-149`. -/
def ulpExp (q : Rat) : Int := max (log2Rat q.abs - 23) (-149)

/-- `q` rounded to 24 significant bits, without bound on the exponent above. -/
def roundQ (q : Rat) : Rat := if q = 0 then 0 else (rne (q / pow2 (ulpExp q)) : Rat) * pow2 (ulpExp q)

/-- An `f32`; `neg` is the sign bit. -/
inductive F32 where
  | nan
  | inf (neg : Bool)
  | zero (neg : Bool)
  | fin (q : Rat)
  deriving DecidableEq, Repr

namespace F32

/-- Rounds an exact result; `s` is the sign of an exact zero. -/
def round (s : Bool) (q : Rat) : F32 :=
  if q = 0 then zero s
  else if roundQ q = 0 then zero (decide (q < 0))
  else if pow2 128 ≤ (roundQ q).abs then inf (decide (q < 0))
  else fin (roundQ q)

/-- A literal, or an unsigned integer converted with `as f32`. -/
def ofRat (q : Rat) : F32 := round false q

/-- `n as f32` for an unsigned integer. -/
def ofNat (n : Nat) : F32 := ofRat (n : Rat)

/-- The rational value of a finite number. -/
def val? : F32 → Option Rat
  | zero _ => some 0
  | fin q => some q
  | _ => none

/-- The sign bit (of a NaN: false). -/
def signBit : F32 → Bool
  | nan => false
  | inf s => s
  | zero s => s
  | fin q => decide (q < 0)

/-- `-x` -/
def neg : F32 → F32
  | nan => nan
  | inf s => inf (!s)
  | zero s => zero (!s)
  | fin q => fin (-q)

/-- `x + y` -/
def add (x y : F32) : F32 :=
  match x, y with
  | nan, _ => nan
  | _, nan => nan
  | inf s, inf t => if s = t then inf s else nan
  | inf s, _ => inf s
  | _, inf s => inf s
  | zero s, zero t => zero (s && t)
  | zero _, fin q => fin q
  | fin q, zero _ => fin q
  | fin p, fin q => round false (p + q)

/-- `x - y` -/
def sub (x y : F32) : F32 := add x y.neg

/-- `x * y` -/
def mul (x y : F32) : F32 :=
  match x, y with
  | nan, _ => nan
  | _, nan => nan
  | inf _, zero _ => nan
  | zero _, inf _ => nan
  | inf s, y => inf (s != y.signBit)
  | x, inf t => inf (x.signBit != t)
  | zero s, y => zero (s != y.signBit)
  | x, zero t => zero (x.signBit != t)
  | fin p, fin q => round false (p * q)

/-- `x / y` -/
def div (x y : F32) : F32 :=
  match x, y with
  | nan, _ => nan
  | _, nan => nan
  | inf _, inf _ => nan
  | zero _, zero _ => nan
  | inf s, y => inf (s != y.signBit)
  | x, inf t => zero (x.signBit != t)
  | zero s, y => zero (s != y.signBit)
  | x, zero t => inf (x.signBit != t)
  | fin p, fin q => round false (p / q)

/-- `x < y`; false when either is a NaN. -/
def lt (x y : F32) : Bool :=
  match x, y with
  | nan, _ => false
  | _, nan => false
  | inf s, inf t => s && !t
  | inf s, _ => s
  | _, inf t => !t
  | zero _, zero _ => false
  | zero _, fin q => decide (0 < q)
  | fin p, zero _ => decide (p < 0)
  | fin p, fin q => decide (p < q)

/-- `x == y`; false when either is a NaN, and zeros are equal. -/
def feq (x y : F32) : Bool :=
  match x, y with
  | nan, _ => false
  | _, nan => false
  | inf s, inf t => s == t
  | zero _, zero _ => true
  | fin p, fin q => decide (p = q)
  | _, _ => false

/-- `x <= y` -/
def le (x y : F32) : Bool := lt x y || feq x y

/-- `x.min(y)`: the other operand if one is a NaN. When the operands are zeros of different sign either may be returned. -/
def min (x y : F32) : F32 :=
  match x, y with
  | nan, y => y
  | x, nan => x
  | x, y => if lt y x then y else x

/-- `x.max(y)` -/
def max (x y : F32) : F32 :=
  match x, y with
  | nan, y => y
  | x, nan => x
  | x, y => if lt x y then y else x

/-- `x.floor()`; the result is representable, so there is nothing to round. -/
def floor : F32 → F32
  | fin q => if q.floor = 0 then zero (decide (q < 0)) else fin (q.floor : Rat)
  | x => x

/-- `x.ceil()` -/
def ceil : F32 → F32
  | fin q => if q.ceil = 0 then zero (decide (q < 0)) else fin (q.ceil : Rat)
  | x => x

/-- `x.trunc()` -/
def trunc (x : F32) : F32 := if x.signBit then x.ceil else x.floor

/-- `x.fract()`, defined in the standard library as `x - x.trunc()`. -/
def fract (x : F32) : F32 := x.sub x.trunc

/-- `x as u64` and other unsigned types of `bits` bits: toward zero and saturating, NaN is 0. Compilers before Rust 1.45 left
out of range values undefined. -/
def toUnsigned (bits : Nat) : F32 → Nat
  | nan => 0
  | inf s => if s then 0 else 2 ^ bits - 1
  | zero _ => 0
  | fin q => if q < 0 then 0 else Nat.min q.floor.toNat (2 ^ bits - 1)

/-- `x as usize` -/
def toUsize (x : F32) : Nat := toUnsigned 64 x

/-- `x as i32`: toward zero and saturating, NaN is 0. Compilers before Rust 1.45 left out of range values undefined. -/
def toI32 : F32 → Int
  | nan => 0
  | inf s => if s then -2147483648 else 2147483647
  | zero _ => 0
  | fin q =>
    let t := if q < 0 then q.ceil else q.floor
    if t < -2147483648 then -2147483648 else if 2147483647 < t then 2147483647 else t

/-- `x.is_normal()`: neither zero, subnormal, infinite nor NaN. -/
def isNormal : F32 → Bool
  | fin q => decide (pow2 (-126) ≤ q.abs)
  | _ => false

/-- The value with the given bit pattern, for `bits < 2^32`: `f32::from_bits`. -/
def ofBits (bits : Nat) : F32 :=
  let s := decide (2147483648 ≤ bits)
  let e := bits / 8388608 % 256
  let f := bits % 8388608
  let sgn : Rat := if s then -1 else 1
  if e = 255 then (if f = 0 then inf s else nan)
  else if e = 0 then (if f = 0 then zero s else fin (sgn * f * pow2 (-149)))
  else fin (sgn * ((8388608 + f : Nat) : Rat) * pow2 ((e : Int) - 150))

/-- The values that exist as `f32`. -/
def Valid : F32 → Prop
  | fin q => q ≠ 0 ∧ roundQ q = q ∧ q.abs < pow2 128
  | _ => True

end F32

end Rust

/-!
# TIFF fields

Sizes of the field types and the storage of numbers, from the TIFF 6.0 specification (section 2). Nothing here refers to the
model.
-/

namespace Spec

/-- Size in bytes of one component of a field: BYTE, ASCII, SHORT, LONG, RATIONAL, SBYTE, UNDEFINED, SSHORT, SLONG, SRATIONAL,
FLOAT, DOUBLE, IFD. -/
def tiffSize : Nat → Nat
  | 1 => 1 | 2 => 1 | 3 => 2 | 4 => 4 | 5 => 8 | 6 => 1 | 7 => 1 | 8 => 2 | 9 => 4 | 10 => 8 | 11 => 4 | 12 => 8 | 13 => 4
  | _ => 1

/-- The value of a digit sequence with base 256, least significant digit first. -/
def numberLE : List UInt8 → Nat
  | [] => 0
  | b :: l => b.toNat + 256 * numberLE l

/-- The number stored in some bytes, in the given byte order. -/
def number (big : Bool) (l : List UInt8) : Nat := numberLE (if big then l.reverse else l)

/-- The `n` bytes of a buffer from `pos` on. -/
def bytesAt (buf : List UInt8) (pos n : Nat) : List UInt8 := (buf.drop pos).take n

/-- `n` bytes storing a number, least significant first. -/
def encodeLE : Nat → Nat → List UInt8
  | 0, _ => []
  | n + 1, v => UInt8.ofNat v :: encodeLE n (v / 256)

/-- `n` bytes storing a number. -/
def encode (big : Bool) (n v : Nat) : List UInt8 := if big then (encodeLE n v).reverse else encodeLE n v

/-- The number in two's complement with 32 bits. -/
def signed32 (n : Nat) : Int := if n < 2147483648 then n else (n : Int) - 4294967296

/-- The number of eight bytes that stores two numbers of four bytes one after the other. -/
def pairNumber (big : Bool) (x y : Nat) : Nat := if big then x * 4294967296 + y else x + y * 4294967296

/-- A field: tag, type and the values of its components. (A component of eight bytes, such as a rational, counts as one number
here, see `pairNumber`.) -/
structure Field where
  tag : Nat
  typ : Nat
  values : List Nat

/-- The bytes of all components. -/
def Field.bytes (big : Bool) (f : Field) : List UInt8 := f.values.flatMap (encode big (tiffSize f.typ))

/-- The field is stored in the buffer at `pos`: tag, type and count, and then the components if they take at most four bytes and
otherwise their position. -/
structure Field.StoredAt (big : Bool) (buf : List UInt8) (pos : Nat) (f : Field) : Prop where
  tag_lt : f.tag < 65536
  typ_ok : 1 ≤ f.typ ∧ f.typ ≤ 13
  count_lt : f.values.length < 4294967296
  fits : ∀ v ∈ f.values, v < 256 ^ tiffSize f.typ
  tag : bytesAt buf pos 2 = encode big 2 f.tag
  typ : bytesAt buf (pos + 2) 2 = encode big 2 f.typ
  count : bytesAt buf (pos + 4) 4 = encode big 4 f.values.length
  room : pos + 12 ≤ buf.length
  inline : (f.bytes big).length ≤ 4 → bytesAt buf (pos + 8) (f.bytes big).length = f.bytes big
  outside : 4 < (f.bytes big).length → ∃ o, o < 4294967296 ∧ bytesAt buf (pos + 8) 4 = encode big 4 o ∧
    bytesAt buf o (f.bytes big).length = f.bytes big

/-- The same in a buffer taken out of a file from `base` on, when positions still count from the start of the file. -/
structure Field.StoredFrom (base : Nat) (big : Bool) (buf : List UInt8) (pos : Nat) (f : Field) : Prop where
  tag_lt : f.tag < 65536
  typ_ok : 1 ≤ f.typ ∧ f.typ ≤ 13
  count_lt : f.values.length < 4294967296
  fits : ∀ v ∈ f.values, v < 256 ^ tiffSize f.typ
  tag : bytesAt buf pos 2 = encode big 2 f.tag
  typ : bytesAt buf (pos + 2) 2 = encode big 2 f.typ
  count : bytesAt buf (pos + 4) 4 = encode big 4 f.values.length
  room : pos + 12 ≤ buf.length
  inline : (f.bytes big).length ≤ 4 → bytesAt buf (pos + 8) (f.bytes big).length = f.bytes big
  outside : 4 < (f.bytes big).length → ∃ o, base + o < 4294967296 ∧ bytesAt buf (pos + 8) 4 = encode big 4 (base + o) ∧
    bytesAt buf o (f.bytes big).length = f.bytes big

end Spec

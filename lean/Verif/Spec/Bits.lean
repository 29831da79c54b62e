/-!
# Specification: images and bit streams

Nothing here refers to the model.
-/

namespace Spec

/-- The row-major sample vector of a `w` by `h` image given by its samples. -/
def raster {α : Type} (w h : Nat) (pix : Nat → Nat → α) : List α :=
  (List.range (w * h)).map fun i => pix (i / w) (i % w)

/-- The bytes of a buffer as a sequence of numbers; positions after the end read as zero. -/
def bytesOf (buf : List UInt8) (i : Nat) : Nat :=
  match buf[i]? with
  | some b => b.toNat
  | none => 0

/-- Bit `n` of a byte sequence, most significant bit of each byte first. -/
def bitMSB (b : Nat → Nat) (n : Nat) : Nat := b (n / 8) / 2 ^ (7 - n % 8) % 2

/-- The `n`-bit number stored from bit `s` on, most significant bit first. -/
def fieldMSB (b : Nat → Nat) (s : Nat) : Nat → Nat
  | 0 => 0
  | n + 1 => 2 * fieldMSB b s n + bitMSB b (s + n)

/-- Bit `n` of a byte sequence, least significant bit of each byte first. -/
def bitLSB (b : Nat → Nat) (n : Nat) : Nat := b (n / 8) / 2 ^ (n % 8) % 2

/-- The `n`-bit number stored from bit `s` on, least significant bit first. -/
def fieldLSB (b : Nat → Nat) (s : Nat) : Nat → Nat
  | 0 => 0
  | n + 1 => fieldLSB b s n + 2 ^ n * bitLSB b (s + n)

/-- The byte sequence with the two bytes of each 16-bit word exchanged. -/
def swap16 (b : Nat → Nat) (i : Nat) : Nat := if i % 2 = 0 then b (i + 1) else b (i - 1)

/-- The byte sequence with the four bytes of each 32-bit word reversed. -/
def swap32 (b : Nat → Nat) (i : Nat) : Nat := b (i / 4 * 4 + (3 - i % 4))

end Spec

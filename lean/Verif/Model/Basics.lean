import Verif.Rust
/-!
# Model of `src/decoders/basics.rs`
-/

namespace Model
open Rust

/-- File contents and slices of it. -/
abbrev Bytes := List UInt8

/-- `clampbits` (`basics.rs:10-17`). `temp = val >> bits`; the operand of `!` and of the second shift is an `i32`, so
both shifts are arithmetic. The model is for `1 ≤ bits ≤ 31`, the shift amounts being in range. -/
def clampbits (val : Int) (bits : Nat) : Int :=
  let temp := sarI val bits
  if temp ≠ 0 then sarI (-temp - 1) (32 - bits) else val

/-- `i[k] as u16` and similar: a byte of a slice as a number. -/
def byteAt (buf : Bytes) (i : Nat) : M Nat := do
  let b ← idx buf i
  .ok b.toNat

/-- `BEu16` (`basics.rs:75-77`) -/
def BEu16 (buf : Bytes) (pos : Nat) : M Nat := do
  let s ← slice buf pos (pos + 2)
  let b0 ← byteAt s 0
  let b1 ← byteAt s 1
  .ok (b0 * 256 + b1)

/-- `LEu16` (`basics.rs:79-81`) -/
def LEu16 (buf : Bytes) (pos : Nat) : M Nat := do
  let s ← slice buf pos (pos + 2)
  let b0 ← byteAt s 0
  let b1 ← byteAt s 1
  .ok (b1 * 256 + b0)

/-- `BEu32` (`basics.rs:63-65`) -/
def BEu32 (buf : Bytes) (pos : Nat) : M Nat := do
  let s ← slice buf pos (pos + 4)
  let b0 ← byteAt s 0
  let b1 ← byteAt s 1
  let b2 ← byteAt s 2
  let b3 ← byteAt s 3
  .ok (b0 * 16777216 + b1 * 65536 + b2 * 256 + b3)

/-- `LEu32` (`basics.rs:67-69`); `LEf32` (`basics.rs:71-73`) reads the same bytes and reinterprets them. -/
def LEu32 (buf : Bytes) (pos : Nat) : M Nat := do
  let s ← slice buf pos (pos + 4)
  let b0 ← byteAt s 0
  let b1 ← byteAt s 1
  let b2 ← byteAt s 2
  let b3 ← byteAt s 3
  .ok (b3 * 16777216 + b2 * 65536 + b1 * 256 + b0)

/-- `BEi32` (`basics.rs:55-57`) -/
def BEi32 (buf : Bytes) (pos : Nat) : M Int := do
  let v ← BEu32 buf pos
  .ok (toI32 v)

/-- `LEi32` (`basics.rs:59-61`) -/
def LEi32 (buf : Bytes) (pos : Nat) : M Int := do
  let v ← LEu32 buf pos
  .ok (toI32 v)

/-- `Endian` (`basics.rs:19-22`) -/
structure Endian where
  big : Bool
  deriving DecidableEq, Repr

/-- `BIG_ENDIAN` (`basics.rs:52`) -/
def BIG_ENDIAN : Endian := ⟨true⟩

/-- `LITTLE_ENDIAN` (`basics.rs:53`) -/
def LITTLE_ENDIAN : Endian := ⟨false⟩

/-- `Endian::ri32` (`basics.rs:25-31`) -/
def Endian.ri32 (e : Endian) (buf : Bytes) (pos : Nat) : M Int :=
  if e.big then BEi32 buf pos else LEi32 buf pos

/-- `Endian::ru32` (`basics.rs:33-39`) -/
def Endian.ru32 (e : Endian) (buf : Bytes) (pos : Nat) : M Nat :=
  if e.big then BEu32 buf pos else LEu32 buf pos

/-- `Endian::ru16` (`basics.rs:41-47`) -/
def Endian.ru16 (e : Endian) (buf : Bytes) (pos : Nat) : M Nat :=
  if e.big then BEu16 buf pos else LEu16 buf pos

/-- `Endian::little` (`basics.rs:49`) -/
def Endian.little (e : Endian) : Bool := !e.big

/-- `decode_threaded` (`basics.rs:83-91`). The closure gets the row's slice and the row number and returns the new
contents of the slice. -/
def decodeThreaded (width height : Nat) (closure : List Nat → Nat → M (List Nat)) : M (List Nat) :=
  parChunksMut width (List.replicate (width * height) 0) closure

/-- `decode_threaded_multiline` (`basics.rs:93-101`). -/
def decodeThreadedMultiline (width height lines : Nat) (closure : List Nat → Nat → M (List Nat)) : M (List Nat) :=
  parChunksMut (width * lines) (List.replicate (width * height) 0) (fun line row => closure line (row * lines))

/-- `LookupTable` (`basics.rs:103-106`): `(center, base, delta)` per entry. -/
structure LookupTable where
  table : List (Nat × Nat × Nat)
  deriving DecidableEq, Repr

/-- One iteration of the loop in `LookupTable::new` (`basics.rs:112-117`); all arithmetic is on `u16`. -/
def LookupTable.entry (b : Build) (table : List Nat) (i : Nat) : M (Nat × Nat × Nat) := do
  let center ← idx table i
  let lower ← if i > 0 then idx table (i - 1) else .ok center
  let upper ← if i < table.length - 1 then idx table (i + 1) else .ok center
  let base ← if center = 0 then .ok 0 else do
    let d ← subU 16 b upper lower
    let d2 ← addU 16 b d 2
    subU 16 b center (d2 / 4)
  let delta ← subU 16 b upper lower
  .ok (center, base, delta)

/-- `LookupTable::new` (`basics.rs:109-122`). -/
def LookupTable.new (b : Build) (table : List Nat) : M LookupTable := do
  let t ← (List.range table.length).mapM (LookupTable.entry b table)
  .ok ⟨t⟩

/-- `LookupTable::dither` (`basics.rs:129-136`): returns the pixel and the new random state. -/
def LookupTable.dither (b : Build) (t : LookupTable) (value rand : Nat) : M (Nat × Nat) := do
  let e ← idx t.table value
  let base := e.2.1
  let delta := e.2.2
  let m ← mulU 32 b delta (rand &&& 2047)
  let m1 ← addU 32 b m 1024
  let pixel ← addU 32 b base (m1 >>> 12)
  let r ← mulU 32 b 15700 (rand &&& 65535)
  let rand' ← addU 32 b r (rand >>> 16)
  .ok (pixel % 65536, rand')

end Model

import Verif.Model.Dec.Simple
/-!
# Model of `src/decoders/iiq.rs`
-/

namespace Model
open Rust

namespace Iiq

/-- The variables filled by the loop over the entries (`iiq.rs:31-36`). -/
structure Info where
  wbOffset : Nat := 0
  width : Nat := 0
  height : Nat := 0
  dataOffset : Nat := 0
  stripOffset : Nat := 0
  black : Nat := 0
  deriving DecidableEq, Repr

/-- One entry (`iiq.rs:38-49`). -/
def entry (buffer : Bytes) (off n : Nat) (s : Info) : M Info := do
  let pos := 8 + n * 16
  let tag ← LEu32 buffer (off + pos)
  let data ← LEu32 buffer (off + pos + 12)
  .ok (if tag = 0x107 then { s with wbOffset := data + 8 }
    else if tag = 0x108 then { s with width := data }
    else if tag = 0x109 then { s with height := data }
    else if tag = 0x10f then { s with dataOffset := data + 8 }
    else if tag = 0x21c then { s with stripOffset := data + 8 }
    else if tag = 0x21d then { s with black := (data >>> 2) % 65536 }
    else s)

/-- `lens` (`iiq.rs:70`) -/
def lens : List Nat := [8, 7, 6, 9, 11, 10, 5, 12, 14, 13]

/-- `while j < 5 && pump.get_bits(1) == 0 {j += 1}` (`iiq.rs:83-84`); the first argument is `5 - j`. -/
def zeros (b : Build) : Nat → Nat → Pump → M (Nat × Pump)
  | 0, j, s => .ok (j, s)
  | n + 1, j, s => do
    let (v, s) ← (pumpMSB32 b).getBits s 1
    if v = 0 then zeros b n (j + 1) s else .ok (j, s)

/-- A new length for the pixels of one parity (`iiq.rs:82-86`), on `(len, reader)`. -/
def newLen (b : Build) (i : Nat) (s : List Nat × Pump) : M (List Nat × Pump) := do
  let (j, p) ← zeros b 5 0 s.2
  if j > 0 then do
    let (v, p) ← (pumpMSB32 b).getBits p 1
    let l ← idx lens ((j - 1) * 2 + v)
    let len ← setIdx s.1 i l
    .ok (len, p)
  else .ok (s.1, p)

/-- The variables of the loop over a row (`iiq.rs:74-76`): `pred`, `len` and the reader. -/
structure RowState where
  pred : List Nat
  len : List Nat
  pump : Pump

/-- One pixel (`iiq.rs:77-97`), on the output and the state. `width & 0xfffffff8` is written with a division, `width` being
a `u32` from the file. -/
def pixel (b : Build) (width col : Nat) (s : List Nat × RowState) : M (List Nat × RowState) := do
  let (len, p) ← if col ≥ width / 8 * 8 then do
      let len ← setIdx s.2.len 0 14
      let len ← setIdx len 1 14
      .ok (len, s.2.pump)
    else if col % 8 = 0 then forRange 0 2 (newLen b) (s.2.len, s.2.pump)
    else .ok (s.2.len, s.2.pump)
  let i ← idx len (col % 2)
  let (v, p) ← if i = 14 then (pumpMSB32 b).getBits p 16
    else do
      let q ← idx s.2.pred (col % 2)
      let (v, p) ← (pumpMSB32 b).getBits p i
      let q ← addU 32 b q v
      let q ← addU 32 b q 1
      let k ← subU 32 b i 1
      let k ← shlU 32 b 1 k
      let q ← subU 32 b q k
      .ok (q, p)
  let pred ← setIdx s.2.pred (col % 2) v
  let out ← setIdx s.1 col (v % 65536)
  .ok (out, ⟨pred, len, p⟩)

/-- `decode_compressed` (`iiq.rs:69-99`) -/
def decodeCompressed (b : Build) (buffer : Bytes) (dataOffset stripOffset width height : Nat) : M (List Nat) :=
  decodeThreaded width height fun out row => do
    let o ← LEu32 buffer (stripOffset + row * 4)
    let src ← sliceFrom buffer (dataOffset + o)
    let s ← forRange 0 out.length (pixel b width) (out, ⟨[0, 0], [0, 0], Pump.new src⟩)
    .ok s.1

/-- `IiqDecoder::image` and `get_wb` (`iiq.rs:24-67`) -/
def image (b : Build) (buffer : Bytes) (tiff : TiffIFD) (loader : RawLoader) : M RawImage := do
  let camera ← loader.checkSupported tiff
  let o ← LEu32 buffer 16
  let off := o + 8
  let entries ← LEu32 buffer off
  let s ← forRange 0 entries (entry buffer off) {}
  if s.width = 0 ∨ s.height = 0 then fail "IIQ: couldn't find width and height"
  else do
    let data ← decodeCompressed b buffer s.dataOffset s.stripOffset s.width s.height
    let r ← LEf32 buffer s.wbOffset
    let g ← LEf32 buffer (s.wbOffset + 4)
    let bl ← LEf32 buffer (s.wbOffset + 8)
    okImageWithBlacklevels b camera s.width s.height [r, g, bl, .nan] [s.black, s.black, s.black, s.black] data

end Iiq

end Model

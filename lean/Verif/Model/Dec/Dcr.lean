import Verif.Model.Dec.Simple
/-!
# Model of `src/decoders/dcr.rs`
-/

namespace Model
open Rust

namespace Dcr

/-- Four more bytes for the bit buffer (`dcr.rs:104-107`); the byte order is 8, 0, 24, 16. -/
def refill (bits : Nat) (s : Nat × ByteStream) : M (Nat × ByteStream) :=
  forStep 0 32 8 (fun j s => do
    let (v, input) ← s.2.getU8
    .ok (s.1 + v <<< (bits + (j ^^^ 8)), input)) s

/-- One difference (`dcr.rs:101-115`), on `(out, bitbuf, bits, input)`. The buffer holds fewer than `2^47`. -/
def segmentStep (b : Build) (lens : List Nat) (i : Nat) (s : List Int × Nat × Nat × ByteStream) :
    M (List Int × Nat × Nat × ByteStream) := do
  let len ← idx lens i
  let (bitbuf, bits, input) ← if s.2.2.1 < len then do
      let (bitbuf, input) ← refill s.2.2.1 (s.2.1, s.2.2.2)
      .ok (bitbuf, s.2.2.1 + 32, input)
    else .ok s.2
  let mask ← subU 64 b 16 len
  let v := bitbuf &&& (0xffff >>> mask)
  let bits ← subU 64 b bits len
  let diff : Int := if len ≠ 0 ∧ v &&& (1 <<< (len - 1)) = 0 then (v : Int) - ((1 <<< len : Nat) - 1 : Int) else v
  let out ← setIdx s.1 i diff
  .ok (out, bitbuf >>> len, bits, input)

/-- The code lengths (`dcr.rs:88-92`). -/
def lengths (size : Nat) (input : ByteStream) : M (List Nat × ByteStream) :=
  forStep 0 size 2 (fun i s => do
    let v ← s.2.peekU8
    let lens ← setIdx s.1 i (v &&& 15)
    let (v, input) ← s.2.getU8
    let lens ← setIdx lens (i + 1) (v >>> 4)
    .ok (lens, input)) (List.replicate 256 0, input)

/-- `decode_segment` (`dcr.rs:85-118`) -/
def decodeSegment (b : Build) (input : ByteStream) (size : Nat) : M (List Int × ByteStream) := do
  let (lens, input) ← lengths size input
  let (bitbuf, bits, input) ← if size &&& 7 = 4 then do
      let (v0, input) ← input.getU8
      let (v1, input) ← input.getU8
      .ok (v0 <<< 8 ||| v1, 16, input)
    else .ok (0, 0, input)
  let s ← forRange 0 size (segmentStep b lens) (List.replicate size 0, bitbuf, bits, input)
  .ok (s.1, s.2.2.2)

/-- One pixel (`dcr.rs:72-78`), on `(out, pred, random)`. -/
def pixel (b : Build) (curve : LookupTable) (pos : Nat) (buf : List Int) (i : Nat) (s : List Nat × List Int × Nat) :
    M (List Nat × List Int × Nat) := do
  let val ← idx buf i
  let p ← idx s.2.1 (i % 2)
  let p ← i32Result b (p + val)
  let pred ← setIdx s.2.1 (i % 2) p
  let (v, random) ← curve.dither b (toU16 p) s.2.2
  let out ← setIdx s.1 (pos + i) v
  .ok (out, pred, random)

/-- `decode_kodak65000` (`dcr.rs:63-83`) -/
def decodeKodak65000 (b : Build) (buf : Bytes) (curve : LookupTable) (width height : Nat) : M (List Nat) := do
  let s ← forRange 0 height (fun row s =>
    forStep 0 width 256 (fun col (s : List Nat × Nat × ByteStream) => do
      let (seg, input) ← decodeSegment b s.2.2 (Nat.min 256 (width - col))
      let t ← forRange 0 seg.length (pixel b curve (row * width + col) seg) (s.1, [0, 0], s.2.1)
      .ok (t.1, t.2.2, input)) s)
    (List.replicate (width * height) 0, 0, ByteStream.new buf LITTLE_ENDIAN)
  .ok s.1

/-- `get_wb` (`dcr.rs:50-61`) -/
def getWb (tiff : TiffIFD) : M (List F32) := do
  let dcrwb ← tiff.fetchTag Tag.DcrWB
  if dcrwb.count ≥ 46 then do
    let r ← BEu16 dcrwb.data 40
    let g ← BEu16 dcrwb.data 42
    let bl ← BEu16 dcrwb.data 44
    let k := F32.ofNat 2048
    .ok [k.div (F32.ofNat r), k.div (F32.ofNat g), k.div (F32.ofNat bl), .nan]
  else .ok nanWb

/-- The linearization curve (`dcr.rs:34-41`). -/
def getCurve (b : Build) (e : TiffEntry) : M LookupTable := do
  let points ← (List.range e.count).mapM fun i => do
    let v ← e.getU32 i
    .ok (v % 65536)
  LookupTable.new b points

/-- `DcrDecoder::image` (`dcr.rs:26-46`) -/
def image (b : Build) (buffer : Bytes) (tiff : TiffIFD) (loader : RawLoader) : M RawImage := do
  let camera ← loader.checkSupported tiff
  let raw ← tiff.fetchIfd Tag.CFAPattern
  let width ← fetchUsize raw Tag.ImageWidth
  let height ← fetchUsize raw Tag.ImageLength
  let offset ← fetchUsize raw Tag.StripOffsets
  let src ← sliceFrom buffer offset
  let linearization ← tiff.fetchTag Tag.DcrLinearization
  let curve ← getCurve b linearization
  let image ← decodeKodak65000 b src curve width height
  let wb ← getWb tiff
  okImage b camera width height wb image

end Dcr

end Model

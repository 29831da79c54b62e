import Verif.Model.Dec.Nef
/-!
# Model of `src/decoders/pef.rs`
-/

namespace Model
open Rust

namespace Pef

/-- `get_wb` (`pef.rs:47-50`) -/
def getWb (tiff : TiffIFD) : M (List F32) := do
  let levels ← tiff.fetchTag Tag.PefWB
  let r ← levels.getF32 0
  let g ← levels.getF32 1
  let bl ← levels.getF32 3
  .ok [r, g, bl, .nan]

/-- `get_blacklevels` (`pef.rs:52-60`) with the default of line 41. -/
def getBlacklevels (tiff : TiffIFD) (default : List Nat) : M (List Nat) :=
  match tiff.findEntry Tag.PefBlackLevels with
  | some levels => do
    let v0 ← levels.getF32 0
    let v1 ← levels.getF32 1
    let v2 ← levels.getF32 2
    let v3 ← levels.getF32 3
    .ok [v0.toUnsigned 16, v1.toUnsigned 16, v2.toUnsigned 16, v3.toUnsigned 16]
  | none => .ok default

/-- The smallest remaining code (`pef.rs:91-98`): its value and number. -/
def smallest (v2 : List Nat) (depth : Nat) : M (Nat × Nat) :=
  forRange 0 depth (fun j (s : Nat × Nat) => do
    let v ← idx v2 j
    .ok (if v ≤ s.1 then (v, j) else s)) (0xfffffff, 0xff)

/-- The table read from the file (`pef.rs:66-101`): counts and values. -/
def readTable (b : Build) (data : Bytes) (e : Endian) : M (List Nat × List Nat) := do
  let (d, stream) ← (ByteStream.new data e).getU16
  let depth := (d + 12) % 16
  let stream := stream.consumeBytes 12
  let (v0, stream) ← forRange 0 depth (fun i (s : List Nat × ByteStream) => do
    let (v, st) ← s.2.getU16
    let l ← setIdx s.1 i v
    .ok (l, st)) (List.replicate 16 0, stream)
  let (v1, _) ← forRange 0 depth (fun i (s : List Nat × ByteStream) => do
    let (v, st) ← s.2.getU8
    let l ← setIdx s.1 i v
    .ok (l, st)) (List.replicate 16 0, stream)
  let (v2, bits) ← forRange 0 depth (fun c (s : List Nat × List Nat) => do
    let x ← idx v0 c
    let y ← idx v1 c
    let k ← subU 32 b 12 y
    let x ← shrU 32 b x k
    let v2 ← setIdx s.1 c x
    let n ← idx s.2 y
    let bits ← setIdx s.2 y (n + 1)
    .ok (v2, bits)) (List.replicate 16 0, List.replicate 17 0)
  let (huffval, _) ← forRange 0 depth (fun i (s : List Nat × List Nat) => do
    let (_, num) ← smallest s.2 depth
    let h ← setIdx s.1 i num
    let v2 ← setIdx s.2 num 0xffffffff
    .ok (h, v2)) (List.replicate 256 0, v2)
  .ok (bits, huffval)

/-- `pentax_tree` (`pef.rs:104-105`) -/
def legacyTree : List Nat := [0, 2, 3, 1, 1, 1, 1, 1, 1, 2, 0, 0, 0, 0, 0, 0, 3, 4, 2, 5, 1, 6, 0, 7, 8, 9, 10, 11, 12]

/-- The legacy table (`pef.rs:103-113`): counts and values. -/
def legacyTable : M (List Nat × List Nat) := do
  let s ← forRange 0 16 (fun i (s : List Nat × Nat) => do
    let v ← idx legacyTree i
    let bits ← setIdx s.1 (i + 1) v
    .ok (bits, s.2 + v)) (List.replicate 17 0, 0)
  let huffval ← forRange 0 s.2 (fun i h => do
    let v ← idx legacyTree (i + 16)
    setIdx h i v) (List.replicate 256 0)
  .ok (s.1, huffval)

/-- Two pixels (`pef.rs:130-131`, `135-136`). -/
def put (width row col : Nat) (out : List Nat) (p1 p2 : Int) : M (List Nat) := do
  let out ← setIdx out (row * width + col) (toU16 p1)
  setIdx out (row * width + col + 1) (toU16 p2)

/-- One row (`pef.rs:125-138`), on `(out, up1, up2, reader)`. -/
def row (b : Build) (t : HuffTable) (width row : Nat) (s : List Nat × List Int × List Int × Pump) :
    M (List Nat × List Int × List Int × Pump) := do
  let u1 ← idx s.2.1 (row % 2)
  let u2 ← idx s.2.2.1 (row % 2)
  let (p1, p2, p) ← Nef.twoDiffs b t (u1, u2, s.2.2.2)
  let up1 ← setIdx s.2.1 (row % 2) p1
  let up2 ← setIdx s.2.2.1 (row % 2) p2
  let out ← put width row 0 s.1 p1 p2
  let r ← forStep 2 width 2 (fun col (s : List Nat × Int × Int × Pump) => do
    let (p1, p2, p) ← Nef.twoDiffs b t s.2
    let out ← put width row col s.1 p1 p2
    .ok (out, p1, p2, p)) (out, p1, p2, p)
  .ok (r.1, up1, up2, r.2.2.2)

/-- `decode_compressed` (`pef.rs:62-140`). The pairs of differences are read as in `nef.rs`. -/
def decodeCompressed (b : Build) (tiff : TiffIFD) (src : Bytes) (width height : Nat) : M (List Nat) := do
  let (bits, huffval) ← match tiff.findEntry Tag.PefHuffman with
    | some huff => readTable b huff.data tiff.endian
    | none => legacyTable
  let t ← HuffTable.init b { HuffTable.empty 16 with bits := bits, huffval := huffval } true
  let s ← forRange 0 height (row b t width) (List.replicate (width * height) 0, [0, 0], [0, 0], Pump.new src)
  .ok s.1

/-- `PefDecoder::image` (`pef.rs:26-43`) -/
def image (b : Build) (buffer : Bytes) (tiff : TiffIFD) (loader : RawLoader) : M RawImage := do
  let camera ← loader.checkSupported tiff
  let raw ← tiff.fetchIfd Tag.StripOffsets
  let width ← fetchUsize raw Tag.ImageWidth
  let height ← fetchUsize raw Tag.ImageLength
  let offset ← fetchUsize raw Tag.StripOffsets
  let src ← sliceFrom buffer offset
  let compression ← fetchUsize raw Tag.Compression
  let data ← if compression = 1 then decode_16be src width height
    else if compression = 32773 then decode_12be src width height
    else if compression = 65535 then decodeCompressed b tiff src width height
    else fail "PEF: Don't know how to read compression"
  let blacks ← getBlacklevels tiff camera.blacklevels
  let wb ← getWb tiff
  okImageWithBlacklevels b camera width height wb blacks data

end Pef

end Model

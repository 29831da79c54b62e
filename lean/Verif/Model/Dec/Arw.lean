import Verif.Model.Dec.Simple
import Verif.Model.Pumps
/-!
# Model of `src/decoders/arw.rs`
-/

namespace Model
open Rust

/-- `u32::leading_zeros` -/
def leadingZeros (n : Nat) : Nat := if n = 0 then 32 else 31 - Nat.log2 n

namespace Arw

/-! ## Decryption -/

/-- `mkey.wrapping_mul(48828125).wrapping_add(1)` (`arw.rs:251`) -/
def nextKey (k : Nat) : Nat := (k * 48828125 + 1) % 4294967296

/-- `u32::from_be` on a little-endian machine: the four bytes reversed. -/
def swapBytes (x : Nat) : Nat :=
  (x % 256) * 16777216 + (x / 256 % 256) * 65536 + (x / 65536 % 256) * 256 + x / 16777216 % 256

/-- The loops that fill the pad (`arw.rs:247-260`). A `u32` shifted left loses its top bit. -/
def initPad (key : Nat) : M (List Nat) := do
  let (pad, _) ← forRange 0 4 (fun p (s : List Nat × Nat) => do
    let k := nextKey s.2
    let pad ← setIdx s.1 p k
    .ok (pad, k)) (List.replicate 128 0, key)
  let p0 ← idx pad 0
  let p2 ← idx pad 2
  let p3 ← idx pad 3
  let pad ← setIdx pad 3 (((p3 <<< 1) % 4294967296) ||| ((p0 ^^^ p2) >>> 31))
  let pad ← forRange 4 127 (fun p pad => do
    let a ← idx pad (p - 4)
    let c ← idx pad (p - 2)
    let d ← idx pad (p - 3)
    let e ← idx pad (p - 1)
    setIdx pad p ((((a ^^^ c) <<< 1) % 4294967296) ||| ((d ^^^ e) >>> 31))) pad
  forRange 0 127 (fun p pad => do
    let v ← idx pad p
    setIdx pad p (swapBytes v)) pad

/-- One iteration of the output loop (`arw.rs:263-271`): the pad and the output. -/
def decryptStep (buf : Bytes) (offset i : Nat) (s : List Nat × Bytes) : M (List Nat × Bytes) := do
  let p := i + 127
  let x ← idx s.1 ((p + 1) % 128)
  let y ← idx s.1 ((p + 1 + 64) % 128)
  let pad ← setIdx s.1 (p % 128) (x ^^^ y)
  let v ← LEu32 buf (offset + i * 4)
  let k ← idx pad (p % 128)
  let output := v ^^^ k
  .ok (pad, s.2 ++ [UInt8.ofNat (output % 256), UInt8.ofNat (output >>> 8 % 256), UInt8.ofNat (output >>> 16 % 256),
    UInt8.ofNat (output >>> 24 % 256)])

/-- `sony_decrypt` (`arw.rs:246-273`); `& 127` is written as a remainder. -/
def sonyDecrypt (buf : Bytes) (offset length key : Nat) : M Bytes := do
  let pad ← initPad key
  let s ← forRange 0 (length / 4 + 1) (decryptStep buf offset) (pad, [])
  .ok s.2

/-! ## Compressed formats -/

/-- The number of bits of the next difference (`arw.rs:155-162`). -/
def arw1Len (b : Build) (s : Pump) : M (Nat × Pump) := do
  let P := pumpMSB b
  let (two, s) ← P.getBits s 2
  let len ← subU 32 b 4 two
  if len = 3 then do
    let (one, s) ← P.getBits s 1
    .ok (if one ≠ 0 then 0 else 3, s)
  else if len = 4 then do
    let (v, s) ← P.peek s 13
    let zeros ← subU 32 b (leadingZeros v) 19
    let (_, s) ← P.getBits s (Nat.min 13 (zeros + 1))
    .ok (4 + zeros, s)
  else .ok (len, s)

/-- One pixel (`arw.rs:155-167`): the new running sum and the reader. -/
def arw1Pixel (b : Build) (sum : Int) (s : Pump) : M (Int × Pump) := do
  let (len, s) ← arw1Len b s
  let (v, s) ← (pumpMSB b).getBits s len
  let sum ← i32Result b (sum + toI32 v)
  if len > 0 ∧ v &&& (1 <<< (len - 1)) = 0 then do
    let sum ← i32Result b (sum - ((1 <<< len : Nat) - 1 : Int))
    .ok (sum, s)
  else .ok (sum, s)

/-- The loop over the rows of one column (`arw.rs:150-170`) with a step budget, on `(out, sum, reader)`. -/
def arw1Column (b : Build) (width height col : Nat) : Nat → Nat → List Nat × Int × Pump → M (List Nat × Int × Pump)
  | 0, _, _ => .error .fuel
  | n + 1, row, s =>
    if row ≤ height then do
      let row := if row = height then 1 else row
      let (sum, p) ← arw1Pixel b s.2.1 s.2.2
      let out ← setIdx s.1 (row * width + col) (toU16 sum)
      arw1Column b width height col n (row + 2) (out, sum, p)
    else .ok s

/-- `decode_arw1` (`arw.rs:142-173`) -/
def decodeArw1 (b : Build) (buf : Bytes) (width height : Nat) : M (List Nat) := do
  let s ← forRange 0 width (fun x s => arw1Column b width height (width - 1 - x) (height + 2) 0 s)
    (List.replicate (width * height) 0, 0, Pump.new buf)
  .ok s.1

/-- The value of pixel `i` of a group (`arw.rs:193-199`). -/
def arw2Value (b : Build) (max min shift imax imin i : Nat) (s : Pump) : M (Nat × Pump) :=
  if i = imax then .ok (max, s)
  else if i = imin then .ok (min, s)
  else do
    let (v, s) ← (pumpLSB b).getBits s 7
    let v ← shlU 32 b v shift
    let v ← addU 32 b v min
    .ok (Nat.min 0x7ff v, s)

/-- Sixteen pixels of one colour (`arw.rs:183-201`), on `(out, random, reader)`. -/
def arw2Group (b : Build) (curve : LookupTable) (j : Nat) (s : List Nat × Nat × Pump) : M (List Nat × Nat × Pump) := do
  let P := pumpLSB b
  let (max, p) ← P.getBits s.2.2 11
  let (min, p) ← P.getBits p 11
  let delta ← subU 32 b max min
  let shift := 32 - leadingZeros delta - 7
  let (imax, p) ← P.getBits p 4
  let (imin, p) ← P.getBits p 4
  forRange 0 16 (fun i s => do
    let (val, p) ← arw2Value b max min shift imax imin i s.2.2
    let (v, random) ← curve.dither b (val <<< 1 % 65536) s.2.1
    let out ← setIdx s.1 (j + i * 2) v
    .ok (out, random, p)) (s.1, s.2.1, p)

/-- `decode_arw2` (`arw.rs:175-205`); `cmp::max(0, 32 - zeros - 7)` is a natural subtraction. -/
def decodeArw2 (b : Build) (buf : Bytes) (width height : Nat) (curve : LookupTable) : M (List Nat) :=
  decodeThreaded width height fun out row => do
    let src ← sliceFrom buf (row * width)
    let (random, p) ← (pumpLSB b).peek (Pump.new src) 24
    let (out, _) ← Ljpeg.foldChunks (fun o (s : Nat × Pump) => do
      let r ← forRange 0 2 (arw2Group b curve) (o, s.1, s.2)
      .ok (r.1, r.2)) (chunks 32 out) (random, p)
    .ok out

/-! ## Directories -/

/-- `get_curve` (`arw.rs:228-244`) -/
def getCurve (b : Build) (raw : TiffIFD) : M LookupTable := do
  let centry ← raw.fetchTag Tag.SonyCurve
  let curve ← forRange 0 4 (fun i curve => do
    let v ← centry.getU32 i
    setIdx curve (i + 1) ((v >>> 2) &&& 0xfff)) [0, 0, 0, 0, 0, 4095]
  let last ← idx curve 5
  let out ← forRange 0 5 (fun i out => do
    let lo ← idx curve i
    let hi ← idx curve (i + 1)
    forRange (lo + 1) (hi + 1) (fun j out => do
      let v ← idx out (j - 1)
      let v ← addU 16 b v (1 <<< i)
      setIdx out j v) out) (List.replicate (last + 1) 0)
  LookupTable.new b out

/-- `get_wb` (`arw.rs:207-226`) -/
def getWb (b : Build) (buffer : Bytes) (tiff : TiffIFD) : M (List F32) := do
  let e ← tiff.fetchTag Tag.DNGPrivateArea
  let privOffset ← e.getForceU32 0
  let priv ← TiffIFD.parse b buffer privOffset 0 0 LITTLE_ENDIAN
  let sonyOffset ← fetchUsize priv Tag.SonyOffset
  let sonyLength ← fetchUsize priv Tag.SonyLength
  let sonyKey ← fetchUsize priv Tag.SonyKey
  let dec ← sonyDecrypt buffer sonyOffset sonyLength sonyKey
  let decTiff ← unwrapped (TiffIFD.parse b dec 0 sonyOffset 0 LITTLE_ENDIAN)
  match decTiff.findEntry Tag.SonyGRBG with
  | some levels => do
    let r ← levels.getU32 1
    let g ← levels.getU32 0
    let bl ← levels.getU32 2
    .ok [F32.ofNat r, F32.ofNat g, F32.ofNat bl, .nan]
  | none =>
    match decTiff.findEntry Tag.SonyRGGB with
    | some levels => do
      let r ← levels.getU32 0
      let g ← levels.getU32 1
      let bl ← levels.getU32 3
      .ok [F32.ofNat r, F32.ofNat g, F32.ofNat bl, .nan]
    | none => fail "ARW: Couldn't find GRGB or RGGB levels"

/-- The search for the white balance of the A100 (`arw.rs:95-108`) with a step budget. -/
def a100Walk (buf : Bytes) : Nat → Nat → M (List F32)
  | 0, _ => .error .fuel
  | n + 1, currpos =>
    if currpos + 20 < buf.length then do
      let tag ← BEu32 buf currpos
      let len ← LEu32 buf (currpos + 4)
      if tag = 0x574247 then do
        let r ← LEu16 buf (currpos + 12)
        let g ← LEu16 buf (currpos + 14)
        let bl ← LEu16 buf (currpos + 18)
        .ok [F32.ofNat r, F32.ofNat g, F32.ofNat bl, .nan]
      else a100Walk buf n (currpos + (len + 8))
    else .ok [.zero false, .zero false, .zero false, .nan]

/-- `image_a100` (`arw.rs:76-111`) -/
def imageA100 (b : Build) (buffer : Bytes) (tiff : TiffIFD) (camera : Camera) : M RawImage := do
  match tiff.findIfdsWithTag Tag.SubIFDs with
  | [] => fail "ARW: Couldn't find the data IFD!"
  | raw :: _ => do
    let width := 3881
    let height := 2608
    let offset ← fetchUsize raw Tag.SubIFDs
    let src ← sliceFrom buffer offset
    let image ← decodeArw1 b src width height
    let e ← tiff.fetchTag Tag.DNGPrivateArea
    let privOffset ← e.getForceU32 0
    let buf ← sliceFrom buffer privOffset
    let wb ← a100Walk buf (buf.length + 1) 8
    okImage b camera width height wb image

/-- `image_srf` (`arw.rs:113-140`) -/
def imageSrf (b : Build) (buffer : Bytes) (tiff : TiffIFD) (camera : Camera) : M RawImage := do
  match tiff.findIfdsWithTag Tag.ImageWidth with
  | [] => fail "ARW: Couldn't find the data IFD!"
  | raw :: _ => do
    let width ← fetchUsize raw Tag.ImageWidth
    let height ← fetchUsize raw Tag.ImageLength
    let len := width * height * 2
    let o ← byteAt buffer 200896
    let firstKey ← BEu32 buffer (200896 + o * 4)
    let head ← sonyDecrypt buffer 164600 40 firstKey
    let secondKey ← LEu32 head 22
    let imageData ← sonyDecrypt buffer 862144 len secondKey
    let image ← decode_16be imageData width height
    okImage b camera width height nanWb image

/-- The pixels (`arw.rs:48-69`): the height, which for the first compressed variant is eight more, and the data. -/
def pixels (b : Build) (raw : TiffIFD) (camera : Camera) (src : Bytes) (width height count compression bps : Nat) : M (Nat × List Nat) :=
  if compression = 1 then do
    let image ← if camera.model = b! "DSC-R1" then decode_14be_unpacked src width height else decode_16le src width height
    .ok (height, image)
  else if compression = 32767 then
    if width * height * bps ≠ count * 8 then do
      let image ← decodeArw1 b src width (height + 8)
      .ok (height + 8, image)
    else if bps = 8 then do
      let curve ← getCurve b raw
      let image ← decodeArw2 b src width height curve
      .ok (height, image)
    else if bps = 12 then do
      let image ← decode_12le src width height
      .ok (height, image)
    else fail "ARW2: Don't know how to decode images with this bps"
  else fail "ARW: Don't know how to decode type"

/-- `ArwDecoder::image` (`arw.rs:25-72`) -/
def image (b : Build) (buffer : Bytes) (tiff : TiffIFD) (loader : RawLoader) : M RawImage := do
  let camera ← loader.checkSupported tiff
  match tiff.findIfdsWithTag Tag.StripOffsets with
  | [] => if camera.model = b! "DSLR-A100" then imageA100 b buffer tiff camera else imageSrf b buffer tiff camera
  | raw :: _ => do
    let width ← fetchUsize raw Tag.ImageWidth
    let height ← fetchUsize raw Tag.ImageLength
    let offset ← fetchUsize raw Tag.StripOffsets
    let count ← fetchUsize raw Tag.StripByteCounts
    let compression ← fetchUsize raw Tag.Compression
    let bps ← if camera.bps ≠ 0 then .ok camera.bps else fetchUsize raw Tag.BitsPerSample
    let src ← sliceFrom buffer offset
    let (height, image) ← pixels b raw camera src width height count compression bps
    let wb ← getWb b buffer tiff
    okImage b camera width height wb image

end Arw

end Model

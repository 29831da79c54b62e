import Verif.Model.Dec.Simple
/-!
# Model of `src/decoders/dng.rs`
-/

namespace Model
open Rust

namespace Dng

/-- The filter on the directories (`dng.rs:28-35`). The compression is unwrapped. -/
def isRaw (ifd : TiffIFD) : M Bool :=
  match ifd.findEntry Tag.Compression with
  | none => crash
  | some e => do
    let compression ← e.getU32 0
    let subsampled ← match ifd.findEntry Tag.NewSubFileType with
      | some e => do
        let v ← e.getU32 0
        .ok (decide (v &&& 1 ≠ 0))
      | none => .ok false
    .ok (!subsampled && (compression == 7 || compression == 1 || compression == 0x884c))

/-- `get_wb` (`dng.rs:85-91`) -/
def getWb (tiff : TiffIFD) : M (List F32) :=
  match tiff.findEntry Tag.AsShotNeutral with
  | some levels => do
    let r ← levels.getF32 0
    let g ← levels.getF32 1
    let bl ← levels.getF32 2
    let one := F32.ofNat 1
    .ok [one.div r, one.div g, one.div bl, .nan]
  | none => .ok nanWb

/-- `get_blacklevels` (`dng.rs:93-105`) -/
def getBlacklevels (raw : TiffIFD) : M (List Nat) :=
  match raw.findEntry Tag.BlackLevels with
  | some levels =>
    if levels.count < 4 then do
      let v ← levels.getF32 0
      .ok (List.replicate 4 (v.toUnsigned 16))
    else do
      let v0 ← levels.getF32 0
      let v1 ← levels.getF32 1
      let v2 ← levels.getF32 2
      let v3 ← levels.getF32 3
      .ok [v0.toUnsigned 16, v1.toUnsigned 16, v2.toUnsigned 16, v3.toUnsigned 16]
  | none => .ok [0, 0, 0, 0]

/-- `get_whitelevels` (`dng.rs:107-110`) -/
def getWhitelevels (raw : TiffIFD) : M (List Nat) := do
  let level ← fetchUsize raw Tag.WhiteLevel
  .ok (List.replicate 4 (level % 65536))

/-- `get_cfa` (`dng.rs:112-115`) with `CFA::new_from_tag` (`cfa.rs:30-38`). -/
def getCfa (raw : TiffIFD) : M CFA := do
  let pattern ← raw.fetchTag Tag.CFAPattern
  let vals ← (List.range pattern.count).mapM pattern.getU32
  CFA.new (CFA.tagName vals)

/-- `get_crops` (`dng.rs:117-125`) -/
def getCrops (b : Build) (raw : TiffIFD) (width height : Nat) : M (List Nat) :=
  match raw.findEntry Tag.ActiveArea with
  | some crops => do
    let c0 ← crops.getU32 0
    let c3 ← crops.getU32 3
    let right ← subU 64 b width c3
    let c2 ← crops.getU32 2
    let bottom ← subU 64 b height c2
    let c1 ← crops.getU32 1
    .ok [c0, right, bottom, c1]
  | none => .ok [0, 0, 0, 0]

/-- `get_color_matrix` (`dng.rs:127-152`) -/
def getColorMatrix (tiff : TiffIFD) : M (List (List F32)) :=
  let zero := List.replicate 4 (List.replicate 3 (F32.zero false))
  let fromEntry (c : TiffEntry) : M (List (List F32)) :=
    if c.count > 12 then fail "color matrix has too many components"
    else forRange 0 c.count (fun i m => do
      let v ← c.getF32 i
      setIdx2 m (i / 3) (i % 3) v) zero
  match tiff.findEntry Tag.ColorMatrix2 with
  | some c => fromEntry c
  | none =>
    match tiff.findEntry Tag.ColorMatrix1 with
    | some c => fromEntry c
    | none => .ok [
        [F32.ofRat (412453 / 1000000), F32.ofRat (357580 / 1000000), F32.ofRat (180423 / 1000000)],
        [F32.ofRat (212671 / 1000000), F32.ofRat (715160 / 1000000), F32.ofRat (72169 / 1000000)],
        [F32.ofRat (19334 / 1000000), F32.ofRat (119193 / 1000000), F32.ofRat (950227 / 1000000)],
        [.zero false, .zero false, .zero false]]

/-- The linearization curve for eight bits (`dng.rs:165-171`). -/
def curve8 (b : Build) (e : TiffEntry) : M LookupTable := do
  let t ← (List.range 256).mapM fun i => do
    let v ← e.getU32 i
    .ok (v % 65536)
  LookupTable.new b t

/-- `decode_uncompressed` (`dng.rs:154-176`) -/
def decodeUncompressed (b : Build) (buffer : Bytes) (tiff raw : TiffIFD) (width height : Nat) : M (List Nat) := do
  let offset ← fetchUsize raw Tag.StripOffsets
  let src ← sliceFrom buffer offset
  let bps ← fetchUsize raw Tag.BitsPerSample
  if bps = 16 then decode_16le src width height
  else if bps = 12 then decode_12be src width height
  else if bps = 10 then decode_10le src width height
  else if bps = 8 then do
    let linearization ← tiff.fetchTag Tag.Linearization
    let curve ← curve8 b linearization
    decode_8bit_wtable b src curve width height
  else fail "DNG: Don't know about bps images"

/-- One tile (`dng.rs:203-210`); errors are unwrapped. -/
def tile (b : Build) (buffer : Bytes) (offsets : TiffEntry) (width height twidth tlength coltiles row col : Nat)
    (strip : List Nat) : M (List Nat) := do
  let offset ← offsets.getU32 (row * coltiles + col)
  let src ← sliceFrom buffer offset
  let d ← unwrapped (Ljpeg.new b src)
  let bwidth ← subU 64 b (Nat.min width ((col + 1) * twidth)) (col * twidth)
  let blength ← subU 64 b (Nat.min height ((row + 1) * tlength)) (row * tlength)
  unwrapped (d.decode b strip (col * twidth) width bwidth blength)

/-- The tiled case (`dng.rs:191-211`); division by zero panics. -/
def decodeTiles (b : Build) (buffer : Bytes) (offsets : TiffEntry) (width height twidth tlength : Nat) : M (List Nat) := do
  let w ← subU 64 b width 1
  if twidth = 0 then crash
  else do
    let coltiles := w / twidth + 1
    let h ← subU 64 b height 1
    if tlength = 0 then crash
    else do
      let rowtiles := h / tlength + 1
      if coltiles * rowtiles ≠ offsets.count then fail "DNG: wrong number of tile offsets"
      else decodeThreadedMultiline width height tlength fun strip row =>
        forRange 0 coltiles (fun col strip => tile b buffer offsets width height twidth tlength coltiles (row / tlength) col strip) strip

/-- `decode_compressed` (`dng.rs:178-215`) -/
def decodeCompressed (b : Build) (buffer : Bytes) (raw : TiffIFD) (width height cpp : Nat) : M (List Nat) :=
  match raw.findEntry Tag.StripOffsets with
  | some offsets =>
    if offsets.count ≠ 1 then fail "DNG: files with more than one slice not supported yet"
    else do
      let offset ← offsets.getU32 0
      let src ← sliceFrom buffer offset
      let d ← Ljpeg.new b src
      d.decode b (List.replicate (width * height) 0) 0 width width height
  | none =>
    match raw.findEntry Tag.TileOffsets with
    | some offsets => do
      let tw ← fetchUsize raw Tag.TileWidth
      let tlength ← fetchUsize raw Tag.TileLength
      decodeTiles b buffer offsets width height (tw * cpp) tlength
    | none => fail "DNG: didn't find tiles or strips"

/-- Make, model, clean make, clean model and orientation (`dng.rs:48-62`). -/
def identify (tiff : TiffIFD) (loader : RawLoader) : M (Bytes × Bytes × Bytes × Bytes × Orientation) :=
  match loader.checkSupported tiff with
  | .ok cam => .ok (cam.make, cam.model, cam.cleanMake, cam.cleanModel, cam.orientation)
  | .error (.err _) => do
    let e ← tiff.fetchTag Tag.Make
    let make ← e.getStr
    let e ← tiff.fetchTag Tag.Model
    let model ← e.getStr
    let o ← RawLoader.orientationFromTiff tiff
    .ok (make, model, make, model, o)
  | .error x => .error x

/-- The pixels (`dng.rs:42-46`). -/
def pixels (b : Build) (buffer : Bytes) (tiff raw : TiffIFD) (width height cpp : Nat) : M (List Nat) := do
  let compression ← fetchUsize raw Tag.Compression
  if compression = 1 then decodeUncompressed b buffer tiff raw (width * cpp) height
  else if compression = 7 then decodeCompressed b buffer raw (width * cpp) height cpp
  else fail "Don't know how to read DNGs with this compression"

/-- `DngDecoder::image` (`dng.rs:27-81`) -/
def image (b : Build) (buffer : Bytes) (tiff : TiffIFD) (loader : RawLoader) : M RawImage := do
  let ifds ← (tiff.findIfdsWithTag Tag.Compression).filterM isRaw
  let raw ← idx ifds 0
  let width ← fetchUsize raw Tag.ImageWidth
  let height ← fetchUsize raw Tag.ImageLength
  let cpp ← fetchUsize raw Tag.SamplesPerPixel
  let photometric ← fetchUsize raw Tag.PhotometricInt
  let linear := photometric = 34892
  let data ← pixels b buffer tiff raw width height cpp
  let (make, model, cleanMake, cleanModel, orientation) ← identify tiff loader
  let wb ← getWb tiff
  let blacks ← getBlacklevels raw
  let whites ← getWhitelevels raw
  let matrix ← getColorMatrix tiff
  let cfa ← if linear then CFA.new [] else getCfa raw
  let crops ← getCrops b raw width height
  .ok {
    width := width, height := height, cpp := cpp, wbCoeffs := wb, whitelevels := whites, blacklevels := blacks,
    xyzToCam := matrix, cfa := cfa, crops := crops, orientation := orientation, data := data,
    make := make, model := model, cleanMake := cleanMake, cleanModel := cleanModel }

end Dng

end Model

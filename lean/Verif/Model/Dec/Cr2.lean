import Verif.Model.Dec.Simple
/-!
# Model of `src/decoders/cr2.rs`
-/

namespace Model
open Rust

namespace Cr2

/-- `get_wb` (`cr2.rs:159-173`) -/
def getWb (tiff : TiffIFD) (cam : Camera) : M (List F32) :=
  match tiff.findEntry Tag.Cr2ColorData with
  | some levels => do
    let offset := if cam.wbOffset ≠ 0 then cam.wbOffset else 63
    let r ← levels.getForceU16 offset
    let g ← levels.getForceU16 (offset + 1)
    let bl ← levels.getForceU16 (offset + 3)
    .ok [F32.ofNat r, F32.ofNat g, F32.ofNat bl, .nan]
  | none =>
    match tiff.findEntry Tag.Cr2PowerShotWB with
    | some levels => do
      let r ← levels.getForceU32 3
      let g ← levels.getForceU32 2
      let bl ← levels.getForceU32 4
      .ok [F32.ofNat r, F32.ofNat g, F32.ofNat bl, .nan]
    | none =>
      match tiff.findEntry Tag.Cr2OldWB with
      | some levels => do
        let r ← levels.getF32 0
        let g ← levels.getF32 1
        let bl ← levels.getF32 2
        .ok [r, g, bl, .nan]
      | none => .ok nanWb

/-- One pixel of `convert_to_rgb` (`cr2.rs:183-195`). -/
def rgbStep (b : Build) (c1 c2 c3 yoffset : Int) (pix : List Nat) : M (List Nat) := do
  let p0 ← idx pix 0
  let p1 ← idx pix 1
  let p2 ← idx pix 2
  let y := (p0 : Int) - yoffset
  let cb := (p1 : Int) - 16383
  let cr := (p2 : Int) - 16383
  let r ← i32Result b (c1 * (y + cr))
  let g ← i32Result b (c2 * (y + sarI (-778 * cb - shlI32 cr 11) 12))
  let bl ← i32Result b (c3 * (y + cb))
  let pix ← setIdx pix 0 (toU16 (clampbits (sarI r 8) 16))
  let pix ← setIdx pix 1 (toU16 (clampbits (sarI g 8) 16))
  setIdx pix 2 (toU16 (clampbits (sarI bl 8) 16))

/-- `convert_to_rgb` (`cr2.rs:175-197`) -/
def convertToRgb (b : Build) (tiff : TiffIFD) (cam : Camera) (image : List Nat) : M (List Nat) := do
  let coeffs ← getWb tiff cam
  let k0 ← idx coeffs 0
  let k1 ← idx coeffs 1
  let k2 ← idx coeffs 2
  let c1 := ((F32.ofNat 1048576).div k0).toI32
  let c2 := k1.toI32
  let c3 := ((F32.ofNat 1048576).div k2).toI32
  let yoffset : Int := if cam.findHint (b! "40d_yuv") then 512 else 0
  mapChunks 3 (rgbStep b c1 c2 c3 yoffset) image

/-- The linearization of the D2000 (`cr2.rs:51-65`). -/
def linearize (b : Build) (tiff : TiffIFD) (image : List Nat) : M (List Nat) := do
  let e ← tiff.fetchTag Tag.GrayResponse
  let t ← (List.range 4096).mapM fun i => do
    let v ← e.getU32 i
    .ok (v % 65536)
  let table ← LookupTable.new b t
  let random ← idx image 0
  let r ← Ljpeg.foldChunks (fun o (random : Nat) => do
    let v ← idx o 0
    let (v, random) ← table.dither b v random
    let o ← setIdx o 0 v
    .ok (o, random)) (chunks 1 image) random
  .ok r.1

/-- One pixel pair of the two-line copy (`cr2.rs:105-116`), on `(out, inpos)`. -/
def pairStep (ljpegout : List Nat) (ljpegwidth width fieldstart row col : Nat) (s : List Nat × Nat) : M (List Nat × Nat) := do
  let v ← slice ljpegout s.2 (s.2 + 3)
  let out ← copySlice s.1 (row * width + fieldstart + col) v
  let v ← slice ljpegout (s.2 + ljpegwidth) (s.2 + ljpegwidth + 3)
  let out ← copySlice out ((row + 1) * width + fieldstart + col) v
  let inpos := s.2 + 3
  .ok (out, if inpos % ljpegwidth = 0 then inpos + ljpegwidth else inpos)

/-- The vertical fields when two lines were decoded at a time (`cr2.rs:98-119`). -/
def copyPairs (ljpegout : List Nat) (ljpegwidth width height : Nat) (fieldwidths : List Nat) : M (List Nat) := do
  let nfields := fieldwidths.length
  let fieldwidth ← idx fieldwidths 0
  let s ← forRange 0 nfields (fun n s =>
    forStep 0 height 2 (fun row s =>
      forStep 0 fieldwidth 3 (fun col s => pairStep ljpegout ljpegwidth width (n * fieldwidth) row col s) s) s)
    (List.replicate (width * height) 0, 0)
  .ok s.1

/-- One vertical field (`cr2.rs:126-132`), on `(out, fieldstart, fieldpos)`. -/
def copyField (ljpegout : List Nat) (width height fieldwidth : Nat) (s : List Nat × Nat × Nat) : M (List Nat × Nat × Nat) := do
  let out ← forRange 0 height (fun row out => do
    let inb ← slice ljpegout (s.2.2 + row * fieldwidth) (s.2.2 + row * fieldwidth + fieldwidth)
    copySlice out (row * width + s.2.1) inb) s.1
  .ok (out, s.2.1 + fieldwidth, s.2.2 + fieldwidth * height)

/-- The vertical fields otherwise (`cr2.rs:121-135`); division by zero panics. -/
def copyFields (ljpegout : List Nat) (width height cpp sh : Nat) (fieldwidths : List Nat) : M (List Nat) := do
  let s ← fieldwidths.foldlM (fun s w => if sh = 0 then crash else copyField ljpegout width height (w / sh * cpp) s)
    (List.replicate (width * height) 0, 0, 0)
  .ok s.1

/-- The fields put in their places, if the directory describes them (`cr2.rs:86-142`). -/
def arrange (d : Ljpeg.Decompressor) (raw : TiffIFD) (width height cpp : Nat) (ljpegout : List Nat) : M (List Nat) :=
  match raw.findEntry Tag.Cr2StripeWidths with
  | none => .ok ljpegout
  | some canoncol => do
    let n ← canoncol.getU32 0
    if n = 0 then .ok ljpegout
    else do
      let w1 ← canoncol.getU32 1
      let w2 ← canoncol.getU32 2
      let fieldwidths := List.replicate n w1 ++ [w2]
      let sv ← d.superV
      if sv = 2 then copyPairs ljpegout d.width width height fieldwidths
      else do
        let sh ← d.superH
        copyFields ljpegout width height cpp sh fieldwidths

/-- The dimensions (`cr2.rs:68-81`): those of the JPEG, the swapped ones or those of the directory. -/
def dimensions (camera : Camera) (raw : TiffIFD) (width height cpp : Nat) : M (Nat × Nat) :=
  if cpp = 3 then
    if raw.hasEntry Tag.ImageWidth then do
      let w ← fetchUsize raw Tag.ImageWidth
      let h ← fetchUsize raw Tag.ImageLength
      .ok (w * cpp, h)
    else if width / cpp < height then .ok (height * cpp, width / cpp)
    else .ok (width, height)
  else if camera.findHint (b! "double_line") then .ok (width / 2, height * 2)
  else .ok (width, height)

/-- The directory with the raw data and the offset (`cr2.rs:28-38`). -/
def findRaw (tiff : TiffIFD) : M (TiffIFD × Nat) :=
  match tiff.findFirstIfd Tag.Cr2Id with
  | some raw => do
    let o ← fetchUsize raw Tag.StripOffsets
    .ok (raw, o)
  | none =>
    match tiff.findFirstIfd Tag.CFAPattern with
    | some raw => do
      let o ← fetchUsize raw Tag.StripOffsets
      .ok (raw, o)
    | none =>
      match tiff.findEntry Tag.Cr2OldOffset with
      | some off => do
        let o ← off.getU32 0
        .ok (tiff, o)
      | none => fail "CR2: Couldn't find raw info"

/-- The pixels (`cr2.rs:42-143`): width, height, components per pixel, data. -/
def pixels (b : Build) (src : Bytes) (tiff raw : TiffIFD) (camera : Camera) : M (Nat × Nat × Nat × List Nat) := do
  let d ← Ljpeg.new b src
  let sh ← d.superH
  let cpp := if sh = 2 then 3 else 1
  let ljpegout ← d.decode b (List.replicate (d.width * d.height) 0) 0 d.width d.width d.height
  let ljpegout ← if camera.findHint (b! "linearization") then linearize b tiff ljpegout else .ok ljpegout
  let ljpegout ← if cpp = 3 then convertToRgb b tiff camera ljpegout else .ok ljpegout
  let (width, height) ← dimensions camera raw d.width d.height cpp
  let image ← arrange d raw width height cpp ljpegout
  .ok (width, height, cpp, image)

/-- The changes for three components per pixel (`cr2.rs:147-153`). -/
def finish (cpp : Nat) (img : RawImage) : RawImage :=
  if cpp = 3 then
    { img with cpp := 3, width := img.width / 3, crops := [0, 0, 0, 0], blacklevels := [0, 0, 0, 0]
               whitelevels := [65535, 65535, 65535, 65535] }
  else img

/-- `Cr2Decoder::image` (`cr2.rs:26-155`) -/
def image (b : Build) (buffer : Bytes) (tiff : TiffIFD) (loader : RawLoader) : M RawImage := do
  let camera ← loader.checkSupported tiff
  let (raw, offset) ← findRaw tiff
  let src ← sliceFrom buffer offset
  let (width, height, cpp, image) ← pixels b src tiff raw camera
  let wb ← getWb tiff camera
  let img ← RawImage.new b camera width height wb image
  .ok (finish cpp img)

end Cr2

end Model

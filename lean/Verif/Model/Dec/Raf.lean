import Verif.Model.Dec.Simple
/-!
# Model of `src/decoders/raf.rs`
-/

namespace Model
open Rust

namespace Raf

/-- `get_wb` (`raf.rs:91-100`) -/
def getWb (tiff : TiffIFD) : M (List F32) :=
  match tiff.findEntry Tag.RafWBGRB with
  | some levels => do
    let r ← levels.getF32 1
    let g ← levels.getF32 0
    let bl ← levels.getF32 2
    .ok [r, g, bl, .nan]
  | none => do
    let levels ← tiff.fetchTag Tag.RafOldWB
    let r ← levels.getF32 1
    let g ← levels.getF32 0
    let bl ← levels.getF32 3
    .ok [r, g, bl, .nan]

/-- The loops that move the pixels of the cropped area (`raf.rs:113-120`, `128-135`); `target` gives the row and the column in
the output. -/
def move (src : List Nat) (x y width rotatedwidth cropwidth cropheight : Nat) (target : Nat → Nat → M (Nat × Nat)) (out : List Nat) :
    M (List Nat) :=
  forRange 0 cropheight (fun row out => do
    let inb ← sliceFrom src ((row + y) * width + x)
    forRange 0 cropwidth (fun col out => do
      let (r, c) ← target row col
      let v ← idx inb col
      setIdx out (r * rotatedwidth + c) v) out) out

/-- The place of a pixel in the variant `fuji_rotation_alt` (`raf.rs:116-117`). -/
def targetAlt (b : Build) (rotatedwidth cropheight row col : Nat) : M (Nat × Nat) := do
  let r ← subU 64 b rotatedwidth (cropheight + 1 - row + (col >>> 1))
  .ok (r, ((col + 1) >>> 1) + row)

/-- The place of a pixel in the plain variant (`raf.rs:131-132`). -/
def target (cropwidth row col : Nat) : M (Nat × Nat) := .ok (cropwidth - 1 - col + (row >>> 1), ((row + 1) >>> 1) + col)

/-- `rotate_image` (`raf.rs:102-139`). The sums and the product after the subtractions wrap in release builds. -/
def rotateImage (b : Build) (src : List Nat) (camera : Camera) (width height : Nat) : M (Nat × Nat × List Nat) := do
  let x ← idx camera.crops 3
  let y ← idx camera.crops 0
  let c1 ← idx camera.crops 1
  let c2 ← idx camera.crops 2
  let w ← subU 64 b width c1
  let cropwidth ← subU 64 b w x
  let h ← subU 64 b height c2
  let cropheight ← subU 64 b h y
  if camera.findHint (b! "fuji_rotation_alt") then do
    let rotatedwidth ← addU 64 b cropheight (cropwidth / 2)
    let rotatedheight ← subU 64 b rotatedwidth 1
    let n ← mulU 64 b rotatedwidth rotatedheight
    let out ← move src x y width rotatedwidth cropwidth cropheight (targetAlt b rotatedwidth cropheight) (List.replicate n 0)
    .ok (rotatedwidth, rotatedheight, out)
  else do
    let rotatedwidth ← addU 64 b cropwidth (cropheight / 2)
    let rotatedheight ← subU 64 b rotatedwidth 1
    let n ← mulU 64 b rotatedwidth rotatedheight
    let out ← move src x y width rotatedwidth cropwidth cropheight (target cropwidth) (List.replicate n 0)
    .ok (rotatedwidth, rotatedheight, out)

/-- The dimensions (`raf.rs:27-33`). -/
def dimensions (raw : TiffIFD) : M (Nat × Nat) :=
  if raw.hasEntry Tag.RafImageWidth then do
    let w ← fetchUsize raw Tag.RafImageWidth
    let h ← fetchUsize raw Tag.RafImageLength
    .ok (w, h)
  else do
    let sizes ← raw.fetchTag Tag.ImageWidth
    let w ← sizes.getU32 1
    let h ← sizes.getU32 0
    .ok (w, h)

/-- The pixels before the rotation (`raf.rs:41-64`). -/
def pixels (tiff : TiffIFD) (camera : Camera) (src : Bytes) (bps width height : Nat) : M (List Nat) :=
  if camera.findHint (b! "double_width") then decode_16le_skiplines src width height
  else if camera.findHint (b! "jpeg32") then decode_12be_msb32 src width height
  else if src.length < bps * width * height / 8 then fail "RAF: Don't know how to decode compressed yet"
  else if bps = 12 then decode_12le src width height
  else if bps = 14 then decode_14le_unpacked src width height
  else if bps = 16 then
    if tiff.endian.little then decode_16le src width height else decode_16be src width height
  else fail "RAF: Don't know how to decode bps"

/-- `RafDecoder::image` (`raf.rs:24-88`) -/
def image (b : Build) (buffer : Bytes) (tiff : TiffIFD) (loader : RawLoader) : M RawImage := do
  let camera ← loader.checkSupported tiff
  let raw ← tiff.fetchIfd Tag.RafOffsets
  let (width, height) ← dimensions raw
  let o ← fetchUsize raw Tag.RafOffsets
  let offset := o + raw.startOffset
  let bps ← match raw.findEntry Tag.RafBitsPerSample with
    | some e => e.getU32 0
    | none => .ok 16
  let src ← sliceFrom buffer offset
  let data ← pixels tiff camera src bps width height
  if camera.findHint (b! "fuji_rotation") ∨ camera.findHint (b! "fuji_rotation_alt") then do
    let (width, height, data) ← rotateImage b data camera width height
    let wb ← getWb tiff
    .ok {
      width := width, height := height, cpp := 1, wbCoeffs := wb, whitelevels := camera.whitelevels,
      blacklevels := camera.blacklevels, xyzToCam := camera.xyzToCam, cfa := camera.cfa, crops := [0, 0, 0, 0],
      orientation := camera.orientation, data := data, make := camera.make, model := camera.model,
      cleanMake := camera.cleanMake, cleanModel := camera.cleanModel }
  else do
    let wb ← getWb tiff
    okImage b camera width height wb data

end Raf

end Model

import Verif.Model.Dec.Simple
/-!
# Model of `src/decoders/mos.rs`

Reading a decimal number into an `f32` is not modelled: `parseF32` stands for `parse::<f32>().unwrap_or(NAN)`.
-/

namespace Model
open Rust

namespace Mos

/-- `xmp_tag` (`mos.rs:79-86`). Both positions are those of ASCII characters, so the slice never cuts a character. -/
def xmpTag (tiff : TiffIFD) (tag : Bytes) : M Bytes := do
  let e ← tiff.fetchTag Tag.Xmp
  let xmp ← e.getStr
  match findSub (b! "<tiff:" ++ tag ++ b! ">") 0 xmp with
  | none => fail "MOS: Couldn't find XMP tag"
  | some start =>
    match findSub (b! "</tiff:" ++ tag ++ b! ">") 0 xmp with
    | none => fail "MOS: Couldn't find XMP tag"
    | some stop => slice xmp (start + tag.length + 7) stop

/-- `model_full.split_terminator("(").next().unwrap()` (`mos.rs:28`): an empty text has no pieces. -/
def modelName (full : Bytes) : M Bytes := if full.isEmpty then crash else .ok (full.takeWhile (· ≠ 40))

/-- What follows a found section (`mos.rs:62-71`). -/
def neutrals (parseF32 : Bytes → F32) (data : Bytes) : List F32 :=
  if data.contains 0 then
    match (splitTerminator 10 (fromUtf8Lossy (data.takeWhile (· ≠ 0)))).map parseF32 with
    | [n0, n1, n2, n3] => [n0.div n1, n0.div n2, n0.div n3, .nan]
    | _ => nanWb
  else nanWb

/-- The search for the section (`mos.rs:60-75`) with a step budget. -/
def search (parseF32 : Bytes → F32) (data : Bytes) : Nat → Nat → M (List F32)
  | 0, _ => .error .fuel
  | n + 1, pos =>
    if pos + 70 < data.length then do
      let m ← slice data pos (pos + 16)
      if m = b! "NeutObj_neutrals" then do
        let rest ← sliceFrom data (pos + 44)
        .ok (neutrals parseF32 rest)
      else search parseF32 data n (pos + 1)
    else .ok nanWb

/-- `get_wb` (`mos.rs:56-77`) -/
def getWb (parseF32 : Bytes → F32) (tiff : TiffIFD) : M (List F32) := do
  let e ← tiff.fetchTag Tag.LeafMetadata
  search parseF32 e.data (e.data.length + 1) 0

/-- The rows of an interlaced image in their places (`mos.rs:92-96`). -/
def deinterlace (b : Build) (width height : Nat) (lines : List Nat) : M (List Nat) := do
  if width = 0 then crash
  else do
    let rows := chunks width lines
    forRange 0 rows.length (fun row out => do
      let line ← idx rows row
      let orow ← if row % 2 = 1 then do
          let h ← subU 64 b height 1
          subU 64 b h (row / 2)
        else .ok (row / 2)
      if line.length = width then copySlice out (orow * width) line else crash) (List.replicate (width * height) 0)

/-- `decode_compressed` (`mos.rs:88-101`) -/
def decodeCompressed (b : Build) (cam : Camera) (src : Bytes) (width height : Nat) : M (List Nat) := do
  let d ← Ljpeg.newFull b src true true
  let lines ← d.decodeLeaf b width height
  if cam.findHint (b! "interlaced") then deinterlace b width height lines else .ok lines

/-- `MosDecoder::image` (`mos.rs:25-52`) -/
def image (b : Build) (parseF32 : Bytes → F32) (buffer : Bytes) (tiff : TiffIFD) (loader : RawLoader) : M RawImage := do
  let make ← xmpTag tiff (b! "Make")
  let full ← xmpTag tiff (b! "Model")
  let model ← modelName full
  let camera ← loader.checkSupportedWithEverything make model []
  let raw ← tiff.fetchIfd Tag.TileOffsets
  let width ← fetchUsize raw Tag.ImageWidth
  let height ← fetchUsize raw Tag.ImageLength
  let offset ← fetchUsize raw Tag.TileOffsets
  let src ← sliceFrom buffer offset
  let compression ← fetchUsize raw Tag.Compression
  let data ← if compression = 1 then
      if tiff.endian.little then decode_16le src width height else decode_16be src width height
    else if compression = 7 ∨ compression = 99 then decodeCompressed b camera src width height
    else fail "MOS: unsupported compression"
  let wb ← getWb parseF32 tiff
  okImage b camera width height wb data

end Mos

end Model

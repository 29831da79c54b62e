import Verif.Model.Camera
import Verif.Model.Ciff
import Verif.Model.Packed
import Verif.Model.Ljpeg
/-!
# Models of the small format decoders

`mrw.rs`, `ari.rs`, `mef.rs`, `nkd.rs`, `erf.rs`, `dcs.rs`, `kdc.rs`, `nrw.rs`, `tfr.rs`, `x3f.rs`. Each decoder holds the
padded file contents (`buffer`), the parsed directory (`tiff`) and the loader; `image` takes them as arguments. Messages leave
out the numbers and the trailing address.
-/

namespace Model
open Rust

/-- `.unwrap()` of a `Result`: an error becomes a panic. -/
def unwrapped {α : Type} (r : M α) : M α :=
  match r with
  | .ok a => .ok a
  | .error .fuel => .error .fuel
  | .error _ => crash

/-- `[NAN,NAN,NAN,NAN]` -/
def nanWb : List F32 := [.nan, .nan, .nan, .nan]

/-- `LEf32` (`basics.rs:71-73`): the number with these bits. -/
def LEf32 (buf : Bytes) (pos : Nat) : M F32 := do
  let v ← LEu32 buf pos
  .ok (F32.ofBits v)

/-- `data.iter().find(p)` with a predicate that may panic. -/
def findM {α : Type} (p : α → M Bool) : List α → M (Option α)
  | [] => .ok none
  | a :: rest => do
    let t ← p a
    if t then .ok (some a) else findM p rest

/-- `data.iter().find(|&&ifd| ifd.find_entry(Tag::ImageWidth).unwrap().get_u32(0) > 1000).unwrap()` (`dcs.rs:27-29`,
`nrw.rs:27-29`, `srw.rs`, `nef.rs`, `pef.rs`, ...) -/
def wideIfd (data : List TiffIFD) : M TiffIFD := do
  let r ← findM (fun ifd =>
    match ifd.findEntry Tag.ImageWidth with
    | some e => do
      let v ← e.getU32 0
      .ok (decide (v > 1000))
    | none => crash) data
  match r with
  | some ifd => .ok ifd
  | none => crash

/-- `fetch_tag!(ifd, tag).get_usize(0)` -/
def fetchUsize (ifd : TiffIFD) (tag : Nat) : M Nat := do
  let e ← ifd.fetchTag tag
  e.getU32 0

/-! ## Minolta MRW -/

namespace Mrw

/-- `is_mrw` (`mrw.rs:6-8`) -/
def isMrw (buf : Bytes) : M Bool := do
  let v ← BEu32 buf 0
  .ok (decide (v = 0x004D524D))

/-- The variables of the loop over the blocks (`mrw.rs:25-31`). -/
structure Walk where
  rawHeight : Nat
  rawWidth : Nat
  packed : Bool
  wbVals : List Nat
  tiffpos : Nat
  currpos : Nat
  deriving DecidableEq, Repr

/-- The effect of one block (`mrw.rs:37-54`). -/
def block (buf : Bytes) (tag : Nat) (s : Walk) : M Walk :=
  if tag = 0x505244 then do
    let h ← BEu16 buf (s.currpos + 16)
    let w ← BEu16 buf (s.currpos + 18)
    let p ← byteAt buf (s.currpos + 24)
    .ok { s with rawHeight := h, rawWidth := w, packed := decide (p = 12) }
  else if tag = 0x574247 then do
    let wb ← forRange 0 4 (fun i wb => do
      let v ← BEu16 buf (s.currpos + 12 + i * 2)
      setIdx wb i v) s.wbVals
    .ok { s with wbVals := wb }
  else if tag = 0x545457 then .ok { s with tiffpos := s.currpos + 8 }
  else .ok s

/-- The loop over the blocks (`mrw.rs:33-56`) with a step budget. `len+8` is a `u32`. -/
def walk (b : Build) (buf : Bytes) (dataOffset : Nat) : Nat → Walk → M Walk
  | 0, s => if s.currpos + 20 < dataOffset then .error .fuel else .ok s
  | n + 1, s =>
    if s.currpos + 20 < dataOffset then do
      let tag ← BEu32 buf s.currpos
      let len ← BEu32 buf (s.currpos + 4)
      let s ← block buf tag s
      let step ← addU 32 b len 8
      walk b buf dataOffset n { s with currpos := s.currpos + step }
    else .ok s

/-- The variables before the loop (`mrw.rs:25-31`). -/
def start : Walk := ⟨0, 0, false, [0, 0, 0, 0], 0, 8⟩

/-- `MrwDecoder` (`mrw.rs:11-20`) without the buffer and the loader. -/
structure Decoder where
  dataOffset : Nat
  rawWidth : Nat
  rawHeight : Nat
  packed : Bool
  wbVals : List Nat
  tiff : TiffIFD

/-- `MrwDecoder::new` (`mrw.rs:23-68`) with `budget` steps for the loop; an error of the directory parser is unwrapped. -/
def newWithin (b : Build) (budget : Nat → Nat) (buf : Bytes) : M Decoder := do
  let d ← BEu32 buf 4
  let dataOffset ← addU 32 b d 8
  let s ← walk b buf dataOffset (budget dataOffset) start
  let sub ← sliceFrom buf s.tiffpos
  match TiffIFD.parse b sub 8 0 0 BIG_ENDIAN with
  | .ok tiff => .ok ⟨dataOffset, s.rawWidth, s.rawHeight, s.packed, s.wbVals, tiff⟩
  | .error .fuel => .error .fuel
  | .error _ => crash

/-- `MrwDecoder::new` (`mrw.rs:23-68`). A loop that moves forward at all makes at most `data_offset` steps; the outcome `fuel`
stands for a loop that does not end, see `mrw_budget_enough`. -/
def new (b : Build) (buf : Bytes) : M Decoder := newWithin b (fun d => d) buf

/-- `MrwDecoder::image` (`mrw.rs:72-96`) -/
def image (b : Build) (buffer : Bytes) (d : Decoder) (loader : RawLoader) : M RawImage := do
  let camera ← loader.checkSupported d.tiff
  let src ← sliceFrom buffer d.dataOffset
  let data ← if d.packed then decode_12be src d.rawWidth d.rawHeight else decode_12be_unpacked src d.rawWidth d.rawHeight
  let w0 ← idx d.wbVals 0
  let w1 ← idx d.wbVals 1
  let w2 ← idx d.wbVals 2
  let w3 ← idx d.wbVals 3
  let wb := if camera.findHint (b! "swapped_wb") then [F32.ofNat w2, F32.ofNat w0, F32.ofNat w1, .nan]
    else [F32.ofNat w0, F32.ofNat w1, F32.ofNat w3, .nan]
  okImage b camera d.rawWidth d.rawHeight wb data

end Mrw

/-! ## ARRI -/

namespace Ari

/-- `is_ari` (`ari.rs:5-7`) -/
def isAri (buf : Bytes) : M Bool := do
  let m ← slice buf 0 4
  .ok (decide (m = b! "ARRI"))

/-- `AriDecoder::image` and `get_wb` (`ari.rs:24-43`) -/
def image (b : Build) (buffer : Bytes) (loader : RawLoader) : M RawImage := do
  let offset ← LEu32 buffer 8
  let width ← LEu32 buffer 20
  let height ← LEu32 buffer 24
  let name ← sliceFrom buffer 668
  let camera ← loader.checkSupportedWithEverything (b! "ARRI") (firstString (fromUtf8Lossy name)) []
  let src ← sliceFrom buffer offset
  let data ← decode_12be_msb32 src width height
  let r ← LEf32 buffer 100
  let g ← LEf32 buffer 104
  let bl ← LEf32 buffer 108
  okImage b camera width height [r, g, bl, .nan] data

end Ari

/-! ## Mamiya MEF -/

/-- `MefDecoder::image` (`mef.rs:24-34`) -/
def Mef.image (b : Build) (buffer : Bytes) (tiff : TiffIFD) (loader : RawLoader) : M RawImage := do
  let camera ← loader.checkSupported tiff
  let raw ← tiff.fetchIfd Tag.CFAPattern
  let width ← fetchUsize raw Tag.ImageWidth
  let height ← fetchUsize raw Tag.ImageLength
  let offset ← fetchUsize raw Tag.StripOffsets
  let src ← sliceFrom buffer offset
  let data ← decode_12be src width height
  okImage b camera width height nanWb data

/-! ## Headerless files -/

/-- `NakedDecoder::image` (`nkd.rs:23-40`); division by zero panics. -/
def Nkd.image (b : Build) (buffer : Bytes) (camera : Camera) : M RawImage := do
  let width := camera.rawWidth
  let height := camera.rawHeight
  if width = 0 ∨ height = 0 then crash
  else do
    let bits := camera.filesize * 8 / width / height
    let data ← if camera.findHint (b! "12le_16bitaligned") then decode_12le_16bitaligned buffer width height
      else if bits = 10 then decode_10le_lsb16 buffer width height
      else if bits = 12 then decode_12be_msb16 buffer width height
      else fail "Naked: Don't know about bps images"
    okImage b camera width height nanWb data

/-! ## Epson ERF -/

namespace Erf

/-- `ErfDecoder::get_wb` (`erf.rs:38-47`) -/
def getWb (tiff : TiffIFD) : M (List F32) := do
  let levels ← tiff.fetchTag Tag.EpsonWB
  if levels.count ≠ 256 then fail "ERF: Levels count is off"
  else do
    let r ← BEu16 levels.data 48
    let bl ← BEu16 levels.data 50
    .ok [(((F32.ofNat r).mul (F32.ofNat 508)).mul (F32.ofRat (1078 / 1000))).div (F32.ofNat 65536), F32.ofNat 1,
         (((F32.ofNat bl).mul (F32.ofNat 382)).mul (F32.ofRat (1173 / 1000))).div (F32.ofNat 65536), .nan]

/-- `ErfDecoder::image` (`erf.rs:24-34`) -/
def image (b : Build) (buffer : Bytes) (tiff : TiffIFD) (loader : RawLoader) : M RawImage := do
  let camera ← loader.checkSupported tiff
  let raw ← tiff.fetchIfd Tag.CFAPattern
  let width ← fetchUsize raw Tag.ImageWidth
  let height ← fetchUsize raw Tag.ImageLength
  let offset ← fetchUsize raw Tag.StripOffsets
  let src ← sliceFrom buffer offset
  let data ← decode_12be_wcontrol src width height
  let wb ← getWb tiff
  okImage b camera width height wb data

end Erf

/-! ## Kodak DCS -/

/-- The linearization table (`dcs.rs:35-41`); every value is cut to a `u16`. -/
def Dcs.table (b : Build) (e : TiffEntry) : M LookupTable := do
  let t ← (List.range 256).mapM fun i => do
    let v ← e.getU32 i
    .ok (v % 65536)
  LookupTable.new b t

/-- `DcsDecoder::image` (`dcs.rs:24-45`) -/
def Dcs.image (b : Build) (buffer : Bytes) (tiff : TiffIFD) (loader : RawLoader) : M RawImage := do
  let camera ← loader.checkSupported tiff
  let raw ← wideIfd (tiff.findIfdsWithTag Tag.StripOffsets)
  let width ← fetchUsize raw Tag.ImageWidth
  let height ← fetchUsize raw Tag.ImageLength
  let offset ← fetchUsize raw Tag.StripOffsets
  let src ← sliceFrom buffer offset
  let linearization ← tiff.fetchTag Tag.GrayResponse
  let table ← Dcs.table b linearization
  let data ← decode_8bit_wtable b src table width height
  okImage b camera width height nanWb data

/-! ## Kodak KDC -/

namespace Kdc

/-- `KdcDecoder::get_wb` (`kdc.rs:46-66`) -/
def getWb (tiff : TiffIFD) : M (List F32) :=
  match tiff.findEntry Tag.KdcWB with
  | some levels =>
    if levels.count ≠ 3 then fail "KDC: Levels count is off"
    else do
      let r ← levels.getF32 0
      let g ← levels.getF32 1
      let bl ← levels.getF32 2
      .ok [r, g, bl, .nan]
  | none => do
    let levels ← tiff.fetchTag Tag.KodakWB
    if levels.count ≠ 734 ∧ levels.count ≠ 1502 then fail "KDC: Levels count is off"
    else do
      let r ← BEu16 levels.data 148
      let bl ← BEu16 levels.data 150
      .ok [(F32.ofNat r).div (F32.ofNat 256), F32.ofNat 1, (F32.ofNat bl).div (F32.ofNat 256), .nan]

/-- `KdcDecoder::image` (`kdc.rs:24-42`) -/
def image (b : Build) (buffer : Bytes) (tiff : TiffIFD) (loader : RawLoader) : M RawImage := do
  let camera ← loader.checkSupported tiff
  let w ← fetchUsize tiff Tag.KdcWidth
  let width := w + 80
  let h ← fetchUsize tiff Tag.KdcLength
  let height := h + 70
  let offset ← tiff.fetchTag Tag.KdcOffset
  if offset.count < 13 then crash
  else do
    let o4 ← offset.getU32 4
    let o12 ← offset.getU32 12
    let off := o4 + o12
    let off := if camera.findHint (b! "easyshare_offset_hack") then (if off < 0x15000 then 0x15000 else 0x17000) else off
    let src ← sliceFrom buffer off
    let data ← decode_12be src width height
    let wb ← getWb tiff
    okImage b camera width height wb data

end Kdc

/-! ## Nikon NRW -/

namespace Nrw

/-- `NrwDecoder::get_wb` (`nrw.rs:49-73`). `<< 2` on a `u32` drops the high bits. -/
def getWb (b : Build) (tiff : TiffIFD) (cam : Camera) : M (List F32) :=
  if cam.findHint (b! "nowb") then .ok nanWb
  else
    match tiff.findEntry Tag.NefWB0 with
    | some levels => do
      let r ← levels.getF32 0
      let bl ← levels.getF32 1
      .ok [r, F32.ofNat 1, bl, .nan]
    | none =>
      match tiff.findEntry Tag.NrwWB with
      | some levels => do
        let data := levels.data
        let m ← slice data 0 3
        if m = b! "NRW" then do
          let v ← slice data 4 8
          let offset := if v = b! "0100" then 1556 else 56
          let r ← LEu32 data offset
          let g1 ← LEu32 data (offset + 4)
          let g2 ← LEu32 data (offset + 8)
          let g ← addU 32 b g1 g2
          let bl ← LEu32 data (offset + 12)
          .ok [F32.ofNat ((r <<< 2) % 4294967296), F32.ofNat g, F32.ofNat ((bl <<< 2) % 4294967296), .nan]
        else do
          let r ← BEu16 data 1248
          let bl ← BEu16 data 1250
          .ok [F32.ofNat r, F32.ofNat 256, F32.ofNat bl, .nan]
      | none => fail "NRW: Don't know how to fetch WB"

/-- `NrwDecoder::image` (`nrw.rs:24-45`) -/
def image (b : Build) (buffer : Bytes) (tiff : TiffIFD) (loader : RawLoader) : M RawImage := do
  let camera ← loader.checkSupported tiff
  let raw ← wideIfd (tiff.findIfdsWithTag Tag.CFAPattern)
  let width ← fetchUsize raw Tag.ImageWidth
  let height ← fetchUsize raw Tag.ImageLength
  let offset ← fetchUsize raw Tag.StripOffsets
  let src ← sliceFrom buffer offset
  let data ← if camera.findHint (b! "coolpixsplit") then decode_12be_interlaced_unaligned src width height
    else if camera.findHint (b! "msb32") then decode_12be_msb32 src width height
    else decode_12be src width height
  let wb ← getWb b tiff camera
  okImage b camera width height wb data

end Nrw

/-! ## Hasselblad TFR (3FR) -/

namespace Tfr

/-- `TfrDecoder::get_wb` (`tfr.rs:38-41`) -/
def getWb (tiff : TiffIFD) : M (List F32) := do
  let levels ← tiff.fetchTag Tag.AsShotNeutral
  let r ← levels.getF32 0
  let g ← levels.getF32 1
  let bl ← levels.getF32 2
  let one := F32.ofNat 1
  .ok [one.div r, one.div g, one.div bl, .nan]

/-- `TfrDecoder::decode_compressed` (`tfr.rs:43-48`) -/
def decodeCompressed (b : Build) (src : Bytes) (width height : Nat) : M (List Nat) := do
  let out := List.replicate (width * height) 0
  let d ← Ljpeg.newFull b src true false
  d.decode b out 0 width width height

/-- `TfrDecoder::image` (`tfr.rs:24-34`) -/
def image (b : Build) (buffer : Bytes) (tiff : TiffIFD) (loader : RawLoader) : M RawImage := do
  let camera ← loader.checkSupported tiff
  let raw ← tiff.fetchIfd Tag.WhiteLevel
  let width ← fetchUsize raw Tag.ImageWidth
  let height ← fetchUsize raw Tag.ImageLength
  let offset ← fetchUsize raw Tag.StripOffsets
  let src ← sliceFrom buffer offset
  let data ← decodeCompressed b src width height
  let wb ← getWb tiff
  okImage b camera width height wb data

end Tfr

/-! ## Sigma X3F -/

namespace X3f

/-- `is_x3f` (`x3f.rs:6-8`) -/
def isX3f (buf : Bytes) : M Bool := do
  let m ← slice buf 0 4
  .ok (decide (m = b! "FOVb"))

/-- `X3fDirectory` (`x3f.rs:16-21`) -/
structure Directory where
  offset : Nat
  len : Nat
  id : Bytes
  deriving DecidableEq, Repr

/-- `X3fImage` (`x3f.rs:23-31`) -/
structure Image where
  typ : Nat
  format : Nat
  width : Nat
  height : Nat
  pitch : Nat
  doffset : Nat
  deriving DecidableEq, Repr

/-- `X3fDirectory::new` (`x3f.rs:61-72`) -/
def Directory.new (buf : Bytes) (offset : Nat) : M Directory := do
  let data ← sliceFrom buf offset
  let off ← LEu32 data 0
  let len ← LEu32 data 4
  let name ← slice data 8 12
  .ok ⟨off, len, fromUtf8Lossy name⟩

/-- `X3fImage::new` (`x3f.rs:76-87`) -/
def Image.new (buf : Bytes) (offset : Nat) : M Image := do
  let data ← sliceFrom buf offset
  let typ ← LEu32 data 8
  let format ← LEu32 data 12
  let width ← LEu32 data 16
  let height ← LEu32 data 20
  let pitch ← LEu32 data 24
  .ok ⟨typ, format, width, height, pitch, offset + 28⟩

/-- `X3fFile` (`x3f.rs:10-14`) -/
structure File where
  dirs : List Directory
  images : List Image
  deriving DecidableEq, Repr

/-- `X3fFile::new` (`x3f.rs:34-57`) -/
def File.new (b : Build) (buf : Buffer) : M File := do
  let p ← subU 64 b buf.size 4
  let offset ← LEu32 buf.buf p
  let data ← sliceFrom buf.buf offset
  let version ← LEu32 data 4
  if version < 0x00020000 then fail "X3F: Directory version too old"
  else do
    let entries ← LEu32 data 8
    let s ← forRange 0 entries (fun i (s : List Directory × List Image) => do
      let dir ← Directory.new data (12 + i * 12)
      let images ← if dir.id = b! "IMA2" then do
          let img ← Image.new buf.buf dir.offset
          .ok (s.2 ++ [img])
        else .ok s.2
      .ok (s.1 ++ [dir], images)) ([], [])
    .ok ⟨s.1, s.2⟩

/-- `X3fDecoder::new` (`x3f.rs:98-106`): an error is unwrapped. -/
def new (b : Build) (buf : Buffer) : M File :=
  match File.new b buf with
  | .ok f => .ok f
  | .error .fuel => .error .fuel
  | .error _ => crash

/-- `X3fDecoder::decode_compressed` (`x3f.rs:147-149`) -/
def decodeCompressed (_src : Bytes) (_width _height : Nat) : M (List Nat) := fail "X3F decoding not implemented yet"

/-- `X3fDecoder::image` (`x3f.rs:110-139`) -/
def image (b : Build) (buffer : Bytes) (dir : File) (loader : RawLoader) : M RawImage := do
  let caminfo ← match dir.images.find? (fun i => i.typ = 2 && i.format = 0x12) with
    | some i => .ok i
    | none => fail "X3F: Couldn't find camera info"
  let data ← sliceFrom buffer (caminfo.doffset + 6)
  let m ← slice data 0 4
  if m ≠ b! "Exif" then fail "X3F: Couldn't find EXIF info"
  else do
    let tiff ← TiffIFD.newRoot b buffer (caminfo.doffset + 12)
    let camera ← loader.checkSupported tiff
    let imginfo ← match dir.images.find? (fun i => i.typ = 1 || i.typ = 3) with
      | some i => .ok i
      | none => fail "X3F: Couldn't find image"
    let src ← sliceFrom buffer imginfo.doffset
    let data ← if imginfo.format = 35 then decodeCompressed src imginfo.width imginfo.height
      else fail "X3F Don't know how to decode format"
    let img ← RawImage.new b camera imginfo.width imginfo.height nanWb data
    .ok { img with cpp := 3 }

end X3f

end Model

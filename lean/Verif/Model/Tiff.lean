import Verif.F32
import Verif.Model.Text
/-!
# Model of `src/decoders/tiff.rs`
-/

namespace Model
open Rust

/-! ## Tags -/

/-- The tags named by the code, that is the values accepted by `Tag::from_u16` (`tiff.rs:6-95`). -/
def knownTags : List Nat :=
  [0x0002, 0x0003, 0x000C, 0x0011, 0x0012, 0x0014, 0x001d, 0x0024, 0x0025, 0x0026, 0x0029, 0x00FE, 0x0081, 0x008c, 0x0096,
   0x0097, 0x00A4, 0x00a7, 0x0100, 0x0101, 0x0102, 0x0103, 0x0106, 0x010F, 0x0110, 0x0111, 0x0112, 0x0115, 0x0117, 0x0118,
   0x0123, 0x0131, 0x0142, 0x0143, 0x0144, 0x014A, 0x0200, 0x0201, 0x0220, 0x02BC, 0x03FD, 0x090D, 0x0E80, 0x0F00, 0x1017,
   0x1018, 0x2040, 0x2ff0, 0x4001, 0x7010, 0x7200, 0x7201, 0x7221, 0x7303, 0x7313, 0x828E, 0x8290, 0x8606, 0x8769, 0x927C,
   0xA010, 0xA021, 0xA028, 0xc5d8, 0xC612, 0xC618, 0xC61A, 0xC61D, 0xC621, 0xC622, 0xC628, 0xC634, 0xC640, 0xC68D, 0xF000,
   0xF001, 0xF002, 0xF003, 0xF007, 0xF00E, 0xFA2A, 0xFD00, 0xFD01, 0xFD04, 0xFE00]

namespace Tag
/-! Values of the variants of `Tag` used by the model (`tiff.rs:9-93`). -/
def PanaWidth := 0x0002
def PanaLength := 0x0003
def NefWB0 := 0x000C
def PanaWBsR := 0x0011
def PanaWBsB := 0x0012
def NrwWB := 0x0014
def NefSerial := 0x001d
def PanaWBs2R := 0x0024
def PanaWBs2G := 0x0025
def PanaWBs2B := 0x0026
def Cr2PowerShotWB := 0x0029
def NewSubFileType := 0x00FE
def Cr2OldOffset := 0x0081
def NefMeta1 := 0x008c
def NefMeta2 := 0x0096
def NefWB1 := 0x0097
def Cr2OldWB := 0x00A4
def NefKey := 0x00a7
def ImageWidth := 0x0100
def ImageLength := 0x0101
def BitsPerSample := 0x0102
def Compression := 0x0103
def PhotometricInt := 0x0106
def Make := 0x010F
def Model := 0x0110
def StripOffsets := 0x0111
def Orientation := 0x0112
def SamplesPerPixel := 0x0115
def StripByteCounts := 0x0117
def PanaOffsets := 0x0118
def GrayResponse := 0x0123
def Software := 0x0131
def TileWidth := 0x0142
def TileLength := 0x0143
def TileOffsets := 0x0144
def SubIFDs := 0x014A
def PefBlackLevels := 0x0200
def PefWB := 0x0201
def PefHuffman := 0x0220
def Xmp := 0x02BC
def DcrWB := 0x03FD
def DcrLinearization := 0x090D
def EpsonWB := 0x0E80
def KodakWB := 0x0F00
def OlympusRedMul := 0x1017
def OlympusBlueMul := 0x1018
def OlympusImgProc := 0x2040
def RafOldWB := 0x2ff0
def Cr2ColorData := 0x4001
def SonyCurve := 0x7010
def SonyOffset := 0x7200
def SonyLength := 0x7201
def SonyKey := 0x7221
def SonyGRBG := 0x7303
def SonyRGGB := 0x7313
def CFAPattern := 0x828E
def KodakIFD := 0x8290
def LeafMetadata := 0x8606
def ExifIFDPointer := 0x8769
def Makernote := 0x927C
def SrwSensorAreas := 0xA010
def SrwRGGBLevels := 0xA021
def SrwRGGBBlacks := 0xA028
def Cr2Id := 0xc5d8
def DNGVersion := 0xC612
def Linearization := 0xC618
def BlackLevels := 0xC61A
def WhiteLevel := 0xC61D
def ColorMatrix1 := 0xC621
def ColorMatrix2 := 0xC622
def AsShotNeutral := 0xC628
def DNGPrivateArea := 0xC634
def Cr2StripeWidths := 0xC640
def ActiveArea := 0xC68D
def RafRawSubIFD := 0xF000
def RafImageWidth := 0xF001
def RafImageLength := 0xF002
def RafBitsPerSample := 0xF003
def RafOffsets := 0xF007
def RafWBGRB := 0xF00E
def KdcWB := 0xFA2A
def KdcWidth := 0xFD00
def KdcLength := 0xFD01
def KdcOffset := 0xFD04
def KdcIFD := 0xFE00
end Tag

/-- `DATASHIFTS` (`tiff.rs:98`) -/
def dataShifts : List Nat := [0, 0, 0, 1, 2, 3, 0, 0, 1, 2, 3, 2, 3, 2]

/-! ## Entries -/

/-- `TiffEntry` (`tiff.rs:104-113`) -/
structure TiffEntry where
  tag : Nat
  typ : Nat
  count : Nat
  parentOffset : Nat
  doffset : Nat
  data : Bytes
  endian : Endian
  deriving DecidableEq, Repr

namespace TiffEntry

/-- `TiffEntry::new` (`tiff.rs:381-407`). `count << shift` is unbounded like all `usize` arithmetic of the model: `count` is a
`u32` and the shift at most 3. -/
def new (b : Build) (buf : Bytes) (offset baseOffset parentOffset : Nat) (e : Endian) : M TiffEntry := do
  let tag ← e.ru16 buf offset
  let typ ← e.ru16 buf (offset + 2)
  let count ← e.ru32 buf (offset + 4)
  let typ := if typ = 0 ∨ typ > 13 then 1 else typ
  let shift ← idx dataShifts typ
  let bytesize := count <<< shift
  let doffset ← if bytesize ≤ 4 then .ok (offset + 8) else do
    let o ← e.ru32 buf (offset + 8)
    subU 64 b o baseOffset
  let data ← slice buf doffset (doffset + bytesize)
  .ok ⟨tag, typ, count, parentOffset, doffset, data, e⟩

/-- `TiffEntry::copy_with_new_data` (`tiff.rs:409-413`) -/
def copyWithNewData (s : TiffEntry) (data : Bytes) : TiffEntry := { s with data := data }

/-- `TiffEntry::copy_offset_from_parent` (`tiff.rs:415-417`) -/
def copyOffsetFromParent (s : TiffEntry) (buffer : Bytes) : M TiffEntry := do
  let d ← sliceFrom buffer (s.parentOffset + s.doffset)
  .ok (s.copyWithNewData d)

/-- `TiffEntry::get_force_u32` (`tiff.rs:435-437`) -/
def getForceU32 (s : TiffEntry) (i : Nat) : M Nat := s.endian.ru32 s.data (i * 4)

/-- `TiffEntry::get_force_u16` (`tiff.rs:439-441`) -/
def getForceU16 (s : TiffEntry) (i : Nat) : M Nat := s.endian.ru16 s.data (i * 2)

/-- `TiffEntry::get_u32` (`tiff.rs:424-431`); `get_usize` (`tiff.rs:433`) is the same number. -/
def getU32 (s : TiffEntry) (i : Nat) : M Nat :=
  if s.typ = 1 then byteAt s.data i
  else if s.typ = 3 ∨ s.typ = 8 then s.endian.ru16 s.data (i * 2)
  else if s.typ = 4 ∨ s.typ = 7 ∨ s.typ = 9 ∨ s.typ = 13 then s.getForceU32 i
  else crash

/-- `TiffEntry::get_f32` (`tiff.rs:443-455`) -/
def getF32 (s : TiffEntry) (i : Nat) : M F32 := do
  if s.typ = 5 then do
    let x ← s.endian.ru32 s.data (i * 8)
    let y ← s.endian.ru32 s.data (i * 8 + 4)
    .ok ((F32.ofNat x).div (F32.ofNat y))
  else if s.typ = 10 then do
    let x ← s.endian.ri32 s.data (i * 8)
    let y ← s.endian.ri32 s.data (i * 8 + 4)
    .ok ((F32.ofRat x).div (F32.ofRat y))
  else do
    let x ← s.getU32 i
    .ok (F32.ofNat x)

/-- `TiffEntry::get_str` (`tiff.rs:457-467`) -/
def getStr (s : TiffEntry) : M Bytes :=
  let l := s.data.takeWhile (· ≠ 0)
  if utf8Valid l then .ok (trim l) else crash

end TiffEntry

/-! ## Directories -/

/-- `TiffIFD` (`tiff.rs:115-122`) -/
inductive TiffIFD where
  | mk (entries : Map Nat TiffEntry) (subifds : List TiffIFD) (nextifd startOffset : Nat) (endian : Endian)

namespace TiffIFD

/-- field `entries` -/
def entries : TiffIFD → Map Nat TiffEntry | mk e _ _ _ _ => e
/-- field `subifds` -/
def subifds : TiffIFD → List TiffIFD | mk _ s _ _ _ => s
/-- field `nextifd` -/
def nextifd : TiffIFD → Nat | mk _ _ n _ _ => n
/-- field `start_offset` and `TiffIFD::start_offset` (`tiff.rs:377`) -/
def startOffset : TiffIFD → Nat | mk _ _ _ s _ => s
/-- field `endian` and `TiffIFD::get_endian` (`tiff.rs:375`) -/
def endian : TiffIFD → Endian | mk _ _ _ _ e => e

/-- The arguments of the call of `TiffIFD::new` made by `new_makernote` (`tiff.rs:243-289`): the buffer, the offset and the byte
order. `start_offset` is 0 and `base_offset` and `depth` are passed on. -/
def makernoteTarget (buf : Bytes) (offset : Nat) (e : Endian) : M (Bytes × Nat × Endian) := do
  let data ← sliceFrom buf offset
  let d5 ← slice data 0 5
  let off ← if d5 = b! "OLYMP" then do
      let d7 ← slice data 0 7
      .ok (if d7 = b! "OLYMPUS" then 12 else 8)
    else .ok 0
  let off := if d5 = b! "EPSON" then off + 8 else off
  let d4 ← slice data 0 4
  let off := if d4 = b! "AOC\x00" then off + 4 else off
  let d6 ← slice data 0 6
  if d6 = b! "PENTAX" then do
    let m ← slice data (off + 8) (off + 10)
    .ok (data, 10, if m = b! "II" then LITTLE_ENDIAN else BIG_ENDIAN)
  else do
    let d7 ← slice data 0 7
    if d7 = b! "Nikon\x00\x02" then do
      let m ← slice data (off + 10) (off + 12)
      let sub ← sliceFrom buf (off + 10 + offset)
      .ok (sub, 8, if m = b! "II" then LITTLE_ENDIAN else BIG_ENDIAN)
    else do
      let m ← slice data off (off + 2)
      let (off, endian) := if m = b! "II" then (off + 2, LITTLE_ENDIAN) else (off, e)
      let m ← slice data off (off + 2)
      let (off, endian) := if m = b! "MM" then (off + 2, BIG_ENDIAN) else (off, endian)
      .ok (buf, offset + off, endian)

/-- The entries and sub-directories collected so far by the loop in `TiffIFD::new`. -/
abbrev Acc := Map Nat TiffEntry × List TiffIFD

/-- `match ifd { Ok(val) => subifds.push(val), Err(_) => entries.insert(entry.tag, entry) }` (`tiff.rs:215-218`, `225-228`). -/
def keepIfd (entry : TiffEntry) (r : M TiffIFD) (s : Acc) : M Acc :=
  match r with
  | .ok v => .ok (s.1, s.2 ++ [v])
  | .error (.err _) => .ok (Map.insert s.1 entry.tag entry, s.2)
  | .error x => .error x

/-- Tags whose values are offsets of sub-directories (`tiff.rs:207-211`). -/
def pointerTags : List Nat := [Tag.SubIFDs, Tag.ExifIFDPointer, Tag.RafRawSubIFD, Tag.KodakIFD, Tag.KdcIFD]

/-- One iteration of the loop over the entries (`tiff.rs:199-233`). `parse buf offset depth e startOffset` is the recursive call
of `TiffIFD::new`. -/
def entryStep (b : Build) (parse : Bytes → Nat → Nat → Nat → Endian → M TiffIFD)
    (buf : Bytes) (offset baseOffset startOffset depth : Nat) (e : Endian) (i : Nat) (s : Acc) : M Acc := do
  let entryOffset := offset + 2 + i * 12
  let t ← e.ru16 buf entryOffset
  if t ∉ knownTags then .ok s
  else do
    let entry ← TiffEntry.new b buf entryOffset baseOffset offset e
    if entry.tag ∈ pointerTags then
      if depth < 10 then
        forRange 0 entry.count (fun i s => do
          let o ← entry.getU32 i
          keepIfd entry (parse buf o startOffset (depth + 1) e) s) s
      else .ok s
    else if entry.tag = Tag.Makernote then
      if depth < 10 then do
        let (mbuf, o, me) ← makernoteTarget buf entry.doffset e
        keepIfd entry (parse mbuf o 0 (depth + 1) me) s
      else .ok s
    else .ok (Map.insert s.1 entry.tag entry, s.2)

/-- `TiffIFD::new` (`tiff.rs:191-241`). The first number bounds the depth of the recursion; running out of it is the outcome
`fuel`, which `tiff_depth_never_exhausted` excludes. -/
def new (b : Build) : Nat → Bytes → Nat → Nat → Nat → Nat → Endian → M TiffIFD
  | 0, _, _, _, _, _, _ => .error .fuel
  | n + 1, buf, offset, baseOffset, startOffset, depth, e => do
    let num ← e.ru16 buf offset
    if num > 4000 then fail "too many entries in IFD"
    else do
      let s ← forRange 0 num
        (entryStep b (fun buf o so d e => new b n buf o baseOffset so d e) buf offset baseOffset startOffset depth e) ([], [])
      let next ← e.ru32 buf (offset + (2 + num * 12))
      .ok (mk s.1 s.2 next startOffset e)

/-- A call `TiffIFD::new(buf, offset, base, start, 0, e)` from outside. Eleven levels are enough, see
`tiff_depth_never_exhausted`. -/
def parse (b : Build) (buf : Bytes) (offset baseOffset startOffset : Nat) (e : Endian) : M TiffIFD :=
  new b 11 buf offset baseOffset startOffset 0 e

/-- `TiffIFD::new_makernote` called with depth 0 from outside (`tiff.rs:243-289`). -/
def newMakernote (b : Build) (buf : Bytes) (offset baseOffset : Nat) (e : Endian) : M TiffIFD := do
  let (mbuf, o, me) ← makernoteTarget buf offset e
  new b 11 mbuf o baseOffset 0 0 me

/-- The loop over the chained directories (`tiff.rs:173-180`); the first argument is the number of iterations left. -/
def chain (b : Build) (sub : Bytes) (offset : Nat) (e : Endian) : Nat → Nat → List TiffIFD → M (List TiffIFD)
  | 0, _, acc => .ok acc
  | n + 1, next, acc => do
    let ifd ← parse b sub next 0 offset e
    if ifd.nextifd = 0 then .ok (acc ++ [ifd])
    else chain b sub offset e n ifd.nextifd (acc ++ [ifd])

/-- The byte order announced by the first two bytes (`tiff.rs:167-171`). -/
def markerEndian (m : Nat) : M Endian :=
  if m = 0x4949 then .ok LITTLE_ENDIAN else if m = 0x4d4d then .ok BIG_ENDIAN else fail "TIFF: don't know marker"

/-- `TiffIFD::new_root` (`tiff.rs:164-189`). `&buf[offset..]` is taken in every iteration, here once; the slice was in range for
the reads before. -/
def newRoot (b : Build) (buf : Bytes) (offset : Nat) : M TiffIFD := do
  let m ← LEu16 buf offset
  let endian ← markerEndian m
  let next ← endian.ru32 buf (offset + 4)
  let sub ← sliceFrom buf offset
  let ifds ← chain b sub offset endian 100 next []
  .ok (mk [] ifds 0 offset endian)

/-- The two kinds of entries kept from the Fuji table (`tiff.rs:301-321`). -/
def fujiEntry (buf : Bytes) (entries : Map Nat TiffEntry) (tag off : Nat) : M (Map Nat TiffEntry) :=
  if tag = Tag.ImageWidth then do
    let data ← slice buf (off + 4) (off + 8)
    .ok (Map.insert entries Tag.ImageWidth ⟨Tag.ImageWidth, 3, 2, 0, off + 4, data, BIG_ENDIAN⟩)
  else if tag = Tag.RafOldWB then do
    let data ← slice buf (off + 4) (off + 12)
    .ok (Map.insert entries Tag.RafOldWB ⟨Tag.RafOldWB, 3, 4, 0, off + 4, data, BIG_ENDIAN⟩)
  else .ok entries

/-- One entry of the Fuji table (`tiff.rs:299-322`): the entries and the position. `len+4` is a `u16`. -/
def fujiStep (b : Build) (buf : Bytes) (s : Map Nat TiffEntry × Nat) : M (Map Nat TiffEntry × Nat) := do
  let (entries, off) := s
  let tag ← BEu16 buf off
  let len ← BEu16 buf (off + 2)
  let entries ← fujiEntry buf entries tag off
  let step ← addU 16 b len 4
  .ok (entries, off + step)

/-- `TiffIFD::new_fuji` (`tiff.rs:291-332`) -/
def newFuji (b : Build) (buf : Bytes) (offset : Nat) : M TiffIFD := do
  let num ← BEu32 buf offset
  if num > 4000 then fail "too many entries in IFD"
  else do
    let s ← forRange 0 num (fun _ s => fujiStep b buf s) ([], offset + 4)
    .ok (mk s.1 [] 0 0 BIG_ENDIAN)

/-- The second directory of a Fuji file, or an entry with its offset if it is not a directory (`tiff.rs:132-146`). -/
def fujiSecond (buf : Bytes) (ifd1 : TiffIFD) (r : M TiffIFD) : M (List TiffIFD × Map Nat TiffEntry) :=
  match r with
  | .ok v => .ok ([ifd1, v], [])
  | .error (.err _) => do
    let data ← slice buf 100 104
    .ok ([ifd1], Map.insert [] Tag.RafOffsets ⟨Tag.RafOffsets, 4, 1, 0, 100, data, BIG_ENDIAN⟩)
  | .error x => .error x

/-- The Fuji table is optional (`tiff.rs:147-150`). -/
def fujiThird (subifds : List TiffIFD) (r : M TiffIFD) : M (List TiffIFD) :=
  match r with
  | .ok v => .ok (subifds ++ [v])
  | .error (.err _) => .ok subifds
  | .error x => .error x

/-- `TiffIFD::new_file` (`tiff.rs:125-162`). `BEu32(buf, 84)+12` is a `u32`. -/
def newFile (b : Build) (buf : Bytes) : M TiffIFD := do
  let magic ← slice buf 0 8
  if magic = b! "FUJIFILM" then do
    let o ← BEu32 buf 84
    let o ← addU 32 b o 12
    let ifd1 ← newRoot b buf o
    let ioffset ← BEu32 buf 100
    let s ← fujiSecond buf ifd1 (newRoot b buf ioffset)
    let f ← BEu32 buf 92
    let subifds ← fujiThird s.1 (newFuji b buf f)
    .ok (mk s.2 subifds 0 0 ifd1.endian)
  else newRoot b buf 0

mutual
  /-- `TiffIFD::find_entry` (`tiff.rs:334-346`) -/
  def findEntry (tag : Nat) : TiffIFD → Option TiffEntry
    | mk entries subifds _ _ _ => if Map.containsKey entries tag then Map.get entries tag else findEntryList tag subifds
  /-- The loop over the sub-directories (`tiff.rs:338-344`). -/
  def findEntryList (tag : Nat) : List TiffIFD → Option TiffEntry
    | [] => none
    | ifd :: rest =>
      match findEntry tag ifd with
      | some x => some x
      | none => findEntryList tag rest
end

/-- `TiffIFD::has_entry` (`tiff.rs:348-350`) -/
def hasEntry (ifd : TiffIFD) (tag : Nat) : Bool := (findEntry tag ifd).isSome

mutual
  /-- `TiffIFD::find_ifds_with_tag` (`tiff.rs:352-364`) -/
  def findIfdsWithTag (tag : Nat) : TiffIFD → List TiffIFD
    | mk entries subifds n o e =>
      (if Map.containsKey entries tag then [mk entries subifds n o e] else []) ++ findIfdsList tag subifds
  /-- The loop over the sub-directories (`tiff.rs:357-362`). -/
  def findIfdsList (tag : Nat) : List TiffIFD → List TiffIFD
    | [] => []
    | ifd :: rest => (if Map.containsKey ifd.entries tag then [ifd] else []) ++ (findIfdsWithTag tag ifd ++ findIfdsList tag rest)
end

/-- `TiffIFD::find_first_ifd` (`tiff.rs:366-373`) -/
def findFirstIfd (ifd : TiffIFD) (tag : Nat) : Option TiffIFD :=
  let ifds := findIfdsWithTag tag ifd
  if ifds.length = 0 then none else ifds[0]?

/-- `fetch_tag!` (`mod.rs:7-15`) -/
def fetchTag (ifd : TiffIFD) (tag : Nat) : M TiffEntry :=
  match findEntry tag ifd with
  | some e => .ok e
  | none => fail "Couldn't find tag"

/-- `fetch_ifd!` (`mod.rs:17-25`) -/
def fetchIfd (ifd : TiffIFD) (tag : Nat) : M TiffIFD :=
  match findFirstIfd ifd tag with
  | some e => .ok e
  | none => fail "Couldn't find ifd with tag"

end TiffIFD

end Model

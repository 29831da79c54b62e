import Verif.F32
import Verif.Model.Text
/-!
# Model of `src/decoders/ciff.rs`
-/

namespace Model
open Rust

/-- The file contents with sixteen zero bytes appended, and its original length: `Buffer` (`mod.rs:71-75`). -/
structure Buffer where
  buf : Bytes
  size : Nat
  deriving DecidableEq, Repr

/-- `Buffer::new` (`mod.rs:78-89`) for a reader giving the bytes `l` without an I/O error. -/
def Buffer.new (l : Bytes) : Buffer := ⟨l ++ List.replicate 16 0, l.length⟩

namespace CiffTag
/-! Values of the variants of `CiffTag` used by the model (`ciff.rs:8-21`). -/
def ColorInfo1 := 0x0032
def MakeModel := 0x080a
def ShotInfo := 0x102a
def ColorInfo2 := 0x102c
def WhiteBalance := 0x10a9
def SensorInfo := 0x1031
def ImageInfo := 0x1810
def DecoderTable := 0x1835
def RawData := 0x2005
end CiffTag

/-- `CiffEntry` (`ciff.rs:28-36`) -/
structure CiffEntry where
  tag : Nat
  typ : Nat
  count : Nat
  bytesize : Nat
  dataOffset : Nat
  data : Bytes
  deriving DecidableEq, Repr

namespace CiffEntry

/-- `CiffEntry::element_shift` (`ciff.rs:125-136`) -/
def elementShift (typ : Nat) : Nat :=
  if typ = 0x0000 ∨ typ = 0x8000 then 0
  else if typ = 0x1000 then 1
  else if typ = 0x1800 ∨ typ = 0x2000 ∨ typ = 0x2800 ∨ typ = 0x3000 then 2
  else 0

/-- `CiffEntry::new` (`ciff.rs:99-123`) -/
def new (buf : Bytes) (valueData offset : Nat) : M CiffEntry := do
  let p ← LEu16 buf offset
  let tag := p &&& 0x3fff
  let datalocation := p &&& 0xc000
  let typ := p &&& 0x3800
  let (bytesize, dataOffset) ←
    if datalocation = 0x0000 then do
      let n ← LEu32 buf (offset + 2)
      let o ← LEu32 buf (offset + 6)
      .ok (n, o + valueData)
    else if datalocation = 0x4000 then .ok (8, offset + 2)
    else fail "CIFF: Don't know about data location"
  let data ← slice buf dataOffset (dataOffset + bytesize)
  .ok ⟨tag, typ, bytesize >>> elementShift typ, bytesize, dataOffset, data⟩

/-- `CiffEntry::get_strings` (`ciff.rs:138-140`) -/
def getStrings (s : CiffEntry) : List Bytes := splitTerminator 0 (fromUtf8Lossy s.data)

/-- `CiffEntry::get_u32` (`ciff.rs:142-149`); `get_usize` (`ciff.rs:151`) is the same number. -/
def getU32 (s : CiffEntry) (i : Nat) : M Nat :=
  if s.typ = 0x0000 ∨ s.typ = 0x8000 then byteAt s.data i
  else if s.typ = 0x1000 then LEu16 s.data (i * 2)
  else if s.typ = 0x1800 ∨ s.typ = 0x2000 ∨ s.typ = 0x2800 ∨ s.typ = 0x3000 then LEu32 s.data (i * 4)
  else crash

/-- `CiffEntry::get_f32` (`ciff.rs:152`) -/
def getF32 (s : CiffEntry) (i : Nat) : M F32 := do
  let v ← s.getU32 i
  .ok (F32.ofNat v)

/-- `CiffEntry::get_force_u16` (`ciff.rs:153`) -/
def getForceU16 (s : CiffEntry) (i : Nat) : M Nat := LEu16 s.data (i * 2)

end CiffEntry

/-- `CiffIFD` (`ciff.rs:38-42`) -/
inductive CiffIFD where
  | mk (entries : Map Nat CiffEntry) (subifds : List CiffIFD)

/-- `is_ciff` (`ciff.rs:44-46`) -/
def isCiff (buf : Bytes) : M Bool := do
  let m ← slice buf 6 14
  .ok (m = b! "HEAPCCDR")

namespace CiffIFD

/-- field `entries` -/
def entries : CiffIFD → Map Nat CiffEntry | mk e _ => e
/-- field `subifds` -/
def subifds : CiffIFD → List CiffIFD | mk _ s => s

/-- The entries and sub-directories collected so far by the loop in `CiffIFD::new`. -/
abbrev Acc := Map Nat CiffEntry × List CiffIFD

/-- One iteration of the loop over the entries (`ciff.rs:62-74`); `parse start end` is the recursive call, one level deeper. -/
def entryStep (parse : Nat → Nat → M CiffIFD) (buf : Bytes) (start dir depth i : Nat) (s : Acc) : M Acc := do
  let e ← CiffEntry.new buf start (dir + 2 + i * 10)
  if e.typ = 0x2800 ∨ e.typ = 0x3000 then
    if depth < 10 then
      match parse e.dataOffset (e.dataOffset + e.bytesize) with
      | .ok v => .ok (s.1, s.2 ++ [v])
      | .error (.err _) => .ok (Map.insert s.1 e.tag e, s.2)
      | .error x => .error x
    else .ok s
  else .ok (Map.insert s.1 e.tag e, s.2)

/-- `CiffIFD::new` (`ciff.rs:54-81`). The first number bounds the depth of the recursion; running out of it is the outcome
`fuel`, which `ciff_parsing_ends` excludes. -/
def new (b : Build) (buf : Bytes) : Nat → Nat → Nat → Nat → M CiffIFD
  | 0, _, _, _ => .error .fuel
  | n + 1, start, stop, depth => do
    let p ← subU 64 b stop 4
    let valuedataSize ← LEu32 buf p
    let dircount ← LEu16 buf (start + valuedataSize)
    let s ← forRange 0 dircount
      (entryStep (fun st en => new b buf n st en (depth + 1)) buf start (start + valuedataSize) depth) ([], [])
    .ok (mk s.1 s.2)

/-- `CiffIFD::new_file` (`ciff.rs:49-52`); ten levels are enough, see `ciff_parsing_ends`. -/
def newFile (b : Build) (buf : Buffer) : M CiffIFD := do
  let start ← LEu32 buf.buf 2
  new b buf.buf 10 start buf.size 1

mutual
  /-- `CiffIFD::find_entry` (`ciff.rs:83-95`) -/
  def findEntry (tag : Nat) : CiffIFD → Option CiffEntry
    | mk entries subifds => if Map.containsKey entries tag then Map.get entries tag else findEntryList tag subifds
  /-- The loop over the sub-directories (`ciff.rs:87-93`). -/
  def findEntryList (tag : Nat) : List CiffIFD → Option CiffEntry
    | [] => none
    | ifd :: rest =>
      match findEntry tag ifd with
      | some x => some x
      | none => findEntryList tag rest
end

/-- `fetch_tag!` (`mod.rs:7-15`) on a CIFF directory. -/
def fetchTag (ifd : CiffIFD) (tag : Nat) : M CiffEntry :=
  match findEntry tag ifd with
  | some e => .ok e
  | none => fail "Couldn't find tag"

end CiffIFD

end Model

import Verif.Model.Dec.Simple
/-!
# Model of `src/decoders/crw.rs`
-/

namespace Model
open Rust

namespace Crw

/-! ## Huffman tables -/

/-- `CrwHuffTable` (`crw.rs:9-12`) -/
structure Table where
  nbits : Nat
  tbl : List (Nat × Nat)
  deriving DecidableEq, Repr

/-- The longest code length (`crw.rs:16-22`): the search goes down from 16 to the first length in use. -/
def maxLen (source : List Nat) : Nat → M Nat
  | 0 => .ok 0
  | n + 1 => do
    let v ← idx source n
    if v ≠ 0 then .ok (n + 1) else maxLen source n

/-- One copy of an entry (`crw.rs:32-35`), on `(tbl, h)`. The comparison lets `h` equal the size of the table. -/
def fill (max len value : Nat) (s : List (Nat × Nat) × Nat) : M (List (Nat × Nat) × Nat) :=
  if s.2 ≤ 1 <<< max then do
    let tbl ← setIdx s.1 s.2 (len, value)
    .ok (tbl, s.2 + 1)
  else .ok s

/-- `CrwHuffTable::new` (`crw.rs:15-45`). `source[pos]` is read at every copy; here once per code, which differs only when there
is no copy to make and that does not happen for `len ≤ max`. -/
def Table.new (source : List Nat) : M Table := do
  let max ← maxLen source 16
  let s ← forRange 1 (max + 1) (fun len s => do
    let n ← idx source (len - 1)
    forRange 0 n (fun _ (s : (List (Nat × Nat) × Nat) × Nat) => do
      let v ← idx source s.2
      let t ← forRange 0 (1 <<< (max - len)) (fun _ t => fill max len v t) s.1
      .ok (t, s.2 + 1)) s) ((List.replicate (1 <<< max) (0, 0), 0), 16)
  .ok ⟨max, s.1.1⟩

/-- `CrwHuffTable::get_bits` (`crw.rs:47-52`) -/
def Table.getBits {σ : Type} (P : PumpOps σ) (t : Table) (s : σ) : M (Nat × σ) := do
  let (c, s) ← P.peek s t.nbits
  let (len, leaf) ← idx t.tbl c
  let s ← P.consume s len
  .ok (leaf, s)

/-- `first_tree` (`crw.rs:57-64`) -/
def firstTree : List (List Nat) := [
  [0, 1, 4, 2, 3, 1, 2, 0, 0, 0, 0, 0, 0, 0, 0, 0, 4, 3, 5, 6, 2, 7, 1, 8, 9, 0, 10, 11, 255],
  [0, 2, 2, 3, 1, 1, 1, 1, 2, 0, 0, 0, 0, 0, 0, 0, 3, 2, 4, 1, 5, 0, 6, 7, 9, 8, 10, 11, 255],
  [0, 0, 6, 3, 1, 1, 2, 0, 0, 0, 0, 0, 0, 0, 0, 0, 6, 5, 7, 4, 8, 3, 9, 2, 0, 10, 1, 11, 255]]

/-- `second_tree` (`crw.rs:65-111`) -/
def secondTree : List (List Nat) := [
  [0, 2, 2, 2, 1, 4, 2, 1, 2, 5, 1, 1, 0, 0, 0, 139, 3, 4, 2, 5, 1, 6, 7, 8, 18, 19, 17, 20, 9, 21, 34, 0, 33, 22, 10, 240,
   35, 23, 36, 49, 50, 24, 25, 51, 37, 65, 52, 66, 53, 81, 54, 55, 56, 41, 121, 38, 26, 57, 86, 87, 40, 39, 82, 85, 88, 67,
   118, 89, 119, 84, 97, 249, 113, 120, 117, 150, 151, 73, 183, 83, 215, 116, 182, 152, 71, 72, 149, 105, 153, 145, 250,
   184, 104, 181, 185, 214, 247, 216, 103, 70, 69, 148, 137, 248, 129, 213, 246, 180, 136, 177, 42, 68, 114, 217, 135, 102,
   212, 245, 58, 167, 115, 169, 168, 134, 98, 199, 101, 200, 201, 161, 244, 209, 233, 90, 146, 133, 166, 231, 147, 232, 193,
   198, 122, 100, 225, 74, 106, 230, 179, 241, 211, 165, 138, 178, 154, 186, 132, 164, 99, 229, 197, 243, 210, 196, 130,
   170, 218, 228, 242, 202, 131, 163, 162, 195, 234, 194, 226, 227, 255, 255],
  [0, 2, 2, 1, 4, 1, 4, 1, 3, 3, 1, 0, 0, 0, 0, 140, 2, 3, 1, 4, 5, 18, 17, 6, 19, 7, 8, 20, 34, 9, 33, 0, 35, 21, 49, 50,
   10, 22, 240, 36, 51, 65, 66, 25, 23, 37, 24, 81, 52, 67, 82, 41, 53, 97, 57, 113, 98, 54, 83, 38, 56, 26, 55, 129, 39,
   145, 121, 85, 69, 40, 114, 89, 161, 177, 68, 105, 84, 88, 209, 250, 87, 225, 241, 185, 73, 71, 99, 106, 249, 86, 70, 168,
   42, 74, 120, 153, 58, 117, 116, 134, 101, 193, 118, 182, 150, 214, 137, 133, 201, 245, 149, 180, 199, 247, 138, 151, 184,
   115, 183, 216, 217, 135, 167, 122, 72, 130, 132, 234, 244, 166, 197, 90, 148, 164, 198, 146, 195, 104, 181, 200, 228,
   229, 230, 233, 162, 163, 227, 194, 102, 103, 147, 170, 212, 213, 231, 248, 136, 154, 215, 119, 196, 100, 226, 152, 165,
   202, 218, 232, 243, 246, 169, 178, 179, 242, 210, 131, 186, 211, 255, 255],
  [0, 0, 6, 2, 1, 3, 3, 2, 5, 1, 2, 2, 8, 10, 0, 117, 4, 5, 3, 6, 2, 7, 1, 8, 9, 18, 19, 20, 17, 21, 10, 22, 23, 240, 0, 34,
   33, 24, 35, 25, 36, 50, 49, 37, 51, 56, 55, 52, 53, 54, 57, 121, 87, 88, 89, 40, 86, 120, 39, 65, 41, 119, 38, 66, 118,
   153, 26, 85, 152, 151, 249, 72, 84, 150, 137, 71, 183, 73, 250, 117, 104, 182, 103, 105, 185, 184, 216, 82, 215, 136,
   181, 116, 81, 70, 217, 248, 58, 214, 135, 69, 122, 149, 213, 246, 134, 180, 169, 148, 83, 42, 168, 67, 245, 247, 212,
   102, 167, 90, 68, 138, 201, 232, 200, 231, 154, 106, 115, 74, 97, 199, 244, 198, 101, 233, 114, 230, 113, 145, 147, 166,
   218, 146, 133, 98, 243, 197, 178, 164, 132, 186, 100, 165, 179, 210, 129, 229, 211, 170, 196, 202, 242, 177, 228, 209,
   131, 99, 234, 195, 226, 130, 241, 163, 194, 161, 193, 227, 162, 225, 255, 255]]

/-- `CRW_HUFF_TABLES[dectable]` (`crw.rs:55-119`). All six tables are built at the first use, so a panic in any of them counts. -/
def huffTables (dectable : Nat) : M (Table × Table) := do
  let first ← firstTree.mapM Table.new
  let second ← secondTree.mapM Table.new
  let t0 ← idx first dectable
  let t1 ← idx second dectable
  .ok (t0, t1)

/-! ## Pixels -/

variable {σ : Type}

/-- The loop that reads the differences of a block (`crw.rs:211-227`) with a step budget, on `(diffbuf, reader)`. -/
def diffs (P : PumpOps σ) (ht : Table × Table) : Nat → Nat → List Int × σ → M (List Int × σ)
  | 0, _, _ => .error .fuel
  | n + 1, i, s =>
    if i < 64 then do
      let (leaf, p) ← (if i > 0 then ht.2 else ht.1).getBits P s.2
      if leaf = 0 ∧ i ≠ 0 then .ok (s.1, p)
      else if leaf = 0xff then diffs P ht n (i + 1) (s.1, p)
      else do
        let i := i + leaf >>> 4
        let len := leaf &&& 0x0f
        if len = 0 then diffs P ht n (i + 1) (s.1, p)
        else do
          let (v, p) ← P.getBits p len
          let diff : Int := if v &&& (1 <<< (len - 1)) = 0 then (v : Int) - ((1 <<< len : Nat) - 1 : Int) else v
          let buf ← if i < 64 then setIdx s.1 i diff else .ok s.1
          diffs P ht n (i + 1) (buf, p)
    else .ok s

/-- The variables carried from block to block (`crw.rs:204-206`): `carry`, `base`, `pnum` and the reader. -/
structure Carry (σ : Type) where
  carry : Int
  base : List Int
  pnum : Nat
  pump : σ

/-- One pixel of a block (`crw.rs:234-240`), on `(pixout, base, pnum)`. -/
def pixel (b : Build) (width : Nat) (diffbuf : List Int) (i : Nat) (s : List Nat × List Int × Nat) : M (List Nat × List Int × Nat) := do
  let base := if s.2.2 % width = 0 then [512, 512] else s.2.1
  let d ← idx diffbuf i
  let v ← idx base (i % 2)
  let v ← i32Result b (v + d)
  let base ← setIdx base (i % 2) v
  let out ← setIdx s.1 i (toU16 v)
  .ok (out, base, s.2.2 + 1)

/-- One block of 64 pixels (`crw.rs:207-242`). -/
def block (b : Build) (P : PumpOps σ) (ht : Table × Table) (width : Nat) (pixout : List Nat) (c : Carry σ) : M (List Nat × Carry σ) := do
  let (diffbuf, pump) ← diffs P ht 65 0 (List.replicate 64 0, c.pump)
  let d0 ← idx diffbuf 0
  let d0 ← i32Result b (d0 + c.carry)
  let diffbuf ← setIdx diffbuf 0 d0
  let s ← forRange 0 64 (pixel b width diffbuf) (pixout, c.base, c.pnum)
  .ok (s.1, ⟨d0, s.2.1, s.2.2, pump⟩)

/-- One of the four pixels that get their low bits (`crw.rs:248-257`). -/
def lowPixel (width c k : Nat) (o : List Nat) : M (List Nat) := do
  let v ← idx o k
  let v := shl16 v 2 ||| ((c >>> (2 * k)) &&& 3)
  setIdx o k (if width = 2672 ∧ v < 512 then v + 2 else v)

/-- The low bits (`crw.rs:244-260`). -/
def addLowBits (buffer : Bytes) (width : Nat) (out : List Nat) : M (List Nat) := do
  let r ← Ljpeg.foldChunks (fun o (i : Nat) => do
    let c ← byteAt buffer (26 + i)
    let o ← forRange 0 4 (lowPixel width c) o
    .ok (o, i + 1)) (chunks 4 out) 0
  .ok r.1

/-- `decode_compressed` (`crw.rs:191-262`) -/
def decodeCompressed (b : Build) (buffer : Bytes) (ciff : CiffIFD) (cam : Camera) (width height : Nat) : M (List Nat) := do
  let e ← ciff.fetchTag CiffTag.DecoderTable
  let dectable ← e.getU32 0
  if dectable > 2 then fail "CRW: Unknown decoder table"
  else do
    let lowbits := !cam.findHint (b! "nolowbits")
    let ht ← huffTables dectable
    let offset := 540 + (if lowbits then 1 else 0) * height * width / 4
    let src ← sliceFrom buffer offset
    let r ← Ljpeg.foldChunks (block b (pumpJPEG b) ht width) (chunks 64 (List.replicate (width * height) 0))
      ⟨0, [0, 0], 0, JPump.new src⟩
    if lowbits then addLowBits buffer width r.1 else .ok r.1

/-- `get_wb` (`crw.rs:161-189`) -/
def getWb (ciff : CiffIFD) (cam : Camera) : M (List F32) := do
  let second : Option CiffEntry := if cam.findHint (b! "nocinfo2") then none else ciff.findEntry CiffTag.ColorInfo2
  match ciff.findEntry CiffTag.WhiteBalance, second, ciff.findEntry CiffTag.ColorInfo1 with
  | some levels, _, _ => do
    let offset := cam.wbOffset
    let r ← levels.getF32 offset
    let g ← levels.getF32 (offset + 1)
    let bl ← levels.getF32 (offset + 3)
    .ok [r, g, bl, .nan]
  | none, some cinfo, _ => do
    let v ← cinfo.getU32 0
    if v > 512 then do
      let r ← cinfo.getF32 62
      let g ← cinfo.getF32 63
      let bl ← cinfo.getF32 60
      let e ← cinfo.getF32 61
      .ok [r, g, bl, e]
    else do
      let r ← cinfo.getF32 51
      let g1 ← cinfo.getF32 50
      let g2 ← cinfo.getF32 53
      let bl ← cinfo.getF32 52
      .ok [r, (g1.add g2).div (F32.ofNat 2), bl, .nan]
  | none, none, some cinfo =>
    if cinfo.count = 768 then do
      let r ← cinfo.getForceU16 36
      let g ← cinfo.getForceU16 37
      let bl ← cinfo.getForceU16 39
      let k := F32.ofNat 1024
      .ok [k.div (F32.ofNat r), k.div (F32.ofNat g), k.div (F32.ofNat bl), .nan]
    else do
      let off := cam.wbOffset
      let (k0, k1) := if cam.findHint (b! "wb_mangle") then (0x410, 0x45f3) else (0, 0)
      let r ← cinfo.getForceU16 (off + 1)
      let g ← cinfo.getForceU16 off
      let bl ← cinfo.getForceU16 (off + 2)
      .ok [F32.ofNat (r ^^^ k1), F32.ofNat (g ^^^ k0), F32.ofNat (bl ^^^ k0), .nan]
  | none, none, none => .ok nanWb

/-- `CrwDecoder::image` (`crw.rs:139-157`) -/
def image (b : Build) (buffer : Bytes) (ciff : CiffIFD) (loader : RawLoader) : M RawImage := do
  let e ← ciff.fetchTag CiffTag.MakeModel
  let makemodel := e.getStrings
  if makemodel.length < 2 then fail "CRW: MakeModel tag needs to have 2 strings"
  else do
    let make ← idx makemodel 0
    let model ← idx makemodel 1
    let camera ← loader.checkSupportedWithEverything make model []
    let (width, height, image) ←
      if camera.model = b! "Canon PowerShot Pro70" then do
        let src ← sliceFrom buffer 26
        let image ← decode_10le_lsb16 src 1552 1024
        .ok (1552, 1024, image)
      else do
        let sensorinfo ← ciff.fetchTag CiffTag.SensorInfo
        let width ← sensorinfo.getU32 1
        let height ← sensorinfo.getU32 2
        let image ← decodeCompressed b buffer ciff camera width height
        .ok (width, height, image)
    let wb ← getWb ciff camera
    okImage b camera width height wb image

end Crw

end Model

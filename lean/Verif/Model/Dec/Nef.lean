import Verif.Model.Dec.Simple
import Verif.Model.Process
/-!
# Model of `src/decoders/nef.rs`

`powf` of the platform is a parameter (`Libm`).
-/

namespace Model
open Rust

namespace Nef

/-- `NIKON_TREE` (`nef.rs:8-21`) -/
def tree : List (List Nat) := [
  [0, 1, 5, 1, 1, 1, 1, 1, 1, 2, 0, 0, 0, 0, 0, 0, 5, 4, 3, 6, 2, 7, 1, 0, 8, 9, 11, 10, 12, 0, 0, 0],
  [0, 1, 5, 1, 1, 1, 1, 1, 1, 2, 0, 0, 0, 0, 0, 0, 57, 90, 56, 39, 22, 5, 4, 3, 2, 1, 0, 11, 12, 12, 0, 0],
  [0, 1, 4, 2, 3, 1, 2, 0, 0, 0, 0, 0, 0, 0, 0, 0, 5, 4, 6, 3, 7, 2, 8, 1, 9, 0, 10, 11, 12, 0, 0, 0],
  [0, 1, 4, 3, 1, 1, 1, 1, 1, 2, 0, 0, 0, 0, 0, 0, 5, 6, 4, 7, 8, 3, 9, 2, 1, 0, 10, 11, 12, 13, 14, 0],
  [0, 1, 5, 1, 1, 1, 1, 1, 1, 1, 2, 0, 0, 0, 0, 0, 8, 92, 75, 58, 41, 7, 6, 5, 4, 3, 2, 1, 0, 13, 14, 0],
  [0, 1, 4, 2, 2, 3, 1, 2, 0, 0, 0, 0, 0, 0, 0, 0, 7, 6, 8, 5, 9, 4, 10, 3, 11, 12, 2, 0, 1, 13, 14, 0]]

/-- `WB_SERIALMAP` (`nef.rs:44-61`) -/
def serialMap : List Nat :=
  [193, 191, 109, 13, 89, 197, 19, 157, 131, 97, 107, 79, 199, 127, 61, 61, 83, 89, 227, 199, 233, 47, 149, 167, 149, 31,
   223, 127, 43, 41, 199, 13, 223, 7, 239, 113, 137, 61, 19, 61, 59, 19, 251, 13, 137, 193, 101, 31, 179, 13, 107, 41, 227,
   251, 239, 163, 107, 71, 127, 149, 53, 167, 71, 79, 199, 241, 89, 149, 53, 17, 41, 97, 241, 61, 179, 43, 13, 67, 137, 193,
   157, 157, 137, 101, 241, 233, 223, 191, 61, 127, 83, 151, 229, 233, 149, 23, 29, 61, 139, 251, 199, 227, 103, 167, 7,
   241, 113, 167, 83, 181, 41, 137, 229, 43, 167, 23, 41, 233, 79, 197, 101, 109, 107, 239, 13, 137, 73, 47, 179, 67, 83,
   101, 29, 73, 163, 19, 137, 89, 239, 107, 239, 101, 29, 11, 89, 19, 227, 79, 157, 179, 41, 67, 43, 7, 29, 149, 89, 89, 71,
   251, 229, 233, 97, 71, 47, 53, 127, 23, 127, 239, 127, 149, 149, 113, 211, 163, 11, 113, 163, 173, 11, 59, 181, 251, 163,
   191, 79, 131, 29, 173, 233, 47, 113, 101, 163, 229, 7, 53, 61, 13, 181, 233, 229, 71, 59, 157, 239, 53, 163, 191, 179,
   223, 83, 211, 151, 83, 73, 113, 7, 53, 97, 113, 47, 67, 47, 17, 223, 23, 151, 251, 149, 59, 127, 107, 211, 37, 191, 173,
   199, 197, 197, 181, 139, 239, 47, 211, 7, 107, 37, 73, 149, 37, 73, 109, 113, 199]

/-- `WB_KEYMAP` (`nef.rs:63-80`) -/
def keyMap : List Nat :=
  [167, 188, 201, 173, 145, 223, 133, 229, 212, 120, 213, 23, 70, 124, 41, 76, 77, 3, 233, 37, 104, 17, 134, 179, 189, 247,
   111, 97, 34, 162, 38, 52, 42, 190, 30, 70, 20, 104, 157, 68, 24, 194, 64, 244, 126, 95, 27, 173, 11, 148, 182, 103, 180,
   11, 225, 234, 149, 156, 102, 220, 231, 93, 108, 5, 218, 213, 223, 122, 239, 246, 219, 31, 130, 76, 192, 104, 71, 161,
   189, 238, 57, 80, 86, 74, 221, 223, 165, 248, 198, 218, 202, 144, 202, 1, 66, 157, 139, 12, 115, 67, 117, 5, 148, 222,
   36, 179, 128, 52, 229, 44, 220, 155, 63, 202, 51, 69, 208, 219, 95, 245, 82, 195, 33, 218, 226, 34, 114, 107, 62, 208,
   91, 168, 135, 140, 6, 93, 15, 221, 9, 25, 147, 208, 185, 252, 139, 15, 132, 96, 51, 28, 155, 69, 241, 240, 163, 148, 58,
   18, 119, 51, 77, 68, 120, 40, 60, 158, 253, 101, 87, 22, 148, 107, 251, 89, 208, 200, 34, 54, 219, 210, 99, 152, 67, 161,
   4, 135, 134, 247, 166, 38, 187, 214, 89, 77, 191, 106, 46, 170, 43, 239, 230, 120, 182, 78, 224, 47, 220, 124, 190, 87,
   25, 50, 126, 42, 208, 184, 186, 41, 0, 60, 82, 125, 168, 73, 59, 45, 235, 37, 73, 250, 163, 170, 57, 167, 197, 167, 80,
   17, 54, 251, 198, 103, 74, 245, 165, 18, 101, 126, 176, 223, 175, 78, 179, 97, 127, 47]

/-! ## White balance -/

/-- The serial number (`nef.rs:171-179`): the first argument counts the characters left, the second the position. -/
def serial (b : Build) (data : Bytes) : Nat → Nat → Nat → M Nat
  | 0, _, no => .ok no
  | n + 1, i, no => do
    let c ← byteAt data i
    if c = 0 then .ok no
    else do
      let t ← mulU 64 b no 10
      let no ← addU 64 b t (if 48 ≤ c ∧ c ≤ 57 then c - 48 else c % 10)
      serial b data n (i + 1) no

/-- One byte of the decrypted block (`nef.rs:195-199`), on `(buf, cj, ck)`. The sums stay far below `2^32`. -/
def decryptStep (src : Bytes) (ci i : Nat) (s : Bytes × Nat × Nat) : M (Bytes × Nat × Nat) := do
  let cj := s.2.1 + ci * s.2.2
  let c ← byteAt src i
  let buf ← setIdx s.1 i (UInt8.ofNat (c ^^^ (cj % 256)))
  .ok (buf, cj, s.2.2 + 1)

/-- The levels from the encrypted block (`nef.rs:168-204`). -/
def encryptedWb (b : Build) (tiff : TiffIFD) (levels : TiffEntry) (version : Nat) : M (List F32) := do
  let se ← tiff.fetchTag Tag.NefSerial
  let serialno ← serial b se.data se.count 0 0
  let ke ← tiff.fetchTag Tag.NefKey
  let k0 ← byteAt ke.data 0
  let k1 ← byteAt ke.data 1
  let k2 ← byteAt ke.data 2
  let k3 ← byteAt ke.data 3
  let keyno := k0 ^^^ k1 ^^^ k2 ^^^ k3
  let src ← sliceFrom levels.data (if version = 0x204 then 284 else 4)
  let ci ← idx serialMap (serialno % 256)
  let cj ← idx keyMap (keyno % 256)
  let s ← forRange 0 280 (decryptStep src ci) (List.replicate 280 0, cj, 0x60)
  let off := if version = 0x204 then 6 else 14
  let r ← BEu16 s.1 off
  let g ← BEu16 s.1 (off + 2)
  let bl ← BEu16 s.1 (off + 6)
  .ok [F32.ofNat r, F32.ofNat g, F32.ofNat bl, .nan]

/-- `get_wb` (`nef.rs:155-210`) -/
def getWb (b : Build) (tiff : TiffIFD) : M (List F32) :=
  match tiff.findEntry Tag.NefWB0 with
  | some levels => do
    let r ← levels.getF32 0
    let bl ← levels.getF32 1
    .ok [r, F32.ofNat 1, bl, .nan]
  | none =>
    match tiff.findEntry Tag.NefWB1 with
    | some levels => do
      let version ← forRange 0 4 (fun i version => do
        let c ← byteAt levels.data i
        let d ← subU 8 b c 48
        addU 32 b ((version <<< 4) % 4294967296) d) 0
      if version = 0x100 then do
        let r ← levels.getForceU16 36
        let g ← levels.getForceU16 38
        let bl ← levels.getForceU16 37
        .ok [F32.ofNat r, F32.ofNat g, F32.ofNat bl, .nan]
      else if version = 0x103 then do
        let r ← levels.getForceU16 10
        let g ← levels.getForceU16 11
        let bl ← levels.getForceU16 12
        .ok [F32.ofNat r, F32.ofNat g, F32.ofNat bl, .nan]
      else if version = 0x204 ∨ version = 0x205 then encryptedWb b tiff levels version
      else fail "NEF: Don't know about WB version"
    | none => fail "NEF: Don't know how to fetch WB"

/-! ## Compressed data -/

/-- `create_hufftable` (`nef.rs:212-228`) -/
def createHufftable (b : Build) (num bps : Nat) : M HuffTable := do
  let t ← idx tree num
  let s ← forRange 0 16 (fun i (s : List Nat × Nat) => do
    let v ← idx t i
    let bits ← setIdx s.1 (i + 1) v
    .ok (bits, s.2 + v)) (List.replicate 17 0, 0)
  let bits ← setIdx s.1 0 0
  let huffval ← forRange 0 s.2 (fun i h => do
    let v ← idx t (i + 16)
    setIdx h i v) (List.replicate 256 0)
  HuffTable.init b { HuffTable.empty bps with bits := bits, huffval := huffval } true

/-- Two more predictions (`nef.rs:296-297`, `302-303`), on `(p1, p2, reader)`. -/
def twoDiffs (b : Build) (t : HuffTable) (s : Int × Int × Pump) : M (Int × Int × Pump) := do
  let (d, p) ← t.huffDecode b (pumpMSB b) s.2.2
  let p1 ← i32Result b (s.1 + d)
  let (d, p) ← t.huffDecode b (pumpMSB b) p
  let p2 ← i32Result b (s.2.1 + d)
  .ok (p1, p2, p)

/-- The interpolated curve (`nef.rs:272-278`). -/
def interpolate (points : List Nat) (csize step max : Nat) (stream : ByteStream) : M (List Nat) := do
  let (points, _) ← forRange 0 csize (fun i (s : List Nat × ByteStream) => do
    let (v, st) ← s.2.getU16
    let p ← setIdx s.1 (i * step) v
    .ok (p, st)) (points, stream)
  forRange 0 max (fun i points => do
    let v0 ← idx points (i - i % step)
    let v1 ← idx points (i - i % step + step)
    setIdx points i ((v0 * (step - i % step) + v1 * (i % step)) / step % 65536)) points

/-- The curve points and the split row (`nef.rs:259-286`). -/
def curvePoints (b : Build) (v0 v1 bps : Nat) (tag : TiffEntry) (e : Endian) (stream : ByteStream) : M (List Nat × Nat) := do
  let points := List.range 65536
  let one ← shlU 64 b 1 bps
  let max := one % 32768
  let (csize, stream) ← stream.getU16
  let step := if csize > 1 then max / (csize - 1) else 0
  if v0 = 68 ∧ v1 = 32 ∧ step > 0 then do
    let points ← interpolate points csize step max stream
    let split ← e.ru16 tag.data 562
    let pts ← slice points 0 max
    .ok (pts, split)
  else if v0 ≠ 70 ∧ csize ≤ 0x4001 then do
    let (points, _) ← forRange 0 csize (fun i (s : List Nat × ByteStream) => do
      let (v, st) ← s.2.getU16
      let p ← setIdx s.1 i v
      .ok (p, st)) (points, stream)
    let pts ← slice points 0 csize
    .ok (pts, 0)
  else do
    let pts ← slice points 0 max
    .ok (pts, 0)

/-- The variables of the loop over the rows (`nef.rs:252-290`). -/
structure State where
  out : List Nat
  up1 : List Int
  up2 : List Int
  random : Nat
  table : HuffTable
  pump : Pump

/-- Two pixels (`nef.rs:300-307`), on `(out, random, p1, p2, reader)`. -/
def pair (b : Build) (t : HuffTable) (curve : LookupTable) (width row col : Nat) (s : List Nat × Nat × Int × Int × Pump) :
    M (List Nat × Nat × Int × Int × Pump) := do
  let (p1, p2, p) ← if col > 0 then twoDiffs b t s.2.2 else .ok s.2.2
  let (v, random) ← curve.dither b (toU16 (clampbits p1 15)) s.2.1
  let out ← setIdx s.1 (row * width + col) v
  let (v, random) ← curve.dither b (toU16 (clampbits p2 15)) random
  let out ← setIdx out (row * width + col + 1) v
  .ok (out, random, p1, p2, p)

/-- One row (`nef.rs:292-308`). -/
def row (b : Build) (curve : LookupTable) (select bps split width row : Nat) (s : State) : M State := do
  let t ← if split > 0 ∧ row = split then createHufftable b (select + 1) bps else .ok s.table
  let u1 ← idx s.up1 (row % 2)
  let u2 ← idx s.up2 (row % 2)
  let (p1, p2, p) ← twoDiffs b t (u1, u2, s.pump)
  let up1 ← setIdx s.up1 (row % 2) p1
  let up2 ← setIdx s.up2 (row % 2) p2
  let r ← forStep 0 width 2 (pair b t curve width row) (s.out, s.random, p1, p2, p)
  .ok ⟨r.1, up1, up2, r.2.1, t, r.2.2.2.2⟩

/-- `decode_compressed` (`nef.rs:230-311`) -/
def decodeCompressed (b : Build) (tiff : TiffIFD) (src : Bytes) (width height bps : Nat) : M (List Nat) := do
  let metaifd ← tiff.fetchIfd Tag.NefMeta1
  let tag ← match metaifd.findEntry Tag.NefMeta2 with
    | some m => .ok m
    | none => metaifd.fetchTag Tag.NefMeta1
  let stream := ByteStream.new tag.data metaifd.endian
  let (v0, stream) ← stream.getU8
  let (v1, stream) ← stream.getU8
  let stream := if v0 = 73 ∨ v1 = 88 then stream.consumeBytes 2110 else stream
  let select := (if v0 = 70 then 2 else 0) + (if bps = 14 then 3 else 0)
  let table ← createHufftable b select bps
  let (a0, stream) ← stream.getU16
  let (a1, stream) ← stream.getU16
  let (b0, stream) ← stream.getU16
  let (b1, stream) ← stream.getU16
  let (points, split) ← curvePoints b v0 v1 bps tag metaifd.endian stream
  let curve ← LookupTable.new b points
  let (random, p) ← (pumpMSB b).peek (Pump.new src) 24
  let s ← forRange 0 height (row b curve select bps split width)
    ⟨List.replicate (width * height) 0, [(a0 : Int), (a1 : Int)], [(b0 : Int), (b1 : Int)], random, table, p⟩
  .ok s.out

/-! ## Small NEF -/

/-- `SNEF_CURVE` (`nef.rs:23-41`) -/
def snefCurve (m : Libm) (b : Build) : M LookupTable :=
  LookupTable.new b ((List.range 4096).map fun i =>
    let v := (F32.ofNat i).div (F32.ofNat 4095)
    let res := if v.le (lit (4045 / 100000)) then v.div (lit (1292 / 100))
      else m.powf ((v.add (lit (55 / 1000))).div ((F32.ofNat 1).add (lit (55 / 1000)))) (lit (24 / 10))
    toU16 (clampbits ((res.mul (F32.ofNat 65535)).mul (F32.ofNat 4)).toI32 16))

/-- One pixel (`nef.rs:338-344`, `346-352`): three samples starting at `k`, on `(o, random)`. -/
def snefPixel (b : Build) (curve : LookupTable) (invR invB : Int) (y cb cr : F32) (k : Nat) (s : List Nat × Nat) :
    M (List Nat × Nat) := do
  let (r, random) ← curve.dither b (toU16 (clampbits (y.add ((lit (1370705 / 1000000)).mul cr)).toI32 12)) s.2
  let (g, random) ← curve.dither b
    (toU16 (clampbits ((y.sub ((lit (337633 / 1000000)).mul cb)).sub ((lit (698001 / 1000000)).mul cr)).toI32 12)) random
  let (bl, random) ← curve.dither b (toU16 (clampbits (y.add ((lit (1732446 / 1000000)).mul cb)).toI32 12)) random
  let x ← i32Result b (invR * r)
  let x ← i32Result b (x + 512)
  let o ← setIdx s.1 k (toU16 (clampbits (sarI x 10) 15))
  let o ← setIdx o (k + 1) g
  let x ← i32Result b (invB * bl)
  let x ← i32Result b (x + 512)
  let o ← setIdx o (k + 2) (toU16 (clampbits (sarI x 10) 15))
  .ok (o, random)

/-- Two pixels (`nef.rs:326-352`). -/
def snefPair (m : Libm) (b : Build) (invR invB : Int) (o : List Nat) (i : Bytes) (random : Nat) : M (List Nat × Nat) := do
  let g1 ← byteAt i 0
  let g2 ← byteAt i 1
  let g3 ← byteAt i 2
  let g4 ← byteAt i 3
  let g5 ← byteAt i 4
  let g6 ← byteAt i 5
  let y1 := F32.ofNat (g1 ||| shl16 (g2 &&& 0x0f) 8)
  let y2 := F32.ofNat ((g2 >>> 4) ||| shl16 g3 4)
  let cb := (F32.ofNat (g4 ||| shl16 (g5 &&& 0x0f) 8)).sub (F32.ofNat 2048)
  let cr := (F32.ofNat ((g5 >>> 4) ||| shl16 g6 4)).sub (F32.ofNat 2048)
  let curve ← snefCurve m b
  let (o, random) ← snefPixel b curve invR invB y1 cb cr 0 (o, random)
  snefPixel b curve invR invB y2 cb cr 3 (o, random)

/-- The loop over a row (`nef.rs:325-353`): the output and input pieces are taken together, the random state is carried. -/
def snefRow (m : Libm) (b : Build) (invR invB : Int) : List (List Nat × Bytes) → Nat → M (List Nat)
  | [], _ => .ok []
  | (o, i) :: rest, random => do
    let (o, random) ← snefPair m b invR invB o i random
    let r ← snefRow m b invR invB rest random
    .ok (o ++ r)

/-- `decode_snef_compressed` (`nef.rs:315-355`). Output pieces without input keep their zeros. -/
def decodeSnef (m : Libm) (b : Build) (tiff : TiffIFD) (src : Bytes) (width height : Nat) : M (List Nat) := do
  let coeffs ← getWb b tiff
  let k0 ← idx coeffs 0
  let k2 ← idx coeffs 2
  let invR := ((F32.ofNat 1024).div k0).toI32
  let invB := ((F32.ofNat 1024).div k2).toI32
  decodeThreaded (width * 3) height fun out row => do
    let inb ← sliceFrom src (row * width * 3)
    let random ← BEu32 inb 0
    let done ← snefRow m b invR invB ((chunks 6 out).zip (chunks 6 inb)) random
    .ok (done ++ out.drop done.length)

/-- The pixels (`nef.rs:114-142`): width, components per pixel and data. -/
def pixels (m : Libm) (b : Build) (tiff : TiffIFD) (src : Bytes) (d100 : Bool) (width height bps compression size : Nat) :
    M (Nat × Nat × List Nat) :=
  if d100 then do
    let data ← decode_12be_wcontrol src 3040 height
    .ok (3040, 1, data)
  else if compression = 1 ∨ size = width * height * bps / 8 then do
    let data ← if bps = 14 then
        if tiff.endian.little then decode_14le_unpacked src width height else decode_14be_unpacked src width height
      else if bps = 12 then
        if tiff.endian.little then decode_12le src width height else decode_12be src width height
      else fail "Don't know uncompressed bps"
    .ok (width, 1, data)
  else if size = width * height * 3 then do
    let data ← decodeSnef m b tiff src width height
    .ok (width, 3, data)
  else if compression = 34713 then do
    let data ← decodeCompressed b tiff src width height bps
    .ok (width, 1, data)
  else fail "NEF: Don't know compression"

/-- `NefDecoder::image` (`nef.rs:100-151`) -/
def image (m : Libm) (b : Build) (buffer : Bytes) (tiff : TiffIFD) (loader : RawLoader) : M RawImage := do
  let raw ← tiff.fetchIfd Tag.CFAPattern
  let width ← fetchUsize raw Tag.ImageWidth
  let height ← fetchUsize raw Tag.ImageLength
  let bps ← fetchUsize raw Tag.BitsPerSample
  let compression ← fetchUsize raw Tag.Compression
  let camera ← loader.checkSupportedWithMode tiff (decimal bps ++ b! "bit")
  let offset ← fetchUsize raw Tag.StripOffsets
  let size ← fetchUsize raw Tag.StripByteCounts
  let src ← sliceFrom buffer offset
  let (width, cpp, data) ← pixels m b tiff src (camera.model = b! "NIKON D100") width height bps compression size
  let wb ← getWb b tiff
  let img ← RawImage.new b camera width height wb data
  .ok (if cpp = 3 then { img with cpp := 3, blacklevels := [0, 0, 0, 0], whitelevels := [65535, 65535, 65535, 65535] } else img)

end Nef

end Model

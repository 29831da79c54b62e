import Verif.Model.Dec.Simple
/-!
# Model of `src/decoders/orf.rs`
-/

namespace Model
open Rust

namespace Orf

/-- An entry of `bittable` (`orf.rs:74-80`): the number of leading zeros of a 12-bit number. The code tabulates this. -/
def bittable (i : Nat) : Nat := ((List.range 12).find? fun high => (i >>> (11 - high)) &&& 1 ≠ 0).getD 12

/-- `acarry[s][0] >> k` with the shift amount checked (`orf.rs:94`). -/
def carryShift (b : Build) (a : Int) (k : Nat) : M Int :=
  if k < 32 then .ok (sarI a k)
  else match b with
    | .debug => crash
    | .release => .ok (sarI a (k % 32))

/-- `while ((acarry[s][0] >> (nbits + i)) & 0xffff) > 0 { nbits += 1 }` (`orf.rs:94`) with a step budget; `& 0xffff` is
written as a remainder. -/
def findNbits (b : Build) (a : Int) (i : Nat) : Nat → Nat → M Nat
  | 0, _ => .error .fuel
  | n + 1, nbits => do
    let v ← carryShift b a (nbits + i)
    if v % 65536 > 0 then findNbits b a i n (nbits + 1) else .ok nbits

/-- The three carries of one parity (`orf.rs:87`). -/
structure Carry where
  a0 : Int
  a1 : Int
  a2 : Int
  deriving DecidableEq, Repr

/-- The high bits of a difference (`orf.rs:100-108`), from the twelve bits that select them. -/
def highBits (b : Build) (nbits v : Nat) (p : Pump) : M (Nat × Pump) :=
  let P := pumpMSB b
  let high := bittable (v &&& 4095)
  if high = 12 then do
    let p ← P.consume p 15
    let (w, p) ← P.getBits p (16 - nbits)
    .ok (w >>> 1, p)
  else do
    let p ← P.consume p (high + 4)
    .ok (high, p)

/-- One difference (`orf.rs:92-113`): `diff`, `low`, the new carries and the reader. The low `nbits` bits of `high << nbits`
are zero, so the bitwise or is written as a sum; `x ^ sign` with `sign` 0 or -1 is written out. -/
def difference (b : Build) (c : Carry) (p : Pump) : M (Int × Int × Carry × Pump) := do
  let P := pumpMSB b
  let i := if c.a2 < 3 then 2 else 0
  let nbits ← findNbits b c.a0 i 40 (2 + i)
  let nbits := Nat.min nbits 16
  let (v, p) ← P.peek p 15
  let sign := v >>> 14
  let low : Nat := (v >>> 12) &&& 3
  let (high, p) ← highBits b nbits v p
  let (w, p) ← P.getBits p nbits
  let a0 := shlI32 high nbits + w
  let signed : Int := if sign = 0 then a0 else -a0 - 1
  let diff ← i32Result b (signed + c.a1)
  let t ← i32Result b (diff * 3)
  let t ← i32Result b (t + c.a1)
  .ok (diff, low, ⟨a0, sarI t 5, if a0 > 16 then 0 else c.a2 + 1⟩, p)

/-- The prediction away from the borders (`orf.rs:128-139`). The second absolute value cannot overflow, so it may be computed always. -/
def predict (b : Build) (left nw up : Int) : M Int := do
  let l ← i32Result b (left - nw)
  let u ← i32Result b (up - nw)
  let prod ← i32Result b (l * u)
  let la ← i32Result b (if l < 0 then -l else l)
  let ua ← i32Result b (if u < 0 then -u else u)
  if prod < 0 then
    if la > 32 ∨ ua > 32 then i32Result b (left + u)
    else do
      let s ← i32Result b (left + up)
      .ok (sarI s 1)
  else .ok (if la > ua then left else up)

/-- `pred + ((diff << 2) | low)` (`orf.rs:124`, `141`); the two low bits of the shifted value are zero. -/
def newLeft (b : Build) (pred diff low : Int) : M Int := i32Result b (pred + (shlI32 diff 2 + low))

/-- The variables of the loops (`orf.rs:82-87`): the output, `left`, `nw`, the carries, the reader. -/
structure State where
  out : List Nat
  left : List Int
  nw : List Int
  carry : List Carry
  pump : Pump

/-- One pixel (`orf.rs:91-145`). -/
def pixel (b : Build) (width row col s : Nat) (st : State) : M State := do
  let c ← idx st.carry s
  let (diff, low, c, pump) ← difference b c st.pump
  let carry ← setIdx st.carry s c
  if row < 2 ∨ col < 2 then do
    let (pred, nw) ← if row < 2 ∧ col < 2 then .ok (0, st.nw)
      else if row < 2 then do
        let l ← idx st.left s
        .ok (l, st.nw)
      else do
        let v ← idx st.out ((row - 2) * width + (col + s))
        let nw ← setIdx st.nw s (v : Int)
        .ok ((v : Int), nw)
    let l ← newLeft b pred diff low
    let left ← setIdx st.left s l
    let out ← setIdx st.out (row * width + (col + s)) (toU16 l)
    .ok ⟨out, left, nw, carry, pump⟩
  else do
    let up ← idx st.out ((row - 2) * width + (col + s))
    let l ← idx st.left s
    let n ← idx st.nw s
    let pred ← predict b l n up
    let l ← newLeft b pred diff low
    let left ← setIdx st.left s l
    let nw ← setIdx st.nw s (up : Int)
    let out ← setIdx st.out (row * width + (col + s)) (toU16 l)
    .ok ⟨out, left, nw, carry, pump⟩

/-- `decode_compressed` (`orf.rs:69-149`) -/
def decodeCompressed (b : Build) (buf : Bytes) (width height : Nat) : M (List Nat) := do
  let src ← sliceFrom buf 7
  let st ← forRange 0 height (fun row (st : State) =>
    forRange 0 (width / 2) (fun c st => forRange 0 2 (fun s st => pixel b width row (c * 2) s st) st)
      { st with carry := [⟨0, 0, 0⟩, ⟨0, 0, 0⟩] })
    ⟨List.replicate (width * height) 0, [0, 0], [0, 0], [⟨0, 0, 0⟩, ⟨0, 0, 0⟩], Pump.new src⟩
  .ok st.out

/-- `get_wb` (`orf.rs:151-171`). The additions after the subtraction wrap in release builds. -/
def getWb (b : Build) (buffer : Bytes) (tiff : TiffIFD) : M (List F32) :=
  match tiff.findEntry Tag.OlympusRedMul, tiff.findEntry Tag.OlympusBlueMul with
  | some red, some blue => do
    let r ← red.getU32 0
    let bl ← blue.getU32 0
    .ok [F32.ofNat r, F32.ofNat 256, F32.ofNat bl, .nan]
  | _, _ => do
    let iproc ← tiff.fetchTag Tag.OlympusImgProc
    let poff ← subU 64 b iproc.parentOffset 12
    let o ← iproc.getU32 0
    let off ← addU 64 b o poff
    let ifd ← TiffIFD.parse b buffer off 0 0 tiff.endian
    let wbs ← ifd.fetchTag Tag.ImageWidth
    let wbs ← if wbs.count = 4 then do
        let off ← addU 64 b poff wbs.doffset
        let d ← sliceFrom buffer off
        .ok (wbs.copyWithNewData d)
      else .ok wbs
    let r ← wbs.getU32 0
    let bl ← wbs.getU32 1
    .ok [F32.ofNat r, F32.ofNat 256, F32.ofNat bl, .nan]

/-- `OrfDecoder::image` (`orf.rs:25-57`) -/
def image (b : Build) (buffer : Bytes) (tiff : TiffIFD) (loader : RawLoader) : M RawImage := do
  let camera ← loader.checkSupported tiff
  let raw ← tiff.fetchIfd Tag.StripOffsets
  let width ← fetchUsize raw Tag.ImageWidth
  let height ← fetchUsize raw Tag.ImageLength
  let offset ← fetchUsize raw Tag.StripOffsets
  let counts ← raw.fetchTag Tag.StripByteCounts
  let size ← forRange 0 counts.count (fun i size => do
    let v ← counts.getU32 i
    .ok (size + v)) 0
  let src ← sliceFrom buffer offset
  let data ← if size ≥ width * height * 2 then
      if tiff.endian.little then decode_12le_unpacked_left_aligned src width height
      else decode_12be_unpacked_left_aligned src width height
    else if size ≥ width * height / 10 * 16 then decode_12le_wcontrol src width height
    else if size ≥ width * height * 12 / 8 then
      if width < 3500 then decode_12be_interlaced src width height else decode_12be_msb32 src width height
    else decodeCompressed b src width height
  let wb ← getWb b buffer tiff
  okImage b camera width height wb data

end Orf

end Model

import Verif.Model.Dec.Simple
/-!
# Model of `src/decoders/rw2.rs`
-/

namespace Model
open Rust

namespace Rw2

/-! ## The bit reader -/

/-- `BitPumpPanasonic` (`rw2.rs:130-135`) -/
structure PPump where
  buffer : Bytes
  pos : Nat
  nbits : Nat
  split : Bool
  deriving DecidableEq, Repr

/-- `BitPumpPanasonic::new` (`rw2.rs:138-145`) -/
def PPump.new (src : Bytes) (split : Bool) : PPump := ⟨src, 0, 0, split⟩

/-- `BitPumpPanasonic::peek_bits` (`rw2.rs:149-160`) -/
def peekPanasonic (b : Build) (s : PPump) (num : Nat) : M (Nat × PPump) := do
  let s ← if num > s.nbits then do
      let nbits ← addU 32 b s.nbits 0x20000
      .ok { s with nbits := nbits, pos := s.pos + 0x4000 }
    else .ok s
  let k ← subU 32 b s.nbits num
  let byte := (k >>> 3) ^^^ 0x3ff0
  let byte := if s.split then (byte + 0x4000 - 0x2008) % 0x4000 else byte
  let at_ ← subU 64 b (byte + s.pos) 0x4000
  let bits ← LEu16 s.buffer at_
  let sh ← subU 32 b 32 num
  let mask ← shrU 32 b 0xffffffff sh
  .ok ((bits >>> (k % 8)) &&& mask, s)

/-- `BitPumpPanasonic::consume_bits` (`rw2.rs:162-164`) -/
def consumePanasonic (b : Build) (s : PPump) (num : Nat) : M PPump := do
  let nbits ← subU 32 b s.nbits num
  .ok { s with nbits := nbits }

/-- `impl BitPump for BitPumpPanasonic` -/
def pumpPanasonic (b : Build) : PumpOps PPump := ⟨peekPanasonic b, consumePanasonic b⟩

/-! ## Pixels -/

/-- The variables of the loop over 14 pixels (`rw2.rs:99-102`). -/
structure State where
  pred : List Int
  nonz : List Nat
  sh : Nat
  pump : PPump

/-- The prediction after a difference `j` (`rw2.rs:110-116`). `x & !(-1 << sh)` keeps the low `sh` bits. -/
def adjust (pred : Int) (sh j : Nat) : Int :=
  if j ≠ 0 then
    let pred := pred - ((0x80 <<< sh : Nat) : Int)
    let pred := if pred < 0 ∨ sh = 4 then pred % ((2 ^ sh : Nat) : Int) else pred
    pred + ((j <<< sh : Nat) : Int)
  else pred

/-- One pixel (`rw2.rs:104-124`). The predictions stay below `2^13`, so the arithmetic does not overflow. -/
def pixel (b : Build) (i : Nat) (s : List Nat × State) : M (List Nat × State) := do
  let P := pumpPanasonic b
  let (sh, p) ← if i % 3 = 2 then do
      let (v, p) ← P.getBits s.2.pump 2
      let k ← subU 32 b 3 v
      .ok (4 >>> k, p)
    else .ok (s.2.sh, s.2.pump)
  let nz ← idx s.2.nonz (i % 2)
  let pr ← idx s.2.pred (i % 2)
  let (nz, pr, p) ← if nz ≠ 0 then do
      let (j, p) ← P.getBits p 8
      .ok (nz, adjust pr sh j, p)
    else do
      let (nz, p) ← P.getBits p 8
      if nz ≠ 0 ∨ i > 11 then do
        let (v, p) ← P.getBits p 4
        .ok (nz, ((nz <<< 4 ||| v : Nat) : Int), p)
      else .ok (nz, pr, p)
  let nonz ← setIdx s.2.nonz (i % 2) nz
  let pred ← setIdx s.2.pred (i % 2) pr
  let out ← setIdx s.1 i (toU16 pr)
  .ok (out, ⟨pred, nonz, sh, p⟩)

/-- Fourteen pixels (`rw2.rs:100-125`). -/
def group (b : Build) (out : List Nat) (s : Nat × PPump) : M (List Nat × Nat × PPump) := do
  let r ← forRange 0 14 (pixel b) (out, ⟨[0, 0], [0, 0], s.1, s.2⟩)
  .ok (r.1, r.2.sh, r.2.pump)

/-- `decode_panasonic` (`rw2.rs:89-127`) -/
def decodePanasonic (b : Build) (buf : Bytes) (width height : Nat) (split : Bool) : M (List Nat) :=
  decodeThreadedMultiline width height 5 fun out row => do
    let skip := (width * row * 9 + width / 14 * 2 * row) / 8
    let blocks := skip / 0x4000
    let src ← sliceFrom buf (blocks * 0x4000)
    let p ← forRange 0 (skip % 0x4000) (fun _ p => do
      let (_, p) ← (pumpPanasonic b).getBits p 8
      .ok p) (PPump.new src split)
    let r ← Ljpeg.foldChunks (group b) (chunks 14 out) (0, p)
    .ok r.1

/-! ## Directories -/

/-- `get_wb` (`rw2.rs:72-87`) -/
def getWb (tiff : TiffIFD) : M (List F32) :=
  if tiff.hasEntry Tag.PanaWBsR && tiff.hasEntry Tag.PanaWBsB then do
    let r ← fetchUsize tiff Tag.PanaWBsR
    let bl ← fetchUsize tiff Tag.PanaWBsB
    .ok [F32.ofNat r, F32.ofNat 256, F32.ofNat bl, .nan]
  else if tiff.hasEntry Tag.PanaWBs2R && tiff.hasEntry Tag.PanaWBs2G && tiff.hasEntry Tag.PanaWBs2B then do
    let r ← fetchUsize tiff Tag.PanaWBs2R
    let g ← fetchUsize tiff Tag.PanaWBs2G
    let bl ← fetchUsize tiff Tag.PanaWBs2B
    .ok [F32.ofNat r, F32.ofNat g, F32.ofNat bl, .nan]
  else fail "Couldn't find WB"

/-- The pixels (`rw2.rs:27-51`): width, height, data. -/
def pixels (b : Build) (buffer : Bytes) (tiff : TiffIFD) : M (Nat × Nat × List Nat) :=
  match tiff.findIfdsWithTag Tag.PanaOffsets with
  | raw :: _ => do
    let width ← fetchUsize raw Tag.PanaWidth
    let height ← fetchUsize raw Tag.PanaLength
    let offset ← fetchUsize raw Tag.PanaOffsets
    let src ← sliceFrom buffer offset
    let data ← decodePanasonic b src width height true
    .ok (width, height, data)
  | [] => do
    let raw ← tiff.fetchIfd Tag.StripOffsets
    let width ← fetchUsize raw Tag.PanaWidth
    let height ← fetchUsize raw Tag.PanaLength
    let offset ← fetchUsize raw Tag.StripOffsets
    let src ← sliceFrom buffer offset
    let data ← if src.length ≥ width * height * 2 then decode_12le_unpacked_left_aligned src width height
      else if src.length ≥ width * height * 3 / 2 then decode_12le_wcontrol src width height
      else decodePanasonic b src width height false
    .ok (width, height, data)

/-- `Rw2Decoder::image` (`rw2.rs:24-68`); division by zero panics. -/
def image (b : Build) (buffer : Bytes) (tiff : TiffIFD) (loader : RawLoader) : M RawImage := do
  let (width, height, data) ← pixels b buffer tiff
  if height = 0 then crash
  else do
    let ratio := width * 100 / height
    let mode := if ratio < 125 then b! "1:1" else if ratio < 145 then b! "4:3" else if ratio < 165 then b! "3:2" else b! "16:9"
    let camera ← loader.checkSupportedWithMode tiff mode
    let wb ← getWb tiff
    okImage b camera width height wb data

end Rw2

end Model

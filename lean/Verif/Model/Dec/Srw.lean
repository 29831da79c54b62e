import Verif.Model.Dec.Simple
/-!
# Model of `src/decoders/srw.rs`
-/

namespace Model
open Rust

namespace Srw

/-- `get_wb` (`srw.rs:377-390`) -/
def getWb (buffer : Bytes) (tiff : TiffIFD) : M (List F32) := do
  let levels ← tiff.fetchTag Tag.SrwRGGBLevels
  let blacks ← tiff.fetchTag Tag.SrwRGGBBlacks
  if levels.count ≠ 4 ∨ blacks.count ≠ 4 then fail "SRW: RGGB Levels and Blacks don't have 4 elements"
  else do
    let nlevels ← levels.copyOffsetFromParent buffer
    let nblacks ← blacks.copyOffsetFromParent buffer
    let level (i : Nat) : M F32 := do
      let l ← nlevels.getU32 i
      let k ← nblacks.getU32 i
      .ok ((F32.ofNat l).sub (F32.ofNat k))
    let r ← level 0
    let g ← level 1
    let bl ← level 3
    .ok [r, g, bl, .nan]

/-! ## First compression -/

/-- One change of a length (`srw.rs:93-100`), on `(len, reader)`. -/
def changeLen (b : Build) (i op : Nat) (s : List Nat × Pump) : M (List Nat × Pump) :=
  if op = 3 then do
    let (v, p) ← (pumpMSB32 b).getBits s.2 4
    let l ← setIdx s.1 i v
    .ok (l, p)
  else if op = 2 then do
    let v ← idx s.1 i
    let v ← subU 32 b v 1
    let l ← setIdx s.1 i v
    .ok (l, s.2)
  else if op = 1 then do
    let v ← idx s.1 i
    let v ← addU 32 b v 1
    let l ← setIdx s.1 i v
    .ok (l, s.2)
  else .ok s

/-- One pixel of a group (`srw.rs:103-114` for even `c`, `116-127` for odd `c`), on `(out, reader)`: `up` is the first pixel of
the row used for upward prediction, `back` the distance for prediction from the left. -/
def pixel1 (b : Build) (width img up back col : Nat) (dir : Bool) (len : List Nat) (lenAt c : Nat) (s : List Nat × Pump) :
    M (List Nat × Pump) := do
  let l ← idx len lenAt
  let (adj, p) ← (pumpMSB32 b).getIbitsSextended b s.2 l
  let pred ← if dir then idx s.1 (up + col + c) else if col = 0 then .ok 128 else idx s.1 (img + col - back)
  if col + c < width then do
    let v ← i32Result b (pred + adj)
    let out ← setIdx s.1 (img + col + c) (toU16 v)
    .ok (out, p)
  else .ok (s.1, p)

/-- A group of 16 pixels (`srw.rs:89-128`), on `(out, len, reader)`. -/
def group1 (b : Build) (width row col : Nat) (s : List Nat × List Nat × Pump) : M (List Nat × List Nat × Pump) := do
  let P := pumpMSB32 b
  let (d, p) ← P.getBits s.2.2 1
  let (o0, p) ← P.getBits p 2
  let (o1, p) ← P.getBits p 2
  let (o2, p) ← P.getBits p 2
  let (o3, p) ← P.getBits p 2
  let r ← changeLen b 0 o0 (s.2.1, p)
  let r ← changeLen b 1 o1 r
  let r ← changeLen b 2 o2 r
  let r ← changeLen b 3 o3 r
  let img := width * row
  let up := width * (Nat.max 1 row - 1)
  let up2 := width * (Nat.max 2 row - 2)
  let t ← forStep 0 16 2 (fun c => pixel1 b width img up 2 col (d = 1) r.1 (c >>> 3) c) (s.1, r.2)
  let t ← forStep 1 16 2 (fun c => pixel1 b width img up2 1 col (d = 1) r.1 (2 ||| (c >>> 3)) c) t
  .ok (t.1, r.1, t.2)

/-- `out.swap(i, j)` -/
def swap (out : List Nat) (i j : Nat) : M (List Nat) := do
  let x ← idx out i
  let y ← idx out j
  let out ← setIdx out i y
  setIdx out j x

/-- `decode_srw1` (`srw.rs:76-141`) -/
def decodeSrw1 (b : Build) (buf loffsets : Bytes) (width height : Nat) : M (List Nat) := do
  let out ← forRange 0 height (fun row out => do
    let loffset ← LEu32 loffsets (row * 4)
    let src ← sliceFrom buf loffset
    let r ← forStep 0 width 16 (group1 b width row) (out, List.replicate 4 (if row < 2 then 7 else 4), Pump.new src)
    .ok r.1) (List.replicate (width * height) 0)
  forStep 0 height 2 (fun row out =>
    forStep 0 width 2 (fun col out => swap out (row * width + col + 1) ((row + 1) * width + col)) out) out

/-! ## Second compression -/

/-- `tab` (`srw.rs:152-153`): length of the prefix, number of difference bits. -/
def tab : List (Nat × Nat) :=
  [(3, 4), (3, 7), (2, 6), (2, 5), (4, 3), (6, 0), (7, 9), (8, 10), (9, 11), (10, 12), (10, 13), (5, 1), (4, 8), (4, 2)]

/-- `tbl` (`srw.rs:162-172`): the entries are written one after the other, `1024 >> length` times each. They fill the table. -/
def tbl : List (Nat × Nat) := tab.flatMap fun e => List.replicate (1024 >>> e.1) e

/-- `srw2_diff` (`srw.rs:193-206`) -/
def diff2 (b : Build) (p : Pump) : M (Int × Pump) := do
  let P := pumpMSB b
  let (c, p) ← P.peek p 10
  let e ← idx tbl c
  let p ← P.consume p e.1
  let (d, p) ← P.getBits p e.2
  .ok (if e.2 ≠ 0 ∧ d &&& (1 <<< (e.2 - 1)) = 0 then (d : Int) - ((1 <<< e.2 : Nat) - 1 : Int) else (d : Int), p)

/-- The variables of the loops (`srw.rs:174-176`). -/
structure State2 where
  out : List Nat
  vpred : List (List Int)
  hpred : List Int
  pump : Pump

/-- One pixel (`srw.rs:179-186`). -/
def pixel2 (b : Build) (width row col : Nat) (s : State2) : M State2 := do
  let (d, p) ← diff2 b s.pump
  let (vpred, hpred) ← if col < 2 then do
      let vr ← idx s.vpred (row % 2)
      let v ← idx vr col
      let v ← i32Result b (v + d)
      let vr ← setIdx vr col v
      let vpred ← setIdx s.vpred (row % 2) vr
      let hpred ← setIdx s.hpred col v
      .ok (vpred, hpred)
    else do
      let h ← idx s.hpred (col % 2)
      let h ← i32Result b (h + d)
      let hpred ← setIdx s.hpred (col % 2) h
      .ok (s.vpred, hpred)
  let h ← idx hpred (col % 2)
  let out ← setIdx s.out (row * width + col) (toU16 h)
  .ok ⟨out, vpred, hpred, p⟩

/-- `decode_srw2` (`srw.rs:143-191`) -/
def decodeSrw2 (b : Build) (buf : Bytes) (width height : Nat) : M (List Nat) := do
  let s ← forRange 0 height (fun row s => forRange 0 width (pixel2 b width row) s)
    ⟨List.replicate (width * height) 0, [[0, 0], [0, 0]], [0, 0], Pump.new buf⟩
  .ok s.out

/-! ## Third compression -/

/-- The header (`srw.rs:221-242`). -/
structure Header where
  bitDepth : Nat
  optflags : Nat
  initVal : Nat
  deriving DecidableEq, Repr

/-- Skips several fields. -/
def skip (b : Build) : List Nat → Pump → M Pump
  | [], p => .ok p
  | n :: rest, p => do
    let (_, p) ← (pumpMSB32 b).getBits p n
    skip b rest p

/-- Reads the header (`srw.rs:221-242`). -/
def header (b : Build) (p : Pump) : M (Header × Pump) := do
  let P := pumpMSB32 b
  let p ← skip b [16, 4] p
  let (d, p) ← P.getBits p 4
  let p ← skip b [4, 4, 16, 16, 16, 4] p
  let (o, p) ← P.getBits p 4
  let p ← skip b [8, 8, 8, 2] p
  let (i, p) ← P.getBits p 14
  .ok (⟨d + 1, o, i % 65536⟩, p)

/-- The variables of a row (`srw.rs:250-273`). -/
structure Row3 where
  out : List Nat
  motion : Nat
  scale : Int
  modes : List (List Nat)
  pump : Pump

/-- The scale of a block (`srw.rs:276-286`). -/
def scale3 (b : Build) (h : Header) (col : Nat) (scale : Int) (p : Pump) : M (Int × Pump) :=
  if h.optflags &&& 4 = 0 ∧ col % 64 = 0 then do
    let (i, p) ← (pumpMSB32 b).getBits p 2
    if i < 3 then do
      let v ← idx [0, -2, 2] i
      let s ← i32Result b (scale + v)
      .ok (s, p)
    else do
      let (v, p) ← (pumpMSB32 b).getBits p 12
      .ok ((v : Int), p)
  else .ok (0, p)

/-- The reference mode of a block (`srw.rs:289-293`). -/
def motion3 (b : Build) (h : Header) (motion : Nat) (p : Pump) : M (Nat × Pump) :=
  if h.optflags &&& 2 ≠ 0 then do
    let (v, p) ← (pumpMSB32 b).getBits p 1
    .ok (if v ≠ 0 then 3 else 7, p)
  else do
    let (v, p) ← (pumpMSB32 b).getBits p 1
    if v = 0 then (pumpMSB32 b).getBits p 3 else .ok (motion, p)

/-- The reference pixel (`srw.rs:315-325`). A negative position becomes a huge index and panics on use. -/
def refpixel (width row col i : Nat) (slide : Int) : M Nat :=
  let up := width * (Nat.max 1 row - 1)
  let up2 := width * (Nat.max 2 row - 2)
  let base : Nat := if (row + i) % 2 ≠ 0 then up2 + col + i else if i % 2 ≠ 0 then up + col + i - 1 else up + col + i + 1
  if (base : Int) + slide < 0 then crash else .ok ((base : Int) + slide).toNat

/-- The prediction of one pixel of a block (`srw.rs:302-304`, `314-332`). `out[a] + out[b] + 1` is computed in `u16`. -/
def reference (b : Build) (h : Header) (width row col motion i : Nat) (out : List Nat) : M (List Nat) :=
  let img := width * row
  if motion = 7 then do
    let v ← if col = 0 then .ok h.initVal else idx out (img + col + i - 2)
    setIdx out (img + col + i) v
  else do
    let slide ← idx [-4, -2, -2, 0, 0, 2, 4] motion
    let avg ← idx [0, 0, 1, 0, 1, 0, 0] motion
    let r ← refpixel width row col i slide
    let v ← if avg ≠ 0 then do
        let x ← idx out r
        let y ← idx out (r + 2)
        let t ← addU 16 b x y
        let t ← addU 16 b t 1
        .ok (t >>> 1)
      else idx out r
    setIdx out (img + col + i) v

/-- One number of difference bits (`srw.rs:339-354`), on `(diff_bits, modes, reader)`. -/
def diffBits (b : Build) (h : Header) (row i flag : Nat) (s : List Nat × List (List Nat) × Pump) :
    M (List Nat × List (List Nat) × Pump) := do
  let color := if row % 2 ≠ 0 then i >>> 1 else ((i >>> 1) + 2) % 3
  let mode ← idx s.2.1 color
  let m0 ← idx mode 0
  let m1 ← idx mode 1
  let (v, p) ← if flag = 0 then .ok (m0, s.2.2)
    else if flag = 1 then do
      let v ← addU 32 b m0 1
      .ok (v, s.2.2)
    else if flag = 2 then do
      let v ← subU 32 b m0 1
      .ok (v, s.2.2)
    else (pumpMSB32 b).getBits s.2.2 4
  let d ← setIdx s.1 i v
  let modes ← setIdx s.2.1 color [m1, v]
  if v > h.bitDepth + 1 then crash else .ok (d, modes, p)

/-- The numbers of difference bits of a block (`srw.rs:336-355`). -/
def blockBits (b : Build) (h : Header) (row : Nat) (modes : List (List Nat)) (p : Pump) : M (List Nat × List (List Nat) × Pump) := do
  let P := pumpMSB32 b
  let (read, p) ← if h.optflags &&& 1 ≠ 0 then .ok (true, p)
    else do
      let (v, p) ← P.getBits p 1
      .ok ((v == 0), p)
  if read then do
    let (f0, p) ← P.getBits p 2
    let (f1, p) ← P.getBits p 2
    let (f2, p) ← P.getBits p 2
    let (f3, p) ← P.getBits p 2
    let s ← diffBits b h row 0 f0 ([0, 0, 0, 0], modes, p)
    let s ← diffBits b h row 1 f1 s
    let s ← diffBits b h row 2 f2 s
    diffBits b h row 3 f3 s
  else .ok ([0, 0, 0, 0], modes, p)

/-- One difference (`srw.rs:358-370`), on `(out, reader)`. -/
def apply3 (b : Build) (h : Header) (width row col : Nat) (scale : Int) (bits : List Nat) (i : Nat) (s : List Nat × Pump) :
    M (List Nat × Pump) := do
  let len ← idx bits (i >>> 2)
  let (d, p) ← (pumpMSB32 b).getIbitsSextended b s.2 len
  let k ← i32Result b (scale * 2)
  let k ← i32Result b (k + 1)
  let d ← i32Result b (d * k)
  let d ← i32Result b (d + scale)
  let inBlock := if row % 2 ≠ 0 then ((i % 8) <<< 1) + 1 - (i >>> 3) else ((i % 8) <<< 1) + (i >>> 3)
  let pos := inBlock + width * row + col
  let v ← idx s.1 pos
  let t ← i32Result b (v + d)
  let out ← setIdx s.1 pos (toU16 (clampbits t h.bitDepth))
  .ok (out, p)

/-- A block of 16 pixels (`srw.rs:274-371`). -/
def block3 (b : Build) (h : Header) (width row col : Nat) (s : Row3) : M Row3 := do
  let (scale, p) ← scale3 b h col s.scale s.pump
  let (motion, p) ← motion3 b h s.motion p
  if row < 2 ∧ motion ≠ 7 then crash
  else do
    let out ← forRange 0 16 (reference b h width row col motion) s.out
    let (bits, modes, p) ← blockBits b h row s.modes p
    let r ← forRange 0 16 (apply3 b h width row col scale bits) (out, p)
    .ok ⟨r.1, motion, scale, modes, r.2⟩

/-- A row (`srw.rs:251-372`), on `(out, line_offset, reader)`. `get_pos` of a reader that went past the end may wrap, so the sums
are checked. -/
def row3 (b : Build) (h : Header) (buf : Bytes) (width row : Nat) (s : List Nat × Nat × Pump) : M (List Nat × Nat × Pump) := do
  let pos ← s.2.2.getPos b
  let off ← addU 64 b s.2.1 pos
  let off ← if off % 16 ≠ 0 then addU 64 b off (16 - off % 16) else .ok off
  let src ← sliceFrom buf off
  let init := if row < 2 then 7 else 4
  let r ← forStep 0 width 16 (block3 b h width row) ⟨s.1, 7, 0, List.replicate 3 [init, init], Pump.new src⟩
  .ok (r.out, off, r.pump)

/-- `decode_srw3` (`srw.rs:208-375`) -/
def decodeSrw3 (b : Build) (buf : Bytes) (width height : Nat) : M (List Nat) := do
  let (h, p) ← header b (Pump.new buf)
  let s ← forRange 0 height (row3 b h buf width) (List.replicate (width * height) 0, 0, p)
  .ok s.1

/-! ## The image -/

/-- The pixels (`srw.rs:36-69`). -/
def pixels (b : Build) (buffer : Bytes) (camera : Camera) (raw : TiffIFD) (src : Bytes) (width height compression bits : Nat) :
    M (List Nat) :=
  if compression = 32769 then
    if bits = 12 then decode_12le_unpacked src width height
    else if bits = 14 then decode_14le_unpacked src width height
    else fail "SRW: Don't know how to handle bps"
  else if compression = 32770 then
    match raw.findEntry Tag.SrwSensorAreas with
    | none =>
      if bits = 12 then
        if camera.findHint (b! "little_endian") then decode_12le src width height else decode_12be src width height
      else if bits = 14 then decode_14le_unpacked src width height
      else fail "SRW: Don't know how to handle bps"
    | some x => do
      let coffset ← x.getU32 0
      let loffsets ← sliceFrom buffer coffset
      decodeSrw1 b src loffsets width height
  else if compression = 32772 then decodeSrw2 b src width height
  else if compression = 32773 then decodeSrw3 b src width height
  else fail "SRW: Don't know how to handle compression"

/-- `SrwDecoder::image` (`srw.rs:26-72`) -/
def image (b : Build) (buffer : Bytes) (tiff : TiffIFD) (loader : RawLoader) : M RawImage := do
  let camera ← loader.checkSupported tiff
  let raw ← tiff.fetchIfd Tag.StripOffsets
  let width ← fetchUsize raw Tag.ImageWidth
  let height ← fetchUsize raw Tag.ImageLength
  let offset ← fetchUsize raw Tag.StripOffsets
  let compression ← fetchUsize raw Tag.Compression
  let bits ← fetchUsize raw Tag.BitsPerSample
  let src ← sliceFrom buffer offset
  let data ← pixels b buffer camera raw src width height compression bits
  let wb ← getWb buffer tiff
  okImage b camera width height wb data

end Srw

end Model

import Verif.F32
import Verif.Model.Cfa
import Verif.Model.OpBuffer
/-!
# Model of `RawImage` and of the float pipeline (`src/imageops`)

`usize` products are unbounded as everywhere in the model; subtractions are checked.
-/

namespace Model
open Rust

/-- `RawImage` (`image.rs:8-39`). The four strings come last and are empty by default: the functions of the pipeline do not read
them. -/
structure RawImage where
  width : Nat
  height : Nat
  cpp : Nat
  wbCoeffs : List F32
  whitelevels : List Nat
  blacklevels : List Nat
  xyzToCam : List (List F32)
  cfa : CFA
  crops : List Nat
  orientation : Orientation
  data : List Nat
  make : Bytes := []
  model : Bytes := []
  cleanMake : Bytes := []
  cleanModel : Bytes := []

/-- `RawImage::is_monochrome` (`image.rs:283-285`) -/
def RawImage.isMonochrome (img : RawImage) : Bool := img.cpp == 1 && !img.cfa.isValid

/-- `RawImage::cropped_cfa` (`image.rs:278-280`) -/
def RawImage.croppedCfa (b : Build) (img : RawImage) : M CFA := Model.croppedCfa b img.cfa img.crops

/-! ## `gofloat.rs` -/

/-- Body of the monochrome loop (`gofloat.rs:16-19`). -/
def monoPixel (o : List F32) (i : List Nat) : M (List F32) := do
  let v ← idx i 0
  let o ← setIdx o 0 (F32.ofNat v)
  let o ← setIdx o 1 (F32.ofNat v)
  let o ← setIdx o 2 (F32.ofNat v)
  setIdx o 3 (.zero false)

/-- Body of the RGB loop (`gofloat.rs:28-31`). -/
def rgbPixel (o : List F32) (i : List Nat) : M (List F32) := do
  let r ← idx i 0
  let o ← setIdx o 0 (F32.ofNat r)
  let g ← idx i 1
  let o ← setIdx o 1 (F32.ofNat g)
  let b ← idx i 2
  let o ← setIdx o 2 (F32.ofNat b)
  setIdx o 3 (.zero false)

/-- Body of the loop for all other images (`gofloat.rs:39`). -/
def plainPixel (o : List F32) (i : List Nat) : M (List F32) := do
  let v ← idx i 0
  setIdx o 0 (F32.ofNat v)

/-- The lines of `convert`: `out.mutate_lines` over the source from `img.width*(row+y)+x` on. -/
def convertLines (img : RawImage) (x y ko ki : Nat) (f : List F32 → List Nat → M (List F32)) (out : OpBuffer F32) : M (OpBuffer F32) :=
  out.mutateLines (fun line row => do
    let src ← sliceFrom img.data (img.width * (row + y) + x)
    zipChunks ko ki f line src)

/-- `gofloat::convert` (`gofloat.rs:4-44`); `crops` is top, right, bottom, left. -/
def convert (b : Build) (img : RawImage) : M (OpBuffer F32) := do
  let top ← idx img.crops 0
  let right ← idx img.crops 1
  let bottom ← idx img.crops 2
  let left ← idx img.crops 3
  let width ← subU 64 b img.width right
  let width ← subU 64 b width left
  let height ← subU 64 b img.height top
  let height ← subU 64 b height bottom
  if img.cpp == 1 && !img.cfa.isValid then
    convertLines img left top 4 1 monoPixel (OpBuffer.new (.zero false) width height 4)
  else if img.cpp == 3 then
    convertLines img left top 4 3 rgbPixel (OpBuffer.new (.zero false) width height 4)
  else
    convertLines img left top 1 1 plainPixel (OpBuffer.new (.zero false) width height img.cpp)

/-! ## `demosaic.rs` -/

/-- First pass of `full` (`demosaic.rs:48-53`): `pixin[0]` already is an `f32`. -/
def fullMeasured (b : Build) (cfa : CFA) (buf : OpBuffer F32) (line : List F32) (row : Nat) : M (List F32) := do
  let src ← sliceFrom buf.data (buf.width * row)
  zipChunksEnum 4 1 (fun col pixout pixin => do
    let color ← cfa.colorAt b row col
    let v ← idx pixin 0
    setIdx pixout color v) line src

/-- One neighbour of the second pass (`demosaic.rs:65-69`). -/
def fullNeighbour (b : Build) (cfa : CFA) (buf : OpBuffer F32) (color y x : Nat) (s : List F32 × List Nat) : M (List F32 × List Nat) := do
  let c ← cfa.colorAt b y x
  if c ≠ color then do
    let v ← idx buf.data (y * buf.width + x)
    let sum ← idx s.1 c
    let sums ← setIdx s.1 c (sum.add v)
    let n ← idx s.2 c
    let n ← addU 32 b n 1
    let counts ← setIdx s.2 c n
    .ok (sums, counts)
  else .ok s

/-- One channel of one pixel of the second pass (`demosaic.rs:73-77`). -/
def fullChannel (color col : Nat) (s : List F32 × List Nat) (c : Nat) (line : List F32) : M (List F32) := do
  let n ← idx s.2 c
  if c ≠ color ∧ n > 0 then do
    let sum ← idx s.1 c
    setIdx line (col * 4 + c) (sum.div (F32.ofNat n))
  else .ok line

/-- One pixel of the second pass (`demosaic.rs:59-78`). The lower ends of the ranges are `max(0, row-1)` on signed integers. -/
def fullPixel (b : Build) (cfa : CFA) (buf : OpBuffer F32) (row col : Nat) (line : List F32) : M (List F32) := do
  let color ← cfa.colorAt b row col
  let s ← forRange (row - 1) (min buf.height (row + 2)) (fun y s =>
    forRange (col - 1) (min buf.width (col + 2)) (fun x s => fullNeighbour b cfa buf color y x s) s)
    (List.replicate 4 (F32.zero false), List.replicate 4 0)
  forRange 0 4 (fullChannel color col s) line

/-- `full` (`demosaic.rs:43-82`) -/
def full (b : Build) (img : RawImage) (buf : OpBuffer F32) : M (OpBuffer F32) := do
  let cfa ← img.croppedCfa b
  let out ← (OpBuffer.new (F32.zero false) buf.width buf.height 4).mutateLines (fullMeasured b cfa buf)
  out.mutateLines (fun line row => forRange 0 buf.width (fun col line => fullPixel b cfa buf row col line) line)

/-- `calc_skips` (`demosaic.rs:84-94`) -/
def calcSkips (i imax : Nat) (skip : F32) : Nat × Nat × F32 × F32 :=
  let frm := (F32.ofNat i).mul skip
  let fromback := frm.floor
  let fromfactor := (F32.ofNat 1).sub (frm.sub fromback).fract
  let to := (F32.ofNat (i + 1)).mul skip
  let toforward := (F32.ofNat imax).min to.ceil
  let tofactor := (toforward.sub to).fract
  (fromback.toUsize, toforward.toUsize, fromfactor, tofactor)

/-- The weight of a source pixel (`demosaic.rs:112-115`, `148-151`). -/
def skipFactor (y x : Nat) (rows cols : Nat × Nat × F32 × F32) : F32 :=
  (if y = rows.1 then rows.2.2.1 else if y = rows.2.1 then rows.2.2.2 else F32.ofNat 1).mul
    (if x = cols.1 then cols.2.2.1 else if x = cols.2.1 then cols.2.2.2 else F32.ofNat 1)

/-- One source pixel in `scaled` (`demosaic.rs:112-119`). -/
def scaledSource (b : Build) (cfa : CFA) (buf : OpBuffer F32) (rows cols : Nat × Nat × F32 × F32) (y x : Nat)
    (s : List F32 × List F32) : M (List F32 × List F32) := do
  let factor := skipFactor y x rows cols
  let c ← cfa.colorAt b y x
  let v ← idx buf.data (y * buf.width + x)
  let sum ← idx s.1 c
  let sums ← setIdx s.1 c (sum.add (v.mul factor))
  let n ← idx s.2 c
  let counts ← setIdx s.2 c (n.add factor)
  .ok (sums, counts)

/-- One output channel (`demosaic.rs:123-127`, `160-164`). -/
def scaledChannel (colors col : Nat) (s : List F32 × List F32) (c : Nat) (line : List F32) : M (List F32) := do
  let n ← idx s.2 c
  if (F32.zero false).lt n then do
    let sum ← idx s.1 c
    setIdx line (col * colors + c) (sum.div n)
  else .ok line

/-- One output pixel of `scaled` (`demosaic.rs:106-127`). The column range is computed in each row in the code; it does not
depend on the row. -/
def scaledPixel (b : Build) (cfa : CFA) (buf : OpBuffer F32) (rowskip colskip : F32) (row col : Nat) (line : List F32) : M (List F32) := do
  let rows := calcSkips row buf.height rowskip
  let cols := calcSkips col buf.width colskip
  let s ← forRange rows.1 rows.2.1 (fun y s => forRange cols.1 cols.2.1 (fun x s => scaledSource b cfa buf rows cols y x s) s)
    (List.replicate 4 (F32.zero false), List.replicate 4 (F32.zero false))
  forRange 0 4 (scaledChannel 4 col s) line

/-- `scaled` (`demosaic.rs:96-132`); the names `rowskip` and `colskip` are those of the code. -/
def scaled (b : Build) (img : RawImage) (buf : OpBuffer F32) (nwidth nheight : Nat) : M (OpBuffer F32) := do
  let cfa ← img.croppedCfa b
  let rowskip := (F32.ofNat buf.width).div (F32.ofNat nwidth)
  let colskip := (F32.ofNat buf.height).div (F32.ofNat nheight)
  (OpBuffer.new (F32.zero false) nwidth nheight 4).mutateLines (fun line row =>
    forRange 0 nwidth (fun col line => scaledPixel b cfa buf rowskip colskip row col line) line)

/-- One channel of one source pixel in `scale_down` (`demosaic.rs:153-156`). -/
def downChannel (buf : OpBuffer F32) (factor : F32) (y x c : Nat) (s : List F32 × List F32) : M (List F32 × List F32) := do
  let v ← idx buf.data ((y * buf.width + x) * buf.colors + c)
  let sum ← idx s.1 c
  let sums ← setIdx s.1 c (sum.add (v.mul factor))
  let n ← idx s.2 c
  let counts ← setIdx s.2 c (n.add factor)
  .ok (sums, counts)

/-- One output pixel of `scale_down` (`demosaic.rs:142-164`). -/
def downPixel (buf : OpBuffer F32) (rowskip colskip : F32) (row col : Nat) (line : List F32) : M (List F32) := do
  let rows := calcSkips row buf.height rowskip
  let cols := calcSkips col buf.width colskip
  let s ← forRange rows.1 rows.2.1 (fun y s => forRange cols.1 cols.2.1 (fun x s =>
    forRange 0 buf.colors (fun c s => downChannel buf (skipFactor y x rows cols) y x c s) s) s)
    (List.replicate 4 (F32.zero false), List.replicate 4 (F32.zero false))
  forRange 0 buf.colors (scaledChannel buf.colors col s) line

/-- `scale_down` (`demosaic.rs:134-169`) -/
def scaleDown (buf : OpBuffer F32) (nwidth nheight : Nat) : M (OpBuffer F32) :=
  let rowskip := (F32.ofNat buf.width).div (F32.ofNat nwidth)
  let colskip := (F32.ofNat buf.height).div (F32.ofNat nheight)
  (OpBuffer.new (F32.zero false) nwidth nheight buf.colors).mutateLines (fun line row =>
    forRange 0 nwidth (fun col line => downPixel buf rowskip colskip row col line) line)

/-- The scale and the new size (`demosaic.rs:6-17`). -/
def targetSize (width height maxwidth maxheight : Nat) : F32 × Nat × Nat :=
  if maxwidth = 0 ∨ maxheight = 0 then (.zero false, width, height)
  else
    let xscale := (F32.ofNat width).div (F32.ofNat maxwidth)
    let yscale := (F32.ofNat height).div (F32.ofNat maxheight)
    if xscale.lt yscale then (yscale, ((F32.ofNat width).div yscale).toUsize, maxheight)
    else (xscale, maxwidth, ((F32.ofNat height).div xscale).toUsize)

/-- The smallest scale for which whole blocks are averaged (`demosaic.rs:19-25`). -/
def minScale (cfaWidth : Nat) : F32 :=
  match cfaWidth with
  | 2 => F32.ofNat 2
  | 6 => F32.ofNat 3
  | 8 => F32.ofNat 2
  | 12 => F32.ofNat 12
  | _ => F32.ofNat 2

/-- Unscaled four channel image (`demosaic.rs:28-32`). -/
def fourChannels (b : Build) (img : RawImage) (buf : OpBuffer F32) : M (OpBuffer F32) :=
  if buf.colors = 4 then .ok buf else full b img buf

/-- `demosaic_and_scale` (`demosaic.rs:5-41`) -/
def demosaicAndScale (b : Build) (img : RawImage) (buf : OpBuffer F32) (maxwidth maxheight : Nat) : M (OpBuffer F32) :=
  let t := targetSize buf.width buf.height maxwidth maxheight
  if t.1.lt (minScale img.cfa.width) ∨ buf.colors ≠ 1 then do
    let out ← fourChannels b img buf
    if (F32.ofNat 1).lt t.1 then scaleDown out t.2.1 t.2.2 else .ok out
  else scaled b img buf t.2.1 t.2.2

end Model

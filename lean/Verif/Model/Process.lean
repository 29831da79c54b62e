import Verif.Model.Pipeline
import Verif.Model.Matrix
import Verif.Model.Curves
/-!
# Model of the colour pipeline: `level.rs`, `colorspaces.rs`, `curves::base`, `gamma.rs`, `imageops::decoder` and `RawImage::to_*`

`cbrt` and `powf` are functions of the platform's `libm` and are parameters. Float literals are rounded decimals.
-/

namespace Model
open Rust

/-- The transcendental functions used. -/
structure Libm where
  cbrt : F32 → F32
  powf : F32 → F32 → F32

/-- A decimal literal. -/
abbrev lit (q : Rat) : F32 := F32.ofRat q

/-- `xyz_to_cam` of an image as a 4x3 matrix. The field is an array in the code; a missing element of the list stands for `0.0`. -/
def RawImage.xyzToCamMat (img : RawImage) : Mat F32 := fun r c => ((img.xyzToCam.getD r []).getD c (.zero false))

/-- `RawImage::cam_to_xyz` (`image.rs:112-115`) -/
def RawImage.camToXyzMat (img : RawImage) : Mat F32 :=
  (xyzMatrixAndNeutralwb Arith.f32 img.xyzToCamMat (rgbToXyzTable F32.ofRat) (d65White F32.ofRat)).1

/-- `RawImage::neutralwb` (`image.rs:119-125`) -/
def RawImage.neutralwb (img : RawImage) : List F32 :=
  let n := (xyzMatrixAndNeutralwb Arith.f32 img.xyzToCamMat (rgbToXyzTable F32.ofRat) (d65White F32.ofRat)).2
  [(n 0).div (n 1), (n 1).div (n 1), (n 2).div (n 1), (n 3).div (n 1)]

/-! ## `level.rs` -/

/-- The coefficients (`level.rs:9-17`). -/
def balanceCoeffs (img : RawImage) : M (List F32) := do
  if img.isMonochrome then .ok (List.replicate 4 (lit 1))
  else do
    let c0 ← idx img.wbCoeffs 0
    let c1 ← idx img.wbCoeffs 1
    let c2 ← idx img.wbCoeffs 2
    if !c0.isNormal || !c1.isNormal || !c2.isNormal then .ok img.neutralwb else .ok img.wbCoeffs

/-- `mul` (`level.rs:20-21`) -/
def balanceMul (coeffs : List F32) : M (List F32) := do
  let unity ← idx coeffs 1
  .ok (coeffs.map fun x => if !x.isNormal then lit 1 else x.div unity)

/-- `ranges` (`level.rs:7`) -/
def levelRanges (whitelevels : List Nat) (mins : List F32) : M (List F32) :=
  whitelevels.zipIdx.mapM (fun p => do
    let m ← idx mins p.2
    .ok ((F32.ofNat p.1).sub m))

/-- One channel of one pixel (`level.rs:25-28`). -/
def levelChannel (mins ranges mul : List F32) (c : Nat) (pix : List F32) : M (List F32) := do
  let v ← idx pix c
  let mn ← idx mins c
  let rg ← idx ranges c
  let ml ← idx mul c
  setIdx pix c (((v.sub mn).div rg).mul ml |>.min (lit 1))

/-- `level_and_balance` (`level.rs:4-31`) -/
def levelAndBalance (img : RawImage) (buf : OpBuffer F32) : M (OpBuffer F32) := do
  let mins := img.blacklevels.map F32.ofNat
  let ranges ← levelRanges img.whitelevels mins
  let coeffs ← balanceCoeffs img
  let mul ← balanceMul coeffs
  buf.mutateLines (fun line _ => mapChunks 4 (forRange 0 4 (levelChannel mins ranges mul)) line)

/-! ## `colorspaces.rs` -/

/-- `CBRT_MAXVALS` and the number of steps of the gamma table -/
abbrev tableSteps : Nat := 65536

/-- `CBRT_LOOKUP` (`colorspaces.rs:92-102`) -/
def cbrtLookup (m : Libm) : List F32 :=
  (List.range (tableSteps + 1)).map (fun i => m.cbrt ((F32.ofNat i).div (F32.ofNat tableSteps)))

/-- `labf` (`colorspaces.rs:104-118`) -/
def labf (m : Libm) (val : F32) : M F32 :=
  let d := (lit 6).div (lit 29)
  let cutoff := (d.mul d).mul d
  let e := (lit 29).div (lit 6)
  let multiplier := (((lit 1).div (lit 3)).mul e).mul e
  let constant := (lit 4).div (lit 29)
  if cutoff.lt val then
    if (lit 0).lt val && val.lt (lit 1) then idx (cbrtLookup m) (val.mul (F32.ofNat tableSteps)).toUsize
    else .ok (m.cbrt val)
  else .ok ((val.mul multiplier).add constant)

/-- `xyz_to_lab` (`colorspaces.rs:81-90`) -/
def xyzToLab (m : Libm) (x y z : F32) : M (F32 × F32 × F32) := do
  let xw := lit (9642 / 10000)
  let yw := lit 1
  let zw := lit (8249 / 10000)
  let fy ← labf m (y.div yw)
  let fx ← labf m (x.div xw)
  let fz ← labf m (z.div zw)
  let l := ((lit 116).mul fy).sub (lit 16)
  let a := (lit 500).mul (fx.sub fy)
  let b := (lit 200).mul (fy.sub fz)
  .ok (l.div (lit 100), (a.add (lit 128)).div (lit 256), (b.add (lit 128)).div (lit 256))

/-- One output of a matrix times a pixel of four channels (`colorspaces.rs:14-16`). -/
def dot4 (m : Mat F32) (i : Nat) (r g b e : F32) : F32 :=
  (((r.mul (m i 0)).add (g.mul (m i 1))).add (b.mul (m i 2))).add (e.mul (m i 3))

/-- One pixel of `camera_to_lab` (`colorspaces.rs:9-22`). -/
def labPixel (m : Libm) (cmatrix : Mat F32) (pixout pixin : List F32) : M (List F32) := do
  let r ← idx pixin 0
  let g ← idx pixin 1
  let b ← idx pixin 2
  let e ← idx pixin 3
  let lab ← xyzToLab m (dot4 cmatrix 0 r g b e) (dot4 cmatrix 1 r g b e) (dot4 cmatrix 2 r g b e)
  let o ← setIdx pixout 0 lab.1
  let o ← setIdx o 1 lab.2.1
  setIdx o 2 lab.2.2

/-- `camera_to_lab` (`colorspaces.rs:4-25`) -/
def cameraToLab (m : Libm) (img : RawImage) (inb : OpBuffer F32) : M (OpBuffer F32) :=
  inb.processIntoNew (.zero false) 3 (fun outb inb => zipChunks 3 4 (labPixel m img.camToXyzMat) outb inb)

/-- `labinvf` (`colorspaces.rs:135-145`) -/
def labinvf (val : F32) : F32 :=
  let d := (lit 6).div (lit 29)
  let multiplier := ((lit 3).mul d).mul d
  let constant := multiplier.mul ((lit 4).neg.div (lit 29))
  if d.lt val then (val.mul val).mul val else (val.mul multiplier).add constant

/-- `lab_to_xyz` (`colorspaces.rs:120-133`) -/
def labToXyz (l a b : F32) : F32 × F32 × F32 :=
  let xw := lit (9642 / 10000)
  let yw := lit 1
  let zw := lit (8249 / 10000)
  let cl := l.mul (lit 100)
  let ca := (a.mul (lit 256)).sub (lit 128)
  let cb := (b.mul (lit 256)).sub (lit 128)
  let fy := ((lit 1).div (lit 116)).mul (cl.add (lit 16))
  (xw.mul (labinvf (fy.add (((lit 1).div (lit 500)).mul ca))),
   yw.mul (labinvf fy),
   zw.mul (labinvf (fy.sub (((lit 1).div (lit 200)).mul cb))))

/-- One output of a matrix times three values (`colorspaces.rs:38-40`). -/
def dot3 (m : Mat F32) (i : Nat) (x y z : F32) : F32 := ((x.mul (m i 0)).add (y.mul (m i 1))).add (z.mul (m i 2))

/-- One pixel of `lab_to_rec709` (`colorspaces.rs:31-44`). -/
def rec709Pixel (cmatrix : Mat F32) (pix : List F32) : M (List F32) := do
  let l ← idx pix 0
  let a ← idx pix 1
  let b ← idx pix 2
  let xyz := labToXyz l a b
  let o ← setIdx pix 0 (dot3 cmatrix 0 xyz.1 xyz.2.1 xyz.2.2)
  let o ← setIdx o 1 (dot3 cmatrix 1 xyz.1 xyz.2.1 xyz.2.2)
  setIdx o 2 (dot3 cmatrix 2 xyz.1 xyz.2.1 xyz.2.2)

/-- `xyz_to_rec709_matrix` (`colorspaces.rs:70-79`) -/
def xyzToRec709Matrix : Mat F32 := inverse Arith.f32 (rgbToXyzTable F32.ofRat)

/-- `lab_to_rec709` (`colorspaces.rs:27-47`) -/
def labToRec709 (buf : OpBuffer F32) : M (OpBuffer F32) :=
  buf.mutateLines (fun line _ => mapChunks 3 (rec709Pixel xyzToRec709Matrix) line)

/-! ## `curves.rs` and `gamma.rs` -/

/-- The knots of `base` (`curves.rs:6-7`) -/
def baseXs : List F32 := [lit 0, lit (30 / 100), lit (5 / 10), lit (70 / 100), lit 1]
def baseYs : List F32 := [lit 0, lit (25 / 100), lit (5 / 10), lit (75 / 100), lit 1]

/-- `base` (`curves.rs:5-17`); the assignments of `pix[1]` and `pix[2]` to themselves index the pixel. -/
def baseCurve (buf : OpBuffer F32) : M (OpBuffer F32) := do
  let func ← SplineFunc.new OrdArith.f32 baseXs baseYs
  buf.mutateLines (fun line _ => mapChunks 3 (fun pix => do
    let v ← idx pix 0
    let y ← func.interpolate OrdArith.f32 v
    let pix ← setIdx pix 0 y
    let p1 ← idx pix 1
    let pix ← setIdx pix 1 p1
    let p2 ← idx pix 2
    setIdx pix 2 p2) line)

/-- An entry of the gamma table (`gamma.rs:12-18`). -/
def gammaEntry (m : Libm) (i : Nat) : F32 :=
  let g := lit (45 / 100)
  let f := lit (99 / 1000)
  let v := (F32.ofNat i).div (F32.ofNat tableSteps)
  if v.le (lit (18 / 1000)) then (lit (45 / 10)).mul v
  else (((lit 1).add f).mul (m.powf v g)).sub f

/-- The gamma table (`gamma.rs:10-19`) -/
def gammaLookup (m : Libm) : List F32 := (List.range (tableSteps + 1)).map (gammaEntry m)

/-- Index into the table (`gamma.rs:23`). -/
def gammaIndex (v : F32) : Nat :=
  (((v.max (lit 0)).mul (F32.ofNat tableSteps)).min (F32.ofNat tableSteps)).toUsize

/-- `gamma` (`gamma.rs:4-26`) -/
def gamma (m : Libm) (buf : OpBuffer F32) : M (OpBuffer F32) :=
  buf.mutateLines (fun line _ => mapChunks 1 (fun pix => do
    let v ← idx pix 0
    let g ← idx (gammaLookup m) (gammaIndex v)
    setIdx pix 0 g) line)

/-! ## The whole pipeline -/

/-- Rotation at the end (`imageops/mod.rs:120-124`). -/
def finalRotate (img : RawImage) (buf : OpBuffer F32) : M (OpBuffer F32) :=
  if img.orientation ≠ .normal ∧ img.orientation ≠ .unknown then rotateBuffer (.zero false) buf img.orientation else .ok buf

/-- `decoder` (`imageops/mod.rs:95-125`); the timing output is left out. -/
def decoder (m : Libm) (b : Build) (img : RawImage) (maxwidth maxheight : Nat) (linear : Bool) : M (OpBuffer F32) := do
  let swap := img.orientation.toFlips.1
  let mw := if swap then maxheight else maxwidth
  let mh := if swap then maxwidth else maxheight
  let input ← convert b img
  let channel4 ← demosaicAndScale b img input mw mh
  let channel4 ← levelAndBalance img channel4
  let channel3 ← cameraToLab m img channel4
  let channel3 ← baseCurve channel3
  let channel3 ← labToRec709 channel3
  let channel3 ← (if linear then .ok channel3 else gamma m channel3)
  finalRotate img channel3

/-- `RawImage::to_rgb` (`image.rs:228-236`): width, height, data. -/
def toRgb (m : Libm) (b : Build) (img : RawImage) (maxwidth maxheight : Nat) : M (Nat × Nat × List F32) := do
  let buffer ← decoder m b img maxwidth maxheight false
  .ok (buffer.width, buffer.height, buffer.data)

/-- One byte of `to_srgb` (`image.rs:249`). -/
def srgbByte (i : F32) : Nat := (((i.mul (lit 255)).max (lit 0)).min (lit 255)).toUnsigned 8

/-- `RawImage::to_srgb` (`image.rs:245-257`): width, height, bytes. -/
def toSrgb (m : Libm) (b : Build) (img : RawImage) (maxwidth maxheight : Nat) : M (Nat × Nat × List Nat) := do
  let buffer ← decoder m b img maxwidth maxheight false
  let image ← zipChunks 1 1 (fun o i => do
    let v ← idx i 0
    setIdx o 0 (srgbByte v)) (List.replicate (buffer.width * buffer.height * 3) 0) buffer.data
  .ok (buffer.width, buffer.height, image)

/-- `RawImage::to_linear_rgb` (`image.rs:266-274`) -/
def toLinearRgb (m : Libm) (b : Build) (img : RawImage) (maxwidth maxheight : Nat) : M (Nat × Nat × List F32) := do
  let buffer ← decoder m b img maxwidth maxheight true
  .ok (buffer.width, buffer.height, buffer.data)

end Model

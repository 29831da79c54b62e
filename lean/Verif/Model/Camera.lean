import Verif.Model.Pipeline
import Verif.Model.Tiff
/-!
# Model of the camera database and of `RawImage::new`

`src/decoders/mod.rs:92-326`, `408-430` and `src/decoders/image.rs:65-107`. The TOML parser is not modelled: the database is
the value it returns. Tables are association lists; their keys are distinct in TOML.
-/

namespace Model
open Rust

/-- `toml::Value`, without the kinds that the database does not use: those (floats, booleans, dates) are `other`, on which every
`as_...().unwrap()` panics as it does in the code. -/
inductive Toml where
  | str (s : Bytes)
  | int (i : Int)
  | arr (l : List Toml)
  | table (l : List (Bytes × Toml))
  | other

namespace Toml

/-- `as_str().unwrap()` -/
def asStr : Toml → M Bytes | str s => .ok s | _ => crash
/-- `as_integer().unwrap()` -/
def asInt : Toml → M Int | int i => .ok i | _ => crash
/-- `as_array().unwrap()` -/
def asArr : Toml → M (List Toml) | arr l => .ok l | _ => crash
/-- `as_table().unwrap()` -/
def asTable : Toml → M (Map Bytes Toml) | table t => .ok t | _ => crash

/-- `as_integer().unwrap() as usize`; the integer is an `i64`. -/
def asUsize (v : Toml) : M Nat := do
  let i ← v.asInt
  .ok (i % 18446744073709551616).toNat

end Toml

/-- `Camera` (`mod.rs:93-114`) -/
structure Camera where
  make : Bytes
  model : Bytes
  mode : Bytes
  cleanMake : Bytes
  cleanModel : Bytes
  filesize : Nat
  rawWidth : Nat
  rawHeight : Nat
  orientation : Orientation
  whitelevels : List Nat
  blacklevels : List Nat
  blackareah : Nat × Nat
  blackareav : Nat × Nat
  xyzToCam : List (List F32)
  cfa : CFA
  crops : List Nat
  bps : Nat
  wbOffset : Nat
  hints : List Bytes
  deriving DecidableEq, Repr

namespace Camera

/-- `Camera::find_hint` (`mod.rs:117-119`) -/
def findHint (c : Camera) (hint : Bytes) : Bool := c.hints.contains hint

/-- `for (i, val) in matrix.enumerate() { self.xyz_to_cam[i/3][i%3] = ... }` (`mod.rs:143-145`), from `i` on. -/
def setMatrix : Nat → List Toml → List (List F32) → M (List (List F32))
  | _, [], m => .ok m
  | i, v :: rest, m => do
    let x ← v.asInt
    let m ← setIdx2 m (i / 3) (i % 3) (F32.ofRat x)
    setMatrix (i + 1) rest m

/-- `for (i, val) in crop_vals.enumerate() { self.crops[i] = ... }` (`mod.rs:149-151`), from `i` on. -/
def setCrops : Nat → List Toml → List Nat → M (List Nat)
  | _, [], c => .ok c
  | i, v :: rest, c => do
    let x ← v.asUsize
    let c ← setIdx c i x
    setCrops (i + 1) rest c

/-- A pair of `usize` from an array (`mod.rs:132-134`, `137-139`). -/
def pairOf (val : Toml) : M (Nat × Nat) := do
  let vals ← val.asArr
  let v0 ← idx vals 0
  let a ← v0.asUsize
  let v1 ← idx vals 1
  let b ← v1.asUsize
  .ok (a, b)

/-- The arms of the `match` on a key (`mod.rs:123-165`). -/
def setKey (c : Camera) (name : Bytes) (val : Toml) : M Camera :=
  if name = b! "make" then do let s ← val.asStr; .ok { c with make := s }
  else if name = b! "model" then do let s ← val.asStr; .ok { c with model := s }
  else if name = b! "mode" then do let s ← val.asStr; .ok { c with mode := s }
  else if name = b! "clean_make" then do let s ← val.asStr; .ok { c with cleanMake := s }
  else if name = b! "clean_model" then do let s ← val.asStr; .ok { c with cleanModel := s }
  else if name = b! "whitepoint" then do
    let i ← val.asInt
    .ok { c with whitelevels := [toU16 i, toU16 i, toU16 i, toU16 i] }
  else if name = b! "blackpoint" then do
    let i ← val.asInt
    .ok { c with blacklevels := [toU16 i, toU16 i, toU16 i, toU16 i] }
  else if name = b! "blackareah" then do let p ← pairOf val; .ok { c with blackareah := p }
  else if name = b! "blackareav" then do let p ← pairOf val; .ok { c with blackareav := p }
  else if name = b! "color_matrix" then do
    let l ← val.asArr
    let m ← setMatrix 0 l c.xyzToCam
    .ok { c with xyzToCam := m }
  else if name = b! "crops" then do
    let l ← val.asArr
    let m ← setCrops 0 l c.crops
    .ok { c with crops := m }
  else if name = b! "color_pattern" then do
    let s ← val.asStr
    let cfa ← CFA.new s
    .ok { c with cfa := cfa }
  else if name = b! "bps" then do let n ← val.asUsize; .ok { c with bps := n }
  else if name = b! "wb_offset" then do let n ← val.asUsize; .ok { c with wbOffset := n }
  else if name = b! "filesize" then do let n ← val.asUsize; .ok { c with filesize := n }
  else if name = b! "raw_width" then do let n ← val.asUsize; .ok { c with rawWidth := n }
  else if name = b! "raw_height" then do let n ← val.asUsize; .ok { c with rawHeight := n }
  else if name = b! "hints" then do
    let l ← val.asArr
    let h ← l.mapM Toml.asStr
    .ok { c with hints := h }
  else .ok c

/-- `Camera::update_from_toml` (`mod.rs:121-168`) -/
def updateFromToml (c : Camera) (ct : Map Bytes Toml) : M Camera := ct.foldlM (fun c p => c.setKey p.1 p.2) c

/-- `Camera::new` (`mod.rs:170-192`) -/
def new : M Camera := do
  let cfa ← CFA.new []
  .ok {
    make := [], model := [], mode := [], cleanMake := [], cleanModel := [], filesize := 0, rawWidth := 0, rawHeight := 0,
    orientation := .unknown, whitelevels := [0, 0, 0, 0], blacklevels := [0, 0, 0, 0], blackareah := (0, 0),
    blackareav := (0, 0), xyzToCam := List.replicate 4 (List.replicate 3 (.zero false)), cfa := cfa, crops := [0, 0, 0, 0],
    bps := 0, wbOffset := 0, hints := [] }

end Camera

/-- `RawLoader` (`mod.rs:263-267`) -/
structure RawLoader where
  cameras : Map (Bytes × Bytes × Bytes) Camera
  naked : Map Nat Camera

namespace RawLoader

/-- The list of the base table and its modes (`mod.rs:279-286`). -/
def modesOf (ct : Map Bytes Toml) : M (List (Map Bytes Toml)) :=
  match Map.get ct (b! "modes") with
  | none => .ok [ct]
  | some v => do
    let l ← v.asArr
    let ms ← l.mapM Toml.asTable
    .ok (ct :: ms)

/-- `(alias[0].as_str(), alias[1].as_str())` (`mod.rs:296-297`); indexing a value that is not an array panics. -/
def aliasOf (v : Toml) : M (Bytes × Bytes) := do
  let l ← v.asArr
  let a ← idx l 0
  let a ← a.asStr
  let c ← idx l 1
  let c ← c.asStr
  .ok (a, c)

/-- The list of the base name and its aliases (`mod.rs:292-299`). -/
def namesOf (cam : Camera) (ct : Map Bytes Toml) : M (List (Bytes × Bytes)) :=
  match Map.get ct (b! "model_aliases") with
  | none => .ok [(cam.model, cam.cleanModel)]
  | some v => do
    let l ← v.asArr
    let ns ← l.mapM aliasOf
    .ok ((cam.model, cam.cleanModel) :: ns)

/-- All cameras of one table of the database (`mod.rs:277-311`). -/
def expand (camera : Toml) : M (List Camera) := do
  let ct ← camera.asTable
  let modes ← modesOf ct
  let cam ← Camera.new
  let cam ← cam.updateFromToml ct
  let names ← namesOf cam ct
  let l ← names.mapM fun (model, cleanModel) => modes.mapM fun t => do
    let mcam ← cam.updateFromToml t
    .ok { mcam with model := model, cleanModel := cleanModel }
  .ok l.flatten

/-- The two hash maps (`mod.rs:313-320`). -/
def addCamera (s : RawLoader) (cam : Camera) : RawLoader :=
  ⟨Map.insert s.cameras (cam.make, cam.model, cam.mode) cam,
   if cam.filesize > 0 then Map.insert s.naked cam.filesize cam else s.naked⟩

/-- `RawLoader::new` (`mod.rs:270-326`) on the parsed database. -/
def new (toml : Toml) : M RawLoader := do
  let t ← toml.asTable
  let v ← match Map.get t (b! "cameras") with
    | some v => .ok v
    | none => crash
  let l ← v.asArr
  let cams ← l.mapM expand
  .ok (cams.flatten.foldl addCamera ⟨[], []⟩)

/-- The text of an error message: every byte as the character with that code. -/
def showBytes (l : Bytes) : String := String.ofList (l.map fun c => Char.ofNat c.toNat)

/-- The message for an unknown camera (`mod.rs:411`), without the trailing address. -/
def unknownCamera (make model mode : Bytes) : String :=
  "Couldn't find camera \"" ++ showBytes make ++ "\" \"" ++ showBytes model ++ "\" mode \"" ++ showBytes mode ++ "\"."

/-- `RawLoader::check_supported_with_everything` (`mod.rs:408-413`) -/
def checkSupportedWithEverything (s : RawLoader) (make model mode : Bytes) : M Camera :=
  match Map.get s.cameras (make, model, mode) with
  | some cam => .ok cam
  | none => fail (unknownCamera make model mode)

/-- `Orientation::from_tiff` (`mod.rs:228-233`); the value is cut to a `u16`. -/
def orientationFromTiff (tiff : TiffIFD) : M Orientation :=
  match tiff.findEntry Tag.Orientation with
  | some e => do
    let v ← e.getU32 0
    .ok (Orientation.fromU16 (v % 65536))
  | none => .ok .unknown

/-- `RawLoader::check_supported_with_mode` (`mod.rs:415-426`) -/
def checkSupportedWithMode (s : RawLoader) (tiff : TiffIFD) (mode : Bytes) : M Camera := do
  let e ← tiff.fetchTag Tag.Make
  let make ← e.getStr
  let e ← tiff.fetchTag Tag.Model
  let model ← e.getStr
  let camera ← s.checkSupportedWithEverything make model mode
  let o ← orientationFromTiff tiff
  .ok { camera with orientation := o }

/-- `RawLoader::check_supported` (`mod.rs:428-430`) -/
def checkSupported (s : RawLoader) (tiff : TiffIFD) : M Camera := s.checkSupportedWithMode tiff []

end RawLoader

/-! ## `RawImage::new` -/

/-- `avg[color] += image[row*width+col] as f32; count[color] += 1.0` (`image.rs:71-73`, `78-80`). -/
def blackPixel (b : Build) (cfa : CFA) (width : Nat) (image : List Nat) (row col : Nat) (s : List F32 × List F32) :
    M (List F32 × List F32) := do
  let color ← cfa.colorAt b row col
  let a ← idx s.1 color
  let v ← idx image (row * width + col)
  let avg ← setIdx s.1 color (a.add (F32.ofNat v))
  let c ← idx s.2 color
  let count ← setIdx s.2 color (c.add (F32.ofNat 1))
  .ok (avg, count)

/-- The black levels measured in the masked areas (`image.rs:67-87`). -/
def blackAreas (b : Build) (camera : Camera) (width height : Nat) (image : List Nat) : M (List Nat) := do
  let z := List.replicate 4 (F32.zero false)
  let s ← forRange camera.blackareah.1 (camera.blackareah.1 + camera.blackareah.2) (fun row s =>
    forRange 0 width (fun col s => blackPixel b camera.cfa width image row col s) s) (z, z)
  let s ← forRange 0 height (fun row s =>
    forRange camera.blackareav.1 (camera.blackareav.1 + camera.blackareav.2)
      (fun col s => blackPixel b camera.cfa width image row col s) s) s
  (List.range 4).mapM fun i => do
    let a ← idx s.1 i
    let c ← idx s.2 i
    .ok ((a.div c).toUnsigned 16)

/-- `RawImage::new` (`image.rs:65-107`) -/
def RawImage.new (b : Build) (camera : Camera) (width height : Nat) (wb : List F32) (image : List Nat) : M RawImage := do
  let blacks ← if camera.blackareah.2 ≠ 0 ∨ camera.blackareav.2 ≠ 0 then blackAreas b camera width height image
    else .ok camera.blacklevels
  .ok {
    width := width, height := height, cpp := 1, wbCoeffs := wb, whitelevels := camera.whitelevels, blacklevels := blacks,
    xyzToCam := camera.xyzToCam, cfa := camera.cfa, crops := camera.crops, orientation := camera.orientation, data := image,
    make := camera.make, model := camera.model, cleanMake := camera.cleanMake, cleanModel := camera.cleanModel }

/-- `ok_image` (`mod.rs:253-255`) -/
def okImage (b : Build) (camera : Camera) (width height : Nat) (wb : List F32) (image : List Nat) : M RawImage :=
  RawImage.new b camera width height wb image

/-- `ok_image_with_blacklevels` (`mod.rs:257-261`) -/
def okImageWithBlacklevels (b : Build) (camera : Camera) (width height : Nat) (wb : List F32) (blacks image : List Nat) :
    M RawImage := do
  let img ← RawImage.new b camera width height wb image
  .ok { img with blacklevels := blacks }

end Model

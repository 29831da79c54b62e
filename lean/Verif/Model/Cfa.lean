import Verif.Model.Basics
/-!
# Model of `src/decoders/cfa.rs`
-/

namespace Model
open Rust

/-- `CFA` (`cfa.rs:20-26`). The name is the UTF-8 bytes of the string; `pattern` is the `[[usize;48];48]` array. -/
structure CFA where
  name : Bytes
  width : Nat
  height : Nat
  pattern : List (List Nat)
  deriving DecidableEq, Repr

/-- The `match` on the length of the name (`cfa.rs:51-58`). -/
def cfaDims (len : Nat) : M (Nat × Nat) :=
  if len = 0 then .ok (0, 0)
  else if len = 4 then .ok (2, 2)
  else if len = 36 then .ok (6, 6)
  else if len = 16 then .ok (2, 8)
  else if len = 144 then .ok (12, 12)
  else crash

/-- The `match` on a character (`cfa.rs:64-72`): R, G, B, E, M, Y. -/
def cfaByte (c : UInt8) : M Nat :=
  if c = 82 then .ok 0
  else if c = 71 then .ok 1
  else if c = 66 then .ok 2
  else if c = 69 then .ok 3
  else if c = 77 then .ok 1
  else if c = 89 then .ok 3
  else crash

/-- `for (i,c) in patname.bytes().enumerate()` (`cfa.rs:63-73`), from index `i` on. -/
def cfaCopy (width : Nat) : Nat → Bytes → List (List Nat) → M (List (List Nat))
  | _, [], p => .ok p
  | i, c :: rest, p => do
    let v ← cfaByte c
    let p ← setIdx2 p (i / width) (i % width) v
    cfaCopy width (i + 1) rest p

/-- One step of the extension loop (`cfa.rs:78`); reads and writes the same array. -/
def cfaExtendCell (width height row col : Nat) (p : List (List Nat)) : M (List (List Nat)) := do
  let v ← idx2 p (row % height) (col % width)
  setIdx2 p row col v

/-- `cfa.rs:76-80` -/
def cfaExtend (width height : Nat) (p : List (List Nat)) : M (List (List Nat)) :=
  forRange 0 48 (fun row p => forRange 0 48 (fun col p => cfaExtendCell width height row col p) p) p

namespace CFA

/-- `CFA::new` (`cfa.rs:50-89`) -/
def new (patname : Bytes) : M CFA := do
  let (width, height) ← cfaDims patname.length
  let pattern := List.replicate 48 (List.replicate 48 0)
  if width > 0 then do
    let pattern ← cfaCopy width 0 patname pattern
    let pattern ← cfaExtend width height pattern
    .ok ⟨patname, width, height, pattern⟩
  else .ok ⟨patname, width, height, pattern⟩

/-- The name built by `CFA::new_from_tag` from the values of the tag (`cfa.rs:30-38`). Reading the values out of the
tag is modelled with the TIFF entries. -/
def tagName (vals : List Nat) : Bytes := vals.map fun v => if v = 0 then 82 else if v = 1 then 71 else if v = 2 then 66 else 85

/-- `CFA::color_at` (`cfa.rs:93-95`) -/
def colorAt (b : Build) (s : CFA) (row col : Nat) : M Nat := do
  let r ← addU 64 b row 48
  let c ← addU 64 b col 48
  idx2 s.pattern (r % 48) (c % 48)

/-- One cell of `CFA::shift` (`cfa.rs:119`). -/
def shiftCell (b : Build) (s : CFA) (x y row col : Nat) (p : List (List Nat)) : M (List (List Nat)) := do
  let r ← addU 64 b row y
  let c ← addU 64 b col x
  let v ← s.colorAt b r c
  setIdx2 p row col v

/-- The name given to a shifted pattern (`cfa.rs:123`). -/
def shiftName (x y : Nat) (name : Bytes) : Bytes := (s!"shifted-{x}-{y}-").toUTF8.data.toList ++ name

/-- `CFA::shift` (`cfa.rs:115-128`) -/
def shift (b : Build) (s : CFA) (x y : Nat) : M CFA := do
  let pattern ← forRange 0 48 (fun row p => forRange 0 48 (fun col p => s.shiftCell b x y row col p) p)
    (List.replicate 48 (List.replicate 48 0))
  .ok ⟨shiftName x y s.name, s.width, s.height, pattern⟩

/-- `CFA::is_valid` (`cfa.rs:141-143`) -/
def isValid (s : CFA) : Bool := s.width != 0 && s.height != 0

end CFA

/-- `RawImage::cropped_cfa` (`image.rs:278-280`); `crops` is in the order top, right, bottom, left. -/
def croppedCfa (b : Build) (cfa : CFA) (crops : List Nat) : M CFA := do
  let left ← idx crops 3
  let top ← idx crops 0
  cfa.shift b left top

end Model

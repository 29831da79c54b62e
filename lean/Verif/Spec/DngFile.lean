import Verif.Spec.Cfa
import Verif.Spec.WholeFile
/-!
# DNG files

Which directory of a DNG file holds the picture, and what it says about it. Nothing here refers to the model.
-/

namespace Spec

/-- A TIFF file that names its camera and says it is a DNG. -/
structure DngFile (contents : List UInt8) (big : Bool) (dirs : List Dir) (make model : List UInt8) (orientation : Option Nat) : Prop where
  tiff : TiffFile 11 big contents dirs
  few : dirs.length ≤ 100
  notCiff : bytesAt contents 6 8 ≠ [0x48, 0x45, 0x41, 0x50, 0x43, 0x43, 0x44, 0x52]
  dng : ∃ big' f, (fileRoot big dirs).First 0xc612 big' f
  make : (fileRoot big dirs).Text 0x10f make
  model : (fileRoot big dirs).Text 0x110 model
  orientation : match orientation with
    | none => (fileRoot big dirs).Lacks 0x112
    | some o => (fileRoot big dirs).Numbers 0x112 [o]

/-- The compression a directory of its own states. -/
def Dir.Compressed (d : Dir) (compression : Nat) : Prop := (d.field 0x103).isSome = true ∧ ∃ t, d.Numbers 0x103 (compression :: t)

/-- The directory is marked as holding a reduced picture (a preview), or is not. The mark of a sub-directory counts too, if the directory has none. -/
def Dir.Reduced (d : Dir) : Prop := ∃ v t, d.Numbers 0xfe (v :: t) ∧ v % 2 = 1
def Dir.Full (d : Dir) : Prop := d.Lacks 0xfe ∨ ∃ v t, d.Numbers 0xfe (v :: t) ∧ v % 2 = 0

/-- The compressions a picture can have: none, lossless JPEG, lossy JPEG. -/
def dngCompressions : List Nat := [1, 7, 34892]

/-- The directory of the picture is the first one, in document order, that is not reduced and has one of these compressions. All directories with
a compression have to state it as a number, and the mark too. -/
structure DngRaw (root raw : Dir) (compression : Nat) : Prop where
  sane : ∀ d, Below Dir.subdirs root d → (d.field 0x103).isSome = true → (∃ c, d.Compressed c) ∧ (d.Reduced ∨ d.Full)
  compressed : raw.Compressed compression
  listed : compression ∈ dngCompressions
  full : raw.Full
  first : ∃ path, atPath Dir.subdirs root path = some raw ∧
    ∀ before d, before < path → atPath Dir.subdirs root before = some d → d.Reduced ∨ ∀ c, d.Compressed c → c ∉ dngCompressions

/-- The letter for a colour of the pattern. -/
def patternLetter (v : Nat) : UInt8 := if v = 0 then 'R'.toNat.toUInt8 else if v = 1 then 'G'.toNat.toUInt8 else 'B'.toNat.toUInt8

/-- The borders, as top, right, bottom and left, outside of the active area, which is stored as top, left, bottom and right. -/
def DngBorders (raw : Dir) (w h : Nat) (crops : List Nat) : Prop :=
  raw.Lacks 0xc68d ∧ crops = [0, 0, 0, 0] ∨
  ∃ top left bottom right t, raw.Numbers 0xc68d (top :: left :: bottom :: right :: t) ∧ right ≤ w ∧ bottom ≤ h ∧ crops = [top, w - right, h - bottom, left]

end Spec

import Verif.Spec.TiffDir
import Verif.Spec.Tree
/-!
# Files of a camera

What the TIFF directories of a file say about the camera and its picture. Nothing here refers to the model.
-/

namespace Spec

/-- The name of a maker or of a camera: printable ASCII that neither starts nor ends with a space. -/
structure IsName (text : List UInt8) : Prop where
  printable : ∀ c ∈ text, 32 ≤ c ∧ c < 127
  first : text.head? ≠ some 32
  last : text.getLast? ≠ some 32

/-- A field of type ASCII with the text, possibly with spaces around it, up to its end or to a NUL. -/
def Field.Says (f : Field) (text : List UInt8) : Prop :=
  f.typ = 2 ∧ ∃ before after rest, (rest = [] ∨ rest.head? = some 0) ∧
    f.values = (List.replicate before 32 ++ text ++ List.replicate after 32 ++ rest).map UInt8.toNat

/-- The first field with a tag, in document order from a directory on, and its byte order. -/
def Dir.First (d : Dir) (tag : Nat) (big : Bool) (f : Field) : Prop :=
  FirstIn Dir.subdirs (fun d' => (d'.field tag).map fun f => (d'.big, f)) d (big, f)

/-- The first directory with a field, in document order. -/
def Dir.FirstWith (d : Dir) (tag : Nat) (d' : Dir) : Prop :=
  FirstIn Dir.subdirs (fun d'' => (d''.field tag).map fun _ => d'') d d'

/-- No directory has the field. -/
def Dir.Lacks (d : Dir) (tag : Nat) : Prop := NoneIn Dir.subdirs (fun d' => d'.field tag) d

/-- The first field with a tag has the integers, as BYTE, SHORT or LONG. -/
def Dir.Numbers (d : Dir) (tag : Nat) (values : List Nat) : Prop :=
  ∃ big f, d.First tag big f ∧ f.typ ∈ [1, 3, 4] ∧ f.values = values

/-- The first field with a tag has the text. -/
def Dir.Text (d : Dir) (tag : Nat) (text : List UInt8) : Prop := IsName text ∧ ∃ big f, d.First tag big f ∧ f.Says text

/-- The directory standing for a whole file: it has no fields of its own, and the chained directories below it. -/
def fileRoot (big : Bool) (dirs : List Dir) : Dir := .mk big [.pointer 0 dirs]

/-- A TIFF file naming its camera: maker, model and, if `orientation` is given, the orientation tag; and not a DNG. (The text
HEAPCCDR in the bytes 6 to 13 would make it a CIFF file.) -/
structure CameraFile (contents : List UInt8) (big : Bool) (dirs : List Dir) (make model : List UInt8) (orientation : Option Nat) :
    Prop where
  tiff : TiffFile 11 big contents dirs
  few : dirs.length ≤ 100
  notCiff : bytesAt contents 6 8 ≠ [0x48, 0x45, 0x41, 0x50, 0x43, 0x43, 0x44, 0x52]
  notDng : (fileRoot big dirs).Lacks 0xc612
  make : (fileRoot big dirs).Text 0x10f make
  model : (fileRoot big dirs).Text 0x110 model
  orientation : match orientation with
    | none => (fileRoot big dirs).Lacks 0x112
    | some o => (fileRoot big dirs).Numbers 0x112 [o]

end Spec

import Verif.Spec.Tree
import Verif.Model.Tiff
/-!
# Which format a file has

The priority of the formats, stated on the contents of the file and on what its TIFF directories say.
-/

namespace Spec
open Model

/-- The decoders. -/
inductive Kind where
  | mrw | crw | ari | x3f | dng | cr2 | arw | mef | orf | srw | erf | kdc | dcs | dcr | rw2 | raf | pef | iiq | tfr | nef | nrw | mos | nkd
  deriving DecidableEq, Repr

/-- A magic number at a position. -/
def hasMagic (contents : Bytes) (pos : Nat) (magic : Bytes) : Bool := (contents.drop pos).take magic.length == magic

/-- The formats with a magic number of their own, in the order in which they are tried. -/
def magics : List (Kind × Nat × Bytes) :=
  [(.mrw, 0, [0, 0x4d, 0x52, 0x4d]), (.crw, 6, b! "HEAPCCDR"), (.ari, 0, b! "ARRI"), (.x3f, 0, b! "FOVb")]

/-- The first of them that fits. -/
def magicKind (contents : Bytes) : Option Kind := (magics.find? fun m => hasMagic contents m.2.1 m.2.2).map (·.1)

/-- The makers of TIFF based formats. -/
def makers : List (Bytes × Kind) :=
  [(b! "SONY", .arw), (b! "Mamiya-OP Co.,Ltd.", .mef),
   (b! "OLYMPUS IMAGING CORP.", .orf), (b! "OLYMPUS CORPORATION", .orf), (b! "OLYMPUS OPTICAL CO.,LTD", .orf),
   (b! "SAMSUNG", .srw), (b! "SEIKO EPSON CORP.", .erf),
   (b! "EASTMAN KODAK COMPANY", .kdc), (b! "KODAK", .dcs), (b! "Kodak", .dcr),
   (b! "Panasonic", .rw2), (b! "LEICA", .rw2), (b! "FUJIFILM", .raf),
   (b! "PENTAX Corporation", .pef), (b! "RICOH IMAGING COMPANY, LTD.", .pef), (b! "PENTAX", .pef),
   (b! "Leaf", .iiq), (b! "Phase One A/S", .iiq), (b! "Hasselblad", .tfr),
   (b! "NIKON CORPORATION", .nef), (b! "NIKON", .nrw), (b! "Canon", .cr2)]

/-- What the directories of a TIFF file say about its format. -/
structure View where
  dng : Bool
  model : Option Bytes
  make : Option Bytes
  software : Option Bytes
  deriving DecidableEq, Repr

/-- The text under a tag, if there is one. -/
def TextUnder (t : TiffIFD) (tag : Nat) : Option Bytes → Prop
  | none => NoneIn TiffIFD.subifds (fun d => Map.get d.entries tag) t
  | some s => ∃ e, FirstIn TiffIFD.subifds (fun d => Map.get d.entries tag) t e ∧ e.getStr = .ok s

/-- The view describes the directories. Model, maker and software are only looked at if the earlier tags do not decide. -/
structure IsView (t : TiffIFD) (v : View) : Prop where
  dng : v.dng = true ↔ ∃ d e, Below TiffIFD.subifds t d ∧ Map.get d.entries 0xc612 = some e
  model : v.dng = false → TextUnder t 0x110 v.model
  make : v.dng = false → v.model ≠ some (b! "DCS560C") → TextUnder t 0x10f v.make
  software : v.dng = false → v.model ≠ some (b! "DCS560C") → v.make = none → TextUnder t 0x131 v.software

/-- The format from the directories; files with nothing to go by are taken as headerless. -/
def viewKind (v : View) : Option Kind :=
  if v.dng then some .dng
  else if v.model = some (b! "DCS560C") then some .cr2
  else match v.make with
    | some m => makers.lookup m
    | none => if v.software = some (b! "Camera Library") then some .mos else some .nkd

/-- The format of a file from its contents and, if it parses as TIFF, the view of its directories. -/
def kindOf (contents : Bytes) (v : Option View) : Option Kind :=
  match magicKind contents with
  | some k => some k
  | none =>
    match v with
    | some v => viewKind v
    | none => some .nkd

end Spec

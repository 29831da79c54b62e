import Verif.Spec.WholeFile
import Verif.Spec.Bits
import Verif.Spec.Ljpeg
/-!
# Files of Leaf

TIFF files without a maker tag, written by the program "Camera Library". An XMP text names the camera. Nothing here refers to the
model.
-/

namespace Spec

/-- The bytes are the UTF-8 encoding of characters. -/
def IsUtf8 (l : List UInt8) : Prop := ∃ cs : List Char, l = cs.flatMap String.utf8EncodeChar

/-- Spaces, tabs and line ends. -/
def IsBlank (l : List UInt8) : Prop := ∀ c ∈ l, c = 32 ∨ c = 9 ∨ c = 10 ∨ c = 13

/-- A text is at a position of another one, and at no earlier one. -/
def FirstAt (pat text : List UInt8) (pos : Nat) : Prop :=
  pat <+: text.drop pos ∧ ∀ i, i < pos → ¬ pat <+: text.drop i

/-- The first start tag and the first end tag of a name enclose the value. -/
def Tagged (text name value : List UInt8) : Prop :=
  ∃ before after, text = before ++ (0x3c :: name ++ [0x3e]) ++ value ++ ([0x3c, 0x2f] ++ name ++ [0x3e]) ++ after ∧
    FirstAt (0x3c :: name ++ [0x3e]) text before.length ∧
    FirstAt ([0x3c, 0x2f] ++ name ++ [0x3e]) text (before.length + (name.length + 2) + value.length)

/-- A field with an XMP text, possibly with blanks around it, up to its end or to a NUL. -/
def Field.Xmp (f : Field) (big : Bool) (text : List UInt8) : Prop :=
  IsUtf8 text ∧ (∀ c ∈ text, c ≠ 0) ∧ text.head? = some 0x3c ∧ text.getLast? = some 0x3e ∧
    ∃ before after rest, IsBlank before ∧ IsBlank after ∧ (rest = [] ∨ rest.head? = some 0) ∧ f.bytes big = before ++ text ++ after ++ rest

/-- `tiff:` -/
def tiffPrefix : List UInt8 := [0x74, 0x69, 0x66, 0x66, 0x3a]

/-- A file of the program "Camera Library" (the text of the software tag) whose XMP text names maker and model. After the name of the
model there may be a serial number, from an opening parenthesis on. -/
structure LeafFile (contents : List UInt8) (big : Bool) (dirs : List Dir) (make model : List UInt8) : Prop where
  tiff : TiffFile 11 big contents dirs
  few : dirs.length ≤ 100
  notCiff : bytesAt contents 6 8 ≠ [0x48, 0x45, 0x41, 0x50, 0x43, 0x43, 0x44, 0x52]
  notDng : (fileRoot big dirs).Lacks 0xc612
  noMake : (fileRoot big dirs).Lacks 0x10f
  notCanon : (fileRoot big dirs).Lacks 0x110 ∨ ∃ m, m ≠ [0x44, 0x43, 0x53, 0x35, 0x36, 0x30, 0x43] ∧ (fileRoot big dirs).Text 0x110 m
  software : (fileRoot big dirs).Text 0x131 [0x43, 0x61, 0x6d, 0x65, 0x72, 0x61, 0x20, 0x4c, 0x69, 0x62, 0x72, 0x61, 0x72, 0x79]
  xmp : ∃ big' f text serial, (fileRoot big dirs).First 0x2bc big' f ∧ f.Xmp big' text ∧
    Tagged text (tiffPrefix ++ [0x4d, 0x61, 0x6b, 0x65]) make ∧ Tagged text (tiffPrefix ++ [0x4d, 0x6f, 0x64, 0x65, 0x6c]) (model ++ serial) ∧
    (∀ c ∈ model, c ≠ 0x28) ∧ (serial = [] ∧ model ≠ [] ∨ serial.head? = some 0x28)

/-- `NeutObj_neutrals` -/
def neutralsName : List UInt8 := [0x4e, 0x65, 0x75, 0x74, 0x4f, 0x62, 0x6a, 0x5f, 0x6e, 0x65, 0x75, 0x74, 0x72, 0x61, 0x6c, 0x73]

/-- The section of the metadata with the neutral values: its name, 28 bytes, and four lines, the last one possibly without its end,
up to a NUL. -/
def Neutrals (info n0 n1 n2 n3 : List UInt8) : Prop :=
  ∃ before between last rest, info = before ++ neutralsName ++ between ++ (n0 ++ 10 :: (n1 ++ 10 :: (n2 ++ 10 :: (n3 ++ last)))) ++ 0 :: rest ∧
    between.length = 28 ∧ (last = [] ∨ last = [10]) ∧ n3 ≠ [] ∧ (∀ c ∈ n0 ++ n1 ++ n2 ++ n3, c ≠ 0 ∧ c ≠ 10 ∧ c < 0x80) ∧
    FirstAt neutralsName info before.length ∧ before.length + 70 < info.length

/-- No section with neutral values, up to the last 70 bytes. -/
def NoNeutrals (info : List UInt8) : Prop := ∀ i, i + 70 < info.length → ¬ neutralsName <+: info.drop i

/-- The row of a stored line of an interlaced picture: the even lines from the top, the odd lines from the bottom. -/
def interlacedRow (h line : Nat) : Nat := if line % 2 = 0 then line / 2 else h - 1 - line / 2

/-- The ways to store the samples: words in the byte order of the file, or lossless JPEG in strips of eight lines, the lines
interlaced for some cameras. -/
inductive LeafData (contents : List UInt8) (big interlaced : Bool) (offset : Nat) (usable : TableSpec → Nat → Prop) : Nat → Nat → Nat → (Nat → Nat → Nat) → Prop
  | words (w h : Nat) (wide : 0 < w) (room : offset + 2 * (w * h) ≤ contents.length) : LeafData contents big interlaced offset usable w h 1 fun r c =>
      if big then 256 * bytesOf contents (offset + 2 * (r * w + c)) + bytesOf contents (offset + (2 * (r * w + c) + 1))
      else bytesOf contents (offset + 2 * (r * w + c)) + 256 * bytesOf contents (offset + (2 * (r * w + c) + 1))
  | jpeg (compression w h : Nat) (img : Nat → Nat → Nat) (which : compression = 7 ∨ compression = 99)
      (precision pt fh fw : Nat) (sel sub : Nat → Nat) (pred : Nat) (tab : Nat → TableSpec) (pairs : Nat → Nat → Nat → Nat) (mark : Nat → UInt8) (tail : List UInt8)
      (deep : 12 ≤ precision ∧ precision ≤ 16) (point : pt < precision ∧ pt < 16) (frame : fh < 65536 ∧ fw ≠ 0 ∧ fw < 65536) (size : 0 < h ∧ 0 < w)
      (hsel : ∀ i, i < 2 → sel i < 256 ∧ sub i < 256) (hpred : pred < 256) (tables : ∀ i, i < 2 → usable (tab i) precision)
      (fits : ∀ r p k, pairs r p k < 65536) (marks : ∀ q, mark q ≠ 0 ∧ mark q ≠ 0xff ∧ mark q ≠ 0xd9)
      (coded : ∀ q r p k, r < min 8 (h - q * 8) → p < w → k < 2 →
        category (residual (2 ^ (precision - pt - 1)) (fun r => pairs (q * 8 + r)) r p k) ∈ (tab k).vals)
      (data : contents.drop offset = encodeLeaf precision pt fh fw h w sel sub pred tab pairs mark ++ tail)
      (lines : ∀ line c, line < h → c < w * 2 → img (if interlaced then interlacedRow h line else line) c = pairs line (c / 2) (c % 2)) :
      LeafData contents big interlaced offset usable (w * 2) h compression img

end Spec

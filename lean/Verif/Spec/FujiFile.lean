import Verif.Spec.WholeFile
import Verif.Spec.Bits
/-!
# Files of Fuji

A file starts with `FUJIFILM`. At 84 is the position of a JPEG picture, twelve bytes into which the TIFF directories about the
shot start; at 92 that of a table of Fuji's own; at 100 that of a second set of TIFF directories about the raw picture or, in
files of older cameras, of the raw data itself. All of these positions are big endian. Nothing here refers to the model.
-/

namespace Spec

/-! ## The table -/

/-- Records of a tag, a length and that many bytes, one after the other. -/
def FujiTableAt (contents : List UInt8) : Nat → List (Nat × List UInt8) → Prop
  | _, [] => True
  | pos, (tag, bytes) :: rest => tag < 65536 ∧ bytes.length < 65532 ∧ bytesAt contents pos 2 = encode true 2 tag ∧
    bytesAt contents (pos + 2) 2 = encode true 2 bytes.length ∧ bytesAt contents (pos + 4) bytes.length = bytes ∧
    FujiTableAt contents (pos + 4 + bytes.length) rest

/-- The number in two bytes of a record. -/
def fujiShort (bytes : List UInt8) (i : Nat) : Nat := number true (bytesAt bytes (2 * i) 2)

/-- The records with a meaning: 0x100 has the height and the width, 0x2ff0 four levels. -/
def fujiField : Nat × List UInt8 → Option Field
  | (tag, bytes) =>
    if tag = 0x100 then some ⟨0x100, 3, [fujiShort bytes 0, fujiShort bytes 1]⟩
    else if tag = 0x2ff0 then some ⟨0x2ff0, 3, [fujiShort bytes 0, fujiShort bytes 1, fujiShort bytes 2, fujiShort bytes 3]⟩
    else none

/-- The table as a directory. -/
def fujiTable (table : List (Nat × List UInt8)) : Dir := .mk true ((table.filterMap fujiField).map .plain)

/-- The table is stored at `pos`, after the number of its records. The records with a meaning have room for their numbers. -/
structure FujiTableIn (contents : List UInt8) (pos : Nat) (table : List (Nat × List UInt8)) : Prop where
  few : table.length ≤ 4000
  number : bytesAt contents pos 4 = encode true 4 table.length
  records : FujiTableAt contents (pos + 4) table
  size : ∀ e ∈ table, e.1 = 0x100 → 4 ≤ e.2.length
  levels : ∀ e ∈ table, e.1 = 0x2ff0 → 8 ≤ e.2.length

/-! ## The file -/

/-- What the file has at the position at 100: further directories, or the raw data. -/
inductive FujiSecond where
  | part (offset : Nat) (big : Bool) (dirs : List Dir)
  | data (offset : Nat)

def FujiSecond.offset : FujiSecond → Nat
  | .part o _ _ => o
  | .data o => o

/-- The second part is stored. Raw data does not start with a mark of the byte order. -/
def FujiSecond.StoredIn (contents : List UInt8) : FujiSecond → Prop
  | .part o big dirs => o ≤ contents.length ∧ dirs.length ≤ 100 ∧ TiffFile 11 big (contents.drop o) dirs
  | .data o => o + 2 ≤ contents.length ∧ ∀ big, bytesAt contents o 2 ≠ orderMark big

structure FujiFile (contents : List UInt8) (big : Bool) (dirs : List Dir) (second : FujiSecond) (table : List (Nat × List UInt8)) : Prop where
  name : bytesAt contents 0 8 = [0x46, 0x55, 0x4a, 0x49, 0x46, 0x49, 0x4c, 0x4d]
  first : ∃ p, p + 12 < 4294967296 ∧ p + 12 ≤ contents.length ∧ bytesAt contents 84 4 = encode true 4 p ∧
    TiffFile 11 big (contents.drop (p + 12)) dirs
  few : dirs.length ≤ 100
  table : ∃ p, p < 4294967296 ∧ bytesAt contents 92 4 = encode true 4 p ∧ FujiTableIn contents p table
  small : second.offset < 4294967296
  place : bytesAt contents 100 4 = encode true 4 second.offset
  second : second.StoredIn contents

/-- The directories of the file: those about the shot, those of the second part, and the table. -/
def fujiTree (big : Bool) (dirs : List Dir) (second : FujiSecond) (table : List (Nat × List UInt8)) : Dir :=
  match second with
  | .part _ big' dirs' => .mk big [.pointer 0 [fileRoot big dirs, fileRoot big' dirs', fujiTable table]]
  | .data _ => .mk big [.pointer 0 [fileRoot big dirs, fujiTable table]]

/-- A file of a camera: with the name of the model and, if stated, the orientation, and not a DNG file. -/
structure FujiCamera (contents : List UInt8) (big : Bool) (dirs : List Dir) (second : FujiSecond) (table : List (Nat × List UInt8)) (model : List UInt8)
    (orientation : Option Nat) : Prop where
  file : FujiFile contents big dirs second table
  notDng : (fujiTree big dirs second table).Lacks 0xc612
  make : (fujiTree big dirs second table).Text 0x10f [0x46, 0x55, 0x4a, 0x49, 0x46, 0x49, 0x4c, 0x4d]
  model : (fujiTree big dirs second table).Text 0x110 model
  orientation : match orientation with
    | none => (fujiTree big dirs second table).Lacks 0x112
    | some o => (fujiTree big dirs second table).Numbers 0x112 [o]

/-- The directory about the raw picture, and the position of its data: the first directory of the second part with field 0xf007,
where it gives the position, counted from the start of that part. Without directories in the second part, the whole file is about
the raw picture. -/
def FujiRaw (big : Bool) (dirs : List Dir) (second : FujiSecond) (table : List (Nat × List UInt8)) (raw : Dir) (place : Nat) : Prop :=
  match second with
  | .part o big' dirs' => (fileRoot big dirs).Lacks 0xf007 ∧
    ∃ start v t, FirstIn Dir.subdirsFrom (fun sd => (sd.2.field 0xf007).map fun _ => sd) (o, fileRoot big' dirs') (start, raw) ∧
      raw.Numbers 0xf007 (v :: t) ∧ place = start + v
  | .data o => raw = fujiTree big dirs (.data o) table ∧ place = o

/-! ## The picture -/

/-- Its width and height. -/
def FujiSize (raw : Dir) (w h : Nat) : Prop :=
  (∃ t t', raw.Numbers 0xf001 (w :: t) ∧ raw.Numbers 0xf002 (h :: t')) ∨ (raw.Lacks 0xf001 ∧ ∃ t, raw.Numbers 0x100 (h :: w :: t))

/-- The number of bits of a sample: 16 unless stated. -/
def FujiBits (raw : Dir) (bits : Nat) : Prop := (∃ t, raw.Numbers 0xf003 (bits :: t)) ∨ (raw.Lacks 0xf003 ∧ bits = 16)

/-- The levels of red, green and blue of the light. -/
def FujiLevels (tree : Dir) (r g b : Nat) : Prop :=
  (∃ t, tree.Numbers 0xf00e (g :: r :: b :: t)) ∨ (tree.Lacks 0xf00e ∧ ∃ x t, tree.Numbers 0x2ff0 (g :: r :: x :: b :: t))

/-- Ways to store the samples: little endian words in rows of twice the width, of which the first half is used; twelve bits,
in words of 32 bits; twelve bits; fourteen bits in a word; sixteen bits in either byte order. -/
inductive FujiPacking where
  | doubled
  | words
  | twelve
  | fourteen
  | sixteen (big : Bool)

/-- The bytes needed. -/
def FujiPacking.room (w h : Nat) : FujiPacking → Nat
  | .doubled => 4 * (w * h)
  | .words => w * h * 12 / 8
  | .twelve => w * h * 12 / 8
  | .fourteen => 2 * (w * h)
  | .sixteen _ => 2 * (w * h)

/-- The sizes the packing is for. -/
def FujiPacking.Suits (w h : Nat) : FujiPacking → Prop
  | .words => w * h % 8 = 0
  | .twelve => w % 2 = 0
  | _ => True

/-- A sample. -/
def FujiPacking.sample (bytes : Nat → Nat) (w r c : Nat) : FujiPacking → Nat
  | .doubled => bytes (2 * (2 * w * r + c)) + 256 * bytes (2 * (2 * w * r + c) + 1)
  | .words => fieldMSB (swap32 bytes) (12 * (r * w + c)) 12
  | .twelve => fieldLSB bytes (12 * (r * w + c)) 12
  | .fourteen => (bytes (2 * (r * w + c)) + 256 * bytes (2 * (r * w + c) + 1)) % 16384
  | .sixteen false => bytes (2 * (r * w + c)) + 256 * bytes (2 * (r * w + c) + 1)
  | .sixteen true => 256 * bytes (2 * (r * w + c)) + bytes (2 * (r * w + c) + 1)

/-- The packing for cameras of the two special kinds, and otherwise for a number of bits and a byte order. -/
def fujiPacking (double jpeg32 : Bool) (bits : Nat) (big : Bool) : Option FujiPacking :=
  if double then some .doubled else if jpeg32 then some .words
  else if bits = 12 then some .twelve else if bits = 14 then some .fourteen else if bits = 16 then some (.sixteen big) else none

end Spec

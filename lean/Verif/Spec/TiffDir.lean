import Verif.Spec.Tiff
/-!
# TIFF directories

The layout of a file of directories, from the TIFF 6.0 specification (section 2): a header with the byte order and the position
of the first directory, directories of twelve byte fields followed by the position of the next one, and fields whose values are
the positions of further directories. Maker notes, whose layout depends on the camera maker, follow the list in `NoteAt`. Nothing
here refers to the model.
-/

namespace Spec

mutual
  /-- A directory: its byte order and its fields, in the order in which they are stored. -/
  inductive Dir where
    | mk (big : Bool) (items : List Item)
  /-- A field of a directory: an ordinary one, one giving the positions of directories, or a maker note holding a directory. -/
  inductive Item where
    | plain (f : Field)
    | pointer (tag : Nat) (dirs : List Dir)
    | note (dir : Dir)
end

/-- The byte order of a directory. -/
def Dir.big : Dir → Bool | .mk b _ => b

/-- The fields of a directory. -/
def Dir.items : Dir → List Item | .mk _ l => l

/-- The directories a field leads to. -/
def Item.dirs : Item → List Dir
  | .plain _ => []
  | .pointer _ ds => ds
  | .note d => [d]

/-- The ordinary field, if it is one. -/
def Item.plain? : Item → Option Field
  | .plain f => some f
  | _ => none

/-- All sub-directories, in the order of the fields. -/
def Dir.subdirs (d : Dir) : List Dir := d.items.flatMap Item.dirs

/-- The last ordinary field with a tag. (A well-formed directory has each tag once.) -/
def Dir.field (d : Dir) (tag : Nat) : Option Field := (d.items.filterMap Item.plain?).reverse.find? fun f => f.tag == tag

/-- The directories a field leads to, each with the position in the file its values are counted from when they are positions of
picture data: that of the directory with the field, but the start of the file for a maker note. -/
def Item.dirsFrom (start : Nat) : Item → List (Nat × Dir)
  | .plain _ => []
  | .pointer _ ds => ds.map fun d => (start, d)
  | .note d => [(0, d)]

/-- All sub-directories of a directory that counts from `start`, in the order of the fields. -/
def Dir.subdirsFrom (sd : Nat × Dir) : List (Nat × Dir) := sd.2.items.flatMap (Item.dirsFrom sd.1)

/-- SubIFDs, the Exif directory, and the private directories of Fuji and Kodak. -/
def subdirTags : List Nat := [0x14A, 0x8769, 0xF000, 0x8290, 0xFE00]

/-- MakerNote -/
def noteTag : Nat := 0x927C

/-- The mark of a byte order: `MM` for big endian, `II` for little endian. -/
def orderMark (big : Bool) : List UInt8 := if big then [0x4d, 0x4d] else [0x49, 0x49]

/-- Texts before the directory of a maker note whose offsets count from the start of the file, and the number of bytes to the
directory: none, `OLYMPUS`, `OLYMP`, `EPSON` and `AOC`. -/
def noteHeads : List (List UInt8 × Nat) :=
  [([], 0), ([0x4f, 0x4c, 0x59, 0x4d, 0x50, 0x55, 0x53], 12), ([0x4f, 0x4c, 0x59, 0x4d, 0x50, 0], 8),
   ([0x45, 0x50, 0x53, 0x4f, 0x4e], 8), ([0x41, 0x4f, 0x43, 0], 4)]

/-- The layouts of a maker note at `pos`: the buffer from whose start offsets count, the position of the directory in it, and its
byte order. -/
inductive NoteAt (big : Bool) (buf : List UInt8) (pos : Nat) : List UInt8 → Nat → Bool → Prop
  /-- one of the texts, then the directory in the byte order of the file -/
  | headed (head : List UInt8) (skip : Nat) (hh : (head, skip) ∈ noteHeads) (hb : bytesAt buf pos head.length = head) :
    NoteAt big buf pos buf (pos + skip) big
  /-- one of the texts, a mark of the byte order and then the directory -/
  | marked (head : List UInt8) (skip : Nat) (big' : Bool) (hh : (head, skip) ∈ noteHeads) (hb : bytesAt buf pos head.length = head)
    (hm : bytesAt buf (pos + skip) 2 = orderMark big') : NoteAt big buf pos buf (pos + skip + 2) big'
  /-- `PENTAX`: offsets count from the start of the note -/
  | pentax (big' : Bool) (hb : bytesAt buf pos 6 = [0x50, 0x45, 0x4e, 0x54, 0x41, 0x58])
    (hm : bytesAt buf (pos + 8) 2 = orderMark big') : NoteAt big buf pos (buf.drop pos) 10 big'
  /-- `Nikon`: a header of ten bytes and then a file of its own, with its first directory at 8 -/
  | nikon (big' : Bool) (hb : bytesAt buf pos 7 = [0x4e, 0x69, 0x6b, 0x6f, 0x6e, 0, 2])
    (hm : bytesAt buf (pos + 10) 2 = orderMark big') : NoteAt big buf pos (buf.drop (pos + 10)) 8 big'

/-- The directory, with at most `levels` levels, is stored at `pos`: the number of fields, the fields of twelve bytes, and the
position of the next directory. Pointer fields have type LONG or IFD and the positions as values. -/
def Dir.StoredAt : (levels : Nat) → List UInt8 → Nat → Dir → (next : Nat) → Prop
  | 0, _, _, _, _ => False
  | n + 1, buf, pos, .mk big items, next =>
    items.length ≤ 4000 ∧ pos + 2 + 12 * items.length + 4 ≤ buf.length ∧ next < 4294967296 ∧
    bytesAt buf pos 2 = encode big 2 items.length ∧
    bytesAt buf (pos + 2 + 12 * items.length) 4 = encode big 4 next ∧
    ∀ (i : Nat) (it : Item), items[i]? = some it →
      match it with
      | .plain f => f.StoredAt big buf (pos + 2 + 12 * i) ∧ f.tag ∉ subdirTags ∧ f.tag ≠ noteTag
      | .pointer tag ds => tag ∈ subdirTags ∧ ∃ typ offs, typ ∈ [4, 13] ∧ offs.length = ds.length ∧
          (Field.mk tag typ offs).StoredAt big buf (pos + 2 + 12 * i) ∧
          ∀ (k o : Nat) (d : Dir), offs[k]? = some o → ds[k]? = some d → d.big = big ∧ ∃ next', d.StoredAt n buf o next'
      | .note d => ∃ f : Field, f.tag = noteTag ∧ 4 < (f.bytes big).length ∧ f.StoredAt big buf (pos + 2 + 12 * i) ∧
          ∃ o buf' pos', bytesAt buf (pos + 2 + 12 * i + 8) 4 = encode big 4 o ∧ o < 4294967296 ∧ o + 12 ≤ buf.length ∧
            NoteAt big buf o buf' pos' d.big ∧ ∃ next', d.StoredAt n buf' pos' next'

/-- The directories are chained from `pos` on. -/
def ChainedAt (levels : Nat) (big : Bool) (buf : List UInt8) : Nat → List Dir → Prop
  | _, [] => False
  | pos, d :: rest => d.big = big ∧
    match rest with
    | [] => d.StoredAt levels buf pos 0
    | _ :: _ => ∃ next, next ≠ 0 ∧ d.StoredAt levels buf pos next ∧ ChainedAt levels big buf next rest

/-- A file: the mark of the byte order, two bytes for the version, and the position of the first directory. -/
structure TiffFile (levels : Nat) (big : Bool) (buf : List UInt8) (dirs : List Dir) : Prop where
  room : 8 ≤ buf.length
  mark : bytesAt buf 0 2 = orderMark big
  first : ∃ pos, pos < 4294967296 ∧ bytesAt buf 4 4 = encode big 4 pos ∧ ChainedAt levels big buf pos dirs

/-- Where the values of a field stored at `pos` are: in the field, or at the position it gives. -/
def Field.place (f : Field) (big : Bool) (buf : List UInt8) (pos : Nat) : Nat :=
  if (f.bytes big).length ≤ 4 then pos + 8 else number big (bytesAt buf (pos + 8) 4)

/-- `Dir.StoredAt`, where every ordinary field with its values at `place`, in a directory at `pos`, satisfies `R pos f place`. -/
def Dir.StoredWith (R : Nat → Field → Nat → Prop) : (levels : Nat) → List UInt8 → Nat → Dir → (next : Nat) → Prop
  | 0, _, _, _, _ => False
  | n + 1, buf, pos, .mk big items, next =>
    items.length ≤ 4000 ∧ pos + 2 + 12 * items.length + 4 ≤ buf.length ∧ next < 4294967296 ∧
    bytesAt buf pos 2 = encode big 2 items.length ∧
    bytesAt buf (pos + 2 + 12 * items.length) 4 = encode big 4 next ∧
    ∀ (i : Nat) (it : Item), items[i]? = some it →
      match it with
      | .plain f => (f.StoredAt big buf (pos + 2 + 12 * i) ∧ f.tag ∉ subdirTags ∧ f.tag ≠ noteTag) ∧
          R pos f (f.place big buf (pos + 2 + 12 * i))
      | .pointer tag ds => tag ∈ subdirTags ∧ ∃ typ offs, typ ∈ [4, 13] ∧ offs.length = ds.length ∧
          (Field.mk tag typ offs).StoredAt big buf (pos + 2 + 12 * i) ∧
          ∀ (k o : Nat) (d : Dir), offs[k]? = some o → ds[k]? = some d → d.big = big ∧ ∃ next', d.StoredWith R n buf o next'
      | .note d => ∃ f : Field, f.tag = noteTag ∧ 4 < (f.bytes big).length ∧ f.StoredAt big buf (pos + 2 + 12 * i) ∧
          ∃ o buf' pos', bytesAt buf (pos + 2 + 12 * i + 8) 4 = encode big 4 o ∧ o < 4294967296 ∧ o + 12 ≤ buf.length ∧
            NoteAt big buf o buf' pos' d.big ∧ ∃ next', d.StoredWith R n buf' pos' next'

/-- `ChainedAt`, where every ordinary field satisfies `R`. -/
def ChainedWith (R : Nat → Field → Nat → Prop) (levels : Nat) (big : Bool) (buf : List UInt8) : Nat → List Dir → Prop
  | _, [] => False
  | pos, d :: rest => d.big = big ∧
    match rest with
    | [] => d.StoredWith R levels buf pos 0
    | _ :: _ => ∃ next, next ≠ 0 ∧ d.StoredWith R levels buf pos next ∧ ChainedWith R levels big buf next rest

/-- `TiffFile`, where every ordinary field satisfies `R`. -/
structure TiffFileWith (R : Nat → Field → Nat → Prop) (levels : Nat) (big : Bool) (buf : List UInt8) (dirs : List Dir) : Prop where
  room : 8 ≤ buf.length
  mark : bytesAt buf 0 2 = orderMark big
  first : ∃ pos, pos < 4294967296 ∧ bytesAt buf 4 4 = encode big 4 pos ∧ ChainedWith R levels big buf pos dirs

/-- A directory of ordinary fields in a buffer taken out of a file from `base` on, when positions still count from the start of
the file. -/
structure PlainDirAt (base : Nat) (big : Bool) (buf : List UInt8) (pos : Nat) (fields : List Field) : Prop where
  few : fields.length ≤ 4000
  room : pos + 2 + 12 * fields.length + 4 ≤ buf.length
  count : bytesAt buf pos 2 = encode big 2 fields.length
  stored : ∀ (i : Nat) (f : Field), fields[i]? = some f → f.StoredFrom base big buf (pos + 2 + 12 * i) ∧ f.tag ∉ subdirTags ∧ f.tag ≠ noteTag

end Spec

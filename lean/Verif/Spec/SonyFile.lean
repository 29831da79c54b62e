import Verif.Spec.Sony
import Verif.Spec.WholeFile
/-!
# Files of Sony

Where a file of Sony keeps its white balance: the private area of a DNG gives the position of a directory (little endian), that
one the position, the length and the key of an encrypted directory, and that one the levels. Nothing here refers to the model.
-/

namespace Spec

/-- The first field with a tag has the levels, as SHORT or as SSHORT. -/
def Dir.Levels (d : Dir) (tag : Nat) (values : List Nat) : Prop :=
  ∃ big f, d.First tag big f ∧ (f.typ = 3 ∨ f.typ = 8 ∧ ∀ v ∈ values, v < 32768) ∧ f.values = values

/-- The bytes from `pos` on are the block, encrypted with the key. -/
def EncryptedAt (contents : List UInt8) (pos key : Nat) (block : List UInt8) : Prop :=
  ∀ i x, block[i]? = some x → contents[pos + i]? = some (x ^^^ sonyByte key i)

/-- The white balance of a file of Sony. The levels are stored as green, red, blue, green or, if that field is missing, as red,
green, green, blue. Positions in the encrypted directory count from the start of the file. -/
structure SonyWhite (contents : List UInt8) (root : Dir) (red green blue : Nat) : Prop where
  stored : ∃ (big : Bool) (f : Field) (rest : List UInt8) (area : Nat) (d : Dir) (next pos length key : Nat) (block : List UInt8) (fields : List Field),
    root.First 0xc634 big f ∧ f.bytes big = encode big 4 area ++ rest ∧ area < 4294967296 ∧
    d.big = false ∧ d.StoredAt 11 contents area next ∧ d.Numbers 0x7200 [pos] ∧ d.Numbers 0x7201 [length] ∧ d.Numbers 0x7221 [key] ∧
    block.length = length ∧ EncryptedAt contents pos key block ∧ PlainDirAt pos false block 0 fields ∧
    ((∃ green', (Dir.mk false (fields.map .plain)).Levels 0x7303 [green, red, blue, green']) ∨
     (Dir.mk false (fields.map .plain)).Lacks 0x7303 ∧ ∃ green', (Dir.mk false (fields.map .plain)).Levels 0x7313 [red, green, green', blue])

/-- The picture in a file of the oldest cameras, at fixed positions: a byte that says which of the words after it is the first
key, a head of forty bytes encrypted with that key and holding the second key, and 16-bit words, big endian, encrypted with the second key. -/
structure SrfPicture (contents : List UInt8) (w ht : Nat) (img : Nat → Nat → Nat) : Prop where
  stored : ∃ (n : UInt8) (key1 key2 : Nat) (head data : List UInt8),
    contents[200896]? = some n ∧ key1 < 4294967296 ∧ bytesAt contents (200896 + 4 * n.toNat) 4 = encode true 4 key1 ∧
    head.length = 40 ∧ EncryptedAt contents 164600 key1 head ∧ key2 < 4294967296 ∧ bytesAt head 22 4 = encode false 4 key2 ∧
    data.length = 2 * (w * ht) ∧ EncryptedAt contents 862144 key2 data ∧
    ∀ r c, r < ht → c < w → img r c < 65536 ∧ bytesAt data (2 * (r * w + c)) 2 = encode true 2 (img r c)

end Spec

import Verif.Spec.Nef
import Verif.Spec.WholeFile
/-!
# Files of Nikon

Where a file of Nikon keeps its white balance, and the cipher of the newer versions. Nothing here refers to the model.
-/

namespace Spec

/-! ## The cipher -/

/-- What the last byte of the serial number selects. -/
def nikonSerialTable : List Nat :=
  [193, 191, 109, 13, 89, 197, 19, 157, 131, 97, 107, 79, 199, 127, 61, 61, 83, 89, 227, 199, 233, 47, 149, 167, 149, 31,
   223, 127, 43, 41, 199, 13, 223, 7, 239, 113, 137, 61, 19, 61, 59, 19, 251, 13, 137, 193, 101, 31, 179, 13, 107, 41, 227,
   251, 239, 163, 107, 71, 127, 149, 53, 167, 71, 79, 199, 241, 89, 149, 53, 17, 41, 97, 241, 61, 179, 43, 13, 67, 137, 193,
   157, 157, 137, 101, 241, 233, 223, 191, 61, 127, 83, 151, 229, 233, 149, 23, 29, 61, 139, 251, 199, 227, 103, 167, 7,
   241, 113, 167, 83, 181, 41, 137, 229, 43, 167, 23, 41, 233, 79, 197, 101, 109, 107, 239, 13, 137, 73, 47, 179, 67, 83,
   101, 29, 73, 163, 19, 137, 89, 239, 107, 239, 101, 29, 11, 89, 19, 227, 79, 157, 179, 41, 67, 43, 7, 29, 149, 89, 89, 71,
   251, 229, 233, 97, 71, 47, 53, 127, 23, 127, 239, 127, 149, 149, 113, 211, 163, 11, 113, 163, 173, 11, 59, 181, 251, 163,
   191, 79, 131, 29, 173, 233, 47, 113, 101, 163, 229, 7, 53, 61, 13, 181, 233, 229, 71, 59, 157, 239, 53, 163, 191, 179,
   223, 83, 211, 151, 83, 73, 113, 7, 53, 97, 113, 47, 67, 47, 17, 223, 23, 151, 251, 149, 59, 127, 107, 211, 37, 191, 173,
   199, 197, 197, 181, 139, 239, 47, 211, 7, 107, 37, 73, 149, 37, 73, 109, 113, 199]

/-- What the key selects. -/
def nikonKeyTable : List Nat :=
  [167, 188, 201, 173, 145, 223, 133, 229, 212, 120, 213, 23, 70, 124, 41, 76, 77, 3, 233, 37, 104, 17, 134, 179, 189, 247,
   111, 97, 34, 162, 38, 52, 42, 190, 30, 70, 20, 104, 157, 68, 24, 194, 64, 244, 126, 95, 27, 173, 11, 148, 182, 103, 180,
   11, 225, 234, 149, 156, 102, 220, 231, 93, 108, 5, 218, 213, 223, 122, 239, 246, 219, 31, 130, 76, 192, 104, 71, 161,
   189, 238, 57, 80, 86, 74, 221, 223, 165, 248, 198, 218, 202, 144, 202, 1, 66, 157, 139, 12, 115, 67, 117, 5, 148, 222,
   36, 179, 128, 52, 229, 44, 220, 155, 63, 202, 51, 69, 208, 219, 95, 245, 82, 195, 33, 218, 226, 34, 114, 107, 62, 208,
   91, 168, 135, 140, 6, 93, 15, 221, 9, 25, 147, 208, 185, 252, 139, 15, 132, 96, 51, 28, 155, 69, 241, 240, 163, 148, 58,
   18, 119, 51, 77, 68, 120, 40, 60, 158, 253, 101, 87, 22, 148, 107, 251, 89, 208, 200, 34, 54, 219, 210, 99, 152, 67, 161,
   4, 135, 134, 247, 166, 38, 187, 214, 89, 77, 191, 106, 46, 170, 43, 239, 230, 120, 182, 78, 224, 47, 220, 124, 190, 87,
   25, 50, 126, 42, 208, 184, 186, 41, 0, 60, 82, 125, 168, 73, 59, 45, 235, 37, 73, 250, 163, 170, 57, 167, 197, 167, 80,
   17, 54, 251, 198, 103, 74, 245, 165, 18, 101, 126, 176, 223, 175, 78, 179, 97, 127, 47]

/-- What a character of the serial number counts: a digit as itself, another character as the last digit of its code. -/
def serialDigit (c : UInt8) : Nat := if 48 ≤ c.toNat ∧ c.toNat ≤ 57 then c.toNat - 48 else c.toNat % 10

/-- The serial number that a text ending at a NUL stands for. -/
def serialNumber (text : List UInt8) : Nat := (text.takeWhile (· ≠ 0)).foldl (fun n c => n * 10 + serialDigit c) 0

/-- Byte `i` of the key stream: the two table entries `k` and `s` give k + s * (96 + 97 + ... + (96 + i)). -/
def nikonByte (serial key i : Nat) : UInt8 :=
  UInt8.ofNat (nikonKeyTable.getD (key % 256) 0 + nikonSerialTable.getD (serial % 256) 0 * ((i + 1) * 96 + i * (i + 1) / 2))

/-- The bytes from `pos` on are the block, encrypted. -/
def NikonEncryptedAt (data : List UInt8) (pos serial key : Nat) (block : List UInt8) : Prop :=
  ∀ i x, block[i]? = some x → data[pos + i]? = some (x ^^^ nikonByte serial key i)

/-! ## White balance -/

/-- The older cameras: the ratios of red and blue to green as fractions. -/
def NikonRatios (root : Dir) (rn rd bn bd : Nat) : Prop :=
  rn < 4294967296 ∧ rd < 4294967296 ∧ bn < 4294967296 ∧ bd < 4294967296 ∧
  ∃ big f rest, root.First 0x0c big f ∧ f.typ = 5 ∧ f.values = pairNumber big rn rd :: pairNumber big bn bd :: rest

/-- The versions of the encrypted block of 280 bytes: the text of the version, the position of the block, and the position of the levels in it. -/
def nikonVersions : List (List UInt8 × Nat × Nat) := [([0x30, 0x32, 0x30, 0x34], 284, 6), ([0x30, 0x32, 0x30, 0x35], 4, 14)]

/-- The levels in the field of the maker note, behind the text of a version: red, blue and green in version 0100, red, green and blue in 0103, and red, green, green again
and blue in an encrypted block. -/
inductive NikonLevels (root : Dir) (big : Bool) (data : List UInt8) (red green blue : Nat) : Prop
  | v100 (hv : data.take 4 = [0x30, 0x31, 0x30, 0x30]) (hr : bytesAt data 72 2 = encode big 2 red) (hb : bytesAt data 74 2 = encode big 2 blue)
    (hg : bytesAt data 76 2 = encode big 2 green)
  | v103 (hv : data.take 4 = [0x30, 0x31, 0x30, 0x33]) (hr : bytesAt data 20 2 = encode big 2 red) (hg : bytesAt data 22 2 = encode big 2 green)
    (hb : bytesAt data 24 2 = encode big 2 blue)
  | encrypted (version : List UInt8) (pos at_ : Nat) (hk : (version, pos, at_) ∈ nikonVersions) (hv : data.take 4 = version)
    (sbig kbig : Bool) (serial key : Field) (hs : root.First 0x1d sbig serial) (ht : serial.typ ∈ [1, 2, 7]) (hfit : serialNumber (serial.bytes sbig) < 2 ^ 64)
    (hkey : root.First 0xa7 kbig key) (k0 k1 k2 k3 : UInt8) (rest : List UInt8) (hkb : key.bytes kbig = k0 :: k1 :: k2 :: k3 :: rest)
    (block : List UInt8) (hlen : block.length = 280)
    (henc : NikonEncryptedAt data pos (serialNumber (serial.bytes sbig)) (k0 ^^^ k1 ^^^ k2 ^^^ k3).toNat block)
    (hr : bytesAt block at_ 2 = encode true 2 red) (hg : bytesAt block (at_ + 2) 2 = encode true 2 green) (hb : bytesAt block (at_ + 6) 2 = encode true 2 blue)

/-- The newer cameras: levels. -/
def NikonWhite (root : Dir) (red green blue : Nat) : Prop :=
  red < 65536 ∧ green < 65536 ∧ blue < 65536 ∧ root.Lacks 0x0c ∧ ∃ big f, root.First 0x97 big f ∧ NikonLevels root big (f.bytes big) red green blue

/-! ## The picture -/

/-- What the directories say: the first directory with a colour pattern has the size of the picture, the number of bits of a sample, the compression, and the position and
the length of the strip. -/
structure NikonStrip (root raw : Dir) (w ht bits compression offset size : Nat) : Prop where
  first : root.FirstWith 0x828e raw
  width : raw.Numbers 0x100 [w]
  height : raw.Numbers 0x101 [ht]
  bits : raw.Numbers 0x102 [bits]
  compression : raw.Numbers 0x103 [compression]
  position : raw.Numbers 0x111 [offset]
  length : raw.Numbers 0x117 [size]

/-- The maker note has the meta data of the compression, in the first directory with the field 0x8c; there in the field 0x96, or in 0x8c if that is missing. -/
structure NikonMeta (root : Dir) (m : NefMeta) (d : Dir) : Prop where
  first : root.FirstWith 0x8c d
  field : ∃ big f, (d.First 0x96 big f ∨ d.Lacks 0x96 ∧ d.First 0x8c big f) ∧ f.bytes big = m.bytes d.big

end Spec

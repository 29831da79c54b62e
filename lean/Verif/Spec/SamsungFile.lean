import Verif.Spec.WholeFile
import Verif.Spec.Bits
import Verif.Spec.Srw
import Verif.Spec.Srw1
import Verif.Spec.Srw3
/-!
# Files of Samsung

TIFF files whose maker note gives the levels of the light, and black levels to take from them, in fields whose positions count
from the directory of the maker note. Nothing here refers to the model.
-/

namespace Spec

/-- A field of four numbers whose values are at `place`, counted from the directory at `pos`. -/
def SamsungFour (contents : List UInt8) (tag : Nat) (big : Bool) (values : List Nat) (pos : Nat) (f : Field) (place : Nat) : Prop :=
  f.tag = tag → bytesAt contents (pos + place) 16 = (Field.mk tag 4 values).bytes big

/-- The levels and the black levels of red, green, green and blue. The values at the place that the positions give when counted
from the start of the file, as TIFF would have it, are of no interest. -/
def SamsungLevels (contents : List UInt8) (big : Bool) (dirs : List Dir) (levels blacks : List Nat) : Prop :=
  levels.length = 4 ∧ blacks.length = 4 ∧ (∀ v ∈ levels ++ blacks, v < 4294967296) ∧ ∃ big1 f1 big2 f2,
    (fileRoot big dirs).First 0xa021 big1 f1 ∧ f1.typ = 4 ∧ f1.values.length = 4 ∧
    (fileRoot big dirs).First 0xa028 big2 f2 ∧ f2.typ = 4 ∧ f2.values.length = 4 ∧
    TiffFileWith (fun pos f place => SamsungFour contents 0xa021 big1 levels pos f place ∧ SamsungFour contents 0xa028 big2 blacks pos f place) 11 big contents dirs

/-- The ways to store the samples, with the compression and the number of bits stated in the directory: words of twelve or
fourteen bits; twelve bits, in the bit order of the camera; and three ways to compress them. -/
inductive SamsungData (contents : List UInt8) (little : Bool) (raw : Dir) (offset w h : Nat) : Nat → Nat → (Nat → Nat → Nat) → Prop
  | words12 (room : offset + 2 * (w * h) ≤ contents.length) : SamsungData contents little raw offset w h 32769 12 fun r c =>
      (bytesOf contents (offset + 2 * (r * w + c)) + 256 * bytesOf contents (offset + (2 * (r * w + c) + 1))) % 4096
  | words14 (compression : Nat) (which : compression = 32769 ∨ compression = 32770 ∧ raw.Lacks 0xa010) (room : offset + 2 * (w * h) ≤ contents.length) :
      SamsungData contents little raw offset w h compression 14 fun r c =>
        (bytesOf contents (offset + 2 * (r * w + c)) + 256 * bytesOf contents (offset + (2 * (r * w + c) + 1))) % 16384
  | little (lacks : raw.Lacks 0xa010) (order : little = true) (even : w % 2 = 0) (room : offset + w * h * 12 / 8 ≤ contents.length) :
      SamsungData contents little raw offset w h 32770 12 fun r c => fieldLSB (fun i => bytesOf contents (offset + i)) (12 * (r * w + c)) 12
  | big (lacks : raw.Lacks 0xa010) (order : little = false) (even : w % 2 = 0) (room : offset + w * h * 12 / 8 ≤ contents.length) :
      SamsungData contents little raw offset w h 32770 12 fun r c => fieldMSB (fun i => bytesOf contents (offset + i)) (12 * (r * w + c)) 12
  | first (bits : Nat) (img : Nat → Nat → Nat) (junk : Nat → Nat → Int) (ch : Nat → Nat → Srw1Group) (pad : Nat → List UInt8) (tail tail' : List UInt8) (place : Nat)
      (t : List Nat) (area : raw.Numbers 0xa010 (place :: t)) (inside : place ≤ contents.length) (wide : 16 ≤ w) (even : w % 2 = 0) (lines : h % 2 = 0)
      (fits : ∀ r c, r < h → c < w → img r c < 65536) (legal : ∀ r, r < h → Srw1Legal w (srw1Stored img) junk (ch r) r)
      (aligned : ∀ r, r < h → ((packBits (srw1Line w (srw1Stored img) junk (ch r) r)).length + (pad r).length) % 4 = 0)
      (small : (encodeSrw1 w h img junk ch pad).length < 4294967296) (data : contents.drop offset = encodeSrw1 w h img junk ch pad ++ tail)
      (table : contents.drop place = srw1Table w h img junk ch pad ++ tail') : SamsungData contents little raw offset w h 32770 bits img
  | second (bits : Nat) (img : Nat → Nat → Nat) (tail : List UInt8) (fits : ∀ r c, r < h → c < w → img r c < 8192)
      (data : contents.drop offset = packBits (encodeSrw2 w h img) ++ tail) : SamsungData contents little raw offset w h 32772 bits img
  | third (bits : Nat) (img : Nat → Nat → Nat) (hd : Srw3Header) (a b c : List Nat) (diff : Nat → Nat → Int) (ch : Nat → Nat → Srw3Block) (tail : List UInt8)
      (wide : w % 16 = 0) (deep : 1 ≤ hd.depth ∧ hd.depth ≤ 15) (start : hd.init < 2 ^ 14) (fits : ∀ r c, r < h → c < w → img r c < 2 ^ hd.depth)
      (ha : a.length = 20) (hb : b.length = 60) (hc : c.length = 26) (habc : ∀ v ∈ a ++ b ++ c, v ≤ 1)
      (legal : ∀ r, r < h → Srw3Legal hd w img diff (ch r) r) (small : (encodeSrw3 hd a b c w h diff ch).length < 2 ^ 63)
      (data : contents.drop offset = encodeSrw3 hd a b c w h diff ch ++ tail) : SamsungData contents little raw offset w h 32773 bits img

end Spec

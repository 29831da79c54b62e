import Verif.Spec.Ljpeg
import Verif.Spec.Tiff
/-!
# Specification: an encoder for Samsung's first compression

The lines are independent and divided into groups of 16 samples. A group says whether its samples are predicted from the line above or from the
left, changes the four numbers of bits of the line, and then stores the differences of its eight even and of its eight odd samples with these numbers
of bits. The picture is stored with the two samples of every square of four on its second diagonal exchanged. Nothing here refers to the model.
-/

namespace Spec

/-- A number that can be stored in `n` bits in two's complement; only zero in no bits. -/
def SignedFits (n : Nat) (d : Int) : Prop := -(2 ^ n : Int) ≤ 2 * d ∧ 2 * d < 2 ^ n

instance (n : Nat) (d : Int) : Decidable (SignedFits n d) := by unfold SignedFits; infer_instance

/-- A number in two's complement. -/
def signedBits (n : Nat) (d : Int) : List Nat := bitsOf n (d % 2 ^ n).toNat

/-- What happens to a number of bits. -/
inductive LenChange where
  | keep
  | plus
  | minus
  | set (n : Nat)
  deriving DecidableEq, Repr

namespace LenChange

/-- The number of bits after the change. -/
def apply : LenChange → Nat → Nat
  | keep, l => l
  | plus, l => l + 1
  | minus, l => l - 1
  | set n, _ => n

/-- The code. -/
def code : LenChange → Nat
  | keep => 0
  | plus => 1
  | minus => 2
  | set _ => 3

/-- A new number is stored after the codes. -/
def extra : LenChange → List Nat
  | set n => bitsOf 4 n
  | _ => []

/-- The change can be stored. -/
def Legal : LenChange → Nat → Prop
  | minus, l => 1 ≤ l
  | set n, _ => n < 16
  | _, _ => True

instance (c : LenChange) (l : Nat) : Decidable (c.Legal l) := by cases c <;> unfold Legal <;> infer_instance

end LenChange

/-- The choices of an encoder for one group: the direction of the prediction, and the changes of the numbers of bits. -/
structure Srw1Group where
  up : Bool
  change : Nat → LenChange

/-- The numbers of bits of a line before group `g`. -/
def srw1Lens (ch : Nat → Srw1Group) (first : Nat) : Nat → Nat → Nat
  | 0, _ => first
  | g + 1, i => ((ch g).change i).apply (srw1Lens ch first g i)

/-- The first numbers of bits of line `r`. -/
def srw1First (r : Nat) : Nat := if r < 2 then 7 else 4

/-- The prediction of sample `c` of group `g` in line `r`: an even sample from the line above and an odd one from the line above that (the first line
counts as black above, and the second has only one line above), or all from the last even or odd sample of the previous group. -/
def srw1Pred (pic : Nat → Nat → Nat) (up : Bool) (r g c : Nat) : Nat :=
  if up then if r = 0 then 0 else if c % 2 = 0 then pic (r - 1) (16 * g + c) else pic (r - 2) (16 * g + c)
  else if g = 0 then 128 else if c % 2 = 0 then pic r (16 * g - 2) else pic r (16 * g - 1)

/-- The difference that is stored; outside of the picture, anything. -/
def srw1Diff (w : Nat) (pic : Nat → Nat → Nat) (junk : Nat → Nat → Int) (up : Bool) (r g c : Nat) : Int :=
  if 16 * g + c < w then (pic r (16 * g + c) : Int) - srw1Pred pic up r g c else junk r (16 * g + c)

/-- One group. -/
def srw1GroupBits (w : Nat) (pic : Nat → Nat → Nat) (junk : Nat → Nat → Int) (ch : Srw1Group) (len : Nat → Nat) (r g : Nat) : List Nat :=
  [if ch.up then 1 else 0] ++ ((List.range 4).flatMap fun i => bitsOf 2 (ch.change i).code) ++ ((List.range 4).flatMap fun i => (ch.change i).extra) ++
    ((List.range 8).flatMap fun k => signedBits (len (k / 4)) (srw1Diff w pic junk ch.up r g (2 * k))) ++
    (List.range 8).flatMap fun k => signedBits (len (2 + k / 4)) (srw1Diff w pic junk ch.up r g (2 * k + 1))

/-- One line. -/
def srw1Line (w : Nat) (pic : Nat → Nat → Nat) (junk : Nat → Nat → Int) (ch : Nat → Srw1Group) (r : Nat) : List Nat :=
  (List.range ((w + 15) / 16)).flatMap fun g => srw1GroupBits w pic junk (ch g) (srw1Lens ch (srw1First r) (g + 1)) r g

/-- The picture as it is stored. -/
def srw1Stored (img : Nat → Nat → Nat) (r c : Nat) : Nat :=
  if r % 2 = 0 ∧ c % 2 = 1 then img (r + 1) (c - 1) else if r % 2 = 1 ∧ c % 2 = 0 then img (r - 1) (c + 1) else img r c

/-- The choices can be stored: every change is legal, and every difference fits. -/
def Srw1Legal (w : Nat) (pic : Nat → Nat → Nat) (junk : Nat → Nat → Int) (ch : Nat → Srw1Group) (r : Nat) : Prop :=
  ∀ g, g < (w + 15) / 16 → (∀ i, i < 4 → ((ch g).change i).Legal (srw1Lens ch (srw1First r) g i) ∧ srw1Lens ch (srw1First r) (g + 1) i ≤ 17) ∧
    ∀ c, c < 16 → SignedFits (srw1Lens ch (srw1First r) (g + 1) (if c % 2 = 0 then c / 8 else 2 + c / 8)) (srw1Diff w pic junk (ch g).up r g c)

instance (w : Nat) (pic : Nat → Nat → Nat) (junk : Nat → Nat → Int) (ch : Nat → Srw1Group) (r : Nat) : Decidable (Srw1Legal w pic junk ch r) := by
  unfold Srw1Legal; infer_instance

/-- A line in words of four bytes with the last byte first; `pad` fills the last word. -/
def srw1LineBytes (w : Nat) (pic : Nat → Nat → Nat) (junk : Nat → Nat → Int) (ch : Nat → Srw1Group) (pad : List UInt8) (r : Nat) : List UInt8 :=
  swapWords (packBits (srw1Line w pic junk ch r) ++ pad)

/-- All lines, one after the other. -/
def encodeSrw1 (w h : Nat) (img : Nat → Nat → Nat) (junk : Nat → Nat → Int) (ch : Nat → Nat → Srw1Group) (pad : Nat → List UInt8) : List UInt8 :=
  (List.range h).flatMap fun r => srw1LineBytes w (srw1Stored img) junk (ch r) (pad r) r

/-- The table of the places of the lines. -/
def srw1Table (w h : Nat) (img : Nat → Nat → Nat) (junk : Nat → Nat → Int) (ch : Nat → Nat → Srw1Group) (pad : Nat → List UInt8) : List UInt8 :=
  (List.range h).flatMap fun r => encodeLE 4 (encodeSrw1 w r img junk ch pad).length

/-- The simplest choices: always predict from the left, and store every difference in 15 bits. -/
def srw1Plain : Srw1Group := ⟨false, fun _ => .set 15⟩

end Spec

import Verif.Spec.Ljpeg
/-!
# Specification: an encoder for the first Sony raw format

Nothing here refers to the model.
-/

namespace Spec

/-- The prefix that announces a difference of `n` bits. -/
def arw1Prefix : Nat → List Nat
  | 0 => [0, 1, 1]
  | 1 => [1, 1]
  | 2 => [1, 0]
  | 3 => [0, 1, 0]
  | n + 4 => [0, 0] ++ List.replicate n 0 ++ [1]

/-- A difference: the prefix of its category and the additional bits as in JPEG. -/
def arw1Code (d : Int) : List Nat := arw1Prefix (category d) ++ bitsOf (category d) (additional (category d) d)

/-- The order of the pixels: columns from the right to the left; in a column the even rows downwards, then the odd rows. Row and
column of pixel `k` of an image of even height. -/
def arw1Row (height k : Nat) : Nat := if k % height < height / 2 then 2 * (k % height) else 2 * (k % height - height / 2) + 1

@[inherit_doc arw1Row]
def arw1Col (width height k : Nat) : Nat := width - 1 - k / height

/-- The value of pixel `k` and the one before. -/
def arw1Value (width height : Nat) (img : Nat → Nat → Nat) (k : Nat) : Nat := img (arw1Row height k) (arw1Col width height k)

@[inherit_doc arw1Value]
def arw1Before (width height : Nat) (img : Nat → Nat → Nat) (k : Nat) : Nat := if k = 0 then 0 else arw1Value width height img (k - 1)

/-- The bits of an image: each pixel minus the one before. -/
def encodeArw1 (width height : Nat) (img : Nat → Nat → Nat) : List Nat :=
  (List.range (width * height)).flatMap fun k => arw1Code ((arw1Value width height img k : Int) - arw1Before width height img k)

example : (List.range 8).map (fun k => (arw1Row 4 k, arw1Col 2 4 k)) = [(0, 1), (2, 1), (1, 1), (3, 1), (0, 0), (2, 0), (1, 0), (3, 0)] := by decide
example : arw1Code (-5) = [0, 1, 0, 0, 1, 0] ∧ arw1Code 40 = [0, 0, 0, 0, 1, 1, 0, 1, 0, 0, 0] := by decide

end Spec

import Verif.Spec.Ljpeg
/-!
# Specification: an encoder for Samsung's second compression

Every sample is predicted by the one two places to the left, in the first two columns by the one two lines above. The difference is
stored as in JPEG, after a prefix for the number of its bits. Nothing here refers to the model.
-/

namespace Spec

/-- The prefix that announces a difference of `n` bits, at most 13. -/
def srw2Prefix : Nat → List Nat
  | 0 => [1, 1, 0, 1, 0, 0]
  | 1 => [1, 1, 0, 1, 1]
  | 2 => [1, 1, 1, 1]
  | 3 => [1, 1, 0, 0]
  | 4 => [0, 0, 0]
  | 5 => [1, 0]
  | 6 => [0, 1]
  | 7 => [0, 0, 1]
  | 8 => [1, 1, 1, 0]
  | 9 => [1, 1, 0, 1, 0, 1, 0]
  | 10 => [1, 1, 0, 1, 0, 1, 1, 0]
  | 11 => [1, 1, 0, 1, 0, 1, 1, 1, 0]
  | 12 => [1, 1, 0, 1, 0, 1, 1, 1, 1, 0]
  | _ => [1, 1, 0, 1, 0, 1, 1, 1, 1, 1]

/-- A difference. -/
def srw2Code (d : Int) : List Nat := srw2Prefix (category d) ++ bitsOf (category d) (additional (category d) d)

/-- The prediction of a sample. -/
def srw2Pred (img : Nat → Nat → Nat) (r c : Nat) : Nat := if c < 2 then if r < 2 then 0 else img (r - 2) c else img r (c - 2)

/-- The difference between a sample and its prediction. -/
def srw2Diff (img : Nat → Nat → Nat) (r c : Nat) : Int := (img r c : Int) - srw2Pred img r c

/-- The bits of an image. -/
def encodeSrw2 (w h : Nat) (img : Nat → Nat → Nat) : List Nat :=
  (List.range (w * h)).flatMap fun k => srw2Code (srw2Diff img (k / w) (k % w))

example : srw2Code (-5) = [1, 1, 0, 0, 0, 1, 0] ∧ srw2Code 0 = [1, 1, 0, 1, 0, 0] := by decide

end Spec

/-!
# Specification: colour filter patterns

Nothing here refers to the model.
-/

namespace Spec

/-- The colour a pattern letter stands for, as an index into RGBE. -/
def letterColour (c : UInt8) : Option Nat :=
  if c.toNat = 'R'.toNat then some 0
  else if c.toNat = 'G'.toNat ∨ c.toNat = 'M'.toNat then some 1
  else if c.toNat = 'B'.toNat then some 2
  else if c.toNat = 'E'.toNat ∨ c.toNat = 'Y'.toNat then some 3
  else none

/-- The row length and the number of rows of a pattern of so many letters. -/
def patternSize (len : Nat) : Option (Nat × Nat) :=
  match len with
  | 0 => some (0, 0)
  | 4 => some (2, 2)
  | 16 => some (2, 8)
  | 36 => some (6, 6)
  | 144 => some (12, 12)
  | _ => none

/-- The colour of sensor position `(row, col)` under a pattern of `h` rows of `w` letters. -/
def patternColour (name : List UInt8) (w h row col : Nat) : Option Nat :=
  (name[row % h * w + col % w]?).bind letterColour

end Spec

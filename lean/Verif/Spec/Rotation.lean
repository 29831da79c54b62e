/-!
# Specification: rotation by 45 degrees

A pixel of the output is described by its two diagonals: `r + c` numbers the ascending and `c - r` the descending ones.
-/

namespace Spec

/-- The rows of the sensor run along the ascending diagonals; within a row every second descending diagonal is used, rows of different parity use different ones. -/
def fujiPlain (cropwidth row col r c : Nat) : Prop := r + c = cropwidth - 1 + row ∧ (c : Int) - r = 2 * col + row % 2 - (cropwidth - 1 : Nat)

/-- The columns of the sensor run along the descending diagonals. -/
def fujiAlt (cropwidth row col r c : Nat) : Prop := (c : Int) - r = col + 1 - (cropwidth / 2 : Nat) ∧ (r + c : Int) = 2 * row + col % 2 + (cropwidth / 2 : Nat) - 1

end Spec

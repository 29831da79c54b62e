import Mathlib.Data.Rat.Defs
/-!
# Colours and what a sensor reads

Colours are given by their coordinates X, Y and Z.
-/

namespace Spec

/-- The white of sRGB: the colour with red, green and blue 1. -/
def whiteXyz : Nat → ℚ
  | 0 => 950456 / 1000000
  | 1 => 1
  | _ => 1088754 / 1000000

/-- The white the program refers colours to. -/
def referenceWhite : Nat → ℚ
  | 0 => 9547 / 10000
  | 1 => 1
  | _ => 108883 / 100000

/-- What channel `i` of a camera with matrix `c` answers to a colour. -/
def response (c : Nat → Nat → ℚ) (x : Nat → ℚ) (i : Nat) : ℚ := c i 0 * x 0 + c i 1 * x 1 + c i 2 * x 2

/-- The reading when the channels are balanced such that white reads 1. The reading of a channel the camera does not have is 0. -/
def reading (c : Nat → Nat → ℚ) (x : Nat → ℚ) (i : Nat) : ℚ := response c x i / response c whiteXyz i

end Spec

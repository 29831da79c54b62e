import Mathlib.Algebra.Order.Field.Basic
/-!
# Monotone cubic interpolation

Specification, independent of the model: cubic Hermite pieces with tangents that are weighted harmonic means of the neighbouring slopes
(Fritsch and Butland).
-/

namespace Spec
variable {K : Type} [Field K]

/-- The cubic that has value `y0`, `y1` and derivative `m0`, `m1` at `x0`, `x1`, in the Hermite basis. -/
def hermite (x0 x1 y0 y1 m0 m1 x : K) : K :=
  let h := x1 - x0
  let t := (x - x0) / h
  (2 * t ^ 3 - 3 * t ^ 2 + 1) * y0 + (t ^ 3 - 2 * t ^ 2 + t) * h * m0 + (-2 * t ^ 3 + 3 * t ^ 2) * y1 + (t ^ 3 - t ^ 2) * h * m1

/-- Slope of the chord over interval `i`. -/
def chord (X Y : Nat → K) (i : Nat) : K := (Y (i + 1) - Y i) / (X (i + 1) - X i)

/-- Tangent at knot `i` of `n`: the end chords at the ends; inside, zero at a turning point and else the harmonic mean of the chords
left and right, weighted by `h0 + 2 h1` and `2 h0 + h1`. -/
def tangent [LE K] [DecidableLE K] (X Y : Nat → K) (n i : Nat) : K :=
  if i = 0 then chord X Y 0
  else if i = n - 1 then chord X Y (n - 2)
  else
    let h0 := X i - X (i - 1)
    let h1 := X (i + 1) - X i
    let s0 := chord X Y (i - 1)
    let s1 := chord X Y i
    if s0 * s1 ≤ 0 then 0
    else ((h0 + 2 * h1) + (2 * h0 + h1)) / ((h0 + 2 * h1) / s0 + (2 * h0 + h1) / s1)

end Spec

import Verif.Spec.Ljpeg
/-!
# Specification: an encoder for the compressed images of Olympus

The even and the odd columns of a row are coded alternately and independently of each other. A sample is predicted from its neighbours
of the same colour. The difference is `4 * step + low`; the two low bits are stored as they are, the step less its running mean is stored
as a sign and a magnitude, whose number of low bits depends on the previous magnitude. Nothing here refers to the model.
-/

namespace Spec

/-- What is known from the earlier samples of the row: the last magnitude, the running mean, the number of small magnitudes in a row. -/
structure OrfMemory where
  mag : Nat
  mean : Int
  small : Nat
  deriving DecidableEq, Repr

/-- The prediction of a sample from the ones to the left, above, and both, each two places away. -/
def orfGradient (left nw up : Int) : Int :=
  if (left < nw ∧ nw < up) ∨ (up < nw ∧ nw < left) then
    if (left - nw).natAbs > 32 ∨ (up - nw).natAbs > 32 then left + up - nw else (left + up) / 2
  else if (left - nw).natAbs > (up - nw).natAbs then left else up

/-- The prediction of a sample. -/
def orfPred (img : Nat → Nat → Nat) (r c : Nat) : Int :=
  if r < 2 then if c < 2 then 0 else img r (c - 2)
  else if c < 2 then img (r - 2) c
  else orfGradient (img r (c - 2)) (img (r - 2) (c - 2)) (img (r - 2) c)

/-- The step of a sample. -/
def orfStep (img : Nat → Nat → Nat) (r c : Nat) : Int := ((img r c : Int) - orfPred img r c) / 4

/-- The magnitude that is stored for a number: the numbers below zero are counted from -1. -/
def orfMag (x : Int) : Nat := if x < 0 then (-x - 1).toNat else x.toNat

/-- The memory after a step. -/
def OrfMemory.next (m : OrfMemory) (step : Int) : OrfMemory :=
  ⟨orfMag (step - m.mean), (3 * step + m.mean) / 32, if orfMag (step - m.mean) > 16 then 0 else m.small + 1⟩

/-- The memory before sample `c` of row `r`: it is empty at the start of a row and goes on with every second sample. -/
def orfMemory (img : Nat → Nat → Nat) (r c : Nat) : OrfMemory :=
  if c < 2 then ⟨0, 0, 0⟩ else (orfMemory img r (c - 2)).next (orfStep img r (c - 2))
  termination_by c

/-- The number of binary digits. -/
def digits (n : Nat) : Nat := if n = 0 then 0 else Nat.log2 n + 1

/-- The number of bits of a magnitude that are stored as they are. -/
def OrfMemory.bits (m : OrfMemory) : Nat := if m.small < 3 then max 4 (digits m.mag - 2) else max 2 (digits m.mag)

/-- The upper part of a magnitude, which has 15 bits: in unary if it is less than 12, else after twelve zeros with all its bits and a zero. -/
def orfHigh (n high : Nat) : List Nat :=
  if high < 12 then List.replicate high 0 ++ [1] else List.replicate 12 0 ++ bitsOf (16 - n) (2 * high)

/-- The bits of a sample. -/
def orfCode (m : OrfMemory) (d : Int) : List Nat :=
  [if d / 4 < m.mean then 1 else 0] ++ bitsOf 2 (d % 4).toNat ++ orfHigh m.bits (orfMag (d / 4 - m.mean) / 2 ^ m.bits) ++
    bitsOf m.bits (orfMag (d / 4 - m.mean) % 2 ^ m.bits)

/-- The bits of an image of `2 * n` columns. -/
def encodeOrf (n h : Nat) (img : Nat → Nat → Nat) : List Nat :=
  (List.range h).flatMap fun r => (List.range (2 * n)).flatMap fun c => orfCode (orfMemory img r c) (img r c - orfPred img r c)

example : orfCode ⟨0, 0, 0⟩ (-5) = [1, 1, 1, 1, 0, 0, 0, 1] := by decide
example : orfCode ⟨1000, 3, 5⟩ 70 = [0, 1, 0, 1, 0, 0, 0, 0, 0, 0, 1, 1, 1, 0] := by decide +kernel

end Spec

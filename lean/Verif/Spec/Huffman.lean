import Verif.Spec.Bits
/-!
# Specification: canonical Huffman codes (ITU T.81, annexes C and H)

Nothing here refers to the model.
-/

namespace Spec

/-- The code lengths of the symbols, in order, when `counts l` symbols have codes of `l` bits (T.81 figure C.1). -/
def codeLengths (counts : Nat → Nat) : List Nat := (List.range 16).flatMap fun i => List.replicate (counts (i + 1)) (i + 1)

/-- The code of the `k`-th symbol (T.81 figure C.2): the first one is zero, every other one is its predecessor plus one, with
zeros appended up to its length. -/
def canonical (lens : List Nat) : Nat → Nat
  | 0 => 0
  | k + 1 => (canonical lens k + 1) * 2 ^ (lens.getD (k + 1) 0 - lens.getD k 0)

/-- The share of the 16-bit patterns that start with one of the codes. -/
def kraft (lens : List Nat) : Nat := (lens.map fun l => 2 ^ (16 - l)).sum

/-- The stream `st`, from bit `c` on, starts with the code of symbol `k`. -/
def StartsWith (st : Nat → Nat) (c : Nat) (lens : List Nat) (k : Nat) : Prop :=
  k < lens.length ∧ fieldMSB st c (lens.getD k 0) = canonical lens k

/-- The difference with the `n` additional bits `v` (T.81 figure F.12): negative when the first bit is zero. -/
def extend (n v : Nat) : Int := if v < 2 ^ (n - 1) then (v : Int) - (2 ^ n - 1) else v

/-- Additional bits of category `n` (T.81 table H.2): category 16 has none. -/
def diffBits (n : Nat) : Nat := if n = 16 then 0 else n

/-- The difference of category `n` when `field m` is the number in the next `m` bits (T.81 table H.2). -/
def difference (n : Nat) (field : Nat → Nat) : Int := if n = 16 then -32768 else extend n (field n)

/-- The example of T.81 table K.3: lengths and codes. -/
example : codeLengths (fun l => [0, 0, 1, 5, 1, 1, 1, 1, 1, 1, 0, 0, 0, 0, 0, 0, 0].getD l 0) = [2, 3, 3, 3, 3, 3, 4, 5, 6, 7, 8, 9] := by decide
example : (List.range 12).map (canonical [2, 3, 3, 3, 3, 3, 4, 5, 6, 7, 8, 9]) =
    [0b00, 0b010, 0b011, 0b100, 0b101, 0b110, 0b1110, 0b11110, 0b111110, 0b1111110, 0b11111110, 0b111111110] := by decide

end Spec

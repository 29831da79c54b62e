import Verif.Spec.Srw1
import Verif.Spec.TiffDir
/-!
# Specification: Phase One's files

A table of numbered values, found through the word at byte 16; lines of compressed samples, found through a table of their places. Every eight samples a line
may choose how many bits the differences of its even and of its odd samples have. Nothing here refers to the model.
-/

namespace Spec

/-- The numbers of bits that can be chosen; 14 stands for samples of 16 bits instead of differences. -/
def iiqLens : List Nat := [8, 7, 6, 9, 11, 10, 5, 12, 14, 13]

/-- A choice is stored as a number of zeros, a one to end them if there are fewer than five, and one more bit. No zeros: the number of bits stays. -/
def iiqChoiceBits : Option Nat → List Nat
  | none => [1]
  | some k => List.replicate (k / 2 + 1) 0 ++ (if k / 2 + 1 < 5 then [1] else []) ++ [k % 2]

/-- The number of bits for the even (`i = 0`) or odd samples of a line, before block `g` of eight samples. -/
def iiqLen (ch : Nat → Nat → Option Nat) : Nat → Nat → Nat
  | 0, _ => 0
  | g + 1, i => match ch g i with
    | some k => iiqLens.getD k 0
    | none => iiqLen ch g i

/-- The number of bits for sample `c`. An unfilled last block has samples of 16 bits. -/
def iiqUsed (w : Nat) (ch : Nat → Nat → Option Nat) (c : Nat) : Nat := if c < w / 8 * 8 then iiqLen ch (c / 8 + 1) (c % 2) else 14

/-- The previous sample of the same parity. -/
def iiqPrev (pic : Nat → Nat → Nat) (r c : Nat) : Nat := if c < 2 then 0 else pic r (c - 2)

/-- The bits of a sample. -/
def iiqSampleBits (w : Nat) (pic : Nat → Nat → Nat) (ch : Nat → Nat → Option Nat) (r c : Nat) : List Nat :=
  let n := iiqUsed w ch c
  if n = 14 then bitsOf 16 (pic r c) else bitsOf n (pic r c + 2 ^ (n - 1) - 1 - iiqPrev pic r c)

/-- The bits of a line. -/
def iiqLine (w : Nat) (pic : Nat → Nat → Nat) (ch : Nat → Nat → Option Nat) (r : Nat) : List Nat :=
  (List.range w).flatMap fun c =>
    (if c < w / 8 * 8 ∧ c % 8 = 0 then iiqChoiceBits (ch (c / 8) 0) ++ iiqChoiceBits (ch (c / 8) 1) else []) ++ iiqSampleBits w pic ch r c

/-- The choices for a line are possible: the first block makes them, and all differences fit. -/
def IiqLegal (w : Nat) (pic : Nat → Nat → Nat) (ch : Nat → Nat → Option Nat) (r : Nat) : Prop :=
  (∀ g, g < w / 8 → ∀ i, i < 2 → ∀ k, ch g i = some k → k < 10) ∧
  ∀ c, c < w → iiqUsed w ch c ≠ 0 ∧ (iiqUsed w ch c ≠ 14 →
    iiqPrev pic r c + 1 ≤ pic r c + 2 ^ (iiqUsed w ch c - 1) ∧ pic r c ≤ iiqPrev pic r c + 2 ^ (iiqUsed w ch c - 1))

instance (w : Nat) (pic : Nat → Nat → Nat) (ch : Nat → Nat → Option Nat) (r : Nat) : Decidable (IiqLegal w pic ch r) := by
  unfold IiqLegal
  letI : ∀ o : Option Nat, Decidable (∀ k, o = some k → k < 10) := fun o => match o with
    | none => isTrue (fun k h => by cases h)
    | some v => decidable_of_iff (v < 10) ⟨fun h k hk => by injection hk with hk; omega, fun h => h v rfl⟩
  infer_instance

/-- The simplest choice: samples of 16 bits. -/
def iiqPlain (_g _i : Nat) : Option Nat := some 8

/-- A word of a file. -/
def wordAt (contents : List UInt8) (pos : Nat) : Nat := numberLE (bytesAt contents pos 4)

/-- Where the table of values starts, and how many values it has. -/
def iiqTable (contents : List UInt8) : Nat := wordAt contents 16 + 8
def iiqCount (contents : List UInt8) : Nat := wordAt contents (iiqTable contents)

/-- Value `k` of the table has this tag and these data. -/
def iiqTag (contents : List UInt8) (k : Nat) : Nat := wordAt contents (iiqTable contents + 8 + 16 * k)
def iiqData (contents : List UInt8) (k : Nat) : Nat := wordAt contents (iiqTable contents + 20 + 16 * k)

/-- The table has a value with the tag; if there are several, the last one counts. -/
def IiqSays (contents : List UInt8) (tag data : Nat) : Prop :=
  ∃ k, k < iiqCount contents ∧ iiqTag contents k = tag ∧ iiqData contents k = data ∧ ∀ j, k < j → j < iiqCount contents → iiqTag contents j ≠ tag

end Spec

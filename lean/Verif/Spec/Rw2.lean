import Verif.Spec.Tiff
/-!
# Panasonic's compressed images

An image is a sequence of groups of 14 samples. A group takes 16 bytes, which make one number of 128 bits, least significant byte
first; its fields follow each other from the most significant bit on. Every sample has a code of 8 bits. Before the samples 2, 5,
8 and 11 there is a field of 2 bits which selects the step of the following three. Samples of even and odd index are coded apart:
the first one of each kind whose code is not zero, or the last one if there is none, is given in full, with 4 more bits after its
code; samples before it are zero, and the samples after it are given by differences. Nothing here refers to the model.
-/

namespace Spec

/-- The fields of a group: the codes of the 14 samples, the lower four bits of the two samples given in full (even, odd), and the
four selectors. -/
structure PanaGroup where
  code : Nat → Nat
  low : Nat → Nat
  sel : Nat → Nat

namespace PanaGroup

/-- The fields fit their bits. -/
structure Fits (g : PanaGroup) : Prop where
  code : ∀ i, g.code i < 256
  low : ∀ s, g.low s < 16
  sel : ∀ t, g.sel t < 4

/-- A sample before `i` with the parity `s` has a code other than zero. -/
def started (g : PanaGroup) (s i : Nat) : Bool := (List.range i).any fun k => decide (k % 2 = s) && decide (g.code k ≠ 0)

/-- Sample `i` is given in full. -/
def opens (g : PanaGroup) (i : Nat) : Bool := !g.started (i % 2) i && (decide (g.code i ≠ 0) || decide (11 < i))

/-- The fields of sample `i`: width in bits and value. -/
def fields (g : PanaGroup) (i : Nat) : List (Nat × Nat) :=
  (if i % 3 = 2 then [(2, g.sel (i / 3))] else []) ++ [(8, g.code i)] ++ (if g.opens i then [(4, g.low (i % 2))] else [])

/-- The fields of the samples before `i`. -/
def before (g : PanaGroup) (i : Nat) : List (Nat × Nat) := (List.range i).flatMap g.fields

/-- The exponent of the step of sample `i`: selectors 0, 1, 2, 3 mean 0, 1, 2, 4. -/
def shift (g : PanaGroup) (i : Nat) : Nat :=
  match g.sel ((i - 2) / 3) with
  | 0 => 0 | 1 => 1 | 2 => 2 | _ => 4

/-- A sample from the one before it of the same parity: nothing changes for code 0. Otherwise the code counts steps from 128 steps
below that sample. For the largest step, and where this would be negative, it counts from the part of the sample that is smaller
than a step. -/
def next (pred shift code : Nat) : Nat :=
  if code = 0 then pred
  else if shift = 4 ∨ pred < 128 * 2 ^ shift then pred % 2 ^ shift + code * 2 ^ shift
  else pred - 128 * 2 ^ shift + code * 2 ^ shift

/-- Sample `i`, given the one before it of the same parity. -/
def sampleAfter (g : PanaGroup) (i pred : Nat) : Nat :=
  if g.started (i % 2) i then next pred (g.shift i) (g.code i)
  else if g.opens i then g.code i * 16 + g.low (i % 2)
  else 0

/-- The samples. -/
def sample (g : PanaGroup) : Nat → Nat
  | 0 => g.sampleAfter 0 0
  | 1 => g.sampleAfter 1 0
  | i + 2 => g.sampleAfter (i + 2) (g.sample i)

end PanaGroup

/-- The number of bits of some fields. -/
def fieldsWidth (l : List (Nat × Nat)) : Nat := (l.map Prod.fst).sum

/-- Fields one after the other as one number, the first one uppermost. -/
def packFields (l : List (Nat × Nat)) : Nat := l.foldl (fun acc f => acc * 2 ^ f.1 + f.2) 0

/-- The 128 bits of a group. -/
def PanaGroup.number (g : PanaGroup) : Nat := packFields (g.before 14)

/-- Where the 16 bytes of group `k` start. In split files the bytes of each block of 1024 groups are rotated. -/
def panaStart (split : Bool) (k : Nat) : Nat :=
  if split then k / 1024 * 16384 + (k % 1024 * 16 + 8184) % 16384 else k * 16

/-- The bytes of a group follow each other: always, except that in split files group 512 of every block is torn apart. -/
def panaWhole (split : Bool) (k : Nat) : Prop := split = false ∨ k % 1024 ≠ 512

/-- The bytes taken by `n` groups: whole blocks in split files. -/
def panaBytes (split : Bool) (n : Nat) : Nat := if split then (n + 1023) / 1024 * 16384 else 16 * n

/-- A group for 14 samples, with single steps: the first two are given in full, the others by their differences. -/
def PanaGroup.ofSamples (x : Nat → Nat) : PanaGroup where
  code i := if i < 2 then x i / 16 else if i < 14 then x i + 128 - x (i - 2) else 0
  low s := x s % 16
  sel _ := 0

/-- 14 samples which single steps can give: of 12 bits, not too dark, and not far from each other. -/
def panaSmooth (x : Nat → Nat) : Prop :=
  ∀ i, i < 14 → 128 ≤ x i ∧ x i < 4096 ∧ (2 ≤ i → x (i - 2) < x i + 128 ∧ x i < x (i - 2) + 128)

/-- An image of `q` groups in each of `h` rows, unsplit, and one more byte, which the decoder needs. -/
def panaFile (q h : Nat) (img : Nat → Nat → Nat) : List UInt8 :=
  ((List.range (q * h)).flatMap fun k => encodeLE 16 (PanaGroup.ofSamples fun i => img (k / q) (k % q * 14 + i)).number) ++ [0]

end Spec

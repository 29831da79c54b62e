import Verif.Spec.Stream
/-!
# Specification: Sony's compressed images

A line is a sequence of blocks of 32 samples in 32 bytes: first the sixteen samples in even columns, then the sixteen in odd columns, 128 bits each, the first bit the lowest of the
first byte. A group stores its largest and its smallest sample in full (11 bits), where in the group they are (4 bits), and for each of the others its distance from the smallest
sample in 7 bits, in steps that grow with the span of the group. Nothing here refers to the model.
-/

namespace Spec

/-- The number of bits that the distances in a group lose: what is left over of the span after 7 bits. -/
def arw2Shift (span : Nat) : Nat :=
  if span < 128 then 0 else if span < 256 then 1 else if span < 512 then 2 else if span < 1024 then 3 else 4

/-- How many distances are stored ahead of that of sample `i`: the largest and the smallest sample have none. -/
def arw2Rank (imax imin i : Nat) : Nat := i - ((if imax < i then 1 else 0) + (if imin < i then 1 else 0))

/-- Sample `i` of the group stored from bit `s` on. -/
def arw2Sample (st : Nat → Nat) (s i : Nat) : Nat :=
  let max := fieldLSB st s 11
  let min := fieldLSB st (s + 11) 11
  let imax := fieldLSB st (s + 22) 4
  let imin := fieldLSB st (s + 26) 4
  if i = imax then max
  else if i = imin then min
  else Nat.min 2047 (min + fieldLSB st (s + 30 + 7 * arw2Rank imax imin i) 7 * 2 ^ arw2Shift (max - min))

/-- The group stored from bit `s` on makes sense: its largest sample is not below its smallest, and they are different samples. -/
def arw2Proper (st : Nat → Nat) (s : Nat) : Prop :=
  fieldLSB st (s + 11) 11 ≤ fieldLSB st s 11 ∧ fieldLSB st (s + 22) 4 ≠ fieldLSB st (s + 26) 4

instance (st : Nat → Nat) (s : Nat) : Decidable (arw2Proper st s) := by unfold arw2Proper; infer_instance

/-- In lines of `w` samples, the first bit of the group that has column `c` of line `r`. -/
def arw2At (w r c : Nat) : Nat := 8 * (r * w) + 128 * (c / 32 * 2 + c % 2)

/-- The number of samples of a line that are stored ahead of column `c`. -/
def arw2Order (c : Nat) : Nat := c / 32 * 32 + c % 2 * 16 + c % 32 / 2

/-! ## An encoder -/

/-- A group of sixteen samples with one of its largest and one of its smallest samples picked. -/
structure Arw2Group where
  v : Nat → Nat
  imax : Nat
  imin : Nat

/-- The picks are right. -/
structure Arw2Group.Ok (g : Arw2Group) : Prop where
  imax : g.imax < 16
  imin : g.imin < 16
  ne : g.imax ≠ g.imin
  small : g.v g.imax < 2048
  le : ∀ i, i < 16 → g.v i ≤ g.v g.imax
  ge : ∀ i, i < 16 → g.v g.imin ≤ g.v i

/-- The size of a step. -/
def Arw2Group.step (g : Arw2Group) : Nat := 2 ^ arw2Shift (g.v g.imax - g.v g.imin)

/-- The distance stored for sample `i`. -/
def Arw2Group.code (g : Arw2Group) (i : Nat) : Nat := (g.v i - g.v g.imin) / g.step

/-- The samples that have a distance. -/
def Arw2Group.others (g : Arw2Group) : List Nat := (List.range 16).filter fun i => i ≠ g.imax ∧ i ≠ g.imin

/-- The group as a 128-bit number. -/
def Arw2Group.number (g : Arw2Group) : Nat :=
  joinLSB ([11, 11, 4, 4] ++ List.replicate 14 7) ([g.v g.imax, g.v g.imin, g.imax, g.imin] ++ g.others.map g.code)

/-- What is left of sample `i`: the picked samples are kept, the others are rounded down to whole steps above the smallest. -/
def Arw2Group.kept (g : Arw2Group) (i : Nat) : Nat :=
  if i = g.imax ∨ i = g.imin then g.v i else g.v g.imin + g.code i * g.step

/-- The group of column `c` of line `r`, the picks given by `hi` and `lo`. -/
def arw2GroupOf (pix hi lo : Nat → Nat → Nat) (r k : Nat) : Arw2Group :=
  ⟨fun i => pix r (k / 2 * 32 + k % 2 + i * 2), hi r k, lo r k⟩

/-- The bytes of an image: byte `x` of a line is a digit of the number of group `x / 16`. -/
def arw2File (w h : Nat) (pix hi lo : Nat → Nat → Nat) : List UInt8 :=
  raster w h fun r x => UInt8.ofNat ((arw2GroupOf pix hi lo r (x / 16)).number / 256 ^ (x % 16) % 256)

/-! ## The curve -/

/-- The curve with the knots `k₁ ≤ k₂ ≤ k₃ ≤ k₄`: it rises by 1 per entry up to the first knot, then by 2, by 4, by 8, and by 16 after the last. -/
def sonyCurve (k1 k2 k3 k4 x : Nat) : Nat := x + (x - k1) + 2 * (x - k2) + 4 * (x - k3) + 8 * (x - k4)

end Spec

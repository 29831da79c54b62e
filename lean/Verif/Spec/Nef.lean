import Verif.Spec.Pairs
/-!
# Specification: Nikon's compressed images

The maker note holds a version, the predictions of the first two rows, and a curve. Nothing here refers to the model.
-/

namespace Spec

/-- Nikon's Huffman tables: for 12 and then for 14 bits, the lossy one, the one behind the split row of lossy images, and the lossless one. -/
def nefTable : Nat → TableSpec
  | 0 => ⟨[0, 1, 5, 1, 1, 1, 1, 1, 1, 2, 0, 0, 0, 0, 0, 0], [5, 4, 3, 6, 2, 7, 1, 0, 8, 9, 11, 10, 12, 0]⟩
  | 1 => ⟨[0, 1, 5, 1, 1, 1, 1, 1, 1, 2, 0, 0, 0, 0, 0, 0], [57, 90, 56, 39, 22, 5, 4, 3, 2, 1, 0, 11, 12, 12]⟩
  | 2 => ⟨[0, 1, 4, 2, 3, 1, 2, 0, 0, 0, 0, 0, 0, 0, 0, 0], [5, 4, 6, 3, 7, 2, 8, 1, 9, 0, 10, 11, 12]⟩
  | 3 => ⟨[0, 1, 4, 3, 1, 1, 1, 1, 1, 2, 0, 0, 0, 0, 0, 0], [5, 6, 4, 7, 8, 3, 9, 2, 1, 0, 10, 11, 12, 13, 14]⟩
  | 4 => ⟨[0, 1, 5, 1, 1, 1, 1, 1, 1, 1, 2, 0, 0, 0, 0, 0], [8, 92, 75, 58, 41, 7, 6, 5, 4, 3, 2, 1, 0, 13, 14]⟩
  | _ => ⟨[0, 1, 4, 2, 2, 3, 1, 2, 0, 0, 0, 0, 0, 0, 0, 0], [7, 6, 8, 5, 9, 4, 10, 3, 11, 12, 2, 0, 1, 13, 14]⟩

/-- What is stored in the maker note. -/
structure NefMeta where
  v0 : Nat
  v1 : Nat
  skipped : List UInt8
  init : Nat → Nat → Nat
  csize : Nat
  values : List Nat
  rest : List UInt8

namespace NefMeta

/-- The bytes of the maker note. The predictions of the first column of each pair come first. -/
def bytes (m : NefMeta) (big : Bool) : List UInt8 :=
  UInt8.ofNat m.v0 :: UInt8.ofNat m.v1 :: (m.skipped ++ (storeWord big (m.init 0 0) ++ (storeWord big (m.init 1 0) ++ (storeWord big (m.init 0 1) ++ (storeWord big (m.init 1 1) ++
    (storeWord big m.csize ++ (m.values.flatMap (storeWord big) ++ m.rest)))))))

/-- The distance between the stored points of an interpolated curve. -/
def spread (m : NefMeta) (bps : Nat) : Nat := if 1 < m.csize then 2 ^ bps / (m.csize - 1) else 0

/-- Version 68, 32 stores some points of the curve. -/
def Interpolated (m : NefMeta) (bps : Nat) : Prop := m.v0 = 68 ∧ m.v1 = 32 ∧ 0 < m.spread bps

/-- Other versions but 70 store the whole curve, if its size is plausible. -/
def Stored (m : NefMeta) : Prop := m.v0 ≠ 70 ∧ m.csize ≤ 16385

instance (m : NefMeta) (bps : Nat) : Decidable (m.Interpolated bps) := by unfold Interpolated; infer_instance
instance (m : NefMeta) : Decidable m.Stored := by unfold Stored; infer_instance

/-- Point `k` of an interpolated curve; past the stored ones the curve is the identity. -/
def point (m : NefMeta) (bps k : Nat) : Nat := if k < m.csize then m.values.getD k 0 else k * m.spread bps

/-- Linear interpolation between the points, rounded down. -/
def line (m : NefMeta) (bps i : Nat) : Nat :=
  (m.point bps (i / m.spread bps) * (m.spread bps - i % m.spread bps) + m.point bps (i / m.spread bps + 1) * (i % m.spread bps)) / m.spread bps

/-- The curve: interpolated, stored, or the identity. -/
def curve (m : NefMeta) (bps : Nat) : List Nat :=
  if m.Interpolated bps then (List.range (2 ^ bps)).map (m.line bps) else if m.Stored then m.values else List.range (2 ^ bps)

/-- The 16-bit number at position `i`. -/
def wordAt (big : Bool) (data : List UInt8) (i : Nat) : Nat :=
  if big then 256 * (data.getD i 0).toNat + (data.getD (i + 1) 0).toNat else (data.getD i 0).toNat + 256 * (data.getD (i + 1) 0).toNat

/-- The row from which on another table is used; 0 if there is none. -/
def split (m : NefMeta) (big : Bool) (bps : Nat) : Nat := if m.Interpolated bps then wordAt big (m.bytes big) 562 else 0

/-- The table before the split row. -/
def select (m : NefMeta) (bps : Nat) : Nat := (if m.v0 = 70 then 2 else 0) + (if bps = 14 then 3 else 0)

/-- The table of row `r`. -/
def table (m : NefMeta) (big : Bool) (bps r : Nat) : TableSpec :=
  nefTable (if 0 < m.split big bps ∧ m.split big bps ≤ r then m.select bps + 1 else m.select bps)

/-- A maker note that a camera could write. -/
structure Ok (m : NefMeta) (big : Bool) (bps : Nat) : Prop where
  version : m.v0 < 256 ∧ m.v1 < 256
  skip : m.skipped.length = if m.v0 = 73 ∨ m.v1 = 88 then 2110 else 0
  init : ∀ r k, m.init r k < 65536
  csize : m.csize < 65536
  count : m.Interpolated bps ∨ m.Stored → m.values.length = m.csize
  values : ∀ v ∈ m.values, v < 65536
  room : m.Interpolated bps → 564 ≤ (m.bytes big).length
  bps : bps = 12 ∨ bps = 14

end NefMeta

/-- The difference that a symbol of the tables behind the split row stands for, with the bits behind it: the low half is its size, the high half the number of bits that are left out. -/
def nikonDiff (symbol bits : Nat) : Int :=
  let len := symbol % 16
  let cut := symbol / 16
  let v : Int := ((2 * bits + 1) * 2 ^ cut / 2 : Nat)
  if v < 2 ^ (len - 1) then v - (2 ^ len - if cut = 0 then 1 else 0) else v

end Spec

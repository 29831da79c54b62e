/-!
# Specification: masked pixels

Nothing here refers to the model.
-/

namespace Spec

/-- The masked pixels of an image: whole rows, `rows.2` of them from `rows.1` on, and whole columns. A pixel in both is listed
twice. -/
def masked (rows cols : Nat × Nat) (width height : Nat) : List (Nat × Nat) :=
  ((List.range rows.2).flatMap fun i => (List.range width).map fun c => (rows.1 + i, c)) ++
  (List.range height).flatMap fun r => (List.range cols.2).map fun j => (r, cols.1 + j)

/-- The values of the listed pixels with a colour. -/
def samplesOf (colour : Nat → Nat → Nat) (img : Nat → Nat → Nat) (k : Nat) (l : List (Nat × Nat)) : List Nat :=
  (l.filter fun p => colour p.1 p.2 == k).map fun p => img p.1 p.2

end Spec

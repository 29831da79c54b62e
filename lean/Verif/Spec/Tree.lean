/-!
# Directory trees

A node is reached from the root by a path: the list of the indices to follow. Document order (each directory before its
sub-directories, these in the order in which they are stored) is the lexicographic order of the paths.
-/

namespace Spec

/-- The node at the end of a path. -/
def atPath {α : Type} (kids : α → List α) : α → List Nat → Option α
  | d, [] => some d
  | d, i :: p =>
    match (kids d)[i]? with
    | some c => atPath kids c p
    | none => none

/-- `d'` is `d` or below it. -/
def Below {α : Type} (kids : α → List α) (d d' : α) : Prop := ∃ p, atPath kids d p = some d'

/-- `e` is what `get` gives at the first node in document order where it gives anything. -/
def FirstIn {α β : Type} (kids : α → List α) (get : α → Option β) (d : α) (e : β) : Prop :=
  ∃ p d', atPath kids d p = some d' ∧ get d' = some e ∧ ∀ q d'', q < p → atPath kids d q = some d'' → get d'' = none

/-- `get` gives nothing at any node. -/
def NoneIn {α β : Type} (kids : α → List α) (get : α → Option β) (d : α) : Prop := ∀ d', Below kids d d' → get d' = none

/-- No node is deeper than `n`. -/
def DepthAtMost {α : Type} (kids : α → List α) (n : Nat) (d : α) : Prop := ∀ p d', atPath kids d p = some d' → p.length ≤ n

end Spec

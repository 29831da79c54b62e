import Verif.Spec.WholeFile
/-!
# The directory of the wide picture

Some files have several pictures; the raw one is the first that is wider than a preview. Nothing here refers to the model.
-/

namespace Spec

/-- The first directory, in document order, that has a field and a width of more than 1000. Those before it that have the field have to state a width. (The width of a
sub-directory counts, if the directory has none.) -/
structure WideDir (root : Dir) (tag : Nat) (raw : Dir) (w : Nat) : Prop where
  has : (raw.field tag).isSome = true
  width : ∃ t, raw.Numbers 0x100 (w :: t)
  wide : 1000 < w
  first : ∃ path, atPath Dir.subdirs root path = some raw ∧
    ∀ before d, before < path → atPath Dir.subdirs root before = some d → (d.field tag).isSome = true → ∃ v t, d.Numbers 0x100 (v :: t) ∧ v ≤ 1000

end Spec

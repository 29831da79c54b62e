import Mathlib.Data.Rat.Defs
/-!
# Geometry of scaling

Output line `i` of `m` stands for the stretch from `i * n / m` to `(i + 1) * n / m` of a source, in source pixels; source pixel `y`
lies from `y` to `y + 1`.
-/

namespace Spec

/-- The centre of source pixel `y` lies in the stretch of output `i`. -/
def CentreIn (n m i y : ℕ) : Prop := 2 * (i * n) ≤ (2 * y + 1) * m ∧ (2 * y + 1) * m ≤ 2 * ((i + 1) * n)

/-- Source pixel `y` is at most half a pixel away from the stretch of output `i`. -/
def NearTo (n m i y : ℕ) : Prop := 2 * (i * n) ≤ (2 * y + 3) * m ∧ 2 * (y * m) ≤ 2 * ((i + 1) * n) + m

instance (n m i y : ℕ) : Decidable (CentreIn n m i y) := inferInstanceAs (Decidable (_ ∧ _))
instance (n m i y : ℕ) : Decidable (NearTo n m i y) := inferInstanceAs (Decidable (_ ∧ _))

end Spec

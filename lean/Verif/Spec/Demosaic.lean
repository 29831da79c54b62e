import Mathlib.Algebra.BigOperators.Group.Finset.Basic
import Mathlib.Algebra.Order.Field.Rat
import Mathlib.Order.Interval.Finset.Nat
import Mathlib.Data.Finset.Prod
/-!
# Specification: interpolation of missing colours

Nothing here refers to the model.
-/

namespace Spec

/-- The positions of an `h` by `w` image at most one row and one column away from `(r, c)`. -/
def around (h w r c : ℕ) : Finset (ℕ × ℕ) :=
  (Finset.range h ×ˢ Finset.range w).filter fun p => p.1 ≤ r + 1 ∧ r ≤ p.1 + 1 ∧ p.2 ≤ c + 1 ∧ c ≤ p.2 + 1

/-- Those that measure colour `k`. -/
def measuring (h w : ℕ) (colour : ℕ → ℕ → ℕ) (r c k : ℕ) : Finset (ℕ × ℕ) := (around h w r c).filter fun p => colour p.1 p.2 = k

/-- The exact mean of the samples at a set of positions. -/
def meanAt (s : Finset (ℕ × ℕ)) (sample : ℕ → ℕ → ℕ) : ℚ := ((∑ p ∈ s, sample p.1 p.2 : ℕ) : ℚ) / (s.card : ℚ)

end Spec

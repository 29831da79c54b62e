import Verif.F32
/-!
# Arithmetic as a parameter

The matrix code of the crate is written once over any arithmetic. `Arith.f32` gives the code as it runs; an exact field gives the
function the code approximates.
-/

namespace Rust

/-- The operations the matrix code uses. -/
structure Arith (α : Type) where
  zero : α
  one : α
  add : α → α → α
  sub : α → α → α
  mul : α → α → α
  div : α → α → α
  neg : α → α
  /-- comparison with `0.0` -/
  isZero : α → Bool

/-- `f32` -/
def Arith.f32 : Arith F32 where
  zero := .zero false
  one := F32.ofNat 1
  add := F32.add
  sub := F32.sub
  mul := F32.mul
  div := F32.div
  neg := F32.neg
  isZero := fun x => x.feq (.zero false)

end Rust

import Verif.Arith
/-!
# Model of `SplineFunc` (`src/imageops/curves.rs`)

The arithmetic is a parameter: `Arith.f32` is the code, a field is the exact curve. The comparisons are those of the type:
`lt x y` is `x < y`, which on `f32` is false when either side is a NaN.
-/

namespace Model
open Rust

/-- Arithmetic with the order of the type. -/
structure OrdArith (α : Type) extends Arith α where
  /-- `x < y` -/
  lt : α → α → Bool
  /-- `x <= y` -/
  le : α → α → Bool
  /-- the literal `3.0` -/
  three : α

/-- `f32` -/
def OrdArith.f32 : OrdArith F32 := { Arith.f32 with lt := F32.lt, le := F32.le, three := F32.ofNat 3 }

/-- `SplineFunc` (`curves.rs:20-26`) -/
structure SplineFunc (α : Type) where
  xs : List α
  ys : List α
  c1s : List α
  c2s : List α
  c3s : List α

variable {α : Type} (A : OrdArith α)

/-- `(dxs, slopes)` (`curves.rs:35-44`); `dys` is not read again. -/
def splineSlopes (xs ys : List α) : M (List α × List α) :=
  forRange 0 (xs.length - 1) (fun i (s : List α × List α) => do
    let x1 ← idx xs (i + 1)
    let x0 ← idx xs i
    let y1 ← idx ys (i + 1)
    let y0 ← idx ys i
    let dx := A.sub x1 x0
    let dy := A.sub y1 y0
    .ok (s.1 ++ [dx], s.2 ++ [A.div dy dx])) ([], [])

/-- The inner tangent between two slopes (`curves.rs:51-58`). -/
def splineTangent (m next dx dxnext : α) : α :=
  if A.le (A.mul m next) A.zero then A.zero
  else
    let common := A.add dx dxnext
    A.div (A.mul A.three common) (A.add (A.div (A.add common dxnext) m) (A.div (A.add common dx) next))

/-- `c1s` (`curves.rs:47-60`) -/
def splineC1s (dxs slopes : List α) : M (List α) := do
  let s0 ← idx slopes 0
  let c1s ← forRange 0 (dxs.length - 1) (fun i (c1s : List α) => do
    let m ← idx slopes i
    let next ← idx slopes (i + 1)
    let dx ← idx dxs i
    let dxnext ← idx dxs (i + 1)
    .ok (c1s ++ [splineTangent A m next dx dxnext])) [s0]
  let sl ← idx slopes (slopes.length - 1)
  .ok (c1s ++ [sl])

/-- `(c2s, c3s)` (`curves.rs:63-72`) -/
def splineC23 (dxs slopes c1s : List α) : M (List α × List α) :=
  forRange 0 (c1s.length - 1) (fun i (s : List α × List α) => do
    let c1 ← idx c1s i
    let slope ← idx slopes i
    let dx ← idx dxs i
    let invdx := A.div A.one dx
    let c1n ← idx c1s (i + 1)
    let common := A.sub (A.sub (A.add c1 c1n) slope) slope
    .ok (s.1 ++ [A.mul (A.sub (A.sub slope c1) common) invdx], s.2 ++ [A.mul (A.mul common invdx) invdx])) ([], [])

/-- `SplineFunc::new` (`curves.rs:30-81`). In the code the differences `dx` and `dxnext` are read only in the branch that uses them; they
are always in range. -/
def SplineFunc.new (xs ys : List α) : M (SplineFunc α) :=
  if xs.length ≠ ys.length then crash
  else if xs.length < 2 then crash
  else do
    let ds ← splineSlopes A xs ys
    let c1s ← splineC1s A ds.1 ds.2
    let cs ← splineC23 A ds.1 ds.2 c1s
    .ok ⟨xs, ys, c1s, cs.1, cs.2⟩

/-- Outcome of the interval search: a knot was hit, or the final `high`. -/
inductive Found where
  | knot (i : Nat)
  | interval (high : Int)
  deriving DecidableEq, Repr

/-- The interval search (`curves.rs:91-102`); the first argument bounds the number of steps. -/
def splineSearch (xs : List α) (val : α) : Nat → Int → Int → M Found
  | 0, _, _ => .error .fuel
  | fuel + 1, low, high =>
    if low ≤ high then
      -- truncating division; `low + high` is not negative here
      let mid := (low + high) / 2
      -- `mid as usize`
      (if mid < 0 then crash else idx xs mid.toNat) >>= fun xhere =>
      if A.lt xhere val then splineSearch xs val fuel (mid + 1) high
      else if A.lt val xhere then splineSearch xs val fuel low (mid - 1)
      else .ok (.knot mid.toNat)
    else .ok (.interval high)

/-- The cubic (`curves.rs:105-107`). -/
def splineEval (f : SplineFunc α) (i : Nat) (val : α) : M α := do
  let x ← idx f.xs i
  let diff := A.sub val x
  let y ← idx f.ys i
  let c1 ← idx f.c1s i
  let c2 ← idx f.c2s i
  let c3 ← idx f.c3s i
  .ok (A.add (A.add (A.add y (A.mul c1 diff)) (A.mul (A.mul c2 diff) diff)) (A.mul (A.mul (A.mul c3 diff) diff) diff))

/-- `SplineFunc::interpolate` (`curves.rs:83-108`). The budget is one more than the number of intervals, which is enough because every step
shortens the interval `low..=high`. `c3s` is not empty in a constructed curve. -/
def SplineFunc.interpolate (f : SplineFunc α) (val : α) : M α := do
  let endx ← idx f.xs (f.xs.length - 1)
  if A.le endx val then idx f.ys (f.ys.length - 1)
  else do
    let found ← splineSearch A f.xs val (f.c3s.length + 1) 0 ((f.c3s.length : Int) - 1)
    match found with
    | .knot i => idx f.ys i
    | .interval high => splineEval A f (max 0 high).toNat val

end Model

import Verif.Rust
/-!
# Model of `OpBuffer` (`src/imageops/mod.rs`) and of `src/imageops/transform.rs`

The element type is `f32` in the code; these functions only move elements, so it is a parameter here.
-/

namespace Model
open Rust

/-- `OpBuffer` (`imageops/mod.rs:16-22`) -/
structure OpBuffer (α : Type) where
  width : Nat
  height : Nat
  colors : Nat
  data : List α
  deriving DecidableEq, Repr

namespace OpBuffer
variable {α : Type}

/-- `OpBuffer::new` (`imageops/mod.rs:25-32`); `zero` is `0.0`. -/
def new (zero : α) (width height colors : Nat) : OpBuffer α :=
  ⟨width, height, colors, List.replicate (width * height * colors) zero⟩

/-- `OpBuffer::mutate_lines` (`imageops/mod.rs:34-40`) -/
def mutateLines (s : OpBuffer α) (closure : List α → Nat → M (List α)) : M (OpBuffer α) := do
  let data ← parChunksMut (s.width * s.colors) s.data closure
  .ok { s with data }

/-- `OpBuffer::process_into_new` (`imageops/mod.rs:42-50`) -/
def processIntoNew (zero : α) (s : OpBuffer α) (colors : Nat) (closure : List α → List α → M (List α)) : M (OpBuffer α) := do
  let out := new zero s.width s.height colors
  let data ← parChunksMut (out.width * out.colors) out.data (fun line row => do
    let src ← sliceFrom s.data (s.width * s.colors * row)
    closure line src)
  .ok { out with data }

end OpBuffer

variable {α : Type}

/-- One line of `flip_horizontal` (`transform.rs:11-16`). The subtraction cannot underflow, `col` is below the width. -/
def flipHLine (buf : OpBuffer α) (line : List α) (row : Nat) : M (List α) :=
  forRange 0 buf.width (fun col line =>
    forRange 0 buf.colors (fun c line => do
      let v ← idx buf.data (buf.width * row * buf.colors + (buf.width - 1 - col) * buf.colors + c)
      setIdx line (col * buf.colors + c) v) line) line

/-- `flip_horizontal` (`transform.rs:8-20`) -/
def flipHorizontal (zero : α) (buf : OpBuffer α) : M (OpBuffer α) := do
  let out := OpBuffer.new zero buf.width buf.height buf.colors
  let data ← parChunksMut (out.width * out.colors) out.data (flipHLine buf)
  .ok { out with data }

/-- One line of `flip_vertical` (`transform.rs:26-29`). There are `height` lines, so the subtraction cannot underflow. -/
def flipVLine (buf : OpBuffer α) (line : List α) (row : Nat) : M (List α) :=
  forRange 0 (buf.width * buf.colors) (fun col line => do
    let v ← idx buf.data ((buf.height - 1 - row) * buf.width * buf.colors + col)
    setIdx line col v) line

/-- `flip_vertical` (`transform.rs:23-33`) -/
def flipVertical (zero : α) (buf : OpBuffer α) : M (OpBuffer α) := do
  let out := OpBuffer.new zero buf.width buf.height buf.colors
  let data ← parChunksMut (out.width * out.colors) out.data (flipVLine buf)
  .ok { out with data }

/-- One line of `transpose` (`transform.rs:40-46`). -/
def transposeLine (buf : OpBuffer α) (line : List α) (row : Nat) : M (List α) :=
  forRange 0 buf.height (fun col line =>
    forRange 0 buf.colors (fun c line => do
      let v ← idx buf.data ((col * buf.width + row) * buf.colors + c)
      setIdx line (col * buf.colors + c) v) line) line

/-- `transpose` (`transform.rs:36-50`) -/
def transpose (zero : α) (buf : OpBuffer α) : M (OpBuffer α) := do
  let out := OpBuffer.new zero buf.height buf.width buf.colors
  let data ← parChunksMut (out.width * out.colors) out.data (transposeLine buf)
  .ok { out with data }

/-- `Orientation` (`decoders/mod.rs:197-207`) -/
inductive Orientation where
  | normal | horizontalFlip | rotate180 | verticalFlip | transpose | rotate90 | transverse | rotate270 | unknown
  deriving DecidableEq, Repr

/-- `Orientation::from_u16` (`decoders/mod.rs:212-224`) -/
def Orientation.fromU16 (v : Nat) : Orientation :=
  match v with
  | 1 => .normal
  | 2 => .horizontalFlip
  | 3 => .rotate180
  | 4 => .verticalFlip
  | 5 => .transpose
  | 6 => .rotate90
  | 7 => .transverse
  | 8 => .rotate270
  | _ => .unknown

/-- `Orientation::to_flips` (`decoders/mod.rs:238-250`) -/
def Orientation.toFlips : Orientation → Bool × Bool × Bool
  | .normal => (false, false, false)
  | .unknown => (false, false, false)
  | .verticalFlip => (false, false, true)
  | .horizontalFlip => (false, true, false)
  | .rotate180 => (false, true, true)
  | .transpose => (true, false, false)
  | .rotate270 => (true, false, true)
  | .rotate90 => (true, true, false)
  | .transverse => (true, true, true)

/-- `rotate_buffer` (`transform.rs:52-63`) -/
def rotateBuffer (zero : α) (buf : OpBuffer α) (orientation : Orientation) : M (OpBuffer α) :=
  match orientation.toFlips with
  | (false, false, false) => .ok buf
  | (false, false, true) => flipVertical zero buf
  | (false, true, false) => flipHorizontal zero buf
  | (false, true, true) => flipVertical zero buf >>= flipHorizontal zero
  | (true, false, false) => transpose zero buf
  | (true, false, true) => transpose zero buf >>= flipVertical zero
  | (true, true, false) => transpose zero buf >>= flipHorizontal zero
  | (true, true, true) => transpose zero buf >>= flipHorizontal zero >>= flipVertical zero

end Model

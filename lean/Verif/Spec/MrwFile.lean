import Verif.Spec.WholeFile
/-!
# The files of Minolta cameras

Eight bytes, blocks, and the picture. A block has a name and a length of four bytes each. Nothing here refers to the model.
-/

namespace Spec

/-- A block with the name as a number. -/
structure MrwBlock where
  tag : Nat
  body : List UInt8

/-- The bytes of a block. -/
def MrwBlock.bytes (x : MrwBlock) : List UInt8 := encode true 4 x.tag ++ (encode true 4 x.body.length ++ x.body)

/-- The bytes of the blocks. -/
def mrwBlocks (l : List MrwBlock) : List UInt8 := l.flatMap MrwBlock.bytes

/-- Where the picture begins. -/
def mrwOffset (blocks : List MrwBlock) (slack : List UInt8) : Nat := 8 + (mrwBlocks blocks).length + slack.length

/-- A file: the mark, the number of bytes of the blocks with what follows them, and the picture. -/
def mrwContents (blocks : List MrwBlock) (slack picture : List UInt8) : List UInt8 :=
  [0, 0x4d, 0x52, 0x4d] ++ (encode true 4 ((mrwBlocks blocks).length + slack.length) ++ (mrwBlocks blocks ++ (slack ++ picture)))

/-- Blocks that can be told apart: every one begins more than 20 bytes before the picture, and at most 20 bytes follow the last. The lengths fit in 32 bits. -/
structure MrwLayout (blocks : List MrwBlock) (slack : List UInt8) : Prop where
  rest : slack.length ≤ 20
  live : ∀ i, i < blocks.length → 20 < (mrwBlocks (blocks.drop i)).length + slack.length
  tags : ∀ x ∈ blocks, x.tag < 4294967296
  fits : mrwOffset blocks slack < 4294967296

/-- The last block with a name. -/
def LastBlock (blocks : List MrwBlock) (tag : Nat) (x : MrwBlock) : Prop :=
  ∃ pre post, blocks = pre ++ x :: post ∧ x.tag = tag ∧ ∀ y ∈ post, y.tag ≠ tag

end Spec

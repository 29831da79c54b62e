import Verif.Spec.Ciff
import Verif.Spec.Tree
/-!
# Files of Canon's first digital cameras

What the heaps of a CIFF file say about the camera and its picture. Nothing here refers to the model.
-/

namespace Spec

/-- The first value with a tag, in document order, has the bytes. -/
def Heap.First (h : Heap) (tag : Nat) (data : List UInt8) : Prop := FirstIn Heap.subs (Heap.find · tag) h data

/-- No heap has a value with the tag. -/
def Heap.Lacks (h : Heap) (tag : Nat) : Prop := NoneIn Heap.subs (Heap.find · tag) h

/-- The first value with a tag begins with the 16-bit numbers. -/
def Heap.Shorts (h : Heap) (tag : Nat) (values : List Nat) : Prop :=
  (∀ v ∈ values, v < 65536) ∧ ∃ rest, h.First tag (values.flatMap (encode false 2) ++ rest)

/-- The first value with a tag begins with the 32-bit number. -/
def Heap.Long (h : Heap) (tag value : Nat) : Prop := value < 4294967296 ∧ ∃ rest, h.First tag (encode false 4 value ++ rest)

/-- A name in the file: ASCII without NUL. -/
def IsAscii (text : List UInt8) : Prop := ∀ c ∈ text, c ≠ 0 ∧ c < 0x80

/-- A CIFF file naming its camera: maker and model, both ended by a NUL. -/
structure CiffCamera (contents : List UInt8) (heap : Heap) (make model : List UInt8) : Prop where
  order : bytesAt contents 0 2 = [0x49, 0x49]
  mark : bytesAt contents 6 8 = [0x48, 0x45, 0x41, 0x50, 0x43, 0x43, 0x44, 0x52]
  file : CiffFile 10 contents heap
  names : ∃ rest, heap.First 0x080a (make ++ 0 :: (model ++ 0 :: rest))
  make : IsAscii make
  model : IsAscii model

end Spec

import Verif.Spec.Tiff
/-!
# CIFF heaps

The layout of Canon's Camera Image File Format: a heap is a range of the file holding values, then a directory of ten byte
records, and in its last four bytes the position of the directory. A record has a tag of 14 bits whose upper three bits are the
type of the value; the value is stored in the heap or, with the next bit set, in the record itself. Two of the types are heaps
within the heap. All numbers are little endian. Nothing here refers to the model.
-/

namespace Spec

mutual
  /-- A heap: its records, in the order in which they are stored. -/
  inductive Heap where
    | mk (records : List HeapRecord)
  /-- A record: a value, in the record itself or elsewhere in the heap, or a heap. -/
  inductive HeapRecord where
    | value (tag : Nat) (inside : Bool) (data : List UInt8)
    | heap (tag : Nat) (h : Heap)
end

/-- The records of a heap. -/
def Heap.records : Heap → List HeapRecord | .mk l => l

/-- The heap of a record. -/
def HeapRecord.heap? : HeapRecord → Option Heap
  | .value .. => none
  | .heap _ h => some h

/-- The tag and the value of a record. -/
def HeapRecord.value? : HeapRecord → Option (Nat × List UInt8)
  | .value tag _ data => some (tag, data)
  | .heap .. => none

/-- The heaps within a heap, in the order of the records. -/
def Heap.subs (h : Heap) : List Heap := h.records.filterMap HeapRecord.heap?

/-- The last value with a tag. -/
def Heap.find (h : Heap) (tag : Nat) : Option (List UInt8) :=
  ((h.records.filterMap HeapRecord.value?).reverse.find? fun r => r.1 == tag).map Prod.snd

/-- The type of a value, from its tag. -/
def ciffType (tag : Nat) : Nat := tag / 2048 % 8

/-- Types 5 and 6 are heaps. -/
def isHeapTag (tag : Nat) : Prop := ciffType tag = 5 ∨ ciffType tag = 6

/-- Size of one element of the integer types: bytes (0), shorts (2), longs (3) and mixed structures (4), read as longs. -/
def ciffSize (typ : Nat) : Nat := if typ = 2 then 2 else if typ = 3 ∨ typ = 4 then 4 else 1

/-- The heap, with at most `levels` levels, takes the bytes from `start` to `stop`. -/
def Heap.StoredAt : (levels : Nat) → List UInt8 → (start stop : Nat) → Heap → Prop
  | 0, _, _, _, _ => False
  | n + 1, buf, start, stop, .mk records => ∃ dir,
    4 ≤ stop ∧ stop ≤ buf.length ∧ dir < 4294967296 ∧ records.length < 65536 ∧
    bytesAt buf (stop - 4) 4 = encode false 4 dir ∧
    start + dir + 2 + 10 * records.length ≤ buf.length ∧
    bytesAt buf (start + dir) 2 = encode false 2 records.length ∧
    ∀ (i : Nat) (r : HeapRecord), records[i]? = some r →
      match r with
      | .value tag true data => tag < 16384 ∧ ¬ isHeapTag tag ∧ data.length = 8 ∧
          bytesAt buf (start + dir + 2 + 10 * i) 2 = encode false 2 (16384 + tag) ∧
          bytesAt buf (start + dir + 2 + 10 * i + 2) 8 = data
      | .value tag false data => tag < 16384 ∧ ¬ isHeapTag tag ∧ data.length < 4294967296 ∧
          bytesAt buf (start + dir + 2 + 10 * i) 2 = encode false 2 tag ∧
          bytesAt buf (start + dir + 2 + 10 * i + 2) 4 = encode false 4 data.length ∧
          ∃ o, o < 4294967296 ∧ bytesAt buf (start + dir + 2 + 10 * i + 6) 4 = encode false 4 o ∧
            start + o ≤ buf.length ∧ bytesAt buf (start + o) data.length = data
      | .heap tag h => tag < 16384 ∧ isHeapTag tag ∧
          bytesAt buf (start + dir + 2 + 10 * i) 2 = encode false 2 tag ∧
          ∃ size o, size < 4294967296 ∧ o < 4294967296 ∧
            bytesAt buf (start + dir + 2 + 10 * i + 2) 4 = encode false 4 size ∧
            bytesAt buf (start + dir + 2 + 10 * i + 6) 4 = encode false 4 o ∧
            h.StoredAt n buf (start + o) (start + o + size)

/-- A file: the byte order, the position of the heap, and the heap, which ends with the file. -/
structure CiffFile (levels : Nat) (file : List UInt8) (h : Heap) : Prop where
  room : 6 ≤ file.length
  start : ∃ start, start < 4294967296 ∧ bytesAt file 2 4 = encode false 4 start ∧ h.StoredAt levels file start file.length

end Spec

import Verif.Spec.Huffman
import Verif.Spec.Stream
/-!
# Specification: an encoder for lossless JPEG (ITU T.81, annex H)

Nothing here refers to the model. Bits are numbers 0 and 1.
-/

namespace Spec

/-- The lowest `n` bits of `v`, most significant first. -/
def bitsOf (n v : Nat) : List Nat := (List.range n).map fun i => v / 2 ^ (n - 1 - i) % 2

/-- From bit `c` on, the stream `st` continues with the bits `l`. -/
def Follows (st : Nat → Nat) (c : Nat) (l : List Nat) : Prop := ∀ i, i < l.length → bitMSB st (c + i) = l.getD i 0

/-- The category of a difference (T.81 table H.2): the number of binary digits of its absolute value. -/
def category (d : Int) : Nat := if d.natAbs = 0 then 0 else Nat.log2 d.natAbs + 1

/-- The additional bits of a difference of category `n`. -/
def additional (n : Nat) (d : Int) : Nat := if d < 0 then (d + 2 ^ n - 1).toNat else d.toNat

/-- A difference: the Huffman code of its category, then the additional bits. The code is that of the first symbol in `vals` with this category. -/
def encodeDiff (lens vals : List Nat) (d : Int) : List Nat :=
  bitsOf (lens.getD (vals.idxOf (category d)) 0) (canonical lens (vals.idxOf (category d))) ++ bitsOf (diffBits (category d)) (additional (category d) d)

/-- The difference modulo 2^16 between a sample and its prediction, from -32768 to 32767. -/
def diff16 (v p : Nat) : Int := Int.bmod ((v : Int) - p) 65536

/-- Predictor 1: the sample to the left, for the first sample of a line the one above, for the first line the middle of the range. -/
def predict (base : Nat) (img : Nat → Nat → Nat → Nat) (r p k : Nat) : Nat :=
  if p = 0 then if r = 0 then base else img (r - 1) 0 k else img r (p - 1) k

/-- The difference that is encoded for component `k` of pixel `p` in row `r`. -/
def residual (base : Nat) (img : Nat → Nat → Nat → Nat) (r p k : Nat) : Int := diff16 (img r p k) (predict base img r p k)

/-- One pixel of `n` interleaved components; `enc k` encodes a difference of component `k`. -/
def encodePixel (n : Nat) (enc : Nat → Int → List Nat) (base : Nat) (img : Nat → Nat → Nat → Nat) (r p : Nat) : List Nat :=
  (List.range n).flatMap fun k => enc k (residual base img r p k)

/-- One row of `w` pixels. -/
def encodeRow (n w : Nat) (enc : Nat → Int → List Nat) (base : Nat) (img : Nat → Nat → Nat → Nat) (r : Nat) : List Nat :=
  (List.range w).flatMap (encodePixel n enc base img r)

/-- A scan of `h` rows of `w` pixels. -/
def encodeScan (n w h : Nat) (enc : Nat → Int → List Nat) (base : Nat) (img : Nat → Nat → Nat → Nat) : List Nat :=
  (List.range h).flatMap (encodeRow n w enc base img)

example : encodeDiff [2, 3, 3, 3, 3, 3, 4, 5, 6, 7, 8, 9] (List.range 12) (-5) = [1, 0, 0, 0, 1, 0] := by decide
example : (category 0, category (-1), category 32767, category (-32768)) = (0, 1, 15, 16) := by decide
example : diff16 3 65535 = 4 ∧ diff16 32768 0 = -32768 := by decide

end Spec

/-! ## Files -/

namespace Spec

/-- Bits to bytes, most significant bit first, the last byte filled up with ones. -/
def packBits (l : List Nat) : List UInt8 :=
  (List.range ((l.length + 7) / 8)).map fun i => UInt8.ofNat
    (l.getD (8 * i) 1 * 128 + l.getD (8 * i + 1) 1 * 64 + l.getD (8 * i + 2) 1 * 32 + l.getD (8 * i + 3) 1 * 16 +
     l.getD (8 * i + 4) 1 * 8 + l.getD (8 * i + 5) 1 * 4 + l.getD (8 * i + 6) 1 * 2 + l.getD (8 * i + 7) 1)

/-- A zero after every 0xff. -/
def stuff : List UInt8 → List UInt8
  | [] => []
  | b :: rest => if b = 0xff then b :: 0 :: stuff rest else b :: stuff rest

/-- A Huffman table as stored: the number of codes of 1, 2, ..., 16 bits, and the symbols. -/
structure TableSpec where
  counts : List Nat
  vals : List Nat

/-- The code lengths of a table. -/
def TableSpec.lens (t : TableSpec) : List Nat := codeLengths fun l => (0 :: t.counts).getD l 0

/-- A 16-bit number, high byte first. -/
def word16 (n : Nat) : List UInt8 := [UInt8.ofNat (n / 256), UInt8.ofNat (n % 256)]

/-- Table `i` in a DHT segment. -/
def dhtEntry (t : TableSpec) (i : Nat) : List UInt8 := UInt8.ofNat i :: (t.counts.map UInt8.ofNat ++ t.vals.map UInt8.ofNat)

/-- A DHT segment with `n` tables, numbered from 0. -/
def dhtSegment (n : Nat) (tab : Nat → TableSpec) : List UInt8 :=
  [0xff, 0xc4] ++ word16 (2 + ((List.range n).map fun i => 17 + (tab i).vals.length).sum) ++ (List.range n).flatMap fun i => dhtEntry (tab i) i

/-- The frame header of a lossless image with `n` components; component `i` has the sampling factors `sub i` (0x11 without subsampling). -/
def sofSegment (precision h w n : Nat) (id sub : Nat → Nat) : List UInt8 :=
  [0xff, 0xc3] ++ word16 (8 + 3 * n) ++ [UInt8.ofNat precision] ++ word16 h ++ word16 w ++ [UInt8.ofNat n] ++
    (List.range n).flatMap fun i => [UInt8.ofNat (id i), UInt8.ofNat (sub i), 0]

/-- The scan header: the component selectors `sel`, component `i` uses table `i`, predictor `pred`, point transform `pt`. -/
def sosSegment (n : Nat) (sel : Nat → Nat) (pred pt : Nat) : List UInt8 :=
  [0xff, 0xda] ++ word16 (6 + 2 * n) ++ [UInt8.ofNat n] ++ ((List.range n).flatMap fun i => [UInt8.ofNat (sel i), UInt8.ofNat (16 * i)]) ++
    [UInt8.ofNat pred, 0, UInt8.ofNat pt]

/-- Everything before the entropy-coded data. -/
def fileHeader (precision pt h w n : Nat) (id sel sub : Nat → Nat) (pred : Nat) (tab : Nat → TableSpec) : List UInt8 :=
  [0xff, 0xd8] ++ dhtSegment n tab ++ sofSegment precision h w n id sub ++ sosSegment n sel pred pt

/-- A lossless JPEG file (predictor 1) for the image `img` of `h` rows of `w` pixels with `n` components, with the end marker. -/
def encodeFile (precision pt h w n : Nat) (id : Nat → Nat) (tab : Nat → TableSpec) (img : Nat → Nat → Nat → Nat) : List UInt8 :=
  fileHeader precision pt h w n id id (fun _ => 0x11) 1 tab ++
    stuff (packBits (encodeScan n w h (fun k => encodeDiff (tab k).lens (tab k).vals) (2 ^ (precision - pt - 1)) img)) ++ [0xff, 0xd9]

end Spec

/-! ## Canon's subsampled images

The frame has three components; the first has twice the horizontal resolution of the others and once or twice the vertical one. A block is
2 pixels wide and `v` (1 or 2) pixels high; its pixels are numbered row by row. -/

namespace Spec

/-- The prediction for luma sample `j` of the block in block row `r`, block column `p`: the sample before it in the scan, for the first block of a row the first sample of the
block above, for the first of all the middle of the range. A block has `m` luma samples. -/
def lumaPredict (m base : Nat) (Y : Nat → Nat → Nat → Nat) (r p j : Nat) : Nat :=
  if j = 0 then if p = 0 then if r = 0 then base else Y (r - 1) 0 0 else Y r (p - 1) (m - 1) else Y r p (j - 1)

/-- One block: its luma samples, then its two chroma samples. -/
def encodeBlock (m : Nat) (enc : Nat → Int → List Nat) (base : Nat) (Y C : Nat → Nat → Nat → Nat) (r p : Nat) : List Nat :=
  ((List.range m).flatMap fun j => enc 0 (diff16 (Y r p j) (lumaPredict m base Y r p j))) ++
    (List.range 2).flatMap fun k => enc (k + 1) (residual base C r p k)

/-- All blocks, row by row. -/
def encodeBlocks (m wb hb : Nat) (enc : Nat → Int → List Nat) (base : Nat) (Y C : Nat → Nat → Nat → Nat) : List Nat :=
  (List.range hb).flatMap fun r => (List.range wb).flatMap (encodeBlock m enc base Y C r)

/-- A file with `wb` blocks in each of `hb` rows, blocks 2 pixels wide and `v` high. The decoder does not look at the predictor `pred`. -/
def encodeSubsampled (precision pt v wb hb : Nat) (id : Nat → Nat) (pred : Nat) (tab : Nat → TableSpec) (Y C : Nat → Nat → Nat → Nat) : List UInt8 :=
  fileHeader precision pt (v * hb) (2 * wb) 3 id id (fun i => if i = 0 then 0x20 + v else 0x11) pred tab ++
    stuff (packBits (encodeBlocks (2 * v) wb hb (fun k => encodeDiff (tab k).lens (tab k).vals) (2 ^ (precision - pt - 1)) Y C)) ++ [0xff, 0xd9]

end Spec

/-! ## Leaf's strips

The image is cut into strips of 8 rows (the last may have fewer), each encoded on its own and followed by a marker, the last one by the end marker. -/

namespace Spec

/-- Strip `q` with its marker. -/
def leafChunk (w h : Nat) (enc : Nat → Int → List Nat) (base : Nat) (img : Nat → Nat → Nat → Nat) (mark : Nat → UInt8) (q : Nat) : List UInt8 :=
  stuff (packBits (encodeScan 2 w (min 8 (h - q * 8)) enc base fun r => img (q * 8 + r))) ++ [0xff, if q + 1 < (h + 7) / 8 then mark q else 0xd9]

/-- All strips. -/
def leafData (w h : Nat) (enc : Nat → Int → List Nat) (base : Nat) (img : Nat → Nat → Nat → Nat) (mark : Nat → UInt8) : List UInt8 :=
  (List.range ((h + 7) / 8)).flatMap (leafChunk w h enc base img mark)

/-- A file: the frame header has the size `fh` by `fw`, which the decoder does not use; component `i` has the identifier `i`, whatever the scan header says. -/
def encodeLeaf (precision pt fh fw h w : Nat) (sel sub : Nat → Nat) (pred : Nat) (tab : Nat → TableSpec) (img : Nat → Nat → Nat → Nat) (mark : Nat → UInt8) : List UInt8 :=
  fileHeader precision pt fh fw 2 (fun i => i) sel sub pred tab ++
    leafData w h (fun k => encodeDiff (tab k).lens (tab k).vals) (2 ^ (precision - pt - 1)) img mark

end Spec

/-! ## Hasselblad's pairs

Two samples at a time: the codes of the two categories, then the additional bits of the first and of the second. Every row starts from 0x8000. The bits are
stored in 32-bit words with the lowest byte first. -/

namespace Spec

/-- The code of a symbol. -/
def encodeSymbol (lens vals : List Nat) (v : Nat) : List Nat := bitsOf (lens.getD (vals.idxOf v) 0) (canonical lens (vals.idxOf v))

/-- The additional bits of a difference. -/
def extraBits (d : Int) : List Nat := bitsOf (diffBits (category d)) (additional (category d) d)

/-- The difference for sample `k` of pair `p` in row `r`. -/
def pairResidual (img : Nat → Nat → Nat → Nat) (r p k : Nat) : Int := diff16 (img r p k) (if p = 0 then 0x8000 else img r (p - 1) k)

/-- One pair. -/
def encodePair (t : TableSpec) (img : Nat → Nat → Nat → Nat) (r p : Nat) : List Nat :=
  encodeSymbol t.lens t.vals (category (pairResidual img r p 0)) ++ encodeSymbol t.lens t.vals (category (pairResidual img r p 1)) ++
    extraBits (pairResidual img r p 0) ++ extraBits (pairResidual img r p 1)

/-- All rows, each of `w` pairs. -/
def encodePairs (t : TableSpec) (w h : Nat) (img : Nat → Nat → Nat → Nat) : List Nat :=
  (List.range h).flatMap fun r => (List.range w).flatMap (encodePair t img r)

/-- The bytes of every four in the opposite order. -/
def swapWords (l : List UInt8) : List UInt8 := (List.range l.length).map fun i => l.getD (i / 4 * 4 + (3 - i % 4)) 0

/-- A file of `n` components (only the table of the first is used), predictor 8. `pad` is what follows the bits in the stream. -/
def encodeHasselblad (precision pt fh fw n : Nat) (id sub : Nat → Nat) (tab : Nat → TableSpec) (w h : Nat) (img : Nat → Nat → Nat → Nat) (pad : List UInt8) : List UInt8 :=
  fileHeader precision pt fh fw n id id sub 8 tab ++ swapWords (packBits (encodePairs (tab 0) w h img) ++ pad)

end Spec

import Verif.Spec.WholeFile
import Verif.Props.Slices
import Verif.Props.Tiles
/-!
# Canon CR2 files

Where a CR2 file keeps its picture, how the samples of its lossless JPEG are arranged, its white balance and the colours of the small pictures. Nothing here refers to the model.
-/

namespace Spec

/-- The directory of the picture and the position of the JPEG: the first directory with the CR2 mark, or else the first with a colour pattern, each with its strip; or else the position alone. -/
inductive Cr2Raw (root : Dir) : Dir → Nat → Prop
  | marked {raw : Dir} {offset : Nat} {t : List Nat} (first : root.FirstWith 0xc5d8 raw) (strip : raw.Numbers 0x111 (offset :: t)) : Cr2Raw root raw offset
  | patterned {raw : Dir} {offset : Nat} {t : List Nat} (unmarked : root.Lacks 0xc5d8) (first : root.FirstWith 0x828e raw) (strip : raw.Numbers 0x111 (offset :: t)) :
    Cr2Raw root raw offset
  | old {offset : Nat} {t : List Nat} (unmarked : root.Lacks 0xc5d8) (plain : root.Lacks 0x828e) (strip : root.Numbers 0x81 (offset :: t)) : Cr2Raw root root offset

/-- Where sample `c` of row `r` of a picture cut into vertical slices is, counting from the first sample; the slices from column `start` on have the widths of the list and `h` rows. -/
def sliceSource (h : Nat) : Nat → List Nat → Nat → Nat → Nat
  | _, [], _, _ => 0
  | start, w :: ws, r, c => if c < start + w then start * h + r * w + (c - start) else sliceSource h (start + w) ws r c

/-- Which sample of the JPEG (of `lh` lines of `lw` samples) is sample `c` of row `r` of the picture (of `h` rows of `w` samples). The field 0xc640 has the number of equal slices, their
width and that of a last slice, the widths in units of `unit` samples divided by `sh`. With `v = 2` the JPEG holds pairs of lines; then all slices have to be equally wide, and the widths count samples. -/
inductive Cr2Places (raw : Dir) (v sh unit lw lh w h : Nat) : (Nat → Nat → Nat) → Prop
  | whole (none : raw.Lacks 0xc640 ∨ ∃ t, raw.Numbers 0xc640 (0 :: t)) (same : w * h = lw * lh) : Cr2Places raw v sh unit lw lh w h fun r c => r * w + c
  | sliced {n w1 w2 : Nat} {t : List Nat} (single : v ≠ 2) (widths : raw.Numbers 0xc640 (n :: w1 :: w2 :: t)) (some : n ≠ 0)
      (sum : n * (w1 / sh * unit) + w2 / sh * unit = w) (fits : w * h ≤ lw * lh) :
      Cr2Places raw v sh unit lw lh w h (sliceSource h 0 (List.replicate n (w1 / sh * unit) ++ [w2 / sh * unit]))
  | paired {n w1 w2 : Nat} {t : List Nat} (double : v = 2) (widths : raw.Numbers 0xc640 (n :: w1 :: w2 :: t)) (some : n ≠ 0)
      (sum : (n + 1) * w1 = w) (threes : w1 % 3 = 0 ∧ lw % 3 = 0) (even : h % 2 = 0 ∧ lh % 2 = 0) (fits : w * h ≤ lw * lh) :
      Cr2Places raw v sh unit lw lh w h fun r c => pairSource lw (r % 2) ((c / w1 * (h / 2) + r / 2) * w1 + c % w1)

/-- The number of the white balance in the colour data, for cameras that state none. -/
def cr2Index (wbOffset : Nat) : Nat := if wbOffset = 0 then 63 else wbOffset

/-- The size of a small picture in pixels: the one of the directory, or else that of the JPEG, on its side if it is higher than wide. -/
def Cr2Size (raw : Dir) (lw lh w h : Nat) : Prop :=
  (∃ t1 t2, raw.Numbers 0x100 (w :: t1) ∧ raw.Numbers 0x101 (h :: t2)) ∨
  raw.Lacks 0x100 ∧ (lw < lh ∧ w = lh ∧ h = lw ∨ lh ≤ lw ∧ w = lw ∧ h = lh)

/-- A number held to 16 bits. -/
def hold16 (x : Int) : Nat := if x < 0 then 0 else if 65535 < x then 65535 else x.toNat

/-- Colour `k` (red, green, blue) of a small picture from brightness and the two colour differences, with the levels of white. `lift` is what the camera adds to the brightness. -/
def smallColour (red green blue lift y cb cr k : Nat) : Nat :=
  hold16 ((if k = 0 then ((1048576 / red : Nat) : Int) * (((y : Int) - lift) + ((cr : Int) - 16383))
    else if k = 1 then (green : Int) * (((y : Int) - lift) + (-778 * ((cb : Int) - 16383) - 2048 * ((cr : Int) - 16383)) / 4096)
    else ((1048576 / blue : Nat) : Int) * (((y : Int) - lift) + ((cb : Int) - 16383))) / 256)

/-- Brightness of pixel `q` of a JPEG of blocks 2 pixels wide and `v` high, `wb` in a row, the pixels counted along the lines. -/
def blockLuma (v wb : Nat) (Y : Nat → Nat → Nat → Nat) (q : Nat) : Nat :=
  Y (q / (2 * wb) / v) (q % (2 * wb) / 2) (2 * (q / (2 * wb) % v) + q % (2 * wb) % 2)

/-- Its colour differences. -/
def blockChroma (v wb : Nat) (C : Nat → Nat → Nat → Nat) (q k : Nat) : Nat := C (q / (2 * wb) / v) (q % (2 * wb) / 2) k

/-- The bytes begin with a JPEG of `hb` rows of `wb` blocks. -/
def BeginsWithBlocks (v wb hb : Nat) (Y C : Nat → Nat → Nat → Nat) (bytes : Model.Bytes) : Prop :=
  ∃ (precision pt : Nat) (id : Nat → Nat) (pred : Nat) (tab : Nat → TableSpec) (tail : Model.Bytes),
    (v = 1 ∨ v = 2) ∧ (12 ≤ precision ∧ precision ≤ 16) ∧ (pt < precision ∧ pt < 16) ∧ (0 < hb ∧ v * hb < 65536) ∧ (0 < wb ∧ 2 * wb < 65536) ∧
    ((∀ i, i < 3 → id i < 256) ∧ ∀ i j, i < 3 → j < 3 → id i = id j → i = j) ∧ pred < 256 ∧ (∀ i, i < 3 → Props.UsableTable (tab i) precision false) ∧
    ((∀ r p j, Y r p j < 65536) ∧ ∀ r p k, C r p k < 65536) ∧
    (∀ r p j, r < hb → p < wb → j < 2 * v → category (diff16 (Y r p j) (lumaPredict (2 * v) (2 ^ (precision - pt - 1)) Y r p j)) ∈ (tab 0).vals) ∧
    (∀ r p k, r < hb → p < wb → k < 2 → category (residual (2 ^ (precision - pt - 1)) C r p k) ∈ (tab (k + 1)).vals) ∧
    bytes = encodeSubsampled precision pt v wb hb id pred tab Y C ++ tail

/-- The slices of a picture of small pixels keep the three colours of a pixel together. -/
example : (List.range 6).map (sliceSource 2 0 [3, 3] 1) = [3, 4, 5, 9, 10, 11] := by decide

end Spec

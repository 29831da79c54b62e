import Verif.Spec.Srw1
/-!
# Specification: an encoder for Samsung's third compression

The lines are divided into blocks of 16 samples. Each block is predicted from the left or, with one of seven displacements, from the two lines above; it
changes the four numbers of bits of the line, and stores its differences with these numbers of bits. Differences may be scaled. Every line starts at a
multiple of 16 bytes. Nothing here refers to the model.
-/

namespace Spec

/-- The header: the number of bits of a sample, the three flags, and the value before the first sample of a line. -/
structure Srw3Header where
  depth : Nat
  /-- No block says that it has no differences. -/
  noSkip : Bool
  /-- The only predictions are from the left and from above without displacement. -/
  fewModes : Bool
  /-- Differences are not scaled. -/
  noScale : Bool
  init : Nat

/-- The scale of a block. -/
inductive Srw3Scale where
  | zero
  | down
  | up
  | set (n : Nat)
  deriving DecidableEq, Repr

/-- Its value. -/
def Srw3Scale.value : Srw3Scale → Int
  | zero => 0
  | down => -2
  | up => 2
  | set n => n

/-- Its bits. -/
def Srw3Scale.bits : Srw3Scale → List Nat
  | zero => bitsOf 2 0
  | down => bitsOf 2 1
  | up => bitsOf 2 2
  | set n => bitsOf 2 3 ++ bitsOf 12 n

/-- The choices for one block: the scale (every fourth block has one), the prediction (`none`: the same as that of the previous block, from the left for the
first), whether there are differences, and the changes of the numbers of bits. -/
structure Srw3Block where
  scale : Srw3Scale
  mode : Option Nat
  skip : Bool
  change : Nat → LenChange

variable (hd : Srw3Header)

/-- The scale used in block `g`. -/
def srw3Scale (ch : Nat → Srw3Block) (g : Nat) : Int := if hd.noScale = false ∧ g % 4 = 0 then (ch g).scale.value else 0

/-- The prediction used before block `g`; 7 is from the left. -/
def srw3Mode (ch : Nat → Srw3Block) : Nat → Nat
  | 0 => 7
  | g + 1 => match (ch g).mode with
    | some m => m
    | none => srw3Mode ch g

/-- Block `g` has no differences. -/
def srw3Skips (ch : Nat → Srw3Block) (g : Nat) : Bool := !hd.noSkip && (ch g).skip

/-- The numbers of bits of a line before block `g`. -/
def srw3Lens (ch : Nat → Srw3Block) (first : Nat) : Nat → Nat → Nat
  | 0, _ => first
  | g + 1, i => if srw3Skips hd ch g then srw3Lens ch first g i else ((ch g).change i).apply (srw3Lens ch first g i)

/-- The numbers of bits used in block `g`. -/
def srw3Used (ch : Nat → Srw3Block) (first g i : Nat) : Nat := if srw3Skips hd ch g then 0 else srw3Lens hd ch first (g + 1) i

/-- The displacement of a mode. -/
def srw3Slide : Nat → Int
  | 0 => -4
  | 1 => -2
  | 2 => -2
  | 5 => 2
  | 6 => 4
  | _ => 0

/-- Modes that use the mean of two samples. -/
def srw3Mean (m : Nat) : Bool := m == 2 || m == 4

/-- The place from which sample `i` of a block is predicted, in the order of the samples of the picture: the same colour two lines above, or for green
the neighbour on the line above. -/
def srw3Place (w r g m i : Nat) : Int :=
  (if (r + i) % 2 = 1 then ((r - 2) * w + 16 * g + i : Nat) else if i % 2 = 1 then ((r - 1) * w + 16 * g + i - 1 : Nat) else ((r - 1) * w + 16 * g + i + 1 : Nat)) + srw3Slide m

/-- The prediction of sample `i` of block `g` in line `r`. -/
def srw3Pred (w : Nat) (pic : Nat → Nat → Nat) (r g m i : Nat) : Nat :=
  if m = 7 then if g = 0 then hd.init else pic r (16 * g - 2 + i % 2)
  else
    let sample (k : Nat) : Nat := pic (k / w) (k % w)
    let k := (srw3Place w r g m i).toNat
    if srw3Mean m then (sample k + sample (k + 2) + 1) / 2 else sample k

/-- The order of the samples in a block: the colour of the line first, then green. -/
def srw3Order (r i : Nat) : Nat := if r % 2 = 1 then if i < 8 then 2 * i + 1 else 2 * (i - 8) else if i < 8 then 2 * i else 2 * (i - 8) + 1

/-- One block; `diff` gives the stored differences. -/
def srw3BlockBits (diff : Nat → Nat → Int) (ch : Nat → Srw3Block) (r g : Nat) : List Nat :=
  (if hd.noScale = false ∧ g % 4 = 0 then (ch g).scale.bits else []) ++
  (if hd.fewModes then (if srw3Mode ch (g + 1) = 3 then [1] else [0]) else match (ch g).mode with
    | some m => [0] ++ bitsOf 3 m
    | none => [1]) ++
  (if hd.noSkip then [] else if (ch g).skip then [1] else [0]) ++
  (if srw3Skips hd ch g then [] else ((List.range 4).flatMap fun i => bitsOf 2 ((ch g).change i).code) ++ ((List.range 4).flatMap fun i => ((ch g).change i).extra)) ++
  (List.range 16).flatMap fun i => signedBits (srw3Used hd ch (srw1First r) g (i / 4)) (diff r (16 * g + srw3Order r i))

/-- One line. -/
def srw3Line (w : Nat) (diff : Nat → Nat → Int) (ch : Nat → Srw3Block) (r : Nat) : List Nat :=
  (List.range (w / 16)).flatMap (srw3BlockBits hd diff ch r)

/-- The choices for a line can be stored and describe the picture `pic`: scales have 12 bits; other lines than the two above are not used, nor
samples that are not yet known; with `fewModes`, every block has mode 3 or 7; numbers of bits are legal and at most one more than the samples have;
differences fit, and together with the scale they lead from the prediction to the sample. -/
def Srw3Legal (w : Nat) (pic : Nat → Nat → Nat) (diff : Nat → Nat → Int) (ch : Nat → Srw3Block) (r : Nat) : Prop :=
  ∀ g, g < w / 16 →
    (match (ch g).scale with | .set n => n < 4096 | _ => True) ∧
    (let m := srw3Mode ch (g + 1); m = 7 ∨ m < 7 ∧ 2 ≤ r ∧ ∀ i, i < 16 → 0 ≤ srw3Place w r g m i ∧ srw3Place w r g m i + (if srw3Mean m then 2 else 0) < (r * w + 16 * g : Nat)) ∧
    (hd.fewModes = true → srw3Mode ch (g + 1) = 3 ∨ srw3Mode ch (g + 1) = 7) ∧
    (srw3Skips hd ch g = false → ∀ i, i < 4 → ((ch g).change i).Legal (srw3Lens hd ch (srw1First r) g i) ∧ srw3Lens hd ch (srw1First r) (g + 1) i ≤ hd.depth + 1) ∧
    ∀ i, i < 16 → SignedFits (srw3Used hd ch (srw1First r) g (i / 4)) (diff r (16 * g + srw3Order r i)) ∧
      (pic r (16 * g + srw3Order r i) : Int) = srw3Pred hd w pic r g (srw3Mode ch (g + 1)) (srw3Order r i) +
        (diff r (16 * g + srw3Order r i) * (2 * srw3Scale hd ch g + 1) + srw3Scale hd ch g)

/-- The header; the bits `a`, `b`, `c` are not used. -/
def srw3HeaderBits (a b c : List Nat) : List Nat :=
  a ++ bitsOf 4 (hd.depth - 1) ++ b ++ [0, if hd.noScale then 1 else 0, if hd.fewModes then 1 else 0, if hd.noSkip then 1 else 0] ++ c ++ bitsOf 14 hd.init

/-- Bytes to the next multiple of 16. -/
def fill16 (l : List UInt8) : List UInt8 := l ++ List.replicate ((16 - l.length % 16) % 16) 0

/-- The header and the lines, one after the other, in words of four bytes with the last byte first. -/
def encodeSrw3 (a b c : List Nat) (w h : Nat) (diff : Nat → Nat → Int) (ch : Nat → Nat → Srw3Block) : List UInt8 :=
  swapWords (packBits (srw3HeaderBits hd a b c) ++ (List.range h).flatMap fun r => fill16 (packBits (srw3Line hd w diff (ch r) r)))

/-- A simple choice for every block: from the left, not scaled, with differences of one bit more than the samples have. -/
def srw3PlainBlock : Srw3Block := ⟨.zero, none, false, fun _ => .set (hd.depth + 1)⟩

/-- The differences for it. -/
def srw3PlainDiff (pic : Nat → Nat → Nat) (r x : Nat) : Int := (pic r x : Int) - (if x < 16 then hd.init else pic r (x / 16 * 16 - 2 + x % 2) : Nat)

instance (w : Nat) (pic : Nat → Nat → Nat) (diff : Nat → Nat → Int) (ch : Nat → Srw3Block) (r : Nat) : Decidable (Srw3Legal hd w pic diff ch r) := by
  unfold Srw3Legal
  letI : ∀ s : Srw3Scale, Decidable (match s with | .set n => n < 4096 | _ => True) := fun s => by cases s <;> infer_instance
  infer_instance

end Spec

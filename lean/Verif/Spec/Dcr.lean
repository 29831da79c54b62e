import Verif.Spec.Ljpeg
import Verif.Spec.Bits
/-!
# Kodak's compression ("65000")

A row is stored in segments of up to 256 samples. A segment starts with the numbers of bits of its differences, two in a byte, and continues with the differences, the first one in the lowest
bits of 16-bit words. The words are stored with the high byte first. A sample is predicted by the one two places before it in the segment.
-/

namespace Spec

/-- The difference of sample `i` of a segment to the sample of the same colour before it. -/
def kodakDiff (x : Nat → Nat) (i : Nat) : Int := (x i : Int) - (if i < 2 then 0 else (x (i - 2) : Int))

/-- The number of bits of its difference. -/
def kodakLen (x : Nat → Nat) (i : Nat) : Nat := category (kodakDiff x i)

/-- The numbers of bits of `n` samples: the even sample in the low half of a byte. -/
def kodakLens (x : Nat → Nat) (n : Nat) : List UInt8 :=
  (List.range ((n + 1) / 2)).map fun k => UInt8.ofNat (kodakLen x (2 * k) + 16 * (if 2 * k + 1 < n then kodakLen x (2 * k + 1) else 0))

/-- `n` differences from sample `i` on, the first in the lowest bits of a number. -/
def kodakNumber (x : Nat → Nat) (i : Nat) : Nat → Nat
  | 0 => 0
  | n + 1 => additional (kodakLen x i) (kodakDiff x i) + 2 ^ kodakLen x i * kodakNumber x (i + 1) n

/-- How many bits that takes. -/
def kodakBits (x : Nat → Nat) (i : Nat) : Nat → Nat
  | 0 => 0
  | n + 1 => kodakLen x i + kodakBits x (i + 1) n

/-- `m` words of a number, from the lowest. -/
def kodakStore : Nat → Nat → List UInt8
  | 0, _ => []
  | m + 1, v => UInt8.ofNat (v / 256 % 256) :: UInt8.ofNat (v % 256) :: kodakStore m (v / 65536)

/-- How many words a segment has. Words come in pairs; when the lengths are two bytes more than a multiple of four, there is one more word, in front of the pairs. -/
def kodakWords (n bits : Nat) : Nat := if n % 8 = 4 then 2 * ((bits + 15) / 32) + 1 else 2 * ((bits + 31) / 32)

/-- A segment of `n` samples. -/
def kodakSegment (x : Nat → Nat) (n : Nat) : List UInt8 := kodakLens x n ++ kodakStore (kodakWords n (kodakBits x 0 n)) (kodakNumber x 0 n)

/-- A row of `w` samples, in segments. -/
def kodakRow (x : Nat → Nat) (w : Nat) : List UInt8 := (List.range ((w + 255) / 256)).flatMap fun s => kodakSegment (fun i => x (256 * s + i)) (min 256 (w - 256 * s))

/-- An image. -/
def kodakImage (w h : Nat) (pic : Nat → Nat → Nat) : List UInt8 := (List.range h).flatMap fun r => kodakRow (pic r) w

/-- The rows that can be stored: no sample is more than 32767 away from its prediction. Predictions start anew in every segment. -/
def KodakLegal (w : Nat) (x : Nat → Nat) : Prop := ∀ s, s < (w + 255) / 256 → ∀ i, i < min 256 (w - 256 * s) → (kodakDiff (fun i => x (256 * s + i)) i).natAbs < 32768

instance (w : Nat) (x : Nat → Nat) : Decidable (KodakLegal w x) := by unfold KodakLegal; infer_instance

end Spec

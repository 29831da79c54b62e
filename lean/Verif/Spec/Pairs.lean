import Verif.Spec.Ljpeg
/-!
# Specification: an encoder for pairs of columns

Pentax and Nikon predict a sample from the one two columns to the left, and the first two samples of a row from those two rows above. Nothing here refers to the model.
-/

namespace Spec

/-- The prediction for sample `k` of pair `p` in row `r`; `init (r % 2) k` in the first two rows. -/
def upPredict (init : Nat → Nat → Nat) (img : Nat → Nat → Nat → Nat) (r p k : Nat) : Nat :=
  if p = 0 then if r < 2 then init r k else img (r - 2) 0 k else img r (p - 1) k

/-- The difference that is encoded. -/
def upResidual (init : Nat → Nat → Nat) (img : Nat → Nat → Nat → Nat) (r p k : Nat) : Int := (img r p k : Int) - (upPredict init img r p k : Int)

/-- One pair, with table `t`. -/
def encodeUpPair (t : TableSpec) (init : Nat → Nat → Nat) (img : Nat → Nat → Nat → Nat) (r p : Nat) : List Nat :=
  encodeDiff t.lens t.vals (upResidual init img r p 0) ++ encodeDiff t.lens t.vals (upResidual init img r p 1)

/-- All `h` rows of `w` pairs; row `r` uses table `tab r`. -/
def encodeUp (tab : Nat → TableSpec) (init : Nat → Nat → Nat) (w h : Nat) (img : Nat → Nat → Nat → Nat) : List Nat :=
  (List.range h).flatMap fun r => (List.range w).flatMap (encodeUpPair (tab r) init img r)

/-! ## Pentax's table -/

/-- A 16-bit number in either byte order. -/
def storeWord (big : Bool) (n : Nat) : List UInt8 := if big then word16 n else [UInt8.ofNat (n % 256), UInt8.ofNat (n / 256)]

/-- The code of symbol `c`, at the top of 12 bits. -/
def pefCode (t : TableSpec) (c : Nat) : Nat := canonical t.lens (t.vals.idxOf c) * 2 ^ (12 - t.lens.getD (t.vals.idxOf c) 0)

/-- The table in the maker note: the number of symbols plus 4 (modulo 16), twelve bytes that are not used, the code of every symbol, the length of every code. -/
def pefTable (big : Bool) (d : Nat) (unused : List UInt8) (t : TableSpec) : List UInt8 :=
  storeWord big d ++ unused ++ ((List.range t.vals.length).flatMap fun c => storeWord big (pefCode t c)) ++
    (List.range t.vals.length).map fun c => UInt8.ofNat (t.lens.getD (t.vals.idxOf c) 0)

end Spec

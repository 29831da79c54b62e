import Verif.Spec.Bits
/-!
# Specification: reading a bit stream

Nothing here refers to the model.
-/

namespace Spec

/-- What a client of a bit reader does: look at `n` bits, read `n` bits, or look at `m` bits and then skip `n` of them. -/
inductive ReadOp where
  | peek (n : Nat)
  | get (n : Nat)
  | skip (m n : Nat)
  deriving DecidableEq, Repr

/-- The supported sizes: at most 32 bits at a time, and no skipping past what was looked at. -/
def ReadOp.legal : ReadOp → Prop
  | peek n => n ≤ 32
  | get n => n ≤ 32
  | skip m n => m ≤ 32 ∧ n ≤ m

instance (o : ReadOp) : Decidable o.legal := by cases o <;> simp only [ReadOp.legal] <;> infer_instance

/-- Bit position `c` is inside a stream of `limit` bits (no limit for `none`). -/
def within (limit : Option Nat) (c : Nat) : Prop := match limit with
  | some l => c ≤ l
  | none => True

instance (limit : Option Nat) (c : Nat) : Decidable (within limit c) := by unfold within; split <;> infer_instance

/-- The values a client sees when the stream has `limit` bits (no limit for `none`) and reading starts at bit `c`;
the result is `none` if an access goes past the end. -/
def readOps (field : Nat → Nat → Nat) (limit : Option Nat) (c : Nat) : List ReadOp → Option (List Nat)
  | [] => some []
  | op :: rest =>
    match op with
    | .peek n => if within limit (c + n) then (field c n :: ·) <$> readOps field limit c rest else none
    | .get n =>
      if n = 0 then (0 :: ·) <$> readOps field limit c rest
      else if within limit (c + n) then (field c n :: ·) <$> readOps field limit (c + n) rest else none
    | .skip m n => if within limit (c + m) then (field c m :: ·) <$> readOps field limit (c + n) rest else none

/-- The bytes of a JPEG entropy-coded segment up to its end or the first marker, with the stuffed zero after each
0xff removed. -/
def unstuff : List UInt8 → List UInt8
  | [] => []
  | b :: rest =>
    if b ≠ 0xff then b :: unstuff rest
    else match rest with
      | [] => []
      | f :: rest => if f = 0 then b :: unstuff rest else []

/-- The data does not end in the middle of a 0xff pair. -/
def wellEnded : List UInt8 → Bool
  | [] => true
  | b :: rest =>
    if b ≠ 0xff then wellEnded rest
    else match rest with
      | [] => false
      | f :: rest => if f = 0 then wellEnded rest else true

end Spec

namespace Spec

/-- Numbers of `n₁, n₂, ...` bits put one after the other, first number in front (most significant). -/
def joinMSB : List Nat → List Nat → Nat
  | n :: ns, v :: vs => v * 2 ^ ns.sum + joinMSB ns vs
  | _, _ => 0

/-- Numbers of `n₁, n₂, ...` bits put one after the other, first number at the bottom (least significant). -/
def joinLSB : List Nat → List Nat → Nat
  | n :: ns, v :: vs => v + 2 ^ n * joinLSB ns vs
  | _, _ => 0

/-- The value of an `n`-bit pattern in two's complement. -/
def twos (n v : Nat) : Int := if v < 2 ^ (n - 1) then v else (v : Int) - 2 ^ n

end Spec

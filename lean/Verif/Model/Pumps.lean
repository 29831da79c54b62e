import Verif.Model.Basics
/-!
# Model of `src/decoders/pumps.rs`
-/

namespace Model
open Rust

/-- The trait `BitPump` (`pumps.rs:85-87`): the two required methods. Both may change the reader's state. -/
structure PumpOps (σ : Type) where
  peek : σ → Nat → M (Nat × σ)
  consume : σ → Nat → M σ

namespace PumpOps
variable {σ : Type}

/-- `BitPump::get_bits` (`pumps.rs:89-98`) -/
def getBits (P : PumpOps σ) (s : σ) (num : Nat) : M (Nat × σ) :=
  if num = 0 then .ok (0, s)
  else do
    let (val, s) ← P.peek s num
    let s ← P.consume s num
    .ok (val, s)

/-- `BitPump::peek_ibits` (`pumps.rs:100-102`) -/
def peekIbits (P : PumpOps σ) (s : σ) (num : Nat) : M (Int × σ) := do
  let (v, s) ← P.peek s num
  .ok (toI32 v, s)

/-- `BitPump::get_ibits` (`pumps.rs:104-106`) -/
def getIbits (P : PumpOps σ) (s : σ) (num : Nat) : M (Int × σ) := do
  let (v, s) ← P.getBits s num
  .ok (toI32 v, s)

/-- `BitPump::get_ibits_sextended` (`pumps.rs:109-112`). The wrapping shifts mask the shift amount to five bits. -/
def getIbitsSextended (P : PumpOps σ) (b : Build) (s : σ) (num : Nat) : M (Int × σ) := do
  let (val, s) ← P.getIbits s num
  let k ← subU 32 b 32 num
  .ok (sarI (shlI32 val (k % 32)) (k % 32), s)

end PumpOps

/-- `BitPumpLSB`, `BitPumpMSB`, `BitPumpMSB32` (`pumps.rs:3-9`, `22-28`, `41-47`); `bits` is a `u64`, `nbits` a `u32`. -/
structure Pump where
  buffer : Bytes
  pos : Nat
  bits : Nat
  nbits : Nat
  deriving DecidableEq, Repr

/-- `new` (`pumps.rs:12-19`, `31-38`, `50-57`) -/
def Pump.new (src : Bytes) : Pump := ⟨src, 0, 0, 0⟩

/-- `BitPumpMSB32::get_pos` (`pumps.rs:59-61`) -/
def Pump.getPos (b : Build) (s : Pump) : M Nat := subU 64 b s.pos (s.nbits >>> 3)

/-- `BitPumpLSB::peek_bits` (`pumps.rs:116-124`) -/
def peekLSB (b : Build) (s : Pump) (num : Nat) : M (Nat × Pump) := do
  let s ← if num > s.nbits then do
      let inbits ← LEu32 s.buffer s.pos
      let k ← subU 32 b 32 s.nbits
      let hi ← shlU 64 b inbits 32
      let lo ← shlU 64 b s.bits k
      let bits ← shrU 64 b (hi ||| lo) k
      let nbits ← addU 32 b s.nbits 32
      .ok ⟨s.buffer, s.pos + 4, bits, nbits⟩
    else .ok s
  let k ← subU 32 b 32 num
  let mask ← shrU 64 b 0xffffffff k
  .ok ((s.bits &&& mask) % 4294967296, s)

/-- `BitPumpLSB::consume_bits` (`pumps.rs:126-129`) -/
def consumeLSB (b : Build) (s : Pump) (num : Nat) : M Pump := do
  let nbits ← subU 32 b s.nbits num
  let bits ← shrU 64 b s.bits num
  .ok { s with nbits, bits }

/-- The refill shared by `BitPumpMSB` and `BitPumpMSB32` once the 32-bit word has been read (`pumps.rs:136-138`, `153-155`) -/
def refillMSB (b : Build) (s : Pump) (inbits : Nat) : M Pump := do
  let hi ← shlU 64 b s.bits 32
  let nbits ← addU 32 b s.nbits 32
  .ok ⟨s.buffer, s.pos + 4, hi ||| inbits, nbits⟩

/-- The result of a peek for the MSB-first readers (`pumps.rs:140`, `157`, `212`) -/
def topBits (b : Build) (bits nbits num : Nat) : M Nat := do
  let k ← subU 32 b nbits num
  let v ← shrU 64 b bits k
  .ok (v % 4294967296)

/-- `BitPumpMSB::peek_bits` (`pumps.rs:133-141`) -/
def peekMSB (b : Build) (s : Pump) (num : Nat) : M (Nat × Pump) := do
  let s ← if num > s.nbits then do
      let inbits ← BEu32 s.buffer s.pos
      refillMSB b s inbits
    else .ok s
  let v ← topBits b s.bits s.nbits num
  .ok (v, s)

/-- `BitPumpMSB32::peek_bits` (`pumps.rs:150-158`) -/
def peekMSB32 (b : Build) (s : Pump) (num : Nat) : M (Nat × Pump) := do
  let s ← if num > s.nbits then do
      let inbits ← LEu32 s.buffer s.pos
      refillMSB b s inbits
    else .ok s
  let v ← topBits b s.bits s.nbits num
  .ok (v, s)

/-- What `consume_bits` of the MSB-first readers leaves (`pumps.rs:144-145`, `161-162`, `216-217`): `(bits, nbits)` -/
def dropBits (b : Build) (bits nbits num : Nat) : M (Nat × Nat) := do
  let nbits ← subU 32 b nbits num
  let one ← shlU 64 b 1 nbits
  let mask ← subU 64 b one 1
  .ok (bits &&& mask, nbits)

/-- `BitPumpMSB::consume_bits`, `BitPumpMSB32::consume_bits` (`pumps.rs:143-146`, `160-163`) -/
def consumeMSB (b : Build) (s : Pump) (num : Nat) : M Pump := do
  let (bits, nbits) ← dropBits b s.bits s.nbits num
  .ok { s with bits, nbits }

/-- `impl BitPump for BitPumpLSB` -/
def pumpLSB (b : Build) : PumpOps Pump := ⟨peekLSB b, consumeLSB b⟩
/-- `impl BitPump for BitPumpMSB` -/
def pumpMSB (b : Build) : PumpOps Pump := ⟨peekMSB b, consumeMSB b⟩
/-- `impl BitPump for BitPumpMSB32` -/
def pumpMSB32 (b : Build) : PumpOps Pump := ⟨peekMSB32 b, consumeMSB b⟩

/-- `BitPumpJPEG` (`pumps.rs:64-71`) -/
structure JPump where
  buffer : Bytes
  pos : Nat
  bits : Nat
  nbits : Nat
  finished : Bool
  deriving DecidableEq, Repr

/-- `BitPumpJPEG::new` (`pumps.rs:74-82`) -/
def JPump.new (src : Bytes) : JPump := ⟨src, 0, 0, 0, false⟩

/-- The condition of the fast path (`pumps.rs:169-173`), evaluated left to right with short circuit. -/
def jpegFast (b : Build) (s : JPump) : M Bool := do
  let lim ← subU 64 b s.buffer.length 4
  if s.pos < lim then do
    let b0 ← byteAt s.buffer s.pos
    if b0 = 0xff then .ok false else do
    let b1 ← byteAt s.buffer (s.pos + 1)
    if b1 = 0xff then .ok false else do
    let b2 ← byteAt s.buffer (s.pos + 2)
    if b2 = 0xff then .ok false else do
    let b3 ← byteAt s.buffer (s.pos + 3)
    .ok (b3 ≠ 0xff)
  else .ok false

/-- The byte obtained in the slow path, with the new position (before the increment on line 200) and `finished` flag
(`pumps.rs:182-198`). -/
def jpegByte (s : JPump) : M (Nat × Nat × Bool) :=
  if s.pos ≥ s.buffer.length then .ok (0, s.pos, true)
  else do
    let nextbyte ← byteAt s.buffer s.pos
    if nextbyte ≠ 0xff then .ok (nextbyte, s.pos, false)
    else do
      let follow ← byteAt s.buffer (s.pos + 1)
      if follow = 0 then .ok (nextbyte, s.pos + 1, false)
      else .ok (0, s.pos, true)

/-- The loop of the slow path (`pumps.rs:180-203`); the first argument is `4 - read_bytes`. -/
def jpegSlow (b : Build) : Nat → JPump → M JPump
  | 0, s => .ok s
  | n + 1, s =>
    if s.finished then .ok s
    else do
      let (byte, pos, finished) ← jpegByte s
      let hi ← shlU 64 b s.bits 8
      let nbits ← addU 32 b s.nbits 8
      jpegSlow b n ⟨s.buffer, pos + 1, hi ||| byte, nbits, finished⟩

/-- The refill, taken when bits are missing and the data has not ended (`pumps.rs:169-204`). -/
def jpegRefill (b : Build) (s : JPump) : M JPump := do
  let fast ← jpegFast b s
  if fast then do
    let inbits ← BEu32 s.buffer s.pos
    let hi ← shlU 64 b s.bits 32
    let nbits ← addU 32 b s.nbits 32
    .ok { s with pos := s.pos + 4, bits := hi ||| inbits, nbits }
  else jpegSlow b 4 s

/-- Zero fill after the end of the data (`pumps.rs:208-209`). -/
def jpegZeros (b : Build) (s : JPump) : M JPump := do
  let bits ← shlU 64 b s.bits 32
  let nbits ← addU 32 b s.nbits 32
  .ok { s with bits, nbits }

/-- `BitPumpJPEG::peek_bits` (`pumps.rs:167-213`) -/
def peekJPEG (b : Build) (s : JPump) (num : Nat) : M (Nat × JPump) :=
  (if num > s.nbits ∧ s.finished = false then jpegRefill b s else .ok s) >>= fun s =>
  (if num > s.nbits ∧ s.finished = true then jpegZeros b s else .ok s) >>= fun s =>
  topBits b s.bits s.nbits num >>= fun v =>
  .ok (v, s)

/-- `BitPumpJPEG::consume_bits` (`pumps.rs:215-218`) -/
def consumeJPEG (b : Build) (s : JPump) (num : Nat) : M JPump := do
  let (bits, nbits) ← dropBits b s.bits s.nbits num
  .ok { s with bits, nbits }

/-- `impl BitPump for BitPumpJPEG` -/
def pumpJPEG (b : Build) : PumpOps JPump := ⟨peekJPEG b, consumeJPEG b⟩

/-- `ByteStream` (`pumps.rs:221-226`) -/
structure ByteStream where
  buffer : Bytes
  pos : Nat
  endian : Endian
  deriving DecidableEq, Repr

namespace ByteStream

/-- `ByteStream::new` (`pumps.rs:229-235`) -/
def new (src : Bytes) (endian : Endian) : ByteStream := ⟨src, 0, endian⟩

/-- `ByteStream::peek_u8` (`pumps.rs:239`) -/
def peekU8 (s : ByteStream) : M Nat := byteAt s.buffer s.pos

/-- `ByteStream::get_u8` (`pumps.rs:240-244`) -/
def getU8 (s : ByteStream) : M (Nat × ByteStream) := do
  let v ← s.peekU8
  .ok (v, { s with pos := s.pos + 1 })

/-- `ByteStream::peek_u16` (`pumps.rs:246`) -/
def peekU16 (s : ByteStream) : M Nat := s.endian.ru16 s.buffer s.pos

/-- `ByteStream::get_u16` (`pumps.rs:247-251`) -/
def getU16 (s : ByteStream) : M (Nat × ByteStream) := do
  let v ← s.peekU16
  .ok (v, { s with pos := s.pos + 2 })

/-- `ByteStream::consume_bytes` (`pumps.rs:260-262`) -/
def consumeBytes (s : ByteStream) (num : Nat) : ByteStream := { s with pos := s.pos + num }

/-- The loop condition of `skip_to_marker` (`pumps.rs:266-268`): true when a marker starts here. -/
def atMarker (s : ByteStream) : M Bool := do
  let b0 ← byteAt s.buffer s.pos
  if b0 ≠ 0xff then .ok false
  else do
    let b1 ← byteAt s.buffer (s.pos + 1)
    .ok (b1 ≠ 0 ∧ b1 ≠ 0xff)

/-- The loop of `skip_to_marker`, with a step budget (`pumps.rs:266-274`): the stream at the marker and the skip count. -/
def skipLoop : Nat → ByteStream → Nat → M (ByteStream × Nat)
  | 0, _, _ => .error .fuel
  | fuel + 1, s, count => do
    let stop ← s.atMarker
    if stop then .ok (s, count)
    else
      let s := { s with pos := s.pos + 1 }
      if s.pos ≥ s.buffer.length then fail "No marker found inside rest of buffer"
      else skipLoop fuel s (count + 1)

/-- `ByteStream::skip_to_marker` (`pumps.rs:264-277`). Each step advances by one byte, so the budget is never exhausted
(`Verif.Props.Ljpeg`). -/
def skipToMarker (s : ByteStream) : M (Nat × ByteStream) := do
  let (s, count) ← skipLoop (s.buffer.length + 1) s 0
  .ok (count + 1, { s with pos := s.pos + 1 })

end ByteStream
end Model

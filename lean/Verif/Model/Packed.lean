import Verif.Model.Basics
/-!
# Model of `src/decoders/packed.rs`

Every sample expression is the source's expression; `u16` shifts to the left drop high bits (`shl16`).
-/

namespace Model
open Rust

/-- The loop of `decode_8bit_wtable` (`packed.rs:8-10`), with the random state threaded through. -/
def wtableLoop (b : Build) (tbl : LookupTable) : List Nat → Bytes → Nat → M (List Nat)
  | [], _, _ => .ok []
  | out, [], _ => .ok out
  | _ :: os, i :: is, random => do
    let (p, random') ← tbl.dither b i.toNat random
    let rest ← wtableLoop b tbl os is random'
    .ok (p :: rest)

/-- `decode_8bit_wtable` (`packed.rs:3-12`) -/
def decode_8bit_wtable (b : Build) (buf : Bytes) (tbl : LookupTable) (width height : Nat) : M (List Nat) :=
  decodeThreaded width height fun out row => do
    let inb ← sliceFrom buf (row * width)
    let random ← LEu32 inb 0
    wtableLoop b tbl out inb random

/-- Loop body of `decode_10le_lsb16` (`packed.rs:19-37`) -/
def body10leLsb16 (o : List Nat) (i : Bytes) : M (List Nat) := do
  let g1 ← byteAt i 0
  let g2 ← byteAt i 1
  let g3 ← byteAt i 2
  let g4 ← byteAt i 3
  let g5 ← byteAt i 4
  let g6 ← byteAt i 5
  let g7 ← byteAt i 6
  let g8 ← byteAt i 7
  let g9 ← byteAt i 8
  let g10 ← byteAt i 9
  let o ← setIdx o 0 (shl16 g2 2 ||| g1 >>> 6)
  let o ← setIdx o 1 (shl16 (g1 &&& 0x3f) 4 ||| g4 >>> 4)
  let o ← setIdx o 2 (shl16 (g4 &&& 0x0f) 6 ||| g3 >>> 2)
  let o ← setIdx o 3 (shl16 (g3 &&& 0x03) 8 ||| g6)
  let o ← setIdx o 4 (shl16 g5 2 ||| g8 >>> 6)
  let o ← setIdx o 5 (shl16 (g8 &&& 0x3f) 4 ||| g7 >>> 4)
  let o ← setIdx o 6 (shl16 (g7 &&& 0x0f) 6 ||| g10 >>> 2)
  setIdx o 7 (shl16 (g10 &&& 0x03) 8 ||| g9)

/-- `decode_10le_lsb16` (`packed.rs:14-40`) -/
def decode_10le_lsb16 (buf : Bytes) (width height : Nat) : M (List Nat) :=
  decodeThreaded width height fun out row => do
    let inb ← sliceFrom buf (row * width * 10 / 8)
    zipChunks 8 10 body10leLsb16 out inb

/-- Loop body of `decode_10le` (`packed.rs:47-56`). The third sample uses `g3 >> 2` where the layout calls for `g4 >> 2`;
the model keeps what the source says. -/
def body10le (o : List Nat) (i : Bytes) : M (List Nat) := do
  let g1 ← byteAt i 0
  let g2 ← byteAt i 1
  let g3 ← byteAt i 2
  let g4 ← byteAt i 3
  let g5 ← byteAt i 4
  let o ← setIdx o 0 (shl16 g1 2 ||| g2 >>> 6)
  let o ← setIdx o 1 (shl16 (g2 &&& 0x3f) 4 ||| g3 >>> 4)
  let o ← setIdx o 2 (shl16 (g3 &&& 0x0f) 6 ||| g3 >>> 2)
  setIdx o 3 (shl16 (g4 &&& 0x03) 8 ||| g5)

/-- `decode_10le` (`packed.rs:42-59`) -/
def decode_10le (buf : Bytes) (width height : Nat) : M (List Nat) :=
  decodeThreaded width height fun out row => do
    let inb ← sliceFrom buf (row * width * 10 / 8)
    zipChunks 4 5 body10le out inb

/-- Loop body of the big-endian 12-bit decoders (`packed.rs:66-71`, `101-106`, `170-175`, `193-198`, `212-217`) -/
def body12be (o : List Nat) (i : Bytes) : M (List Nat) := do
  let g1 ← byteAt i 0
  let g2 ← byteAt i 1
  let g3 ← byteAt i 2
  let o ← setIdx o 0 (shl16 g1 4 ||| g2 >>> 4)
  setIdx o 1 (shl16 (g2 &&& 0x0f) 8 ||| g3)

/-- `decode_12be` (`packed.rs:61-74`) -/
def decode_12be (buf : Bytes) (width height : Nat) : M (List Nat) :=
  decodeThreaded width height fun out row => do
    let inb ← sliceFrom buf (row * width * 12 / 8)
    zipChunks 2 3 body12be out inb

/-- Loop body of `decode_12be_msb16` (`packed.rs:80-90`) -/
def body12beMsb16 (o : List Nat) (i : Bytes) : M (List Nat) := do
  let g1 ← byteAt i 0
  let g2 ← byteAt i 1
  let g3 ← byteAt i 2
  let g4 ← byteAt i 3
  let g5 ← byteAt i 4
  let g6 ← byteAt i 5
  let o ← setIdx o 0 (shl16 g2 4 ||| g1 >>> 4)
  let o ← setIdx o 1 (shl16 (g1 &&& 0x0f) 8 ||| g4)
  let o ← setIdx o 2 (shl16 g3 4 ||| g6 >>> 4)
  setIdx o 3 (shl16 (g6 &&& 0x0f) 8 ||| g5)

/-- `decode_12be_msb16` (`packed.rs:76-94`), not parallel in the source -/
def decode_12be_msb16 (buf : Bytes) (width height : Nat) : M (List Nat) :=
  zipChunks 4 6 body12beMsb16 (List.replicate (width * height) 0) buf

/-- `decode_12le_16bitaligned` (`packed.rs:96-109`) -/
def decode_12le_16bitaligned (buf : Bytes) (width height : Nat) : M (List Nat) :=
  let stride := ((width * 12 / 8 + 1) >>> 1) <<< 1
  decodeThreaded width height fun out row => do
    let inb ← sliceFrom buf (row * stride)
    zipChunks 2 3 body12be out inb

/-- Loop body of `decode_12be_msb32` (`packed.rs:115-135`) -/
def body12beMsb32 (o : List Nat) (i : Bytes) : M (List Nat) := do
  let g1 ← byteAt i 0
  let g2 ← byteAt i 1
  let g3 ← byteAt i 2
  let g4 ← byteAt i 3
  let g5 ← byteAt i 4
  let g6 ← byteAt i 5
  let g7 ← byteAt i 6
  let g8 ← byteAt i 7
  let g9 ← byteAt i 8
  let g10 ← byteAt i 9
  let g11 ← byteAt i 10
  let g12 ← byteAt i 11
  let o ← setIdx o 0 (shl16 g4 4 ||| g3 >>> 4)
  let o ← setIdx o 1 (shl16 (g3 &&& 0x0f) 8 ||| g2)
  let o ← setIdx o 2 (shl16 g1 4 ||| g8 >>> 4)
  let o ← setIdx o 3 (shl16 (g8 &&& 0x0f) 8 ||| g7)
  let o ← setIdx o 4 (shl16 g6 4 ||| g5 >>> 4)
  let o ← setIdx o 5 (shl16 (g5 &&& 0x0f) 8 ||| g12)
  let o ← setIdx o 6 (shl16 g11 4 ||| g10 >>> 4)
  setIdx o 7 (shl16 (g10 &&& 0x0f) 8 ||| g9)

/-- `decode_12be_msb32` (`packed.rs:111-139`), not parallel in the source -/
def decode_12be_msb32 (buf : Bytes) (width height : Nat) : M (List Nat) :=
  zipChunks 8 12 body12beMsb32 (List.replicate (width * height) 0) buf

/-- Loop body of the little-endian 12-bit decoders (`packed.rs:150-155`, `227-232`) -/
def body12le (o : List Nat) (i : Bytes) : M (List Nat) := do
  let g1 ← byteAt i 0
  let g2 ← byteAt i 1
  let g3 ← byteAt i 2
  let o ← setIdx o 0 (shl16 (g2 &&& 0x0f) 8 ||| g1)
  setIdx o 1 (shl16 g3 4 ||| g2 >>> 4)

/-- `decode_12le_wcontrol` (`packed.rs:141-159`) -/
def decode_12le_wcontrol (buf : Bytes) (width height : Nat) : M (List Nat) :=
  let perline := width * 12 / 8 + ((width + 2) / 10)
  decodeThreaded width height fun out row => do
    let inb ← sliceFrom buf (row * perline)
    zipChunks 10 16 (fun oc ic => zipChunks 2 3 body12le oc ic) out inb

/-- `decode_12be_wcontrol` (`packed.rs:161-179`) -/
def decode_12be_wcontrol (buf : Bytes) (width height : Nat) : M (List Nat) :=
  let perline := width * 12 / 8 + ((width + 2) / 10)
  decodeThreaded width height fun out row => do
    let inb ← sliceFrom buf (row * perline)
    zipChunks 10 16 (fun oc ic => zipChunks 2 3 body12be oc ic) out inb

/-- `decode_12be_interlaced` (`packed.rs:182-201`) -/
def decode_12be_interlaced (buf : Bytes) (width height : Nat) : M (List Nat) := do
  let half := (height + 1) >>> 1
  let secondFieldOffset := (((half * width * 3 / 2) >>> 11) + 1) <<< 11
  let secondField ← sliceFrom buf secondFieldOffset
  decodeThreaded width height fun out row => do
    let off := row / 2 * width * 12 / 8
    let inb ← if row % 2 = 0 then sliceFrom buf off else sliceFrom secondField off
    zipChunks 2 3 body12be out inb

/-- `decode_12be_interlaced_unaligned` (`packed.rs:203-220`) -/
def decode_12be_interlaced_unaligned (buf : Bytes) (width height : Nat) : M (List Nat) := do
  let half := (height + 1) >>> 1
  let secondField ← sliceFrom buf (half * width * 12 / 8)
  decodeThreaded width height fun out row => do
    let off := row / 2 * width * 12 / 8
    let inb ← if row % 2 = 0 then sliceFrom buf off else sliceFrom secondField off
    zipChunks 2 3 body12be out inb

/-- `decode_12le` (`packed.rs:222-235`) -/
def decode_12le (buf : Bytes) (width height : Nat) : M (List Nat) :=
  decodeThreaded width height fun out row => do
    let inb ← sliceFrom buf (row * width * 12 / 8)
    zipChunks 2 3 body12le out inb

/-- `for (i, bytes) in (0..width).zip(inb.chunks(2)) { out[i] = f(bytes) }`, the loop shared by the unpacked decoders. -/
def wordLoop (width : Nat) (f : Bytes → M Nat) (out : List Nat) (inb : Bytes) : M (List Nat) :=
  ((List.range width).zip (chunks 2 inb)).foldlM (fun out p => do
    let v ← f p.2
    setIdx out p.1 v) out

/-- `decode_12le_unpacked` (`packed.rs:237-245`) -/
def decode_12le_unpacked (buf : Bytes) (width height : Nat) : M (List Nat) :=
  decodeThreaded width height fun out row => do
    let inb ← sliceFrom buf (row * width * 2)
    wordLoop width (fun bytes => do let v ← LEu16 bytes 0; .ok (v &&& 0x0fff)) out inb

/-- `decode_12be_unpacked` (`packed.rs:247-255`) -/
def decode_12be_unpacked (buf : Bytes) (width height : Nat) : M (List Nat) :=
  decodeThreaded width height fun out row => do
    let inb ← sliceFrom buf (row * width * 2)
    wordLoop width (fun bytes => do let v ← BEu16 bytes 0; .ok (v &&& 0x0fff)) out inb

/-- `decode_12be_unpacked_left_aligned` (`packed.rs:257-265`) -/
def decode_12be_unpacked_left_aligned (buf : Bytes) (width height : Nat) : M (List Nat) :=
  decodeThreaded width height fun out row => do
    let inb ← sliceFrom buf (row * width * 2)
    wordLoop width (fun bytes => do let v ← BEu16 bytes 0; .ok (v >>> 4)) out inb

/-- `decode_12le_unpacked_left_aligned` (`packed.rs:267-275`) -/
def decode_12le_unpacked_left_aligned (buf : Bytes) (width height : Nat) : M (List Nat) :=
  decodeThreaded width height fun out row => do
    let inb ← sliceFrom buf (row * width * 2)
    wordLoop width (fun bytes => do let v ← LEu16 bytes 0; .ok (v >>> 4)) out inb

/-- `decode_14le_unpacked` (`packed.rs:277-285`) -/
def decode_14le_unpacked (buf : Bytes) (width height : Nat) : M (List Nat) :=
  decodeThreaded width height fun out row => do
    let inb ← sliceFrom buf (row * width * 2)
    wordLoop width (fun bytes => do let v ← LEu16 bytes 0; .ok (v &&& 0x3fff)) out inb

/-- `decode_14be_unpacked` (`packed.rs:287-295`) -/
def decode_14be_unpacked (buf : Bytes) (width height : Nat) : M (List Nat) :=
  decodeThreaded width height fun out row => do
    let inb ← sliceFrom buf (row * width * 2)
    wordLoop width (fun bytes => do let v ← BEu16 bytes 0; .ok (v &&& 0x3fff)) out inb

/-- `decode_16le` (`packed.rs:297-305`) -/
def decode_16le (buf : Bytes) (width height : Nat) : M (List Nat) :=
  decodeThreaded width height fun out row => do
    let inb ← sliceFrom buf (row * width * 2)
    wordLoop width (fun bytes => LEu16 bytes 0) out inb

/-- `decode_16le_skiplines` (`packed.rs:307-315`) -/
def decode_16le_skiplines (buf : Bytes) (width height : Nat) : M (List Nat) :=
  decodeThreaded width height fun out row => do
    let inb ← sliceFrom buf (row * width * 4)
    wordLoop width (fun bytes => LEu16 bytes 0) out inb

/-- `decode_16be` (`packed.rs:317-325`) -/
def decode_16be (buf : Bytes) (width height : Nat) : M (List Nat) :=
  decodeThreaded width height fun out row => do
    let inb ← sliceFrom buf (row * width * 2)
    wordLoop width (fun bytes => BEu16 bytes 0) out inb

end Model

import Verif.Model.Pumps
/-!
# Model of `src/decoders/ljpeg/huffman.rs`
-/

namespace Model
open Rust

/-- `HUFF_BITMASK` (`huffman.rs:42-57`): entry `i` has `32 - i` ones. -/
def HUFF_BITMASK : List Nat :=
  [0xffffffff, 0x7fffffff, 0x3fffffff, 0x1fffffff, 0x0fffffff, 0x07ffffff, 0x03ffffff, 0x01ffffff,
   0x00ffffff, 0x007fffff, 0x003fffff, 0x001fffff, 0x000fffff, 0x0007ffff, 0x0003ffff, 0x0001ffff,
   0x0000ffff, 0x00007fff, 0x00003fff, 0x00001fff, 0x00000fff, 0x000007ff, 0x000003ff, 0x000001ff,
   0x000000ff, 0x0000007f, 0x0000003f, 0x0000001f, 0x0000000f, 0x00000007, 0x00000003, 0x00000001]

/-- `HuffTable` (`huffman.rs:59-75`). The arrays are lists of the fixed lengths; `valptr` holds indices up to 256, so its sign is
left out. -/
structure HuffTable where
  bits : List Nat
  huffval : List Nat
  mincode : List Nat
  maxcode : List Int
  valptr : List Nat
  numbits : List Nat
  bigtable : List Int
  precision : Nat
  useBigtable : Bool
  dngBug : Bool
  initialized : Bool
  deriving DecidableEq, Repr

namespace HuffTable

/-- `HuffTable::empty` (`huffman.rs:78-92`), with the `dng_bug` flag and the two public arrays of `HuffTable::new`
(`huffman.rs:95-107`) as parameters. -/
def raw (bits huffval : List Nat) (precision : Nat) (dngBug : Bool) : HuffTable where
  bits := bits
  huffval := huffval
  mincode := List.replicate 17 0
  maxcode := List.replicate 18 0
  valptr := List.replicate 17 0
  numbits := List.replicate 256 0
  bigtable := []
  precision := precision
  useBigtable := true
  dngBug := dngBug
  initialized := false

/-- `HuffTable::empty` (`huffman.rs:78-92`) -/
def empty (precision : Nat) : HuffTable := raw (List.replicate 17 0) (List.replicate 256 0) precision false

/-- The message of every error in `initialize`. -/
def tooLong : String := "ljpeg: Code length too long. Corrupt data."

/-- One entry of the length table (`huffman.rs:120-124`). -/
def sizeStep (l : Nat) (s : List Nat × Nat) : M (List Nat × Nat) := do
  let hs ← setIdx s.1 s.2 l
  if s.2 + 1 > 256 then fail tooLong else .ok (hs, s.2 + 1)

/-- Figure C.1, the code length of each symbol, and the number of symbols (`huffman.rs:116-128`). -/
def sizes (bits : List Nat) : M (List Nat × Nat) := do
  let s ← forRange 1 17 (fun l s => do
    let n ← idx bits l
    forRange 1 (n + 1) (fun _ s => sizeStep l s) s) (List.replicate 257 0, 0)
  let hs ← setIdx s.1 s.2 0
  .ok (hs, s.2)

/-- The inner loop of figure C.2 (`huffman.rs:137-141`), on `(p, code, huffcode)`, with a step budget. -/
def codeRun (b : Build) (hs : List Nat) (si : Nat) : Nat → Nat × Nat × List Nat → M (Nat × Nat × List Nat)
  | 0, _ => .error .fuel
  | fuel + 1, (p, code, hc) => do
    let size ← idx hs p
    if size = si then do
      let hc ← setIdx hc p code
      let code ← addU 16 b code 1
      codeRun b hs si fuel (p + 1, code, hc)
    else .ok (p, code, hc)

/-- The outer loop of figure C.2 (`huffman.rs:136-147`), on `si` and `(p, code, huffcode)`, with a step budget. -/
def codeLoop (b : Build) (hs : List Nat) : Nat → Nat → Nat × Nat × List Nat → M (List Nat)
  | 0, _, _ => .error .fuel
  | fuel + 1, si, (p, code, hc) => do
    let size ← idx hs p
    if size > 0 then do
      let (p, code, hc) ← codeRun b hs si 258 (p, code, hc)
      if p > 256 then fail tooLong else codeLoop b hs fuel (si + 1) (p, shl16 code 1, hc)
    else .ok hc

/-- Figure C.2, the code of each symbol (`huffman.rs:132-147`). -/
def codes (b : Build) (hs : List Nat) : M (List Nat) := do
  let si ← idx hs 0
  codeLoop b hs 18 si (0, 0, List.replicate 257 0)

/-- One length of figure F.15 (`huffman.rs:155-166`), on `(p, mincode, maxcode, valptr)`. -/
def decodeStep (bits hc : List Nat) (l : Nat) (s : Nat × List Nat × List Int × List Nat) : M (Nat × List Nat × List Int × List Nat) := do
  let n ← idx bits l
  let s ← if n > 0 then do
      let valptr ← setIdx s.2.2.2 l s.1
      let c ← idx hc s.1
      let mincode ← setIdx s.2.1 l c
      let p := s.1 + n
      let d ← idx hc (p - 1)
      let maxcode ← setIdx s.2.2.1 l (d : Int)
      .ok (p, mincode, maxcode, valptr)
    else do
      let valptr ← setIdx s.2.2.2 l 0xff
      let maxcode ← setIdx s.2.2.1 l (-1)
      .ok (s.1, s.2.1, maxcode, valptr)
  if s.1 > 256 then fail tooLong else .ok s

/-- The last 8-bit pattern of a code of `size` bits whose first one is `ll` (`huffman.rs:183-187`). -/
def shortEnd (size ll : Nat) : M Nat :=
  if size < 8 then do
    let mask ← idx HUFF_BITMASK (24 + size)
    .ok (ll ||| mask)
  else .ok ll

/-- One symbol of the 8-bit lookup table (`huffman.rs:178-194`). -/
def shortStep (huffval hs hc : List Nat) (p : Nat) (numbits : List Nat) : M (List Nat) := do
  let size ← idx hs p
  if size ≤ 8 then do
    let value ← idx huffval p
    let code ← idx hc p
    let ll := shl16 code (8 - size)
    let ul ← shortEnd size ll
    if ul > 256 ∨ ll > ul then fail tooLong
    else forRange ll (ul + 1) (fun i nb => setIdx nb i (size ||| (value <<< 4) % 4294967296)) numbits
  else .ok numbits

/-- The bit-by-bit search for longer codes in `initialize_bigtable` (`huffman.rs:219-223`), with `16 - l` steps at most. -/
def bigWalk (maxcode : List Int) (input : Nat) : Nat → Nat → Nat → M (Nat × Nat)
  | 0, code, l => .ok (code, l)
  | steps + 1, code, l => do
    let m ← idx maxcode l
    if (code : Int) > m then bigWalk maxcode input steps ((code <<< 1) ||| ((input >>> (15 - l)) &&& 1)) (l + 1)
    else .ok (code, l)

/-- The entry for a code of `l` bits with category `rv` (`huffman.rs:237-259`). The `|` of a number shifted by 8 and a number below 256
is written as a sum. The categories are bytes in every caller, so `rv` is not negative. -/
def bigValue (dngBug : Bool) (input l rv : Nat) : Int :=
  if rv = 16 then if dngBug then -8388608 + (16 + l) else -8388608 + l
  else if rv + l > 13 then 0xff
  else if rv ≠ 0 then
    let x : Nat := (input >>> (16 - l - rv)) &&& ((1 <<< rv) - 1)
    let x' : Int := if x &&& (1 <<< (rv - 1)) = 0 then (x : Int) - ((1 <<< rv) - 1 : Nat) else x
    x' * 256 + (l + rv : Nat)
  else (l : Int)

/-- Position in `huffval` (`huffman.rs:230-233`): the difference is cast to `usize` before the sum. -/
def valIndex (b : Build) (valptr mincode code : Nat) : M Nat :=
  addU 64 b valptr (((code : Int) - mincode) % 18446744073709551616).toNat

/-- One entry of the 13-bit table (`huffman.rs:211-259`). -/
def bigEntry (b : Build) (t : HuffTable) (i : Nat) : M Int := do
  let input := (i <<< 3) % 65536
  let code := input >>> 8
  let val ← idx t.numbits code
  let l := val &&& 15
  if l > 0 then .ok (bigValue t.dngBug input l (val >>> 4))
  else do
    let (code, l) ← bigWalk t.maxcode input 8 code 8
    if l > t.precision then .ok 0xff
    else do
      let vp ← idx t.valptr l
      if vp = 0xff then .ok 0xff
      else do
        let mc ← idx t.mincode l
        let k ← valIndex b vp mc code
        let rv ← idx t.huffval k
        .ok (bigValue t.dngBug input l rv)

/-- `HuffTable::initialize_bigtable` (`huffman.rs:205-262`): every iteration writes only its own entry. -/
def initializeBigtable (b : Build) (t : HuffTable) : M HuffTable := do
  let bigtable ← (List.range 8192).mapM (bigEntry b t)
  .ok { t with bigtable, useBigtable := true }

/-- `HuffTable::initialize` (`huffman.rs:113-203`) -/
def init (b : Build) (t : HuffTable) (useBigtable : Bool) : M HuffTable := do
  let (hs, lastp) ← sizes t.bits
  let hc ← codes b hs
  let mincode ← setIdx t.mincode 0 0
  let maxcode ← setIdx t.maxcode 0 0
  let (_, mincode, maxcode, valptr) ← forRange 1 17 (decodeStep t.bits hc) (0, mincode, maxcode, t.valptr)
  let maxcode ← setIdx maxcode 17 0xFFFFF
  let numbits ← forRange 0 lastp (shortStep t.huffval hs hc) t.numbits
  let t := { t with mincode, maxcode, valptr, numbits }
  let t ← if useBigtable then initializeBigtable b t else .ok t
  .ok { t with initialized := true, useBigtable }

/-- `HuffTable::new` (`huffman.rs:94-111`) -/
def new (b : Build) (bits huffval : List Nat) (precision : Nat) (dngBug : Bool) : M HuffTable :=
  init b (raw bits huffval precision dngBug) true

variable {σ : Type}

/-- The bit-by-bit search of `huff_len` (`huffman.rs:291-295`), with a step budget. -/
def lenWalk (P : PumpOps σ) (maxcode : List Int) : Nat → Nat → Nat → σ → M (Nat × Nat × σ)
  | 0, _, _, _ => .error .fuel
  | fuel + 1, code, l, s => do
    let m ← idx maxcode l
    if (code : Int) > m then do
      let (temp, s) ← P.getBits s 1
      lenWalk P maxcode fuel ((code <<< 1) ||| temp) (l + 1) s
    else .ok (code, l, s)

/-- `HuffTable::huff_len` (`huffman.rs:281-306`) -/
def huffLen (b : Build) (P : PumpOps σ) (t : HuffTable) (s : σ) : M (Nat × σ) := do
  let (code, s) ← P.peek s 8
  let val ← idx t.numbits code
  let len := val &&& 15
  if len ≠ 0 then do
    let s ← P.consume s len
    .ok (val >>> 4, s)
  else do
    let s ← P.consume s 8
    let (code, l, s) ← lenWalk P t.maxcode 11 code 8 s
    if l > t.precision then fail "ljpeg: bad Huffman code"
    else do
      let vp ← idx t.valptr l
      if vp = 0xff then fail "ljpeg: bad Huffman code"
      else do
        let mc ← idx t.mincode l
        let d ← subU 64 b code mc
        let k ← addU 64 b vp d
        let v ← idx t.huffval k
        .ok (v, s)

/-- `HuffTable::huff_diff` (`huffman.rs:308-326`) -/
def huffDiff (b : Build) (P : PumpOps σ) (t : HuffTable) (s : σ) (len : Nat) : M (Int × σ) :=
  if len = 0 then .ok (0, s)
  else if len = 16 then
    if t.dngBug then do
      let (_, s) ← P.getBits s 16
      .ok (-32768, s)
    else .ok (-32768, s)
  else do
    let (v, s) ← P.getBits s len
    let diff := toI32 v
    let top ← shlU 32 b 1 (len - 1)
    if v &&& top = 0 then do
      let one ← shlU 32 b 1 len
      let mask ← i32Result b (toI32 one - 1)
      let diff ← i32Result b (diff - mask)
      .ok (diff, s)
    else .ok (diff, s)

/-- `HuffTable::huff_decode` (`huffman.rs:265-279`) -/
def huffDecode (b : Build) (P : PumpOps σ) (t : HuffTable) (s : σ) : M (Int × σ) :=
  let slow : σ → M (Int × σ) := fun s => do
    let (len, s) ← huffLen b P t s
    huffDiff b P t s len
  if t.useBigtable then do
    let (code, s) ← P.peek s 13
    let val ← idx t.bigtable code
    if val % 256 ≠ 0xff then do
      let s ← P.consume s (val % 256).toNat
      .ok (val / 256, s)
    else slow s
  else slow s

end HuffTable
end Model

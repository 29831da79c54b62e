import Verif.Model.Huffman
import Verif.Model.Parallel
/-!
# Model of `src/decoders/ljpeg/mod.rs` and `src/decoders/ljpeg/decompressors.rs`
-/

namespace Model.Ljpeg
open Rust

/-- `JpegComponentInfo` (`ljpeg/mod.rs:23-34`) -/
structure Component where
  id : Nat
  index : Nat
  dcTbl : Nat
  superH : Nat
  superV : Nat
  deriving DecidableEq, Repr

/-- `SOFInfo` (`ljpeg/mod.rs:36-44`) -/
structure Sof where
  width : Nat
  height : Nat
  cps : Nat
  precision : Nat
  components : List Component
  csfix : Bool
  deriving DecidableEq, Repr

/-- `SOFInfo::empty` (`ljpeg/mod.rs:47-56`) -/
def Sof.empty (csfix : Bool) : Sof := ⟨0, 0, 0, 0, [], csfix⟩

/-- One component of `parse_sof` (`ljpeg/mod.rs:76-88`): the components so far and the stream. -/
def sofComponent (i : Nat) (s : List Component × ByteStream) : M (List Component × ByteStream) := do
  let (id, input) ← s.2.getU8
  let (subs, input) ← input.getU8
  let (_, input) ← input.getU8
  .ok (s.1 ++ [⟨id, i, 0, subs >>> 4, subs &&& 0xf⟩], input)

/-- `SOFInfo::parse_sof` (`ljpeg/mod.rs:58-91`). A second frame header adds its components after those of the first. -/
def parseSof (sof : Sof) (input : ByteStream) : M (Sof × ByteStream) := do
  let (headerLength, input) ← input.getU16
  let (precision, input) ← input.getU8
  let (height, input) ← input.getU16
  let (width, input) ← input.getU16
  let (cps, input) ← input.getU8
  if precision > 16 then fail "ljpeg: More than 16 bits per channel is not supported."
  else if cps > 4 ∨ cps < 1 then fail "ljpeg: Only from 1 to 4 components are supported."
  else if headerLength ≠ 8 + cps * 3 then fail "ljpeg: Header size mismatch."
  else do
    let (components, input) ← forRange 0 cps sofComponent (sof.components, input)
    .ok ({ sof with width, height, cps, precision, components }, input)

/-- `self.components.iter_mut().find(|c| c.id == cs)` and the assignment of the table number (`ljpeg/mod.rs:106-114`): the first
component with the identifier is changed. -/
def setTable (cs td : Nat) : List Component → List Component
  | [] => []
  | c :: rest => if c.id = cs then { c with dcTbl := td } :: rest else c :: setTable cs td rest

/-- One component of `parse_sos` (`ljpeg/mod.rs:102-115`). The message does not include the selector. -/
def sosComponent (csfix : Bool) (cs : Nat) (s : List Component × ByteStream) : M (List Component × ByteStream) := do
  let (readcs, input) ← s.2.getU8
  let cs := if csfix then cs else readcs
  if s.1.all (fun c => c.id ≠ cs) then fail "ljpeg: invalid component selector"
  else do
    let (b, input) ← input.getU8
    let td := b >>> 4
    if td > 3 then fail "ljpeg: Invalid Huffman table selection"
    else .ok (setTable cs td s.1, input)

/-- `SOFInfo::parse_sos` (`ljpeg/mod.rs:93-120`): the new frame information, predictor, point transform, stream. -/
def parseSos (sof : Sof) (input : ByteStream) : M (Sof × Nat × Nat × ByteStream) :=
  if sof.width = 0 then fail "ljpeg: Trying to parse SOS before SOF"
  else do
    let (_, input) ← input.getU16
    let (soscps, input) ← input.getU8
    if sof.cps ≠ soscps then fail "ljpeg: component number mismatch in SOS"
    else do
      let (components, input) ← forRange 0 sof.cps (sosComponent sof.csfix) (sof.components, input)
      let (pred, input) ← input.getU8
      let (_, input) ← input.getU8
      let (pt, input) ← input.getU8
      .ok ({ sof with components }, pred, pt &&& 0xf, input)

/-- The three arrays `dht_init`, `dht_bits`, `dht_huffval` (`ljpeg/mod.rs:144-146`). -/
structure Dhts where
  init : List Bool
  bits : List (List Nat)
  huffval : List (List Nat)
  deriving DecidableEq, Repr

/-- `ljpeg/mod.rs:144-146` -/
def Dhts.zero : Dhts := ⟨List.replicate 4 false, List.replicate 4 (List.replicate 17 0), List.replicate 4 (List.replicate 256 0)⟩

/-- One table of `parse_dht` (`ljpeg/mod.rs:219-250`): the new arrays, stream and remaining length. -/
def dhtTable (b : Build) (d : Dhts) (input : ByteStream) (length : Nat) : M (Dhts × ByteStream × Nat) := do
  let (v, input) ← input.getU8
  let tc := v >>> 4
  let th := v &&& 0xf
  if tc ≠ 0 then fail "ljpeg: unsuported table class in DHT"
  else if th > 3 then fail "ljpeg: unsuported table id"
  else do
    let (bits, acc, input) ← forRange 0 16 (fun i (s : List (List Nat) × Nat × ByteStream) => do
      let (v, input) ← s.2.2.getU8
      let bits ← setIdx2 s.1 th (i + 1) v
      .ok (bits, s.2.1 + v, input)) (d.bits, 0, input)
    let bits ← setIdx2 bits th 0 0
    if acc > 256 then fail "ljpeg: invalid DHT table"
    else if length < 1 + 16 + acc then fail "ljpeg: invalid DHT table length"
    else do
      let (huffval, input) ← forRange 0 acc (fun i (s : List (List Nat) × ByteStream) => do
        let (v, input) ← s.2.getU8
        let huffval ← setIdx2 s.1 th i v
        .ok (huffval, input)) (d.huffval, input)
      let init ← setIdx d.init th true
      let length ← subU 64 b length (1 + 16 + acc)
      .ok (⟨init, bits, huffval⟩, input, length)

/-- The loop of `parse_dht` (`ljpeg/mod.rs:218-250`), with a step budget. -/
def dhtLoop (b : Build) : Nat → Dhts → ByteStream → Nat → M (Dhts × ByteStream)
  | 0, _, _, _ => .error .fuel
  | fuel + 1, d, input, length =>
    if length > 0 then do
      let (d, input, length) ← dhtTable b d input length
      dhtLoop b fuel d input length
    else .ok (d, input)

/-- `LjpegDecompressor::parse_dht` (`ljpeg/mod.rs:215-253`). Every table takes at least 17 of the `length` bytes. -/
def parseDht (b : Build) (d : Dhts) (input : ByteStream) : M (Dhts × ByteStream) := do
  let (l, input) ← input.getU16
  let length ← subU 64 b l 2
  dhtLoop b (input.buffer.length + 2) d input length

/-- `LjpegDecompressor::get_next_marker` (`ljpeg/mod.rs:199-213`) -/
def getNextMarker (input : ByteStream) (allowskip : Bool) : M (Nat × ByteStream) :=
  if allowskip = false then do
    let (v, input) ← input.getU8
    if v ≠ 0xff then fail "ljpeg: (noskip) expected marker not found"
    else do
      let (mark, input) ← input.getU8
      if mark = 0 ∨ mark = 0xff then fail "ljpeg: (noskip) expected marker but found stuff or fill"
      else .ok (mark, input)
  else do
    let (_, input) ← input.skipToMarker
    input.getU8

/-- What the header says, up to and including the start of the scan. -/
structure Header where
  sof : Sof
  dhts : Dhts
  predictor : Nat
  pointTransform : Nat
  pos : Nat
  deriving DecidableEq, Repr

/-- The marker loop (`ljpeg/mod.rs:149-174`), with a step budget. -/
def markerLoop (b : Build) : Nat → Sof → Dhts → ByteStream → M Header
  | 0, _, _, _ => .error .fuel
  | fuel + 1, sof, d, input => do
    let (marker, input) ← getNextMarker input true
    if marker = 0xc3 then do
      let (sof, input) ← parseSof sof input
      if sof.precision > 16 ∨ sof.precision < 12 then fail "ljpeg: sof.precision"
      else markerLoop b fuel sof d input
    else if marker = 0xc4 then do
      let (d, input) ← parseDht b d input
      markerLoop b fuel sof d input
    else if marker = 0xda then do
      let (sof, pred, pt, input) ← parseSos sof input
      .ok ⟨sof, d, pred, pt, input.pos⟩
    else if marker = 0xd9 then fail "ljpeg: reached EOI before SOS"
    else if marker = 0xdb then fail "ljpeg: not a valid raw file, found DQT"
    else markerLoop b fuel sof d input

/-- The header part of `new_full` (`ljpeg/mod.rs:137-174`). Every marker takes two bytes at least. -/
def parseHeader (b : Build) (src : Bytes) (csfix : Bool) : M Header := do
  let input := ByteStream.new src BIG_ENDIAN
  let (marker, input) ← getNextMarker input false
  if marker ≠ 0xd8 then fail "ljpeg: Image did not start with SOI. Probably not LJPEG"
  else markerLoop b (src.length + 2) (Sof.empty csfix) Dhts.zero input

/-- `LjpegDecompressor` (`ljpeg/mod.rs:123-130`) -/
structure Decompressor where
  buffer : Bytes
  sof : Sof
  predictor : Nat
  pointTransform : Nat
  dhts : List HuffTable
  deriving DecidableEq, Repr

/-- Table `i` of a decompressor (`ljpeg/mod.rs:178-182`). -/
def table (b : Build) (h : Header) (dngBug : Bool) (i : Nat) : M HuffTable := do
  let init ← idx h.dhts.init i
  if init then do
    let bits ← idx h.dhts.bits i
    let huffval ← idx h.dhts.huffval i
    HuffTable.new b bits huffval h.sof.precision dngBug
  else .ok (HuffTable.empty 0)

/-- `LjpegDecompressor::new_full` (`ljpeg/mod.rs:137-195`) -/
def newFull (b : Build) (src : Bytes) (dngBug csfix : Bool) : M Decompressor := do
  let h ← parseHeader b src csfix
  let dhts ← (List.range 4).mapM (table b h dngBug)
  let buffer ← sliceFrom src h.pos
  .ok ⟨buffer, h.sof, h.predictor, h.pointTransform, dhts⟩

/-- `LjpegDecompressor::new` (`ljpeg/mod.rs:133-135`) -/
def new (b : Build) (src : Bytes) : M Decompressor := newFull b src false false

/-! ## Decoding -/

/-- `ljpeg.dhts[ljpeg.sof.components[i].dc_tbl_num]` (`decompressors.rs:12`, ...) -/
def Decompressor.htable (d : Decompressor) (i : Nat) : M HuffTable := do
  let c ← idx d.sof.components i
  idx d.dhts c.dcTbl

/-- `1 << (precision - point_transform - 1)` as an `i32` (`decompressors.rs:16`, ...) -/
def Decompressor.basePrediction (d : Decompressor) (b : Build) : M Int := do
  let k ← subU 64 b d.sof.precision d.pointTransform
  let k ← subU 64 b k 1
  let v ← shlU 32 b 1 k
  .ok (toI32 v)

variable {σ : Type}

/-- One difference from each table in turn. -/
def diffs (b : Build) (P : PumpOps σ) : List HuffTable → σ → M (List Int × σ)
  | [], s => .ok ([], s)
  | t :: ts, s => do
    let (d, s) ← t.huffDecode b P s
    let (ds, s) ← diffs b P ts s
    .ok (d :: ds, s)

/-- The first pixel (`decompressors.rs:17-18`): each sample is written before the next difference is decoded. -/
def firstPixel (b : Build) (P : PumpOps σ) (base : Int) : Nat → List HuffTable → List Nat × σ → M (List Nat × σ)
  | _, [], s => .ok s
  | pos, t :: ts, (out, s) => do
    let (d, s) ← t.huffDecode b P s
    let v ← i32Result b (base + d)
    let out ← setIdx out pos (toU16 v)
    firstPixel b P base (pos + 1) ts (out, s)

/-- `((p as i32) + diff) as u16`, written to consecutive places (`decompressors.rs:34-35`). -/
def writePixel (b : Build) : Nat → List Nat → List Int → List Nat → M (List Nat)
  | pos, p :: ps, d :: ds, out => do
    let v ← i32Result b ((p : Int) + d)
    let out ← setIdx out pos (toU16 v)
    writePixel b (pos + 1) ps ds out
  | _, _, _, out => .ok out

/-- Where the prediction is (`decompressors.rs:24-30`): at `col = x` the start of the previous line, otherwise the previous pixel. -/
def predPos (b : Build) (n x stripwidth row col : Nat) : M Nat :=
  if col = x then do
    let r ← subU 64 b row 1
    .ok (r * stripwidth + x)
  else subU 64 b (row * stripwidth + col) n

/-- One pixel of `n` samples (`decompressors.rs:24-35`). -/
def pixel (b : Build) (P : PumpOps σ) (ts : List HuffTable) (x stripwidth row col : Nat) (s : List Nat × σ) : M (List Nat × σ) := do
  let pos ← predPos b ts.length x stripwidth row col
  let ps ← (List.range ts.length).mapM (fun k => idx s.1 (pos + k))
  let (ds, st) ← diffs b P ts s.2
  let out ← writePixel b (row * stripwidth + col) ps ds s.1
  .ok (out, st)

/-- One row (`decompressors.rs:21-41`): the pixels that go to the output, then `skipX` more that are dropped. -/
def line (b : Build) (P : PumpOps σ) (ts : List HuffTable) (x stripwidth width skipX row : Nat) (s : List Nat × σ) : M (List Nat × σ) := do
  let startcol := if row = 0 then x + ts.length else x
  let s ← forStep startcol (width + x) ts.length (pixel b P ts x stripwidth row) s
  forRange 0 skipX (fun _ s => do
    let (_, st) ← diffs b P ts s.2
    .ok (s.1, st)) s

/-- The code common to `decode_ljpeg_2components` (`decompressors.rs:6-45`), `decode_ljpeg_3components` (`decompressors.rs:47-92`)
and `decode_ljpeg_4components` (`decompressors.rs:94-144`): the three functions are the same text written for 2, 3 and 4 samples. The
message leaves out the sizes. -/
def components (b : Build) (n : Nat) (d : Decompressor) (out : List Nat) (x stripwidth width height : Nat) : M (List Nat) :=
  if d.sof.width * n < width ∨ d.sof.height < height then fail "ljpeg: trying to decode"
  else do
    let ts ← (List.range n).mapM d.htable
    let base ← d.basePrediction b
    let s ← firstPixel b (pumpJPEG b) base x ts (out, JPump.new d.buffer)
    let skipX ← subU 64 b d.sof.width (width / n)
    let s ← forRange 0 height (line b (pumpJPEG b) ts x stripwidth width skipX) s
    .ok s.1

/-- `decode_ljpeg_2components` (`decompressors.rs:6-45`) -/
def decode2 (b : Build) (d : Decompressor) (out : List Nat) (x stripwidth width height : Nat) : M (List Nat) :=
  components b 2 d out x stripwidth width height

/-- `decode_ljpeg_3components` (`decompressors.rs:47-92`) -/
def decode3 (b : Build) (d : Decompressor) (out : List Nat) (x stripwidth width height : Nat) : M (List Nat) :=
  components b 3 d out x stripwidth width height

/-- `decode_ljpeg_4components` (`decompressors.rs:94-144`): always at the left edge of a full-width buffer. -/
def decode4 (b : Build) (d : Decompressor) (out : List Nat) (width height : Nat) : M (List Nat) :=
  components b 4 d out 0 width width height

/-- `out[pos+i] = v as u16` for consecutive places. -/
def putAll (out : List Nat) (pos : Nat) : List Int → M (List Nat)
  | [] => .ok out
  | v :: vs => do
    let out ← setIdx out pos (toU16 v)
    putAll out (pos + 1) vs

/-- `set_yuv_420` (`decompressors.rs:146-164`) -/
def setYuv420 (out : List Nat) (row col width : Nat) (y1 y2 y3 y4 cb cr : Int) : M (List Nat) := do
  let out ← putAll out (row * width + col) [y1, cb, cr]
  let out ← putAll out (row * width + col + 3) [y2, cb, cr]
  let out ← putAll out ((row + 1) * width + col) [y3, cb, cr]
  putAll out ((row + 1) * width + col + 3) [y4, cb, cr]

/-- `set_yuv_422` (`decompressors.rs:214-224`) -/
def setYuv422 (out : List Nat) (row col width : Nat) (y1 y2 cb cr : Int) : M (List Nat) := do
  let out ← putAll out (row * width + col) [y1, cb, cr]
  putAll out (row * width + col + 3) [y2, cb, cr]

/-- `p + diff` on `i32`. -/
def addDiff (b : Build) (P : PumpOps σ) (t : HuffTable) (p : Int) (s : σ) : M (Int × σ) := do
  let (d, s) ← t.huffDecode b P s
  let v ← i32Result b (p + d)
  .ok (v, s)

/-- One block of four pixels (`decompressors.rs:182-188`, `202-208`). -/
def block420 (b : Build) (P : PumpOps σ) (t1 t2 t3 : HuffTable) (py pcb pcr : Int) (row col width : Nat) (s : List Nat × σ) : M (List Nat × σ) := do
  let (y1, st) ← addDiff b P t1 py s.2
  let (y2, st) ← addDiff b P t1 y1 st
  let (y3, st) ← addDiff b P t1 y2 st
  let (y4, st) ← addDiff b P t1 y3 st
  let (cb, st) ← addDiff b P t2 pcb st
  let (cr, st) ← addDiff b P t3 pcr st
  let out ← setYuv420 s.1 row col width y1 y2 y3 y4 cb cr
  .ok (out, st)

/-- One block of two pixels (`decompressors.rs:239-243`, `257-261`). -/
def block422 (b : Build) (P : PumpOps σ) (t1 t2 t3 : HuffTable) (py pcb pcr : Int) (row col width : Nat) (s : List Nat × σ) : M (List Nat × σ) := do
  let (y1, st) ← addDiff b P t1 py s.2
  let (y2, st) ← addDiff b P t1 y1 st
  let (cb, st) ← addDiff b P t2 pcb st
  let (cr, st) ← addDiff b P t3 pcr st
  let out ← setYuv422 s.1 row col width y1 y2 cb cr
  .ok (out, st)

/-- Where the prediction is in `decode_ljpeg_420` (`decompressors.rs:194-200`). -/
def predPos420 (b : Build) (width row col : Nat) : M Nat :=
  if col = 0 then do
    let r ← subU 64 b row 2
    .ok (r * width)
  else subU 64 b ((row + 1) * width + col) 3

/-- Where the prediction is in `decode_ljpeg_422` (`decompressors.rs:249-255`). -/
def predPos422 (b : Build) (width row col : Nat) : M Nat :=
  if col = 0 then do
    let r ← subU 64 b row 1
    .ok (r * width)
  else subU 64 b (row * width + col) 3

/-- Inner step of `decode_ljpeg_420` (`decompressors.rs:192-208`) -/
def step420 (b : Build) (P : PumpOps σ) (t1 t2 t3 : HuffTable) (width row col : Nat) (s : List Nat × σ) : M (List Nat × σ) := do
  let pos ← predPos420 b width row col
  let py ← idx s.1 pos
  let pcb ← idx s.1 (pos + 1)
  let pcr ← idx s.1 (pos + 2)
  block420 b P t1 t2 t3 py pcb pcr row col width s

/-- Inner step of `decode_ljpeg_422` (`decompressors.rs:247-261`) -/
def step422 (b : Build) (P : PumpOps σ) (t1 t2 t3 : HuffTable) (width row col : Nat) (s : List Nat × σ) : M (List Nat × σ) := do
  let pos ← predPos422 b width row col
  let py ← idx s.1 pos
  let pcb ← idx s.1 (pos + 1)
  let pcr ← idx s.1 (pos + 2)
  block422 b P t1 t2 t3 py pcb pcr row col width s

/-- `decode_ljpeg_420` (`decompressors.rs:166-212`). -/
def decode420 (b : Build) (d : Decompressor) (out : List Nat) (width height : Nat) : M (List Nat) :=
  if d.sof.width * 3 ≠ width ∨ d.sof.height ≠ height then fail "ljpeg: trying to decode"
  else do
    let t1 ← d.htable 0
    let t2 ← d.htable 1
    let t3 ← d.htable 2
    let base ← d.basePrediction b
    let s ← block420 b (pumpJPEG b) t1 t2 t3 base base base 0 0 width (out, JPump.new d.buffer)
    let s ← forStep 0 height 2 (fun row s =>
      forStep (if row = 0 then 6 else 0) width 6 (step420 b (pumpJPEG b) t1 t2 t3 width row) s) s
    .ok s.1

/-- `decode_ljpeg_422` (`decompressors.rs:226-265`) -/
def decode422 (b : Build) (d : Decompressor) (out : List Nat) (width height : Nat) : M (List Nat) :=
  if d.sof.width * 3 ≠ width ∨ d.sof.height ≠ height then fail "ljpeg: trying to decode"
  else do
    let t1 ← d.htable 0
    let t2 ← d.htable 1
    let t3 ← d.htable 2
    let base ← d.basePrediction b
    let s ← block422 b (pumpJPEG b) t1 t2 t3 base base base 0 0 width (out, JPump.new d.buffer)
    let s ← forRange 0 height (fun row s =>
      forStep (if row = 0 then 6 else 0) width 6 (step422 b (pumpJPEG b) t1 t2 t3 width row) s) s
    .ok s.1

/-- A loop over the chunks of a slice that carries a state: `for o in out.chunks_mut(k) { f(o, state) }`. -/
def foldChunks {α τ : Type} (f : List α → τ → M (List α × τ)) : List (List α) → τ → M (List α × τ)
  | [], s => .ok ([], s)
  | c :: cs, s => do
    let (o, s) ← f c s
    let (rest, s) ← foldChunks f cs s
    .ok (o ++ rest, s)

/-- Two samples of `decode_hasselblad` (`decompressors.rs:277-284`), on `(p1, p2, reader)`. -/
def hasselbladPair (b : Build) (P : PumpOps σ) (t : HuffTable) (o : List Nat) (s : Int × Int × σ) : M (List Nat × Int × Int × σ) := do
  let (len1, st) ← t.huffLen b P s.2.2
  let (len2, st) ← t.huffLen b P st
  let (d1, st) ← t.huffDiff b P st len1
  let p1 ← i32Result b (s.1 + d1)
  let (d2, st) ← t.huffDiff b P st len2
  let p2 ← i32Result b (s.2.1 + d2)
  let o ← setIdx o 0 (toU16 p1)
  let o ← setIdx o 1 (toU16 p2)
  .ok (o, p1, p2, st)

/-- `decode_hasselblad` (`decompressors.rs:267-289`). `chunks_mut(0)` panics. -/
def decodeHasselblad (b : Build) (d : Decompressor) (out : List Nat) (width : Nat) : M (List Nat) := do
  let t ← d.htable 0
  if width = 0 then crash
  else do
    let (out, _) ← foldChunks (fun line st => do
      let (line, _, _, st) ← foldChunks (hasselbladPair b (pumpMSB32 b) t) (chunks 2 line) (0x8000, 0x8000, st)
      .ok (line, st)) (chunks width out) (Pump.new d.buffer)
    .ok out

/-- `decode_leaf_strip` (`decompressors.rs:291-313`): the same as two components at the left edge, without pixels to skip. -/
def decodeLeafStrip (b : Build) (src : Bytes) (out : List Nat) (width height : Nat) (t1 t2 : HuffTable) (bpred : Int) : M (List Nat) := do
  let s ← firstPixel b (pumpJPEG b) bpred 0 [t1, t2] (out, JPump.new src)
  let s ← forRange 0 height (line b (pumpJPEG b) [t1, t2] 0 width width 0) s
  .ok s.1

/-- `LjpegDecompressor::decode` (`ljpeg/mod.rs:255-274`). The messages leave out the numbers. -/
def Decompressor.decode (b : Build) (d : Decompressor) (out : List Nat) (x stripwidth width height : Nat) : M (List Nat) := do
  let c ← idx d.sof.components 0
  if c.superH = 2 ∧ c.superV = 2 then decode420 b d out width height
  else if c.superH = 2 ∧ c.superV = 1 then decode422 b d out width height
  else if d.predictor = 1 then
    if d.sof.cps = 2 then decode2 b d out x stripwidth width height
    else if d.sof.cps = 3 then decode3 b d out x stripwidth width height
    else if d.sof.cps = 4 then decode4 b d out width height
    else fail "ljpeg: component files not supported"
  else if d.predictor = 8 then decodeHasselblad b d out width
  else fail "ljpeg: predictor not supported"

/-- The strip offsets of `decode_leaf` (`ljpeg/mod.rs:277-290`), with a step budget: every error of the marker search ends the
list, a panic does not. -/
def leafOffsets : Nat → ByteStream → List Nat → M (List Nat)
  | 0, _, _ => .error .fuel
  | fuel + 1, input, acc =>
    match getNextMarker input true with
    | .ok (marker, input) => if marker = 0xd9 then .ok acc else leafOffsets fuel input (acc ++ [input.pos])
    | .error (.err _) => .ok acc
    | .error e => .error e

/-- One strip of `decode_leaf` (`ljpeg/mod.rs:300-305`); `unwrap` of an error panics. -/
def leafStrip (b : Build) (d : Decompressor) (offsets : List Nat) (width : Nat) (t1 t2 : HuffTable) (bpred : Int)
    (strip : List Nat) (row : Nat) : M (List Nat) := do
  let offset ← idx offsets (row / 8)
  let src ← sliceFrom d.buffer offset
  match decodeLeafStrip b src strip width (strip.length / width) t1 t2 bpred with
  | .ok o => .ok o
  | .error .fuel => .error .fuel
  | .error _ => crash

/-- `LjpegDecompressor::decode_leaf` (`ljpeg/mod.rs:276-306`) -/
def Decompressor.decodeLeaf (b : Build) (d : Decompressor) (width height : Nat) : M (List Nat) := do
  let offsets ← leafOffsets (d.buffer.length + 1) (ByteStream.new d.buffer BIG_ENDIAN) [0]
  let h ← subU 64 b height 1
  let nstrips := h / 8 + 1
  if offsets.length ≠ nstrips then fail "MOS: expecting strips"
  else do
    let t1 ← d.htable 0
    let t2 ← d.htable 1
    let bpred ← d.basePrediction b
    decodeThreadedMultiline width height 8 (leafStrip b d offsets width t1 t2 bpred)

/-- `width`, `height`, `super_v`, `super_h` (`ljpeg/mod.rs:308-311`) -/
def Decompressor.width (d : Decompressor) : Nat := d.sof.width * d.sof.cps
def Decompressor.height (d : Decompressor) : Nat := d.sof.height
def Decompressor.superV (d : Decompressor) : M Nat := do .ok (← idx d.sof.components 0).superV
def Decompressor.superH (d : Decompressor) : M Nat := do .ok (← idx d.sof.components 0).superH

end Model.Ljpeg

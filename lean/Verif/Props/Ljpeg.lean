import Verif.Lemmas.LjpegFile
import Verif.Props.Huffman
/-!
# C23 and C24: lossless JPEG
-/

namespace Props
open Rust Spec Model Model.HuffTable Model.Ljpeg

/-! ## C24 -/

/-- What an accepted header says, in terms of the bytes of the file: a start of image, an SOF3 frame header at `j`, after it a scan header at `i`, after
which the data start. -/
structure Accepted (src : Bytes) (d : Decompressor) (j i : Nat) : Prop where
  soi : bytesOf src 0 = 0xff ∧ bytesOf src 1 = 0xd8
  order : 2 ≤ j ∧ j + 10 + 3 * d.sof.cps ≤ i + 2
  frame : bytesOf src j = 0xff ∧ bytesOf src (j + 1) = 0xc3
  frameLength : bytesOf src (j + 2) * 256 + bytesOf src (j + 3) = 8 + 3 * d.sof.cps
  precision : d.sof.precision = bytesOf src (j + 4) ∧ 12 ≤ d.sof.precision ∧ d.sof.precision ≤ 16
  height : d.sof.height = bytesOf src (j + 5) * 256 + bytesOf src (j + 6)
  width : d.sof.width = bytesOf src (j + 7) * 256 + bytesOf src (j + 8) ∧ d.sof.width ≠ 0
  cps : d.sof.cps = bytesOf src (j + 9) ∧ 1 ≤ d.sof.cps ∧ d.sof.cps ≤ 4
  scan : bytesOf src i = 0xff ∧ bytesOf src (i + 1) = 0xda ∧ bytesOf src (i + 4) = d.sof.cps
  predictor : d.predictor = bytesOf src (i + 5 + 2 * d.sof.cps)
  transform : d.pointTransform = bytesOf src (i + 7 + 2 * d.sof.cps) % 16
  inside : i + 8 + 2 * d.sof.cps ≤ src.length
  data : d.buffer = src.drop (i + 8 + 2 * d.sof.cps)
  tables : d.dhts.length = 4
  components : d.sof.cps ≤ d.sof.components.length ∧ ∀ c ∈ d.sof.components, c.dcTbl < 4

/-- C24: parsing the header of any byte sequence ends, and what is accepted has the form above. -/
theorem ljpeg_header_checked (b : Build) (src : Bytes) (dngBug csfix : Bool) :
    Ends (newFull b src dngBug csfix) ∧ ∀ d, newFull b src dngBug csfix = .ok d → ∃ j i, Accepted src d j i := by
  have key : Post (newFull b src dngBug csfix) (fun d => ∃ j i, Accepted src d j i) := by
    unfold newFull
    refine post_bind (post_parseHeader b src csfix) ?_
    rintro h ⟨h0, h1, hd, hw, i, hi, hs, ha⟩
    refine post_bind (post_mapM (Q := fun _ _ => True) ?_) ?_
    · intro k hk
      refine post_ends ?_
      unfold table
      refine ends_bind (ends_idx _ _) fun init _ => ends_ite (fun _ => ?_) fun _ => ends_ok _
      refine ends_bind (ends_idx _ _) fun bits hb => ends_bind (ends_idx _ _) fun vals hv => ?_
      have hb := List.mem_of_getElem? (idx_eq_ok.mp hb)
      have hv := List.mem_of_getElem? (idx_eq_ok.mp hv)
      exact huffman_build_ends b _ _ _ ⟨hd.bits.2 _ hb, hd.vals.2 _ hv, hd.bytes _ hv⟩
    · rintro ts ⟨ht, _⟩
      rw [sliceFrom_le ha.inside, ok_bind]
      obtain ⟨j, j1, j2, f⟩ := hs.frame hw
      refine post_ok ⟨j, i, ?_⟩
      exact ⟨⟨h0, h1⟩, ⟨j1, j2⟩, f.marker, f.length, f.precision, f.height, ⟨f.width, hw⟩, f.cps, ⟨ha.marker.1, ha.marker.2, ha.cps⟩,
        ha.predictor, ha.transform, by simp only; have := ha.data; have := ha.inside; omega, by simp only; rw [ha.data], by simpa using ht, f.comps, hs.tables⟩
  exact key

/-- C24, not checked: a component whose table was never defined is accepted by the header parser; the first difference read with such
a table panics. -/
theorem ljpeg_undefined_table_panics {σ : Type} (b : Build) (P : PumpOps σ) (s : σ) (v : Nat) (s' : σ) (hp : P.peek s 13 = .ok (v, s')) :
    HuffTable.huffDecode b P (HuffTable.empty 0) s = crash := by
  unfold HuffTable.huffDecode
  simp only [HuffTable.empty, HuffTable.raw, if_true]
  rw [hp, ok_bind]
  simp [idx_ge]

/-- A file with two components and no tables at all, and height zero, is accepted. -/
theorem ljpeg_undefined_table_accepted :
    ∃ d, Ljpeg.new .debug [0xff, 0xd8, 0xff, 0xc3, 0, 14, 14, 0, 0, 0, 2, 2, 0, 0x11, 0, 1, 0x11, 0, 0xff, 0xda, 0, 10, 2, 0, 0, 1, 0, 1, 0, 0, 1, 2, 3, 4] = .ok d ∧
      d.dhts = List.replicate 4 (HuffTable.empty 0) ∧ d.sof.height = 0 := by
  refine ⟨⟨[1, 2, 3, 4], ⟨2, 0, 2, 14, [⟨0, 0, 0, 1, 1⟩, ⟨1, 1, 0, 1, 1⟩], false⟩, 1, 0, List.replicate 4 (HuffTable.empty 0)⟩, ?_, rfl, rfl⟩
  decide +kernel

/-- A table segment with a length below two panics in the checked build. -/
theorem ljpeg_short_dht_panics : Ljpeg.new .debug [0xff, 0xd8, 0xff, 0xc4, 0, 1, 0, 0] = crash := by decide +kernel

/-! ## C23 -/

/-- A table that can be used: stored as the format requires, a prefix code of at most 255 symbols, and no code longer than the precision
(unless it is at most 8 bits long). Category 16 has a code of at most 13 bits and is not used with `dng_bug`. -/
structure UsableTable (t : TableSpec) (precision : Nat) (dngBug : Bool) : Prop where
  counts : t.counts.length = 16 ∧ ∀ v ∈ t.counts, v < 256
  vals : t.vals.length = t.counts.sum ∧ ∀ v ∈ t.vals, v < 256
  size : t.vals.length ≤ 255
  prefixCode : PrefixCode t.lens
  roomy : Roomy t.lens precision
  short : ∀ k, k < t.vals.length → t.lens.getD k 0 ≤ 8 ∨ t.lens.getD k 0 ≤ precision
  cat16 : ∀ k, k < t.vals.length → t.vals.getD k 0 = 16 → t.lens.getD k 0 ≤ 13 ∧ dngBug = false

theorem cum_sum : ∀ (l : List Nat) (n : Nat), n ≤ l.length → cum (fun i => (0 :: l).getD i 0) n = (l.take n).sum := by
  intro l n
  induction n with
  | zero => intro _; simp [cum]
  | succ n ih =>
    intro hn
    rw [cum, ih (by omega), sum_take_succ hn]
    simp

theorem UsableTable.ok {t : TableSpec} {precision : Nat} {dngBug : Bool} (h : UsableTable t precision dngBug) : TableOk t :=
  ⟨h.counts.1, h.counts.2, h.vals.1, Nat.le_trans h.size (by omega), h.vals.2⟩

theorem UsableTable.length {t : TableSpec} {precision : Nat} {dngBug : Bool} (h : UsableTable t precision dngBug) : t.lens.length = t.vals.length := by
  unfold TableSpec.lens
  rw [codeLengths_length, cum_sum _ _ (by rw [h.counts.1]), List.take_of_length_le (by rw [h.counts.1]), h.vals.1]

/-- The symbols as the table stores them. -/
def padded (t : TableSpec) : List Nat := t.vals ++ List.replicate (256 - t.vals.length) 0

theorem padded_lt {t : TableSpec} {k : Nat} (h : k < t.vals.length) : (padded t).getD k 0 = t.vals.getD k 0 := by
  unfold padded
  rw [List.getD_eq_getElem?_getD, List.getD_eq_getElem?_getD, List.getElem?_append_left h]

theorem padded_ge {t : TableSpec} {k : Nat} (h : t.vals.length ≤ k) : (padded t).getD k 0 = 0 := by
  unfold padded
  rw [List.getD_eq_getElem?_getD, List.getElem?_append_right h, List.getElem?_replicate]
  split <;> rfl

theorem UsableTable.codes {b : Build} {t : TableSpec} {precision : Nat} {dngBug : Bool} (h : UsableTable t precision dngBug) :
    ∃ T, HuffTable.new b (0 :: t.counts) (padded t) precision dngBug = .ok T ∧
      ∀ {σ : Type} (P : PumpOps σ) (st : Nat → Nat) (at_ : σ → Nat → Nat → Prop), ReadsBits P st none at_ →
      ∀ d : Int, -32768 ≤ d → d ≤ 32767 → category d ∈ t.vals → Codes b P st at_ T (encodeDiff t.lens t.vals) d := by
  have hlen : lengthsOf (0 :: t.counts) = t.lens := rfl
  obtain ⟨T, h1, hB, hT, e1, e2, e3⟩ := new_built (b := b) (bits := 0 :: t.counts) (huffval := padded t) (precision := precision) (dngBug := dngBug)
    (by rw [List.length_cons, h.counts.1]) (by unfold padded; rw [List.length_append, List.length_replicate]; have := h.size; omega) (by
      intro v hv
      unfold padded at hv
      rw [List.mem_append, List.mem_replicate] at hv
      rcases hv with hv | ⟨_, rfl⟩
      · exact h.vals.2 v hv
      · omega) h.prefixCode.count h.prefixCode.kraft h.prefixCode.noOverflow (Roomy.fits (bits := 0 :: t.counts) h.roomy)
  refine ⟨T, h1, ?_⟩
  intro σ P st at_ hR d d1 d2 hmem
  have hix : (padded t).idxOf (category d) = t.vals.idxOf (category d) := by unfold padded; rw [List.idxOf_append, if_pos hmem]
  have hlt : t.vals.idxOf (category d) < t.vals.length := List.idxOf_lt_length_of_mem hmem
  have hlt' : t.vals.idxOf (category d) < t.lens.length := by rw [h.length]; exact hlt
  have hc := codes_table (d := d) hB hT hR h.prefixCode.kraft (by
    intro k hk hv
    rw [e1] at hv
    rw [e3]
    by_cases hkl : k < t.vals.length
    · rw [padded_lt hkl] at hv
      obtain ⟨c1, c2⟩ := h.cat16 k hkl hv
      refine ⟨?_, c1, c2⟩
      have := h.length
      show k < t.lens.length
      omega
    · rw [padded_ge (by omega)] at hv
      omega) (e2 ▸ Roomy.fits (bits := 0 :: t.counts) h.roomy) d1 d2 (by rw [e1, hix]; exact hlt') (by
      rw [e1, hix]
      refine reachable_of (bits := 0 :: t.counts) hlt' (by rw [hlen, h.length]; exact h.size) ?_
      rw [hlen, e2]
      exact h.short _ hlt)
  intro s c a rest hs hf
  refine hc s c a rest hs ?_
  unfold encodeDiff at hf ⊢
  rw [e1, hix]
  exact hf

/-- The image is in the output: the output buffer is unchanged except for the samples of the first `h'` rows and `w'` pixels, which are in place. -/
structure Placed (out0 : List Nat) (img : Nat → Nat → Nat → Nat) (x stripwidth w' h' n : Nat) (out : List Nat) : Prop where
  len : out.length = out0.length
  done : ∀ r p k, r < h' → p < w' → k < n → out[r * stripwidth + x + p * n + k]? = some (img r p k)
  rest : ∀ i, (∀ r p k, r < h' → p < w' → k < n → i ≠ r * stripwidth + x + p * n + k) → out[i]? = out0[i]?

theorem decode_components {b : Build} {d : Decompressor} {n x sw width height : Nat} {out : List Nat} {ts : List HuffTable} (hsize : width ≤ d.sof.width * n) (hh : height ≤ d.sof.height)
    (hts : (List.range n).mapM d.htable = .ok ts) {base : Nat} (hb : d.basePrediction b = .ok base) (hsub : width / n ≤ d.sof.width) :
    components b n d out x sw width height = (do
      let s ← firstPixel b (pumpJPEG b) base x ts (out, JPump.new d.buffer)
      let s ← forRange 0 height (line b (pumpJPEG b) ts x sw width (d.sof.width - width / n)) s
      .ok s.1) := by
  unfold components
  rw [if_neg (by omega), hts, ok_bind, hb, ok_bind, subU_ok hsub]
  rfl

/-- What a file with a header of the specification opens to: the tables undo the encoding, and are those of the components in turn. -/
structure Opened (b : Build) (dngBug csfix : Bool) (precision pt h w n : Nat) (id sub : Nat → Nat) (pred : Nat) (tab : Nat → TableSpec) (data : Bytes) (d : Decompressor) (T : Nat → HuffTable) : Prop where
  codes : ∀ i, i < n → HuffTable.new b (0 :: (tab i).counts) (padded (tab i)) precision dngBug = .ok (T i) ∧
      ∀ {σ : Type} (P : PumpOps σ) (st : Nat → Nat) (at_ : σ → Nat → Nat → Prop), ReadsBits P st none at_ →
      ∀ d : Int, -32768 ≤ d → d ≤ 32767 → category d ∈ (tab i).vals → Codes b P st at_ (T i) (encodeDiff (tab i).lens (tab i).vals) d
  buffer : d.buffer = data
  sof : d.sof = ⟨w, h, n, precision, compsAfter id sub n n, csfix⟩
  predictor : d.predictor = pred
  tables : ∀ i, i < n → d.htable i = .ok (T i)
  base : d.basePrediction b = .ok ((2 ^ (precision - pt - 1) : Nat) : Int)
  base16 : 2 ^ (precision - pt - 1) < 65536

theorem open_file (b : Build) (dngBug csfix : Bool) (precision pt h w n : Nat) (id sel sub : Nat → Nat) (pred : Nat) (tab : Nat → TableSpec) (data : Bytes)
    (hp : 12 ≤ precision) (hp' : precision ≤ 16) (hpt : pt < precision) (hpt' : pt < 16) (hh : h < 65536) (hw0 : w ≠ 0) (hw : w < 65536) (hn1 : 1 ≤ n) (hn4 : n ≤ 4)
    (hid : ∀ i, i < n → id i < 256) (hsel : ∀ i, i < n → sel i < 256) (hcs : ∀ i, i < n → (if csfix then i else sel i) = id i) (hinj : ∀ i j, i < n → j < n → id i = id j → i = j) (hsub : ∀ i, i < n → sub i < 256) (hpred : pred < 256)
    (ht : ∀ i, i < n → UsableTable (tab i) precision dngBug) :
    ∃ d T, newFull b (fileHeader precision pt h w n id sel sub pred tab ++ data) dngBug csfix = .ok d ∧ Opened b dngBug csfix precision pt h w n id sub pred tab data d T := by
  obtain ⟨pos, g1, g2, g3⟩ := read_header (b := b) (precision := precision) (pt := pt) (h := h) (w := w) (n := n) (id := id) (sel := sel) (csfix := csfix) (sub := sub) (pred := pred) (tab := tab) (data := data) hp hp' hh hw hw0 (by omega) hn4
    hid hsel hcs hinj hpt' hsub hpred (fun i hi => (ht i hi).ok) _ rfl
  have hT : ∀ i, ∃ T, i < n → HuffTable.new b (0 :: (tab i).counts) (padded (tab i)) precision dngBug = .ok T ∧
      ∀ {σ : Type} (P : PumpOps σ) (st : Nat → Nat) (at_ : σ → Nat → Nat → Prop), ReadsBits P st none at_ →
      ∀ d : Int, -32768 ≤ d → d ≤ 32767 → category d ∈ (tab i).vals → Codes b P st at_ T (encodeDiff (tab i).lens (tab i).vals) d := by
    intro i
    by_cases hi : i < n
    · obtain ⟨T, hT⟩ := (ht i hi).codes (b := b)
      exact ⟨T, fun _ => hT⟩
    · exact ⟨HuffTable.empty 0, fun h => absurd h hi⟩
  obtain ⟨T, hT⟩ := Classical.axiomOfChoice hT
  have hmap : (List.range 4).mapM (table b ⟨⟨w, h, n, precision, compsAfter id sub n n, csfix⟩, dhtsAfter tab n, pred, pt, pos⟩ dngBug) =
      .ok ((List.range 4).map fun i => if i < n then T i else HuffTable.empty 0) := by
    refine mapM_ok _ _ _ ?_
    intro i hi
    rw [List.mem_range] at hi
    unfold table
    simp only [dhtsAfter]
    rw [idx_eq_ok.mpr (range_map_getElem? _ hi), ok_bind]
    by_cases hin : i < n
    · rw [if_pos (by simpa using hin), if_pos hin, idx_eq_ok.mpr (range_map_getElem? _ hi), ok_bind, idx_eq_ok.mpr (range_map_getElem? _ hi), ok_bind, if_pos hin, if_pos hin]
      exact (hT i hin).1
    · rw [if_neg (by simpa using hin), if_neg hin]
  refine ⟨⟨data, ⟨w, h, n, precision, compsAfter id sub n n, csfix⟩, pred, pt, (List.range 4).map fun i => if i < n then T i else HuffTable.empty 0⟩, T, ?_, ⟨hT, rfl, rfl, rfl, ?_, ?_, ?_⟩⟩
  · unfold newFull
    rw [g1, ok_bind, hmap, ok_bind]
    simp only
    rw [sliceFrom_le g2, ok_bind, g3]
  · intro i hi
    unfold Decompressor.htable compsAfter
    simp only
    rw [idx_eq_ok.mpr (range_map_getElem? _ hi), ok_bind]
    simp only
    rw [if_pos hi, idx_eq_ok.mpr (range_map_getElem? _ (by omega)), if_pos hi]
  · unfold Decompressor.basePrediction
    simp only
    rw [subU_ok (by omega), ok_bind, subU_ok (by omega), ok_bind]
    have hk : precision - pt - 1 ≤ 15 := by omega
    generalize precision - pt - 1 = k at hk
    revert k
    cases b <;> decide
  · have : 2 ^ (precision - pt - 1) ≤ 2 ^ 15 := Nat.pow_le_pow_right (by omega) (by omega)
    omega

theorem stuff_length (l : List UInt8) : l.length ≤ (stuff l).length := by
  induction l with
  | nil => simp [stuff]
  | cons y l ih => unfold stuff; split <;> simp <;> omega

/-- C23: every image with two, three or four components of 16 bits, encoded with any usable tables that have a code for each category that occurs, is
parsed and decoded to the same samples. The decoder may be asked for fewer rows and columns than encoded; the result may be a tile at
column `x` of a wider buffer (for four components the code supports only `x = 0` and rows of exactly the given width). The data have to be followed by enough bytes that the
bit reader can load its first word. -/
theorem ljpeg_round_trip (b : Build) (dngBug : Bool) (precision pt h w n : Nat) (id : Nat → Nat) (tab : Nat → TableSpec) (img : Nat → Nat → Nat → Nat) (tail : Bytes)
    (hp : 12 ≤ precision) (hp' : precision ≤ 16) (hpt : pt < precision) (hpt' : pt < 16) (hh : h < 65536) (hw : w < 65536) (hn2 : 2 ≤ n) (hn4 : n ≤ 4)
    (hid : ∀ i, i < n → id i < 256) (hinj : ∀ i j, i < n → j < n → id i = id j → i = j) (ht : ∀ i, i < n → UsableTable (tab i) precision dngBug)
    (himg : ∀ r p k, img r p k < 65536)
    (hcat : ∀ r p k, r < h → p < w → k < n → category (residual (2 ^ (precision - pt - 1)) img r p k) ∈ (tab k).vals)
    (hlong : 2 ≤ (packBits (encodeScan n w h (fun k => encodeDiff (tab k).lens (tab k).vals) (2 ^ (precision - pt - 1)) img)).length + tail.length)
    (out0 : List Nat) (x stripwidth w' h' : Nat) (hh0 : 0 < h') (hh' : h' ≤ h) (hw0 : 0 < w') (hw' : w' ≤ w) (hsw : w' * n ≤ stripwidth) (hx : n = 4 → x = 0 ∧ stripwidth = w' * n)
    (hout : (h' - 1) * stripwidth + x + w' * n ≤ out0.length) :
    ∃ d out, newFull b (encodeFile precision pt h w n id tab img ++ tail) dngBug false = .ok d ∧ d.width = w * n ∧ d.height = h ∧
      d.decode b out0 x stripwidth (w' * n) h' = .ok out ∧ Placed out0 img x stripwidth w' h' n out := by
  generalize hdata : stuff (packBits (encodeScan n w h (fun k => encodeDiff (tab k).lens (tab k).vals) (2 ^ (precision - pt - 1)) img)) ++ 0xff :: 0xd9 :: tail = data
  obtain ⟨hun, hend⟩ := unstuff_stuff (m := 0xd9) (by decide) tail (packBits (encodeScan n w h (fun k => encodeDiff (tab k).lens (tab k).vals) (2 ^ (precision - pt - 1)) img))
  have hlen4 : 4 ≤ data.length := by
    rw [← hdata, List.length_append, List.length_cons, List.length_cons]
    have := stuff_length (packBits (encodeScan n w h (fun k => encodeDiff (tab k).lens (tab k).vals) (2 ^ (precision - pt - 1)) img))
    omega
  rw [hdata] at hun hend
  obtain ⟨d, T, hnew, hO⟩ := open_file b dngBug false precision pt h w n id id (fun _ => 0x11) 1 tab data hp hp' hpt hpt' hh (by omega) hw (by omega) hn4 hid hid (fun _ _ => rfl) hinj
    (fun _ _ => by decide) (by decide) ht
  rw [show fileHeader precision pt h w n id id (fun _ => 0x11) 1 tab ++ data = encodeFile precision pt h w n id tab img ++ tail by
      rw [← hdata]
      unfold encodeFile
      simp only [List.append_assoc, List.cons_append, List.nil_append]] at hnew
  have hts : (List.range n).mapM d.htable = .ok ((List.range n).map T) := mapM_ok _ _ _ fun i hi => hO.tables i (List.mem_range.mp hi)
  have hbase16 := hO.base16
  have hlenT : ((List.range n).map T).length = n := by simp
  have hR := readsJPEG b data hlen4
  rw [hun] at hR
  have hs := strip_ok (b := b) (P := pumpJPEG b) (st := bytesOf (packBits (encodeScan n w h (fun k => encodeDiff (tab k).lens (tab k).vals) (2 ^ (precision - pt - 1)) img)))
    (at_ := AtJ data) (ts := (List.range n).map T) (enc := fun k => encodeDiff (tab k).lens (tab k).vals) (base := 2 ^ (precision - pt - 1)) (img := img) (w := w) (h := h) (h' := h')
    (by
      intro r p k hk hr hpw
      rw [hlenT] at hk
      rw [List.getElem_map, List.getElem_range]
      refine (hO.codes k hk).2 _ _ _ hR _ ?_ ?_ (hcat r p k hr hpw hk)
      · exact (diff16_range _ _).1
      · exact (diff16_range _ _).2)
    hbase16 himg (out0 := out0) (x := x) (sw := stripwidth) (w' := w') hh0 hh' hw0 hw' (by rw [hlenT]; exact hsw) (by rw [hlenT]; exact hout) (by omega)
    (s := JPump.new data) (c := 0) (a := 0) (atJ_new data hend) (by
      rw [hlenT]
      exact follows_packBits (encodeScan_le (fun k d => encodeDiff_le _ _ _) _ _))
  rw [hlenT] at hs
  obtain ⟨out1, s1, out, s', k1, k2, k3⟩ := hs
  have hdecode : ∀ x' sw', x' = x → sw' = stripwidth → components b n d out0 x' sw' (w' * n) h' = .ok out := by
    rintro x' sw' rfl rfl
    have hq : w' * n / n = w' := Nat.mul_div_cancel _ (by omega)
    have e1 : d.sof.width = w := by rw [hO.sof]
    have e2 : d.sof.height = h := by rw [hO.sof]
    rw [decode_components (by rw [e1]; exact Nat.mul_le_mul_right _ hw') (by rw [e2]; exact hh') hts hO.base (by rw [hq, e1]; exact hw'), hO.buffer, k1, ok_bind, hq, e1, k2]
    rfl
  refine ⟨d, out, hnew, by unfold Decompressor.width; rw [hO.sof], by unfold Decompressor.height; rw [hO.sof], ?_, ⟨k3.len, fun r p k hr hpw hk => k3.done r p k hpw hk (Or.inl hr), fun i hi => k3.rest i fun r p k hpw hk hr => hi r p k (by omega) hpw hk⟩⟩
  unfold Decompressor.decode
  rw [show d.sof.components = compsAfter id (fun _ => 0x11) n n by rw [hO.sof]]
  unfold compsAfter
  rw [idx_eq_ok.mpr (range_map_getElem? _ (show 0 < n by omega)), ok_bind]
  simp only
  rw [if_neg (by decide), if_neg (by decide), if_pos hO.predictor, show d.sof.cps = n by rw [hO.sof]]
  obtain rfl | rfl | rfl : n = 2 ∨ n = 3 ∨ n = 4 := by omega
  · exact hdecode x stripwidth rfl rfl
  · exact hdecode x stripwidth rfl rfl
  · exact hdecode 0 (w' * 4) (hx rfl).1.symm (hx rfl).2.symm

/-- The example table (T.81 table K.3), and a small image for it. -/
def tableK3 : TableSpec := ⟨[0, 1, 5, 1, 1, 1, 1, 1, 1, 0, 0, 0, 0, 0, 0, 0], List.range 12⟩
def sampleImage (r p k : Nat) : Nat := (8000 + 7 * r * r + 30 * p * k + 100 * k) % 65536

theorem tableK3_usable : UsableTable tableK3 14 true :=
  ⟨⟨rfl, by decide⟩, ⟨by decide, by decide⟩, by decide, ⟨by decide, by decide, by decide⟩, Or.inl (by decide), by decide, by decide⟩

/-- The first bytes of the file for the 3 by 2 image: SOI, DHT, and the entropy-coded data with their end marker. -/
example : ((encodeFile 14 0 2 3 2 id (fun _ => tableK3) sampleImage).take 6, (encodeFile 14 0 2 3 2 id (fun _ => tableK3) sampleImage).drop 92) =
    ([0xff, 0xd8, 0xff, 0xc4, 0, 60], [0xf8, 0xff, 0, 0xc8, 205, 227, 122, 121, 205, 227, 123, 0xff, 0xd9]) := by decide +kernel

/-- The file decodes, as a tile at column 1 of a buffer that is 8 samples wide. -/
example (b : Build) : ∃ d out, newFull b (encodeFile 14 0 2 3 2 id (fun _ => tableK3) sampleImage ++ []) true false = .ok d ∧ d.width = 3 * 2 ∧ d.height = 2 ∧
    d.decode b (List.replicate 16 0) 1 8 (3 * 2) 2 = .ok out ∧ Placed (List.replicate 16 0) sampleImage 1 8 3 2 2 out :=
  ljpeg_round_trip b true 14 0 2 3 2 id (fun _ => tableK3) sampleImage [] (by decide) (by decide) (by decide) (by decide) (by decide) (by decide) (by decide) (by decide)
    (fun i hi => by simp only [id]; omega) (fun i j _ _ h => h) (fun _ _ => tableK3_usable) (fun r p k => Nat.mod_lt _ (by decide))
    (fun r p k hr hp hk => (show ∀ r, r < 2 → ∀ p, p < 3 → ∀ k, k < 2 → category (residual (2 ^ (14 - 0 - 1)) sampleImage r p k) ∈ tableK3.vals by decide +kernel) r hr p hp k hk) (by decide +kernel)
    (List.replicate 16 0) 1 8 3 2 (by decide) (by decide) (by decide) (by decide) (by decide) (by decide) (by decide)

/-! ## C59 -/

/-- What may be asked of a parsed JPEG, on the header alone. -/
structure Askable (d : Decompressor) (c : Component) (width height : Nat) : Prop where
  /-- Subsampled images are decoded as a whole. -/
  subsampled : c.superH = 2 → c.superV = 1 ∨ c.superV = 2 → d.sof.width * 3 = width ∧ d.sof.height = height
  /-- Other images use predictor 1, have two to four components and at least the size asked for; or they use predictor 8. -/
  plain : ¬ (c.superH = 2 ∧ (c.superV = 1 ∨ c.superV = 2)) →
    d.predictor = 8 ∨ d.predictor = 1 ∧ 2 ≤ d.sof.cps ∧ d.sof.cps ≤ 4 ∧ width ≤ d.sof.width * d.sof.cps ∧ height ≤ d.sof.height

/-- C59: anything else is refused with an error before any data is read, whatever the tables and the data are. -/
theorem ljpeg_misfit_refused (b : Build) (d : Decompressor) (c : Component) (out : List Nat) (x stripwidth width height : Nat)
    (hc : d.sof.components[0]? = some c) (h : ¬ Askable d c width height) :
    ∃ e, d.decode b out x stripwidth width height = .error (.err e) := by
  unfold Decompressor.decode
  rw [idx_eq_ok.mpr hc, ok_bind]
  by_cases h1 : c.superH = 2 ∧ c.superV = 2
  · rw [if_pos h1]
    unfold decode420
    rw [if_pos]
    · exact ⟨_, rfl⟩
    · rw [← not_and_or]
      exact fun h2 => h ⟨fun _ _ => h2, fun h3 => absurd ⟨h1.1, Or.inr h1.2⟩ h3⟩
  rw [if_neg h1]
  by_cases h2 : c.superH = 2 ∧ c.superV = 1
  · rw [if_pos h2]
    unfold decode422
    rw [if_pos]
    · exact ⟨_, rfl⟩
    · rw [← not_and_or]
      exact fun h3 => h ⟨fun _ _ => h3, fun h4 => absurd ⟨h2.1, Or.inl h2.2⟩ h4⟩
  rw [if_neg h2]
  have small : d.predictor = 1 → 2 ≤ d.sof.cps → d.sof.cps ≤ 4 → d.sof.width * d.sof.cps < width ∨ d.sof.height < height := by
    intro p1 p2 p3
    by_contra hn
    refine h ⟨fun q1 q2 => ?_, fun _ => Or.inr ⟨p1, p2, p3, by omega, by omega⟩⟩
    rcases q2 with q2 | q2
    · exact absurd ⟨q1, q2⟩ h2
    · exact absurd ⟨q1, q2⟩ h1
  by_cases h3 : d.predictor = 1
  · rw [if_pos h3]
    by_cases c2 : d.sof.cps = 2
    · rw [if_pos c2]
      unfold decode2 components
      rw [if_pos (by have := small h3 (by omega) (by omega); rwa [c2] at this)]
      exact ⟨_, rfl⟩
    rw [if_neg c2]
    by_cases c3 : d.sof.cps = 3
    · rw [if_pos c3]
      unfold decode3 components
      rw [if_pos (by have := small h3 (by omega) (by omega); rwa [c3] at this)]
      exact ⟨_, rfl⟩
    rw [if_neg c3]
    by_cases c4 : d.sof.cps = 4
    · rw [if_pos c4]
      unfold decode4 components
      rw [if_pos (by have := small h3 (by omega) (by omega); rwa [c4] at this)]
      exact ⟨_, rfl⟩
    rw [if_neg c4]
    exact ⟨_, rfl⟩
  rw [if_neg h3]
  by_cases h4 : d.predictor = 8
  · refine absurd ⟨fun q1 q2 => ?_, fun _ => Or.inl h4⟩ h
    rcases q2 with q2 | q2
    · exact absurd ⟨q1, q2⟩ h2
    · exact absurd ⟨q1, q2⟩ h1
  rw [if_neg h4]
  exact ⟨_, rfl⟩

/-- A 2 by 2 frame with two components, asked for four samples by three lines; and one with predictor 2. -/
example : (do let d ← newFull .debug (fileHeader 14 0 2 2 2 id id (fun _ => 0x11) 1 (fun _ => tableK3) ++ [0, 0, 0, 0]) false false
              d.decode .debug (List.replicate 12 0) 0 4 4 3) = fail "ljpeg: trying to decode" ∧
    (do let d ← newFull .debug (fileHeader 14 0 2 2 2 id id (fun _ => 0x11) 2 (fun _ => tableK3) ++ [0, 0, 0, 0]) false false
        d.decode .debug (List.replicate 8 0) 0 4 4 2) = fail "ljpeg: predictor not supported" := by decide +kernel

end Props

import Verif.Spec.LeafFile
import Verif.Lemmas.Utf8
import Verif.Lemmas.OpenFile
import Verif.Lemmas.FileExample
import Verif.Props.Packed
import Verif.Props.Interlace
import Verif.Props.LeafStrips
import Verif.Props.CrwFile
/-!
# C84: whole files of Leaf

From the bytes of a file to the picture the public function returns.
-/

namespace Props
open Rust Spec Model

/-! ## The XMP text -/

private theorem utf8_blank {l rest : Bytes} (h : ∀ c ∈ l, c < 0x80) : utf8From ⟨0, 0, 0⟩ (l ++ rest) = utf8From ⟨0, 0, 0⟩ rest := by
  induction l with
  | nil => rfl
  | cons a t ih =>
    rw [List.cons_append, utf8From]
    unfold utf8Step
    rw [if_pos rfl, if_pos (h a (by simp))]
    exact ih fun c hc => h c (by simp [hc])

private theorem blank_cases {P : UInt8 → Prop} {l : Bytes} (h : IsBlank l) (h1 : P 32) (h2 : P 9) (h3 : P 10) (h4 : P 13) : ∀ c ∈ l, P c := by
  intro c hc
  rcases h c hc with rfl | rfl | rfl | rfl <;> assumption

/-- A word list that has the blanks, and no word starting with the byte `x`. -/
private structure Trims (ws : List Bytes) (x : UInt8) : Prop where
  blank : ∀ c t, (c = 32 ∨ c = 9 ∨ c = 10 ∨ c = 13) → ws.find? (fun w => w.isPrefixOf (c :: t)) = some [c]
  other : ∀ t, ws.find? (fun w => w.isPrefixOf (x :: t)) = none

private theorem trims_front : Trims whitespace 0x3c where
  blank := by rintro c t (rfl | rfl | rfl | rfl) <;> rfl
  other := fun _ => rfl

private theorem trims_back : Trims (whitespace.map List.reverse) 0x3e where
  blank := by rintro c t (rfl | rfl | rfl | rfl) <;> rfl
  other := fun _ => rfl

private theorem trim_blank {ws : List Bytes} {x : UInt8} (h : Trims ws x) {l t : Bytes} (hl : IsBlank l) : ∀ n, l.length ≤ n → trimLeft ws n (l ++ x :: t) = x :: t := by
  induction l with
  | nil =>
    intro n _
    cases n with
    | zero => rfl
    | succ n => rw [List.nil_append, trimLeft, h.other]
  | cons a l ih =>
    intro n hn
    obtain ⟨n, rfl⟩ := Nat.exists_eq_add_of_lt (show 0 < n by simp at hn; omega)
    rw [Nat.zero_add, List.cons_append, trimLeft, h.blank a _ (hl a (by simp))]
    exact ih (fun c hc => hl c (by simp [hc])) n (by simp at hn; omega)

private theorem trim_xmp {before text after : Bytes} (h1 : IsBlank before) (h2 : IsBlank after) (h3 : text.head? = some 0x3c) (h4 : text.getLast? = some 0x3e) :
    trim (before ++ text ++ after) = text := by
  obtain ⟨t, rfl⟩ : ∃ t, text = 0x3c :: t := by
    cases text with
    | nil => cases h3
    | cons a t => injection h3 with h3; subst h3; exact ⟨t, rfl⟩
  unfold trim
  dsimp only
  rw [List.append_assoc, List.cons_append, trim_blank trims_front h1 _ (by simp), ← List.cons_append, List.reverse_append]
  obtain ⟨u, hu⟩ : ∃ u, (0x3c :: t : Bytes).reverse = 0x3e :: u := by
    rw [← List.head?_reverse] at h4
    cases hr : (0x3c :: t : Bytes).reverse with
    | nil => rw [hr] at h4; cases h4
    | cons a u => rw [hr] at h4; injection h4 with h4; subst h4; exact ⟨u, rfl⟩
  rw [hu, trim_blank trims_back (fun c hc => h2 c (List.mem_reverse.mp hc)) _ (by simp; omega), ← hu, List.reverse_reverse]

private theorem takeWhile_nul {l rest : Bytes} (h : ∀ c ∈ l, c ≠ 0) (hr : rest = [] ∨ rest.head? = some 0) : (l ++ rest).takeWhile (· ≠ 0) = l := by
  induction l with
  | nil =>
    rcases hr with rfl | hr
    · rfl
    · cases rest with
      | nil => rfl
      | cons a t => injection hr with hr; subst hr; rfl
  | cons a t ih => rw [List.cons_append, List.takeWhile_cons, if_pos (by simpa using h a (by simp)), ih fun c hc => h c (by simp [hc])]

/-- The text is read as it is, without the blanks around it. -/
theorem carries_xmp {big : Bool} {f : Spec.Field} {ent : TiffEntry} {text : Bytes} (hc : Carries big f ent) (h : f.Xmp big text) : ent.getStr = .ok text := by
  obtain ⟨h1, h2, h3, h4, before, after, rest, h5, h6, h7, h8⟩ := h
  unfold TiffEntry.getStr
  dsimp only
  rw [hc.data, h8, takeWhile_nul (fun c hc => by
    rcases List.mem_append.mp hc with hc | hc
    · rcases List.mem_append.mp hc with hc | hc
      · exact blank_cases (P := (· ≠ 0)) h5 (by decide) (by decide) (by decide) (by decide) c hc
      · exact h2 c hc
    · exact blank_cases (P := (· ≠ 0)) h6 (by decide) (by decide) (by decide) (by decide) c hc) h7, if_pos, trim_xmp h5 h6 h3 h4]
  unfold utf8Valid
  rw [List.append_assoc, utf8_blank (blank_cases (P := (· < 0x80)) h5 (by decide) (by decide) (by decide) (by decide)), utf8_append h1]
  exact ascii_valid _ (blank_cases (P := (· < 0x80)) h6 (by decide) (by decide) (by decide) (by decide))

private theorem find_at {pat : Bytes} (hp : pat ≠ []) {text : Bytes} : ∀ {pos : Nat} (i : Nat), FirstAt pat text pos → findSub pat i text = some (i + pos) := by
  induction text with
  | nil =>
    rintro pos i ⟨h, _⟩
    rw [List.drop_nil, List.prefix_nil] at h
    exact absurd h hp
  | cons a t ih =>
    rintro pos i ⟨h1, h2⟩
    unfold findSub
    cases pos with
    | zero => rw [if_pos (List.isPrefixOf_iff_prefix.mpr (show pat <+: a :: t from h1))]; rfl
    | succ pos =>
      rw [if_neg (fun h : pat.isPrefixOf (a :: t) = true => h2 0 (by omega) (List.isPrefixOf_iff_prefix.mp h)),
        ih (pos := pos) (i + 1) ⟨h1, fun j hj => h2 (j + 1) (by omega)⟩]
      exact congrArg some (by omega)

private theorem xmp_tag {d : Dir} {root : TiffIFD} (hh : Holds d root) {big : Bool} {f : Spec.Field} (hf : d.First 0x2bc big f) {text : Bytes} (hx : f.Xmp big text)
    {name value : Bytes} (ht : Tagged text (tiffPrefix ++ name) value) : Mos.xmpTag root name = .ok value := by
  obtain ⟨ent, e1, e2⟩ := find_first hh (tag := 0x2bc) (by decide) hf
  obtain ⟨before, after, h1, h2, h3⟩ := ht
  unfold Mos.xmpTag TiffIFD.fetchTag
  rw [show TiffIFD.findEntry Tag.Xmp root = some ent from e1]
  dsimp only
  rw [ok_bind, carries_xmp e2 hx, ok_bind]
  have f1 := find_at (by simp) 0 h2
  have f2 := find_at (by simp) 0 h3
  rw [show (b! "<tiff:") ++ name ++ (b! ">") = (0x3c :: (tiffPrefix ++ name) ++ [0x3e]) from rfl, f1]
  dsimp only
  rw [show (b! "</tiff:") ++ name ++ (b! ">") = ([0x3c, 0x2f] ++ (tiffPrefix ++ name) ++ [0x3e]) from rfl, f2]
  dsimp only
  have hl : (tiffPrefix ++ name).length = 5 + name.length := by rw [List.length_append]; rfl
  have e : text = (before ++ (0x3c :: (tiffPrefix ++ name) ++ [0x3e])) ++ (value ++ (([0x3c, 0x2f] ++ (tiffPrefix ++ name) ++ [0x3e]) ++ after)) := by
    conv => lhs; rw [h1]
    simp only [List.append_assoc]
  have hl' : (before ++ (0x3c :: (tiffPrefix ++ name) ++ [0x3e])).length = before.length + name.length + 7 := by
    simp [tiffPrefix]; omega
  rw [slice_le (by omega) (by rw [e]; simp [tiffPrefix]; omega), hl]
  refine congrArg Except.ok ?_
  rw [show 0 + before.length + name.length + 7 = (before ++ (0x3c :: (tiffPrefix ++ name) ++ [0x3e])).length by rw [hl']; omega]
  rw [e, List.drop_take, List.drop_left, List.take_left' (by omega)]

/-! ## White balance -/

/-- The coefficients from the metadata: the first neutral value over the three others, read as decimal numbers; NaN without the
section. -/
inductive LeafWhite (parse : Bytes → F32) (info : Bytes) : List F32 → Prop
  | stated (n0 n1 n2 n3 : Bytes) (h : Neutrals info n0 n1 n2 n3) :
      LeafWhite parse info [(parse n0).div (parse n1), (parse n0).div (parse n2), (parse n0).div (parse n3), .nan]
  | absent (h : NoNeutrals info) : LeafWhite parse info [.nan, .nan, .nan, .nan]

private theorem pieces_line (l rest acc : Bytes) (h : ∀ c ∈ l, c ≠ 10) : splitPieces 10 acc (l ++ 10 :: rest) = (acc.reverse ++ l) :: splitPieces 10 [] rest := by
  induction l generalizing acc with
  | nil => rw [List.nil_append, splitPieces, if_pos rfl, List.append_nil]
  | cons a t ih =>
    rw [List.cons_append, splitPieces, if_neg (h a (by simp)), ih _ fun c hc => h c (by simp [hc])]
    simp

private theorem pieces_end (l acc : Bytes) (h : ∀ c ∈ l, c ≠ 10) : splitPieces 10 acc l = [acc.reverse ++ l] := by
  induction l generalizing acc with
  | nil => rw [splitPieces, List.append_nil]
  | cons a t ih =>
    rw [splitPieces, if_neg (h a (by simp)), ih _ fun c hc => h c (by simp [hc])]
    simp

private theorem four_lines {n0 n1 n2 n3 last : Bytes} (h : ∀ c ∈ n0 ++ n1 ++ n2 ++ n3, c ≠ 10) (hlast : last = [] ∨ last = [10]) (hne : n3 ≠ []) :
    splitTerminator 10 (n0 ++ 10 :: (n1 ++ 10 :: (n2 ++ 10 :: (n3 ++ last)))) = [n0, n1, n2, n3] := by
  have g0 : ∀ c ∈ n0, c ≠ 10 := fun c hc => h c (by simp [hc])
  have g1 : ∀ c ∈ n1, c ≠ 10 := fun c hc => h c (by simp [hc])
  have g2 : ∀ c ∈ n2, c ≠ 10 := fun c hc => h c (by simp [hc])
  have g3 : ∀ c ∈ n3, c ≠ 10 := fun c hc => h c (by simp [hc])
  unfold splitTerminator
  dsimp only
  rw [pieces_line _ _ _ g0, pieces_line _ _ _ g1, pieces_line _ _ _ g2]
  rcases hlast with rfl | rfl
  · rw [List.append_nil, pieces_end _ _ g3]
    simp [hne]
  · rw [pieces_line _ _ _ g3]
    simp [splitPieces]

private theorem search_from (parse : Bytes → F32) (info : Bytes) {pos : Nat} (hp : pos + 70 < info.length) (h : FirstAt neutralsName info pos) :
    ∀ n i, i ≤ pos → pos - i < n → Mos.search parse info n i = .ok (Mos.neutrals parse (info.drop (pos + 44))) := by
  intro n
  induction n with
  | zero => intro i _ hi; omega
  | succ n ih =>
    intro i hi hn
    unfold Mos.search
    rw [if_pos (by omega), slice_le (by omega) (by omega), ok_bind, List.drop_take, show i + 16 - i = neutralsName.length by simp [neutralsName]]
    by_cases e : i = pos
    · subst e
      rw [if_pos (show _ = b! "NeutObj_neutrals" from (List.prefix_iff_eq_take.mp h.1).symm), sliceFrom_le (by omega), ok_bind]
    · rw [if_neg (fun hm => h.2 i (by omega) (List.prefix_iff_eq_take.mpr (Eq.symm (show _ = b! "NeutObj_neutrals" from hm))))]
      exact ih (i + 1) (by omega) (by omega)

private theorem search_none (parse : Bytes → F32) (info : Bytes) (h : NoNeutrals info) : ∀ n i, i ≤ info.length → info.length < n + i → Mos.search parse info n i = .ok nanWb := by
  intro n
  induction n with
  | zero => intro i hi hn; omega
  | succ n ih =>
    intro i hle hn
    unfold Mos.search
    by_cases hi : i + 70 < info.length
    · rw [if_pos hi, slice_le (by omega) (by omega), ok_bind, List.drop_take, show i + 16 - i = neutralsName.length by simp [neutralsName],
        if_neg (fun hm => h i hi (List.prefix_iff_eq_take.mpr (Eq.symm (show _ = b! "NeutObj_neutrals" from hm))))]
      exact ih (i + 1) (by omega) (by omega)
    · rw [if_neg hi]

theorem leaf_white (parse : Bytes → F32) {d : Dir} {root : TiffIFD} (hh : Holds d root) {big : Bool} {f : Spec.Field} (hf : d.First 0x8606 big f) {wb : List F32}
    (hw : LeafWhite parse (f.bytes big) wb) : Mos.getWb parse root = .ok wb := by
  obtain ⟨ent, e1, e2⟩ := find_first hh (tag := 0x8606) (by decide) hf
  unfold Mos.getWb TiffIFD.fetchTag
  rw [show TiffIFD.findEntry Tag.LeafMetadata root = some ent from e1]
  dsimp only
  rw [ok_bind, e2.data]
  cases hw with
  | absent h => exact search_none parse _ h _ 0 (by omega) (by omega)
  | stated n0 n1 n2 n3 h =>
    obtain ⟨before, between, last, rest, h1, h2, h3, h4, h5, h6, h7⟩ := h
    rw [search_from parse _ h7 h6 _ 0 (by omega) (by omega)]
    have hlast : ∀ c ∈ last, c ≠ 0 ∧ c < 0x80 := by
      rcases h3 with rfl | rfl
      · simp
      · simp
    have e : (f.bytes big).drop (before.length + 44) = (n0 ++ 10 :: (n1 ++ 10 :: (n2 ++ 10 :: (n3 ++ last)))) ++ 0 :: rest := by
      rw [h1, List.append_assoc, show before.length + 44 = (before ++ neutralsName ++ between).length by simp [neutralsName, h2], List.drop_left']
      rfl
    rw [e]
    have hall : ∀ c ∈ n0 ++ 10 :: (n1 ++ 10 :: (n2 ++ 10 :: (n3 ++ last))), c ≠ 0 ∧ c < 0x80 := by
      intro c hc
      simp only [List.mem_append, List.mem_cons] at hc
      rcases hc with hc | rfl | hc | rfl | hc | rfl | hc | hc
      · exact ⟨(h5 c (by simp [hc])).1, (h5 c (by simp [hc])).2.2⟩
      · decide
      · exact ⟨(h5 c (by simp [hc])).1, (h5 c (by simp [hc])).2.2⟩
      · decide
      · exact ⟨(h5 c (by simp [hc])).1, (h5 c (by simp [hc])).2.2⟩
      · decide
      · exact ⟨(h5 c (by simp [hc])).1, (h5 c (by simp [hc])).2.2⟩
      · exact hlast c hc
    unfold Mos.neutrals
    rw [if_pos (by simp), takeWhile_nul (fun c hc => (hall c hc).1) (Or.inr rfl)]
    have hlossy := lossy_ascii (n0 ++ 10 :: (n1 ++ 10 :: (n2 ++ 10 :: (n3 ++ last)))) [] fun c hc => (hall c hc).2
    rw [List.append_nil, show fromUtf8Lossy [] = [] from rfl, List.append_nil] at hlossy
    rw [hlossy, four_lines (fun c hc => (h5 c hc).2.1) h3 h4]
    rfl

/-! ## The samples -/

private theorem leaf_compressed (b : Build) (cam : Camera) {src : Bytes} {w h : Nat} {d : Ljpeg.Decompressor} {stored img : Nat → Nat → Nat}
    (hd : Ljpeg.newFull b src true true = .ok d) (hl : d.decodeLeaf b w h = .ok (raster w h stored))
    (lines : ∀ line c, line < h → c < w → img (if cam.findHint (b! "interlaced") then interlacedRow h line else line) c = stored line c) :
    Mos.decodeCompressed b cam src w h = .ok (raster w h img) := by
  cases hint : cam.findHint (b! "interlaced") with
  | false =>
    unfold Mos.decodeCompressed
    rw [hd, ok_bind, hl, ok_bind, hint]
    refine congrArg Except.ok (raster_congr fun r c hr hc => ?_)
    have := lines r c hr hc
    rw [hint] at this
    exact this.symm
  | true =>
    obtain ⟨out, h1, h2, h3, h4⟩ := leaf_deinterlace b cam src w h d _ hint hd hl
    rw [h1]
    refine congrArg Except.ok (eq_raster h3 fun r c hr hc => ?_)
    obtain ⟨line, g1, g2⟩ := (leaf_rows_permute h).2.2 r hr
    have := lines line c g1 hc
    rw [hint, if_pos rfl, show interlacedRow h line = leafRow h line from rfl, g2] at this
    rw [← g2, h4 line c g1 hc, raster_getElem? _ _ _ _ _ g1 hc, g2, this]

/-- The samples are read in each of the ways. -/
theorem leaf_pixels (b : Build) {contents : Bytes} {cam : Camera} {e : Endian} {offset w h compression : Nat} {img : Nat → Nat → Nat} (ho : offset ≤ contents.length)
    (hd : LeafData contents e.big (cam.findHint (b! "interlaced")) offset (fun t p => UsableTable t p true) w h compression img) :
    (if compression = 1 then
      if e.little then decode_16le ((contents ++ List.replicate 16 0).drop offset) w h else decode_16be ((contents ++ List.replicate 16 0).drop offset) w h
    else if compression = 7 ∨ compression = 99 then Mos.decodeCompressed b cam ((contents ++ List.replicate 16 0).drop offset) w h
    else fail "MOS: unsupported compression") = .ok (raster w h img) := by
  cases hd with
  | words w h wide room =>
    rw [if_pos rfl]
    unfold Endian.little
    cases e.big with
    | true =>
      rw [if_neg (by decide), decode_16be_exact _ w h wide (by simp; omega)]
      refine congrArg Except.ok (raster_congr fun r c _ _ => ?_)
      rw [bytes_from_offset, bytes_from_offset]
      rfl
    | false =>
      rw [if_pos (by decide), decode_16le_exact _ w h wide (by simp; omega)]
      refine congrArg Except.ok (raster_congr fun r c _ _ => ?_)
      rw [bytes_from_offset, bytes_from_offset]
      rfl
  | jpeg compression w h img which precision pt fh fw sel sub pred tab pairs mark tail deep point frame size hsel hpred tables fits marks coded data lines =>
    rw [if_neg (by omega), if_pos which]
    obtain ⟨d, d1, d2⟩ := leaf_strips_round_trip b precision pt fh fw h w sel sub pred tab pairs mark (tail ++ List.replicate 16 0) deep.1 deep.2 point.1 point.2 frame.1 frame.2.1 frame.2.2
      size.1 size.2 (fun i hi => (hsel i hi).1) (fun i hi => (hsel i hi).2) hpred tables fits marks coded (by simp)
    refine leaf_compressed b cam ?_ d2 lines
    rw [List.drop_append_of_le_length ho, data, List.append_assoc]
    exact d1

/-! ## The file -/

/-- A file of "Camera Library" is opened with the decoder for Leaf. -/
theorem leaf_opens (s : RawLoader) (b : Build) {contents : Bytes} {big : Bool} {dirs : List Dir} {make model : Bytes} (h : LeafFile contents big dirs make model) :
    ∃ root, s.getDecoder b (Buffer.new contents) = .ok (.mos root) ∧ Holds (fileRoot big dirs) root := by
  obtain ⟨root, hnew, hh⟩ := tiff_read b h.tiff h.few
  obtain ⟨es, s1, s2⟩ := fetch_text hh (tag := 0x131) (by decide) h.software
  have hdng : ¬ ∃ d e, Below TiffIFD.subifds root d ∧ Map.get d.entries 0xc612 = some e := by
    rintro ⟨d, e, hb, he⟩
    rw [(find_entry_none 0xc612 root).mp (find_lacks hh h.notDng) d hb] at he
    cases he
  have hmake : TextUnder root 0x10f none := (find_entry_none 0x10f root).mp (find_lacks hh h.noMake)
  have hmodel : ∃ m, TextUnder root 0x110 m ∧ m ≠ some (b! "DCS560C") := by
    rcases h.notCanon with hl | ⟨m, hm, ht⟩
    · exact ⟨none, (find_entry_none 0x110 root).mp (find_lacks hh hl), by simp⟩
    · obtain ⟨e, e1, e2⟩ := fetch_text hh (tag := 0x110) (by decide) ht
      exact ⟨some m, ⟨e, (find_entry_first _ _ _).mp e1, e2⟩, fun he => hm (Option.some.inj he)⟩
  obtain ⟨m, m1, m2⟩ := hmodel
  have hv : IsView root ⟨false, m, none, some (b! "Camera Library")⟩ :=
    ⟨⟨fun hf => by simp at hf, fun hd => absurd hd hdng⟩, fun _ => m1, fun _ _ => hmake, fun _ _ _ => ⟨es, (find_entry_first _ _ _).mp s1, s2⟩⟩
  have hkind : viewKind ⟨false, m, none, some (b! "Camera Library")⟩ = some .mos := by
    unfold viewKind
    rw [if_neg (by simp), if_neg m2, if_pos rfl]
  have hd := dispatch_complete s b contents root _ (tiff_magic h.tiff h.notCiff) hnew hv
  rw [hkind] at hd
  obtain ⟨d, h1, h2, h3⟩ := hd
  refine ⟨root, ?_, hh⟩
  rw [h1]
  cases d <;> cases h2
  injection h3 with h3
  subst h3
  rfl

/-- **C84**: a picture of words or of lossless JPEG, interlaced or not. -/
theorem mos_file (s : RawLoader) (env : Platform) (b : Build) {contents : Bytes} {big : Bool} {dirs : List Dir} {make model : Bytes}
    (h : LeafFile contents big dirs make model) {cam : Camera} (hcam : Map.get s.cameras (make, model, []) = some cam)
    {raw : Dir} (hraw : (fileRoot big dirs).FirstWith 0x144 raw) {w ht offset compression : Nat} {t1 t2 t3 t4 : List Nat}
    (h1 : raw.Numbers 0x100 (w :: t1)) (h2 : raw.Numbers 0x101 (ht :: t2)) (h3 : raw.Numbers 0x144 (offset :: t3)) (h4 : raw.Numbers 0x103 (compression :: t4))
    (ho : offset ≤ contents.length) {img : Nat → Nat → Nat}
    (hd : LeafData contents big (cam.findHint (b! "interlaced")) offset (fun t p => UsableTable t p true) w ht compression img)
    {big' : Bool} {f : Spec.Field} (hf : (fileRoot big dirs).First 0x8606 big' f) {wb : List F32} (hwb : LeafWhite env.parseF32 (f.bytes big') wb)
    {blacks : List Nat} (hb : BlacksOf cam w ht img blacks) :
    s.decodeSafe env b (.ok contents) = .ok (pictureOf cam cam.orientation w ht wb blacks (raster w ht img)) := by
  obtain ⟨root, d1, hh⟩ := leaf_opens s b h
  obtain ⟨ifd, f1, f2⟩ := fetch_dir hh (tag := 0x144) (by decide) hraw
  obtain ⟨bx, fx, text, serial, x1, x2, x3, x4, x5, x6⟩ := h.xmp
  have horder : root.endian.big = big := by
    cases hh with
    | mk _ _ order _ _ _ _ => exact order
  have hname : Mos.modelName (model ++ serial) = .ok model := by
    unfold Mos.modelName
    have hne : (model ++ serial).isEmpty = false := by
      rcases x6 with ⟨rfl, hm⟩ | hs
      · rw [List.append_nil]; simpa using hm
      · cases serial with
        | nil => cases hs
        | cons a t => simp
    rw [hne, if_neg (by decide)]
    refine congrArg Except.ok ?_
    rw [List.takeWhile_append_of_pos (by simpa using x5)]
    rcases x6 with ⟨rfl, _⟩ | hs
    · simp
    · cases serial with
      | nil => cases hs
      | cons a t => injection hs with hs; subst hs; simp
  have himage : Mos.image b env.parseF32 (contents ++ List.replicate 16 0) root s = .ok (pictureOf cam cam.orientation w ht wb blacks (raster w ht img)) := by
    unfold Mos.image
    rw [show Mos.xmpTag root (b! "Make") = .ok make from xmp_tag hh x1 x2 x3, ok_bind,
      show Mos.xmpTag root (b! "Model") = .ok (model ++ serial) from xmp_tag hh x1 x2 x4, ok_bind, hname, ok_bind]
    unfold RawLoader.checkSupportedWithEverything
    rw [hcam]
    dsimp only
    rw [ok_bind, show TiffIFD.fetchIfd _ Tag.TileOffsets = _ from f1, ok_bind,
      show fetchUsize ifd Tag.ImageWidth = _ from fetch_number f2 (by decide) h1, ok_bind,
      show fetchUsize ifd Tag.ImageLength = _ from fetch_number f2 (by decide) h2, ok_bind,
      show fetchUsize ifd Tag.TileOffsets = _ from fetch_number f2 (by decide) h3, ok_bind,
      sliceFrom_le (by simp; omega), ok_bind,
      show fetchUsize ifd Tag.Compression = _ from fetch_number f2 (by decide) h4, ok_bind]
    have hpix := leaf_pixels b (cam := cam) (e := root.endian) ho (by rw [horder]; exact hd)
    have hend := raw_image_new b hb wb
    have hwhite := leaf_white env.parseF32 hh hf hwb
    split at hpix
    · rename_i hc
      rw [if_pos hc]
      split at hpix
      · rename_i he; rw [if_pos he, hpix, ok_bind, hwhite, ok_bind]; exact hend
      · rename_i he; rw [if_neg he, hpix, ok_bind, hwhite, ok_bind]; exact hend
    · rename_i hc
      rw [if_neg hc]
      split at hpix
      · rename_i he; rw [if_pos he, hpix, ok_bind, hwhite, ok_bind]; exact hend
      · rename_i he; exact absurd hpix (fail_ne_ok _ _)
  rw [(decode_results s env b contents).1]
  unfold RawLoader.decode
  dsimp only
  rw [d1, ok_bind]
  exact himage

/-! ## Examples -/

section Examples

private def wordsFile : Bytes :=
  [77, 77, 0, 42, 0, 0, 0, 8] ++
  [0, 7] ++
  [1, 0, 0, 3, 0, 0, 0, 1, 0, 3, 0, 0] ++
  [1, 1, 0, 3, 0, 0, 0, 1, 0, 2, 0, 0] ++
  [1, 3, 0, 3, 0, 0, 0, 1, 0, 1, 0, 0] ++
  [1, 49, 0, 2, 0, 0, 0, 15, 0, 0, 0, 98] ++
  [1, 68, 0, 4, 0, 0, 0, 1, 0, 0, 1, 37] ++
  [2, 188, 0, 1, 0, 0, 0, 97, 0, 0, 0, 113] ++
  [134, 6, 0, 1, 0, 0, 0, 83, 0, 0, 0, 210] ++
  [0, 0, 0, 0] ++
  [67, 97, 109, 101, 114, 97, 32, 76, 105, 98, 114, 97, 114, 121, 0] ++
  [60, 63, 120, 112, 97, 99, 107, 101, 116, 32, 98, 101, 103, 105, 110, 61, 34, 239, 187, 191, 34, 63, 62, 60, 116, 105, 102, 102, 58, 77, 97, 107, 101, 62, 76, 101, 97, 102, 60, 47, 116, 105, 102, 102, 58, 77, 97, 107, 101, 62, 32, 60, 116, 105, 102, 102, 58, 77, 111, 100, 101, 108, 62, 65, 112, 116, 117, 115, 32, 50, 50, 40, 76, 70, 51, 55, 55, 57, 32, 41, 47, 72, 49, 60, 47, 116, 105, 102, 102, 58, 77, 111, 100, 101, 108, 62, 10] ++
  [80, 75, 84, 83, 0, 0, 78, 101, 117, 116, 79, 98, 106, 95, 110, 101, 117, 116, 114, 97, 108, 115, 1, 2, 3, 4, 5, 6, 7, 8, 9, 10, 11, 12, 13, 14, 15, 16, 17, 18, 19, 20, 21, 22, 23, 24, 25, 26, 27, 28, 49, 48, 48, 48, 10, 49, 53, 48, 48, 10, 49, 48, 48, 48, 10, 49, 50, 53, 48, 10, 0, 7, 7, 7, 7, 7, 7, 7, 7, 7, 7, 7, 7] ++
  [0, 5, 0, 42, 0, 153, 1, 82, 2, 85, 3, 162]

private def wordsDir : Dir := .mk true [.plain ⟨0x100, 3, [3]⟩, .plain ⟨0x101, 3, [2]⟩, .plain ⟨0x103, 3, [1]⟩, .plain ⟨0x131, 2, [67, 97, 109, 101, 114, 97, 32, 76, 105, 98, 114, 97, 114, 121, 0]⟩, .plain ⟨0x144, 4, [293]⟩, .plain ⟨0x2bc, 1, [60, 63, 120, 112, 97, 99, 107, 101, 116, 32, 98, 101, 103, 105, 110, 61, 34, 239, 187, 191, 34, 63, 62, 60, 116, 105, 102, 102, 58, 77, 97, 107, 101, 62, 76, 101, 97, 102, 60, 47, 116, 105, 102, 102, 58, 77, 97, 107, 101, 62, 32, 60, 116, 105, 102, 102, 58, 77, 111, 100, 101, 108, 62, 65, 112, 116, 117, 115, 32, 50, 50, 40, 76, 70, 51, 55, 55, 57, 32, 41, 47, 72, 49, 60, 47, 116, 105, 102, 102, 58, 77, 111, 100, 101, 108, 62, 10]⟩, .plain ⟨0x8606, 1, [80, 75, 84, 83, 0, 0, 78, 101, 117, 116, 79, 98, 106, 95, 110, 101, 117, 116, 114, 97, 108, 115, 1, 2, 3, 4, 5, 6, 7, 8, 9, 10, 11, 12, 13, 14, 15, 16, 17, 18, 19, 20, 21, 22, 23, 24, 25, 26, 27, 28, 49, 48, 48, 48, 10, 49, 53, 48, 48, 10, 49, 48, 48, 48, 10, 49, 50, 53, 48, 10, 0, 7, 7, 7, 7, 7, 7, 7, 7, 7, 7, 7, 7]⟩]

private theorem words_stored : TiffFile 11 true wordsFile [wordsDir] := by
  refine ⟨by decide +kernel, by decide +kernel, 8, by decide, by decide +kernel, rfl, ?_⟩
  refine ⟨by decide, by decide +kernel, by decide, by decide +kernel, by decide +kernel, ?_⟩
  intro i it hi
  match i with
  | 0 => injection hi with hi; subst hi; stored_inline
  | 1 => injection hi with hi; subst hi; stored_inline
  | 2 => injection hi with hi; subst hi; stored_inline
  | 3 => injection hi with hi; subst hi; stored_outside 98
  | 4 => injection hi with hi; subst hi; stored_inline
  | 5 => injection hi with hi; subst hi; stored_outside 113
  | 6 => injection hi with hi; subst hi; stored_outside 210
  | i + 7 => cases hi

private theorem words_xmp : (Spec.Field.mk 0x2bc 1 [60, 63, 120, 112, 97, 99, 107, 101, 116, 32, 98, 101, 103, 105, 110, 61, 34, 239, 187, 191, 34, 63, 62, 60, 116, 105, 102, 102, 58, 77, 97, 107, 101, 62, 76, 101, 97, 102, 60, 47, 116, 105, 102, 102, 58, 77, 97, 107, 101, 62, 32, 60, 116, 105, 102, 102, 58, 77, 111, 100, 101, 108, 62, 65, 112, 116, 117, 115, 32, 50, 50, 40, 76, 70, 51, 55, 55, 57, 32, 41, 47, 72, 49, 60, 47, 116, 105, 102, 102, 58, 77, 111, 100, 101, 108, 62, 10]).Xmp true [60, 63, 120, 112, 97, 99, 107, 101, 116, 32, 98, 101, 103, 105, 110, 61, 34, 239, 187, 191, 34, 63, 62, 60, 116, 105, 102, 102, 58, 77, 97, 107, 101, 62, 76, 101, 97, 102, 60, 47, 116, 105, 102, 102, 58, 77, 97, 107, 101, 62, 32, 60, 116, 105, 102, 102, 58, 77, 111, 100, 101, 108, 62, 65, 112, 116, 117, 115, 32, 50, 50, 40, 76, 70, 51, 55, 55, 57, 32, 41, 47, 72, 49, 60, 47, 116, 105, 102, 102, 58, 77, 111, 100, 101, 108, 62] :=
  ⟨⟨[60, 63, 120, 112, 97, 99, 107, 101, 116, 32, 98, 101, 103, 105, 110, 61, 34, 65279, 34, 63, 62, 60, 116, 105, 102, 102, 58, 77, 97, 107, 101, 62, 76, 101, 97, 102, 60, 47, 116, 105, 102, 102, 58, 77, 97, 107, 101, 62, 32, 60, 116, 105, 102, 102, 58, 77, 111, 100, 101, 108, 62, 65, 112, 116, 117, 115, 32, 50, 50, 40, 76, 70, 51, 55, 55, 57, 32, 41, 47, 72, 49, 60, 47, 116, 105, 102, 102, 58, 77, 111, 100, 101, 108, 62].map Char.ofNat, by decide +kernel⟩, by decide +kernel, rfl, by decide +kernel, [], [10], [], by unfold IsBlank; decide, by unfold IsBlank; decide, Or.inl rfl, by decide +kernel⟩

private theorem words_leaf : LeafFile wordsFile true [wordsDir] (b! "Leaf") (b! "Aptus 22") where
  tiff := words_stored
  few := by decide
  notCiff := by decide +kernel
  notDng := lacks_one rfl rfl
  noMake := lacks_one rfl rfl
  notCanon := Or.inl (lacks_one rfl rfl)
  software := ⟨⟨by decide, by decide, by decide⟩, true, _, first_one rfl, rfl, 0, 0, [0], Or.inr rfl, rfl⟩
  xmp := ⟨true, _, _, b! "(LF3779 )/H1", first_one rfl, words_xmp,
    ⟨[60, 63, 120, 112, 97, 99, 107, 101, 116, 32, 98, 101, 103, 105, 110, 61, 34, 239, 187, 191, 34, 63, 62], [32, 60, 116, 105, 102, 102, 58, 77, 111, 100, 101, 108, 62, 65, 112, 116, 117, 115, 32, 50, 50, 40, 76, 70, 51, 55, 55, 57, 32, 41, 47, 72, 49, 60, 47, 116, 105, 102, 102, 58, 77, 111, 100, 101, 108, 62], by decide +kernel, ⟨by decide +kernel, by decide +kernel⟩, ⟨by decide +kernel, by decide +kernel⟩⟩,
    ⟨[60, 63, 120, 112, 97, 99, 107, 101, 116, 32, 98, 101, 103, 105, 110, 61, 34, 239, 187, 191, 34, 63, 62, 60, 116, 105, 102, 102, 58, 77, 97, 107, 101, 62, 76, 101, 97, 102, 60, 47, 116, 105, 102, 102, 58, 77, 97, 107, 101, 62, 32], [], by decide +kernel, ⟨by decide +kernel, by decide +kernel⟩, ⟨by decide +kernel, by decide +kernel⟩⟩,
    by decide, Or.inr rfl⟩

/-- Words, with the section of the neutral values. -/
example (env : Platform) (b : Build) (cam : Camera) (hb : NoBlackAreas cam) (hh : cam.hints = []) :
    (loaderOf (b! "Leaf") (b! "Aptus 22") [] cam).decodeSafe env b (.ok wordsFile) =
      .ok (pictureOf cam cam.orientation 3 2 [(env.parseF32 (b! "1000")).div (env.parseF32 (b! "1500")), (env.parseF32 (b! "1000")).div (env.parseF32 (b! "1000")), (env.parseF32 (b! "1000")).div (env.parseF32 (b! "1250")), .nan] cam.blacklevels [5, 42, 153, 338, 597, 930]) := by
  refine (mos_file (loaderOf (b! "Leaf") (b! "Aptus 22") [] cam) env b words_leaf rfl
    (firstIn_child (pre := []) (c := wordsDir) rfl rfl (by simp) (firstIn_root rfl))
    (numbers_here (f := ⟨0x100, 3, [3]⟩) rfl (by decide)) (numbers_here (f := ⟨0x101, 3, [2]⟩) rfl (by decide)) (numbers_here (f := ⟨0x144, 4, [293]⟩) rfl (by decide)) (numbers_here (f := ⟨0x103, 3, [1]⟩) rfl (by decide)) (by decide +kernel)
    (.words 3 2 (by decide) (by decide +kernel)) (first_one (f := ⟨0x8606, 1, [80, 75, 84, 83, 0, 0, 78, 101, 117, 116, 79, 98, 106, 95, 110, 101, 117, 116, 114, 97, 108, 115, 1, 2, 3, 4, 5, 6, 7, 8, 9, 10, 11, 12, 13, 14, 15, 16, 17, 18, 19, 20, 21, 22, 23, 24, 25, 26, 27, 28, 49, 48, 48, 48, 10, 49, 53, 48, 48, 10, 49, 48, 48, 48, 10, 49, 50, 53, 48, 10, 0, 7, 7, 7, 7, 7, 7, 7, 7, 7, 7, 7, 7]⟩) rfl)
    (.stated (b! "1000") (b! "1500") (b! "1000") (b! "1250") ⟨[80, 75, 84, 83, 0, 0], [1, 2, 3, 4, 5, 6, 7, 8, 9, 10, 11, 12, 13, 14, 15, 16, 17, 18, 19, 20, 21, 22, 23, 24, 25, 26, 27, 28], [10], [7, 7, 7, 7, 7, 7, 7, 7, 7, 7, 7, 7], by decide +kernel, rfl, Or.inr rfl, by decide, by decide, ⟨by decide +kernel, by decide +kernel⟩, by decide +kernel⟩) (hb.blacks _ _ _)).trans ?_
  exact congrArg (fun x => Except.ok (pictureOf _ _ _ _ _ _ x)) (by decide +kernel)

private def stripPairs (r p k : Nat) : Nat := (8000 + 11 * r + 30 * p + 100 * k) % 65536

private def stripImage (r c : Nat) : Nat :=
  if r < 5 then stripPairs (2 * r) (c / 2) (c % 2) else stripPairs (2 * (8 - r) + 1) (c / 2) (c % 2)

private def stripBytes : Bytes := encodeLeaf 14 0 9 2 9 1 (fun _ => 7) (fun _ => 0x11) 1 (fun _ => tableK3) stripPairs (fun _ => 0xd0)

private def stripFile : Bytes :=
  [73, 73, 42, 0, 8, 0, 0, 0] ++
  [7, 0] ++
  [0, 1, 3, 0, 1, 0, 0, 0, 2, 0, 0, 0] ++
  [1, 1, 3, 0, 1, 0, 0, 0, 9, 0, 0, 0] ++
  [3, 1, 3, 0, 1, 0, 0, 0, 99, 0, 0, 0] ++
  [49, 1, 2, 0, 15, 0, 0, 0, 98, 0, 0, 0] ++
  [68, 1, 4, 0, 1, 0, 0, 0, 172, 0, 0, 0] ++
  [188, 2, 1, 0, 59, 0, 0, 0, 113, 0, 0, 0] ++
  [6, 134, 1, 0, 4, 0, 0, 0, 110, 111, 110, 101] ++
  [0, 0, 0, 0] ++
  [67, 97, 109, 101, 114, 97, 32, 76, 105, 98, 114, 97, 114, 121, 0] ++
  [32, 10, 60, 116, 105, 102, 102, 58, 77, 111, 100, 101, 108, 62, 86, 97, 108, 101, 111, 60, 47, 116, 105, 102, 102, 58, 77, 111, 100, 101, 108, 62, 60, 116, 105, 102, 102, 58, 77, 97, 107, 101, 62, 76, 101, 97, 102, 60, 47, 116, 105, 102, 102, 58, 77, 97, 107, 101, 62] ++
  stripBytes

private def stripDir : Dir := .mk false [.plain ⟨0x100, 3, [2]⟩, .plain ⟨0x101, 3, [9]⟩, .plain ⟨0x103, 3, [99]⟩, .plain ⟨0x131, 2, [67, 97, 109, 101, 114, 97, 32, 76, 105, 98, 114, 97, 114, 121, 0]⟩, .plain ⟨0x144, 4, [172]⟩, .plain ⟨0x2bc, 1, [32, 10, 60, 116, 105, 102, 102, 58, 77, 111, 100, 101, 108, 62, 86, 97, 108, 101, 111, 60, 47, 116, 105, 102, 102, 58, 77, 111, 100, 101, 108, 62, 60, 116, 105, 102, 102, 58, 77, 97, 107, 101, 62, 76, 101, 97, 102, 60, 47, 116, 105, 102, 102, 58, 77, 97, 107, 101, 62]⟩, .plain ⟨0x8606, 1, [110, 111, 110, 101]⟩]

private theorem strip_stored : TiffFile 11 false stripFile [stripDir] := by
  refine ⟨by decide +kernel, by decide +kernel, 8, by decide, by decide +kernel, rfl, ?_⟩
  refine ⟨by decide, by decide +kernel, by decide, by decide +kernel, by decide +kernel, ?_⟩
  intro i it hi
  match i with
  | 0 => injection hi with hi; subst hi; stored_inline
  | 1 => injection hi with hi; subst hi; stored_inline
  | 2 => injection hi with hi; subst hi; stored_inline
  | 3 => injection hi with hi; subst hi; stored_outside 98
  | 4 => injection hi with hi; subst hi; stored_inline
  | 5 => injection hi with hi; subst hi; stored_outside 113
  | 6 => injection hi with hi; subst hi; stored_inline
  | i + 7 => cases hi

private theorem strip_xmp : (Spec.Field.mk 0x2bc 1 [32, 10, 60, 116, 105, 102, 102, 58, 77, 111, 100, 101, 108, 62, 86, 97, 108, 101, 111, 60, 47, 116, 105, 102, 102, 58, 77, 111, 100, 101, 108, 62, 60, 116, 105, 102, 102, 58, 77, 97, 107, 101, 62, 76, 101, 97, 102, 60, 47, 116, 105, 102, 102, 58, 77, 97, 107, 101, 62]).Xmp false [60, 116, 105, 102, 102, 58, 77, 111, 100, 101, 108, 62, 86, 97, 108, 101, 111, 60, 47, 116, 105, 102, 102, 58, 77, 111, 100, 101, 108, 62, 60, 116, 105, 102, 102, 58, 77, 97, 107, 101, 62, 76, 101, 97, 102, 60, 47, 116, 105, 102, 102, 58, 77, 97, 107, 101, 62] :=
  ⟨⟨[60, 116, 105, 102, 102, 58, 77, 111, 100, 101, 108, 62, 86, 97, 108, 101, 111, 60, 47, 116, 105, 102, 102, 58, 77, 111, 100, 101, 108, 62, 60, 116, 105, 102, 102, 58, 77, 97, 107, 101, 62, 76, 101, 97, 102, 60, 47, 116, 105, 102, 102, 58, 77, 97, 107, 101, 62].map Char.ofNat, by decide +kernel⟩, by decide +kernel, rfl, by decide +kernel, [32, 10], [], [], by unfold IsBlank; decide, by unfold IsBlank; decide, Or.inl rfl, by decide +kernel⟩

private theorem strip_leaf : LeafFile stripFile false [stripDir] (b! "Leaf") (b! "Valeo") where
  tiff := strip_stored
  few := by decide
  notCiff := by decide +kernel
  notDng := lacks_one rfl rfl
  noMake := lacks_one rfl rfl
  notCanon := Or.inl (lacks_one rfl rfl)
  software := ⟨⟨by decide, by decide, by decide⟩, false, _, first_one rfl, rfl, 0, 0, [0], Or.inr rfl, rfl⟩
  xmp := ⟨false, _, _, b! "", first_one rfl, strip_xmp,
    ⟨[60, 116, 105, 102, 102, 58, 77, 111, 100, 101, 108, 62, 86, 97, 108, 101, 111, 60, 47, 116, 105, 102, 102, 58, 77, 111, 100, 101, 108, 62], [], by decide +kernel, ⟨by decide +kernel, by decide +kernel⟩, ⟨by decide +kernel, by decide +kernel⟩⟩,
    ⟨[], [60, 116, 105, 102, 102, 58, 77, 97, 107, 101, 62, 76, 101, 97, 102, 60, 47, 116, 105, 102, 102, 58, 77, 97, 107, 101, 62], by decide +kernel, ⟨by decide +kernel, by decide +kernel⟩, ⟨by decide +kernel, by decide +kernel⟩⟩,
    by decide, Or.inl ⟨rfl, by decide⟩⟩

/-- Nine interlaced lines of a lossless JPEG, without the section of the neutral values. -/
example (env : Platform) (b : Build) (cam : Camera) (hb : NoBlackAreas cam) (hh : cam.hints = [b! "interlaced"]) :
    (loaderOf (b! "Leaf") (b! "Valeo") [] cam).decodeSafe env b (.ok stripFile) =
      .ok (pictureOf cam cam.orientation 2 9 [.nan, .nan, .nan, .nan] cam.blacklevels [8000, 8100, 8022, 8122, 8044, 8144, 8066, 8166, 8088, 8188, 8077, 8177, 8055, 8155, 8033, 8133, 8011, 8111]) := by
  refine (mos_file (loaderOf (b! "Leaf") (b! "Valeo") [] cam) env b strip_leaf rfl
    (firstIn_child (pre := []) (c := stripDir) rfl rfl (by simp) (firstIn_root rfl))
    (numbers_here (f := ⟨0x100, 3, [2]⟩) rfl (by decide)) (numbers_here (f := ⟨0x101, 3, [9]⟩) rfl (by decide)) (numbers_here (f := ⟨0x144, 4, [172]⟩) rfl (by decide)) (numbers_here (f := ⟨0x103, 3, [99]⟩) rfl (by decide)) (by decide +kernel)
    (.jpeg 99 1 9 stripImage (by decide) 14 0 9 2 (fun _ => 7) (fun _ => 0x11) 1 (fun _ => tableK3) stripPairs (fun _ => 0xd0) [] (by decide) (by decide) (by decide) (by decide)
      (fun _ _ => by decide) (by decide) (fun _ _ => tableK3_usable) (fun r p k => Nat.mod_lt _ (by decide)) (fun _ => by decide)
      (fun q r p k hr hp hk => (show ∀ q, q < 2 → ∀ r, r < 8 → ∀ p, p < 1 → ∀ k, k < 2 → category (residual (2 ^ (14 - 0 - 1)) (fun r => stripPairs (q * 8 + r)) r p k) ∈ tableK3.vals by decide +kernel)
        q (by omega) r (by omega) p hp k hk) (by decide +kernel)
      (fun line c hl hc => by
        rw [show cam.findHint (b! "interlaced") = true by unfold Camera.findHint; rw [hh]; rfl]
        exact (show ∀ line, line < 9 → ∀ c, c < 2 → stripImage (if true = true then interlacedRow 9 line else line) c = stripPairs line (c / 2) (c % 2) by decide +kernel) line hl c hc)) (first_one (f := ⟨0x8606, 1, [110, 111, 110, 101]⟩) rfl)
    (.absent fun i hi => absurd hi (by rw [show ((Spec.Field.mk 0x8606 1 [110, 111, 110, 101]).bytes false).length = 4 by decide +kernel]; omega)) (hb.blacks _ _ _)).trans ?_
  exact congrArg (fun x => Except.ok (pictureOf _ _ _ _ _ _ x)) (by decide +kernel)

end Examples

end Props

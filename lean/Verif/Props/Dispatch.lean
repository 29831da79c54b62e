import Verif.Lemmas.Dispatch
/-!
# C01 to C05: the entry point and the choice of the decoder
-/

namespace Props
open Rust Spec Model

/-! ## C01 -/

/-- C01. `decode_safe` never unwinds: whatever the file is, the result is an image, an error value, or the budget of the model was
not enough (see `decode_terminates` for that). -/
theorem decode_never_unwinds (s : RawLoader) (env : Platform) (b : Build) (file : RawLoader.FileResult) :
    s.decodeSafe env b file ≠ crash := by
  unfold RawLoader.decodeSafe
  cases file with
  | error e => intro h; cases h
  | ok contents =>
    dsimp only
    split
    · intro h; cases h
    · rename_i hne; intro h; exact hne h

/-- C01. The results of the entry point are those of the decoder inside: an image comes out exactly if the file can be read and the
decoder gives that image, an error of the decoder is passed on, and a panic of the decoder becomes an error. -/
theorem decode_results (s : RawLoader) (env : Platform) (b : Build) (contents : Bytes) :
    (∀ img, s.decodeSafe env b (.ok contents) = .ok img ↔ s.decode env b contents = .ok img) ∧
    (∀ m, s.decode env b contents = fail m → s.decodeSafe env b (.ok contents) = fail m) ∧
    (s.decode env b contents = crash → ∃ m, s.decodeSafe env b (.ok contents) = fail m) ∧
    (∀ m img, s.decodeSafe env b (.error m) ≠ .ok img) := by
  refine ⟨fun img => ?_, fun m h => ?_, fun h => ?_, fun m img h => ?_⟩
  · unfold RawLoader.decodeSafe
    dsimp only
    split
    · rename_i h; rw [h]; constructor <;> intro h <;> cases h
    · rfl
  · unfold RawLoader.decodeSafe
    dsimp only
    rw [h]
    rfl
  · unfold RawLoader.decodeSafe
    dsimp only
    rw [h]
    exact ⟨_, rfl⟩
  · cases h

/-- C01. The public function: with a database that loads, it never unwinds. The loader is built outside of the protection, so this
is a condition; with a database that panics while loading, so does the function. -/
theorem decode_entry (env : Platform) (b : Build) (db : Toml) (file : RawLoader.FileResult) :
    (∀ s, RawLoader.new db = .ok s → rawloaderDecode env b db file = s.decodeSafe env b file ∧ rawloaderDecode env b db file ≠ crash) ∧
    (RawLoader.new db = crash → rawloaderDecode env b db file = crash) := by
  refine ⟨fun s hs => ?_, fun hc => ?_⟩
  · unfold rawloaderDecode
    rw [hs, ok_bind]
    exact ⟨rfl, decode_never_unwinds s env b file⟩
  · unfold rawloaderDecode
    rw [hc]
    rfl

/-! ## C02 -/

/-- C02. For every file the probes read inside the buffer and answer whether the file itself starts with the magic number; the
sixteen zeros appended on loading do not take part in the answer. The recorded size is that of the file. -/
theorem sniffing_safe (contents : Bytes) :
    (Buffer.new contents).size = contents.length ∧ (Buffer.new contents).buf = contents ++ List.replicate 16 0 ∧
    Mrw.isMrw (Buffer.new contents).buf = .ok (hasMagic contents 0 [0, 0x4d, 0x52, 0x4d]) ∧
    isCiff (Buffer.new contents).buf = .ok (hasMagic contents 6 (b! "HEAPCCDR")) ∧
    Ari.isAri (Buffer.new contents).buf = .ok (hasMagic contents 0 (b! "ARRI")) ∧
    X3f.isX3f (Buffer.new contents).buf = .ok (hasMagic contents 0 (b! "FOVb")) :=
  ⟨rfl, rfl, isMrw_eq _, isCiff_eq _, isAri_eq _, isX3f_eq _⟩

/-- C02. The TIFF probe: a file that starts with none of the TIFF markers is refused with an error value, not a panic. -/
theorem tiff_sniffing_safe (b : Build) (contents : Bytes) (h1 : hasMagic contents 0 (b! "FUJIFILM") = false)
    (h2 : hasMagic contents 0 (b! "II") = false) (h3 : hasMagic contents 0 (b! "MM") = false) :
    TiffIFD.newFile b (Buffer.new contents).buf = fail "TIFF: don't know marker" := newFile_unknown b contents h1 h2 h3

/-- C02. The header behind the FUJIFILM marker is read without a check of the size: the marker alone makes the parser panic. -/
theorem fuji_header_unchecked (b : Build) : TiffIFD.newFile b (Buffer.new (b! "FUJIFILM")).buf = crash := by
  cases b <;> rfl

/-! ## C03 -/

/-- C03. For every file that gets a decoder: the decoder is the one of the specified priority, applied to the contents and, if no
magic number decides, to the view of the directories the file parses to. The decoder works on exactly these directories. -/
theorem dispatch_priority (s : RawLoader) (b : Build) (contents : Bytes) (d : Decoder) (h : s.getDecoder b (Buffer.new contents) = .ok d) :
    ∃ v : Option View, kindOf contents v = some d.kind ∧
      (magicKind contents = none → match TiffIFD.newFile b (Buffer.new contents).buf with
        | .ok t => ∃ v', v = some v' ∧ IsView t v' ∧ (d.tree = some t ∨ d.kind = .nkd)
        | .error (.err _) => v = none
        | .error _ => False) := by
  rw [getDecoder_eq] at h
  unfold kindOf
  rcases magicKind_cases contents with hm | hm | hm | hm | hm
  · rw [hm] at h ⊢
    obtain ⟨d', _, h⟩ := bind_eq_ok.mp h
    injection h with h; subst h
    exact ⟨none, rfl, by simp⟩
  · rw [hm] at h ⊢
    obtain ⟨d', _, h⟩ := bind_eq_ok.mp h
    injection h with h; subst h
    exact ⟨none, rfl, by simp⟩
  · rw [hm] at h ⊢
    injection h with h; subst h
    exact ⟨none, rfl, by simp⟩
  · rw [hm] at h ⊢
    obtain ⟨d', _, h⟩ := bind_eq_ok.mp h
    injection h with h; subst h
    exact ⟨none, rfl, by simp⟩
  · rw [hm] at h ⊢
    dsimp only at h ⊢
    have naked : ∀ {d : Decoder}, s.nakedDecoder contents.length = .ok d → d.kind = .nkd := by
      intro d hd
      unfold RawLoader.nakedDecoder at hd
      split at hd
      · injection hd with hd; subst hd; rfl
      · exact absurd hd (fail_ne_ok _ _)
    cases hn : TiffIFD.newFile b (Buffer.new contents).buf with
    | ok t =>
      rw [hn] at h
      obtain ⟨o, ho, h⟩ := bind_eq_ok.mp h
      obtain ⟨o', ho', h⟩ := bind_eq_ok.mp h
      injection ho with ho; subst ho
      obtain ⟨v, hv, hk⟩ := tiffDecoder_view ho'
      cases o' with
      | some d' =>
        injection h with h; subst h
        exact ⟨some v, hk.1, fun _ => ⟨v, rfl, hv, Or.inl hk.2⟩⟩
      | none =>
        have hd := naked h
        exact ⟨some v, by rw [hd]; exact hk, fun _ => ⟨v, rfl, hv, Or.inr hd⟩⟩
    | error e =>
      rw [hn] at h
      cases e with
      | err m =>
        obtain ⟨o, ho, h⟩ := bind_eq_ok.mp h
        injection ho with ho; subst ho
        have hd := naked h
        exact ⟨none, by rw [hd], fun _ => rfl⟩
      | panic => cases h
      | fuel => cases h

/-- C03. The other direction: whatever view describes the directories of a file without a magic number of its own, the decoder for
the specified format is used, on these directories; makers that are not in the table are refused with an error. -/
theorem dispatch_complete (s : RawLoader) (b : Build) (contents : Bytes) (t : TiffIFD) (v : View) (hm : magicKind contents = none)
    (ht : TiffIFD.newFile b (Buffer.new contents).buf = .ok t) (hv : IsView t v) :
    match viewKind v with
    | none => ∃ m, s.getDecoder b (Buffer.new contents) = fail m
    | some .nkd => s.getDecoder b (Buffer.new contents) = s.nakedDecoder contents.length
    | some k => ∃ d, s.getDecoder b (Buffer.new contents) = .ok d ∧ d.kind = k ∧ d.tree = some t := by
  have hd := tiffDecoder_of_view hv
  rw [getDecoder_eq, hm, ht]
  dsimp only [okOnly]
  rw [ok_bind]
  dsimp only [parsedDecoder]
  revert hd
  cases viewKind v with
  | none => rintro ⟨m, hd⟩; exact ⟨m, by rw [hd]; rfl⟩
  | some k =>
    cases k
    case nkd => intro hd; dsimp only at hd ⊢; rw [hd]; rfl
    all_goals
      dsimp only
      rintro ⟨d, hd, h1, h2⟩
      exact ⟨d, by rw [hd]; rfl, h1, h2⟩

/-- C03. Files with one of the four magic numbers: the decoder is the one for the magic number, and nothing after it is looked at. -/
theorem dispatch_magic (s : RawLoader) (b : Build) (contents : Bytes) (k : Kind) (hk : magicKind contents = some k) :
    (∃ d, s.getDecoder b (Buffer.new contents) = .ok d ∧ d.kind = k) ∨ (∃ e, s.getDecoder b (Buffer.new contents) = .error e) := by
  rw [getDecoder_eq, hk]
  rcases magicKind_cases contents with hm | hm | hm | hm | hm <;> rw [hk] at hm <;> cases hm <;> dsimp only
  · cases Mrw.new b (Buffer.new contents).buf with
    | ok d => exact Or.inl ⟨.mrw d, rfl, rfl⟩
    | error e => exact Or.inr ⟨e, rfl⟩
  · cases CiffIFD.newFile b (Buffer.new contents) with
    | ok d => exact Or.inl ⟨.crw d, rfl, rfl⟩
    | error e => exact Or.inr ⟨e, rfl⟩
  · exact Or.inl ⟨.ari, rfl, rfl⟩
  · cases X3f.new b (Buffer.new contents) with
    | ok d => exact Or.inl ⟨.x3f d, rfl, rfl⟩
    | error e => exact Or.inr ⟨e, rfl⟩

/-- C03. A DNG is never decoded as the native format of its camera: one DNG version tag anywhere in the directories is enough,
whatever the maker and the model. -/
theorem dispatch_dng (s : RawLoader) (b : Build) (contents : Bytes) (t d : TiffIFD) (e : TiffEntry) (hm : magicKind contents = none)
    (ht : TiffIFD.newFile b (Buffer.new contents).buf = .ok t) (hb : Below TiffIFD.subifds t d) (he : Map.get d.entries 0xc612 = some e) :
    s.getDecoder b (Buffer.new contents) = .ok (.dng t) := by
  have hv : IsView t ⟨true, none, none, none⟩ := ⟨⟨fun _ => ⟨d, e, hb, he⟩, fun _ => rfl⟩, by simp, by simp, by simp⟩
  obtain ⟨dec, h1, h2, h3⟩ := dispatch_complete s b contents t _ hm ht hv
  rw [h1]
  cases dec
  case dng t' => injection h3 with h3; rw [h3]
  all_goals cases h2

/-! ## C04 -/

/-- C04. A file without a magic number that does not parse as TIFF (with an error or with a panic) and whose size is that of no
headerless camera gives an error. -/
theorem unrecognised_rejected (db : Toml) (s : RawLoader) (hd : DistinctKeys db) (h : RawLoader.new db = .ok s) (env : Platform) (b : Build)
    (contents : Bytes) (hm : magicKind contents = none) (ht : ∀ t, TiffIFD.newFile b (Buffer.new contents).buf ≠ .ok t)
    (hsize : ∀ v ∈ variants db, v.filesize = contents.length → v.filesize = 0) :
    ∃ m, s.decodeSafe env b (.ok contents) = fail m := by
  obtain ⟨cams, hp, rfl⟩ := RawLoader.new_ok hd h
  have hnone : Map.get (cams.foldl RawLoader.addCamera ⟨[], []⟩).naked contents.length = none := by
    rcases RawLoader.fold_naked contents.length cams ⟨[], []⟩ with ⟨c, h1, h2⟩ | ⟨_, h2⟩
    · obtain ⟨v, ⟨pre, post, e, ⟨hv0, hv1⟩, _⟩, _⟩ := paired_last (p := fun v : Variant => 0 < v.filesize ∧ v.filesize = contents.length) hp
        (fun v c hvc => by rw [hvc.filesize]) h2
      have := hsize v (by rw [e]; simp) hv1
      omega
    · rw [h2]; rfl
  unfold RawLoader.decodeSafe RawLoader.decode
  dsimp only
  rw [getDecoder_eq, hm]
  dsimp only
  have hpost := TiffIFD.post_newFile b (Buffer.new contents).buf
  cases hn : TiffIFD.newFile b (Buffer.new contents).buf with
  | ok t => exact absurd hn (ht t)
  | error e =>
    cases e with
    | err m =>
      unfold okOnly
      rw [ok_bind]
      unfold parsedDecoder
      rw [ok_bind]
      unfold RawLoader.nakedDecoder
      dsimp only
      rw [hnone]
      exact ⟨_, rfl⟩
    | panic => exact ⟨_, rfl⟩
    | fuel => rw [hn] at hpost; exact absurd rfl hpost.1

/-- C04. The empty file gives an error with every database. -/
theorem empty_rejected (db : Toml) (s : RawLoader) (h : RawLoader.new db = .ok s) (env : Platform) (b : Build) :
    s.decodeSafe env b (.ok []) = fail "Couldn't find a decoder for this file." := by
  have hnone : Map.get s.naked 0 = none := by
    unfold RawLoader.new at h
    obtain ⟨t, _, h⟩ := bind_eq_ok.mp h
    dsimp only at h
    cases hc : Map.get t (b! "cameras") with
    | none => rw [hc] at h; exact absurd h (crash_ne_ok _)
    | some v =>
    rw [hc] at h
    simp only [ok_bind] at h
    obtain ⟨l, _, h⟩ := bind_eq_ok.mp h
    obtain ⟨cams, _, h⟩ := bind_eq_ok.mp h
    injection h with h
    subst h
    rcases RawLoader.fold_naked 0 cams.flatten ⟨[], []⟩ with ⟨c, h1, ⟨pre, post, e, ⟨hv0, hv1⟩, _⟩⟩ | ⟨_, h2⟩
    · omega
    · rw [h2]; rfl
  have hg : s.getDecoder b (Buffer.new []) = fail "Couldn't find a decoder for this file." := by
    rw [getDecoder_eq, show magicKind [] = none by decide +kernel, tiff_sniffing_safe b [] (by decide) (by decide) (by decide)]
    show s.nakedDecoder 0 = _
    unfold RawLoader.nakedDecoder
    rw [hnone]
  unfold RawLoader.decodeSafe RawLoader.decode
  dsimp only
  rw [hg]
  rfl

/-! ## C05 -/

/-- A file without a header to go by: no magic number, and either not TIFF or TIFF directories that name no format. -/
def Headerless (b : Build) (contents : Bytes) : Prop :=
  magicKind contents = none ∧ ((∃ m, TiffIFD.newFile b (Buffer.new contents).buf = fail m) ∨
    ∃ t v, TiffIFD.newFile b (Buffer.new contents).buf = .ok t ∧ IsView t v ∧ viewKind v = some .nkd)

/-- C05. A headerless file is decoded exactly if some entry of the database has its length as positive file size; the camera is
that of the last such entry. -/
theorem headerless_by_size (db : Toml) (s : RawLoader) (hd : DistinctKeys db) (h : RawLoader.new db = .ok s) (b : Build) (contents : Bytes)
    (hh : Headerless b contents) :
    (∃ v cam, LastWith (fun v : Variant => 0 < v.filesize ∧ v.filesize = contents.length) (variants db) v ∧ v.Describes cam ∧
      s.getDecoder b (Buffer.new contents) = .ok (.nkd cam)) ∨
    ((∀ v ∈ variants db, ¬ (0 < v.filesize ∧ v.filesize = contents.length)) ∧
      s.getDecoder b (Buffer.new contents) = fail "Couldn't find a decoder for this file.") := by
  have hg : s.getDecoder b (Buffer.new contents) = s.nakedDecoder contents.length := by
    obtain ⟨hm, ⟨m, hn⟩ | ⟨t, v, hn, hv, hk⟩⟩ := hh
    · rw [getDecoder_eq, hm, hn]
      rfl
    · have := dispatch_complete s b contents t v hm hn hv
      rw [hk] at this
      exact this
  rw [hg]
  obtain ⟨cams, hp, rfl⟩ := RawLoader.new_ok hd h
  have hiff : ∀ (v : Variant) (c : Camera), v.Describes c →
      ((0 < v.filesize ∧ v.filesize = contents.length) ↔ (0 < c.filesize ∧ c.filesize = contents.length)) :=
    fun v c hvc => by rw [hvc.filesize]
  unfold RawLoader.nakedDecoder
  rcases RawLoader.fold_naked contents.length cams ⟨[], []⟩ with ⟨c, h1, h2⟩ | ⟨h1, h2⟩
  · obtain ⟨v, hv, hdesc⟩ := paired_last hp hiff h2
    exact Or.inl ⟨v, c, hv, hdesc, by rw [h1]⟩
  · refine Or.inr ⟨paired_none hp hiff h1, ?_⟩
    rw [h2]
    rfl

section Examples

/-- A database with two headerless cameras of the same size. -/
private def db : Toml := .table [(b! "cameras", .arr [
  .table [(b! "make", .str (b! "A")), (b! "model", .str (b! "one")), (b! "filesize", .int 20)],
  .table [(b! "make", .str (b! "A")), (b! "model", .str (b! "two")), (b! "filesize", .int 20)],
  .table [(b! "make", .str (b! "A")), (b! "model", .str (b! "three"))]])]

/-- What the dispatch does with a file: the kind and, for headerless files, the model. -/
private def chosen (contents : Bytes) : M (Kind × Bytes) := do
  let s ← RawLoader.new db
  let d ← s.getDecoder .debug (Buffer.new contents)
  .ok (d.kind, match d with | .nkd c => c.model | _ => [])

/-- A TIFF file with one directory of entries (tag, ASCII text of four bytes). -/
private def tiffWith (entries : List (UInt8 × UInt8 × Bytes)) : Bytes :=
  [0x49, 0x49, 42, 0, 8, 0, 0, 0, entries.length.toUInt8, 0] ++
  (entries.flatMap fun e => [e.1, e.2.1, 2, 0, 4, 0, 0, 0] ++ e.2.2) ++ [0, 0, 0, 0]

private def make (text : Bytes) := ((0x0f : UInt8), (0x01 : UInt8), text)
private def dngVersion := ((0x12 : UInt8), (0xc6 : UInt8), ([1, 4, 0, 0] : Bytes))

/-- By maker; a DNG version before the maker; an unknown maker; no header with a known and with an unknown size. -/
example : chosen (tiffWith [make (b! "SONY")]) = .ok (.arw, []) ∧
    chosen (tiffWith [make (b! "SONY"), dngVersion]) = .ok (.dng, []) ∧
    chosen (tiffWith [make (b! "ACME")]) = fail "Couldn't find a decoder for make" ∧
    chosen (List.replicate 20 7) = .ok (.nkd, b! "two") ∧
    chosen (List.replicate 21 7) = fail "Couldn't find a decoder for this file." := by decide +kernel

/-- A file that makes the parser panic comes out as an error. -/
example (s : RawLoader) (env : Platform) (b : Build) : s.decode env b (b! "FUJIFILM") = crash ∧
    s.decodeSafe env b (.ok (b! "FUJIFILM")) = fail "Caught a panic while decoding." := by
  have hg : s.getDecoder b (Buffer.new (b! "FUJIFILM")) = crash := by
    rw [getDecoder_eq, show magicKind (b! "FUJIFILM") = none by decide +kernel, fuji_header_unchecked b]
    rfl
  unfold RawLoader.decodeSafe RawLoader.decode
  dsimp only
  rw [hg]
  exact ⟨rfl, rfl⟩

/-- The magic number of ARRI wins over everything behind it. -/
example : chosen (b! "ARRI") = .ok (.ari, []) := by decide +kernel

/-- Three bytes of a magic number of four are not enough, although zeros follow. -/
example : Mrw.isMrw (Buffer.new [0, 0x4d, 0x52]).buf = .ok false ∧ Mrw.isMrw (Buffer.new [0, 0x4d, 0x52, 0x4d]).buf = .ok true := by
  decide +kernel

private theorem db_loads : ∃ s, RawLoader.new db = .ok s := by
  cases h : RawLoader.new db with
  | ok s => exact ⟨s, rfl⟩
  | error e =>
    have : (RawLoader.new db).isOk = true := by decide +kernel
    rw [h] at this
    cases this

/-- The rejection theorem applies to 21 bytes of garbage, in both builds. -/
example (env : Platform) (b : Build) : ∃ s m, RawLoader.new db = .ok s ∧ s.decodeSafe env b (.ok (List.replicate 21 7)) = fail m := by
  obtain ⟨s, hs⟩ := db_loads
  obtain ⟨m, hm⟩ := unrecognised_rejected db s (by unfold DistinctKeys; decide +kernel) hs env b (List.replicate 21 7)
    (by decide +kernel) (fun t ht => by rw [tiff_sniffing_safe b _ (by decide) (by decide) (by decide)] at ht; cases ht)
    (by decide +kernel)
  exact ⟨s, m, hs, hm⟩

end Examples

end Props

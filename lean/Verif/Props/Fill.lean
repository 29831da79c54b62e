import Verif.Lemmas.Ciff
import Verif.Lemmas.DecMore
import Verif.Lemmas.DecNikon
import Verif.Lemmas.DecOrf
import Verif.Lemmas.DecRest
import Verif.Props.Mrw
import Verif.Props.Dispatch
/-!
# C01 and C50: decoding ends, and the image is filled

`fuel` is the outcome of a loop that used up the number of steps the model allows. Every loop of the model that could give it is
shown to stay below its budget, so it stands for a loop of the program that does not end.
-/

namespace Props
open Rust Spec Model

/-- The exceptions to C50: a CR2 file that has several components per pixel or is from a camera with the hint `double_line`, and an
image of at least 2^64 pixels from a build without overflow checks. -/
private def Exempt (s : RawLoader) (b : Build) (d : Decoder) (img : RawImage) : Prop :=
  (∃ t cam, d = .cr2 t ∧ s.checkSupported t = .ok cam ∧ (img.cpp ≠ 1 ∨ cam.findHint (b! "double_line") = true)) ∨
  (b = .release ∧ 2 ^ 64 ≤ img.width * img.height)

private theorem post_image (s : RawLoader) (env : Platform) (b : Build) (buf : Bytes) (d : Decoder) :
    Post (d.image env b buf s) (fun img => Full img ∨ Exempt s b d img) := by
  have h : ∀ {x : M RawImage}, Post x Full → Post x (fun img => Full img ∨ Exempt s b d img) :=
    fun hx => post_weaken hx fun _ h => Or.inl h
  cases d with
  | mrw d => exact h (full_mrw _ _ _ _)
  | crw c => exact h (full_crw _ _ _ _)
  | ari => exact h (full_ari _ _ _)
  | x3f f => exact h (full_x3f _ _ _ _)
  | dng t => exact h (full_dng _ _ _ _)
  | cr2 t =>
    refine post_weaken (full_cr2 _ _ _ _) fun img hi => ?_
    obtain ⟨cam, raw, off, h1, h2, h3, h4⟩ := hi
    by_cases hc : img.cpp = 1
    · cases hd : cam.findHint (b! "double_line") with
      | false => exact Or.inl (h3 hc hd)
      | true => exact Or.inr (Or.inl ⟨t, cam, rfl, h1, Or.inr hd⟩)
    · exact Or.inr (Or.inl ⟨t, cam, rfl, h1, Or.inl hc⟩)
  | arw t => exact h (full_arw _ _ _ _)
  | mef t => exact h (full_mef _ _ _ _)
  | orf t => exact h (full_orf _ _ _ _)
  | srw t => exact h (full_srw _ _ _ _)
  | erf t => exact h (full_erf _ _ _ _)
  | kdc t => exact h (full_kdc _ _ _ _)
  | dcs t => exact h (full_dcs _ _ _ _)
  | dcr t => exact h (full_dcr _ _ _ _)
  | rw2 t => exact h (full_rw2 _ _ _ _)
  | raf t => exact post_weaken (full_raf _ _ _ _) fun img hi => hi.imp id fun h => Or.inr h
  | pef t => exact h (full_pef _ _ _ _)
  | iiq t => exact h (full_iiq _ _ _ _)
  | tfr t => exact h (full_tfr _ _ _ _)
  | nef t => exact h (full_nef _ _ _ _ _)
  | nrw t => exact h (full_nrw _ _ _ _)
  | mos t => exact h (full_mos _ _ _ _ _)
  | nkd c => exact h (full_nkd _ _ _)

private theorem ends_okOnly {α : Type} {x : M α} (h : Ends x) : Ends (okOnly x) := by
  unfold okOnly
  split
  · exact ends_ok _
  · exact ends_ok _
  · next e _ => intro h'; injection h' with h'; subst h'; exact h rfl

private theorem ends_tiffDecoder (t : TiffIFD) : Ends (tiffDecoder t) := by
  have hm : ∀ m, Ends (makeDecoder m t) := fun m => by unfold makeDecoder; ends
  have hd : Ends (isDcs560 t) := by unfold isDcs560; ends
  unfold tiffDecoder
  refine ends_ite (fun _ => ends_ok _) fun _ => ends_bind hd fun _ _ => ends_ite (fun _ => ends_ok _) fun _ => ends_ite (fun _ => ?_) fun _ => by ends
  exact ends_bind (by ends) fun _ _ => ends_bind (by ends) fun _ _ => ends_bind (hm _) fun _ _ => ends_ok _

/-- Choosing the decoder ends unless the file has the magic number of MRW and its block list does not end. -/
private theorem getDecoder_ends (s : RawLoader) (b : Build) (contents : Bytes) (h : s.getDecoder b (Buffer.new contents) = .error .fuel) :
    hasMagic contents 0 [0, 0x4d, 0x52, 0x4d] = true ∧ Mrw.new b (Buffer.new contents).buf = .error .fuel := by
  unfold RawLoader.getDecoder at h
  rw [isMrw_eq, ok_bind] at h
  by_cases hm : hasMagic contents 0 [0, 0x4d, 0x52, 0x4d] = true
  · refine ⟨hm, ?_⟩
    rw [if_pos hm] at h
    cases e : Mrw.new b (Buffer.new contents).buf with
    | ok d => rw [e] at h; cases h
    | error x => rw [e, error_bind] at h; injection h with h; rw [h]
  · exfalso
    rw [if_neg hm, isCiff_eq, ok_bind, isAri_eq, isX3f_eq] at h
    revert h
    refine ends_ite (fun _ => ?_) fun _ => ?_
    · exact ends_bind (CiffIFD.post_newFile _ _).1 fun _ _ => ends_ok _
    · rw [ok_bind]
      refine ends_ite (fun _ => ends_ok _) fun _ => ?_
      rw [ok_bind]
      refine ends_ite (fun _ => ends_bind (ends_x3f _ _) fun _ _ => ends_ok _) fun _ => ?_
      refine ends_bind (ends_okOnly (TiffIFD.post_newFile _ _).1) fun t _ => ?_
      have hp : Ends (parsedDecoder t) := by
        cases t with
        | none => exact ends_ok _
        | some t => exact ends_tiffDecoder t
      refine ends_bind hp fun d _ => ?_
      cases d with
      | some d => exact ends_ok _
      | none => unfold RawLoader.nakedDecoder; dsimp only; split <;> ends

/-! ## C01 -/

/-- C01. Decoding a file runs forever only if the file starts with the magic number of MRW and the list of its blocks does not end.
All other loops of all decoders end for all contents, in checked and in wrapping builds. -/
theorem decode_runs_forever_iff (s : RawLoader) (env : Platform) (b : Build) (contents : Bytes) :
    s.decodeSafe env b (.ok contents) = .error .fuel ↔
      hasMagic contents 0 [0, 0x4d, 0x52, 0x4d] = true ∧ Mrw.new b (Buffer.new contents).buf = .error .fuel := by
  have key : s.decodeSafe env b (.ok contents) = .error .fuel ↔ s.decode env b contents = .error .fuel := by
    unfold RawLoader.decodeSafe
    dsimp only
    split
    · next h => rw [h]; constructor <;> intro h' <;> cases h'
    · rfl
  rw [key]
  unfold RawLoader.decode
  dsimp only
  constructor
  · intro h
    cases e : s.getDecoder b (Buffer.new contents) with
    | ok d => rw [e, ok_bind] at h; exact absurd h (post_image s env b _ d).1
    | error x =>
      rw [e, error_bind] at h
      injection h with h
      subst h
      exact getDecoder_ends s b contents e
  · rintro ⟨h1, h2⟩
    unfold RawLoader.getDecoder
    rw [isMrw_eq, ok_bind, if_pos h1, h2]
    rfl

/-- C01. With overflow checks, `decode_safe` returns for every file, and it returns an image or an error value. -/
theorem decode_terminates (s : RawLoader) (env : Platform) (file : RawLoader.FileResult) :
    (∃ img, s.decodeSafe env .debug file = .ok img) ∨ (∃ m, s.decodeSafe env .debug file = fail m) := by
  have h1 := decode_never_unwinds s env .debug file
  have h2 : s.decodeSafe env .debug file ≠ .error .fuel := by
    cases file with
    | error e => intro h; cases h
    | ok contents => exact fun h => mrw_terminates_debug _ ((decode_runs_forever_iff s env .debug contents).mp h).2
  cases e : s.decodeSafe env .debug file with
  | ok img => exact Or.inl ⟨img, rfl⟩
  | error x =>
    cases x with
    | panic => exact absurd e h1
    | err m => exact Or.inr ⟨m, rfl⟩
    | fuel => exact absurd e h2

/-- C01 for wrapping builds, restricted: the file does not start with the magic number of MRW, or the number `0xfffffff8` is not
stored in it. What is missing is false, see `decode_hangs`. -/
theorem decode_terminates_release_partial (s : RawLoader) (env : Platform) (contents : Bytes)
    (h : hasMagic contents 0 [0, 0x4d, 0x52, 0x4d] = false ∨ ∀ pos, BEu32 (Buffer.new contents).buf pos ≠ .ok 0xfffffff8) :
    (∃ img, s.decodeSafe env .release (.ok contents) = .ok img) ∨ (∃ m, s.decodeSafe env .release (.ok contents) = fail m) := by
  have h1 := decode_never_unwinds s env .release (.ok contents)
  have h2 : s.decodeSafe env .release (.ok contents) ≠ .error .fuel := by
    intro hf
    have hf := (decode_runs_forever_iff s env .release contents).mp hf
    rcases h with h | h
    · rw [h] at hf; exact absurd hf.1 (by decide)
    · exact mrw_terminates_release_partial _ h hf.2
  cases e : s.decodeSafe env .release (.ok contents) with
  | ok img => exact Or.inl ⟨img, rfl⟩
  | error x =>
    cases x with
    | panic => exact absurd e h1
    | err m => exact Or.inr ⟨m, rfl⟩
    | fuel => exact absurd e h2

/-- C01 is false for wrapping builds: there is a file for which `decode_safe` does not return, with every database. -/
theorem decode_hangs : ∃ contents, ∀ (s : RawLoader) (env : Platform), s.decodeSafe env .release (.ok contents) = .error .fuel := by
  refine ⟨hangingMrw, fun s env => (decode_runs_forever_iff s env .release hangingMrw).mpr ⟨by decide +kernel, ?_⟩⟩
  have h : (match Mrw.new .release (Buffer.new hangingMrw).buf with | .error .fuel => true | _ => false) = true := by decide +kernel
  revert h
  cases Mrw.new .release (Buffer.new hangingMrw).buf with
  | ok d => intro h; cases h
  | error x => cases x <;> intro h <;> first | rfl | cases h

/-! ## C50 -/

/-- C50, for all formats but some CR2 files: when decoding succeeds, the number of samples is width times height times the number of
components. Missing: CR2 files that have several components per pixel or are from a camera with the hint `double_line`; these are
covered by `cr2_fields_fill` if the raw directory describes its vertical fields and the width. In general the statement is false
for them, see `cr2_short`. In wrapping builds the statement is also restricted to images below 2^64 pixels (rotated RAF files). -/
theorem decode_fills_partial (s : RawLoader) (env : Platform) (b : Build) (contents : Bytes) (img : RawImage)
    (h : s.decodeSafe env b (.ok contents) = .ok img) :
    img.data.length = img.width * img.height * img.cpp ∨
    (∃ t cam, s.getDecoder b (Buffer.new contents) = .ok (.cr2 t) ∧ s.checkSupported t = .ok cam ∧
      (img.cpp ≠ 1 ∨ cam.findHint (b! "double_line") = true)) ∨
    (b = .release ∧ 2 ^ 64 ≤ img.width * img.height) := by
  have h := ((decode_results s env b contents).1 img).mp h
  obtain ⟨d, hd, h⟩ := bind_eq_ok.mp h
  rcases (post_image s env b _ d).2 img h with hf | ⟨t, cam, rfl, h1, h2⟩ | hr
  · exact Or.inl hf
  · exact Or.inr (Or.inl ⟨t, cam, hd, h1, h2⟩)
  · exact Or.inr (Or.inr hr)

/-- C50 for CR2 files: if the directory with the raw data gives a nonzero number of vertical fields and the image width, the number
of samples is width times height times components. -/
theorem cr2_fields_fill (s : RawLoader) (env : Platform) (b : Build) (contents : Bytes) (img : RawImage) (t raw : TiffIFD) (off n : Nat)
    (e : TiffEntry) (hd : s.getDecoder b (Buffer.new contents) = .ok (.cr2 t)) (hr : Cr2.findRaw t = .ok (raw, off))
    (he : raw.findEntry Tag.Cr2StripeWidths = some e) (hn : e.getU32 0 = .ok n) (h0 : n ≠ 0) (hw : raw.hasEntry Tag.ImageWidth = true)
    (h : s.decodeSafe env b (.ok contents) = .ok img) : img.data.length = img.width * img.height * img.cpp := by
  have h := ((decode_results s env b contents).1 img).mp h
  unfold RawLoader.decode at h
  dsimp only at h
  rw [hd, ok_bind] at h
  obtain ⟨cam, raw', off', _, h2, _, h4⟩ := (full_cr2 b (Buffer.new contents).buf t s).2 img h
  rw [hr] at h2
  injection h2 with h2
  injection h2 with h2 h3
  subst h2
  exact h4 ⟨e, n, he, hn, h0⟩ hw

/-- A database with one of the cameras that have the hint. -/
private def canonDb : Toml := .table [(b! "cameras", .arr [
  .table [(b! "make", .str (b! "Canon")), (b! "model", .str (b! "Canon EOS 5DS")), (b! "hints", .arr [.str (b! "double_line")])]])]

/-- One line of one pixel with three components. -/
private def tinyJpeg : Bytes := [0xff, 0xd8] ++ [0xff, 0xc3, 0, 17, 14, 0, 1, 0, 1, 3, 1, 0x11, 0, 2, 0x11, 0, 3, 0x11, 0] ++
  [0xff, 0xc4, 0, 20, 0] ++ ([1] ++ List.replicate 15 0) ++ [0] ++ [0xff, 0xda, 0, 12, 3, 1, 0, 2, 0, 3, 0, 1, 0, 0] ++ List.replicate 8 0

/-- A CR2 file of the oldest kind with that JPEG. -/
private def tinyCr2 : Bytes := [0x49, 0x49, 42, 0, 8, 0, 0, 0, 3, 0] ++ [0x0f, 1, 2, 0, 6, 0, 0, 0, 50, 0, 0, 0] ++
  [0x10, 1, 2, 0, 14, 0, 0, 0, 56, 0, 0, 0] ++ [0x81, 0, 4, 0, 1, 0, 0, 0, 70, 0, 0, 0] ++ [0, 0, 0, 0] ++
  (b! "Canon" ++ [0]) ++ (b! "Canon EOS 5DS" ++ [0]) ++ tinyJpeg

private def noPlatform : Platform := ⟨⟨fun _ => .nan, fun _ _ => .nan⟩, fun _ => .nan⟩

/-- What decoding gives: width, height, components, samples. -/
private def shape (db : Toml) (b : Build) (contents : Bytes) : M (Nat × Nat × Nat × List Nat) := do
  let s ← RawLoader.new db
  let img ← s.decodeSafe noPlatform b (.ok contents)
  .ok (img.width, img.height, img.cpp, img.data)

/-- C50 is false for CR2: this file decodes to an image of one column and two rows that has three samples. -/
theorem cr2_short (b : Build) : ∃ (db : Toml) (s : RawLoader) (env : Platform) (contents : Bytes) (img : RawImage),
    RawLoader.new db = .ok s ∧ s.decodeSafe env b (.ok contents) = .ok img ∧ img.width = 1 ∧ img.height = 2 ∧ img.cpp = 1 ∧ img.data.length = 3 := by
  have h : shape canonDb b tinyCr2 = .ok (1, 2, 1, [8192, 8192, 8192]) := by cases b <;> decide +kernel
  obtain ⟨s, h1, h⟩ := bind_eq_ok.mp h
  obtain ⟨img, h2, h⟩ := bind_eq_ok.mp h
  injection h with h
  simp only [Prod.mk.injEq] at h
  exact ⟨canonDb, s, noPlatform, tinyCr2, img, h1, h2, h.1, h.2.1, h.2.2.1, by rw [h.2.2.2]; rfl⟩

section Examples

/-- The camera without the hint. -/
private def plainDb : Toml := .table [(b! "cameras", .arr [
  .table [(b! "make", .str (b! "Canon")), (b! "model", .str (b! "Canon EOS 5DS"))]])]

/-- Without the hint the same file gives one row of three samples. -/
example : shape plainDb .debug tinyCr2 = .ok (3, 1, 1, [8192, 8192, 8192]) := by decide +kernel

/-- A JPEG with two lines of three components and differences 0 and 1. -/
private def smallJpeg : Bytes := [0xff, 0xd8] ++ [0xff, 0xc3, 0, 17, 14, 0, 2, 0, 1, 3, 1, 0x11, 0, 2, 0x11, 0, 3, 0x11, 0] ++
  [0xff, 0xc4, 0, 21, 0] ++ ([1, 1] ++ List.replicate 14 0) ++ [0, 1] ++ [0xff, 0xda, 0, 12, 3, 1, 0, 2, 0, 3, 0, 1, 0, 0] ++
  [0b01010100, 0b10100000] ++ List.replicate 8 0

/-- A CR2 file whose directory gives the width and the vertical fields `[1, 2, 1]`: one of two columns and one of one column. -/
private def fieldsCr2 : Bytes := [0x49, 0x49, 42, 0, 8, 0, 0, 0, 6, 0] ++ [0x00, 1, 3, 0, 1, 0, 0, 0, 3, 0, 0, 0] ++
  [0x0f, 1, 2, 0, 6, 0, 0, 0, 86, 0, 0, 0] ++ [0x10, 1, 2, 0, 14, 0, 0, 0, 92, 0, 0, 0] ++ [0x11, 1, 4, 0, 1, 0, 0, 0, 112, 0, 0, 0] ++
  [0xd8, 0xc5, 4, 0, 1, 0, 0, 0, 1, 0, 0, 0] ++ [0x40, 0xc6, 3, 0, 3, 0, 0, 0, 106, 0, 0, 0] ++ [0, 0, 0, 0] ++
  (b! "Canon" ++ [0]) ++ (b! "Canon EOS 5DS" ++ [0]) ++ [1, 0, 2, 0, 1, 0] ++ smallJpeg

/-- The JPEG holds the columns of the first field, then the column of the second. -/
example : shape plainDb .debug fieldsCr2 = .ok (3, 2, 1, [8192, 8193, 8194, 8192, 8191, 8192]) := by decide +kernel

/-- A file that is neither MRW nor anything else: the wrapping build returns too. -/
example (s : RawLoader) (env : Platform) : (∃ img, s.decodeSafe env .release (.ok (b! "II*")) = .ok img) ∨
    (∃ m, s.decodeSafe env .release (.ok (b! "II*")) = fail m) :=
  decode_terminates_release_partial s env _ (Or.inl (by decide +kernel))

end Examples

end Props

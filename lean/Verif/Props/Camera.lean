import Verif.Lemmas.Camera
/-!
# C30: looking up a camera
-/

namespace Props
open Rust Spec Model

/-- C30. For every database that loads and whose tables repeat no key: a lookup gives a camera exactly if some variant (base entry
or alias, in the base mode or one of its modes) has that make, model and mode. The camera is that of the last such variant in
the database and has all of its settings, those of the mode before those of the base entry. If there is none, the result is an
error with the three names in it. -/
theorem camera_lookup (db : Toml) (s : RawLoader) (hd : DistinctKeys db) (h : RawLoader.new db = .ok s) (make model mode : Bytes) :
    (∃ v cam, LastWith (fun v : Variant => v.make = make ∧ v.model = model ∧ v.modeName = mode) (variants db) v ∧ v.Describes cam ∧
      s.checkSupportedWithEverything make model mode = .ok cam) ∨
    ((∀ v ∈ variants db, ¬ (v.make = make ∧ v.model = model ∧ v.modeName = mode)) ∧
      s.checkSupportedWithEverything make model mode = fail ("Couldn't find camera \"" ++ RawLoader.showBytes make ++ "\" \"" ++
        RawLoader.showBytes model ++ "\" mode \"" ++ RawLoader.showBytes mode ++ "\".")) := by
  obtain ⟨cams, hp, rfl⟩ := RawLoader.new_ok hd h
  have hiff : ∀ (v : Variant) (c : Camera), v.Describes c →
      ((v.make = make ∧ v.model = model ∧ v.modeName = mode) ↔ RawLoader.keyOf c = (make, model, mode)) := by
    intro v c hv
    unfold RawLoader.keyOf
    rw [hv.make, hv.model, hv.mode]
    simp only [Prod.mk.injEq]
    rfl
  unfold RawLoader.checkSupportedWithEverything
  rcases RawLoader.fold_cameras (make, model, mode) cams ⟨[], []⟩ with ⟨c, h1, h2⟩ | ⟨h1, h2⟩
  · obtain ⟨v, hv, hdesc⟩ := paired_last hp hiff h2
    exact Or.inl ⟨v, c, hv, hdesc, by rw [h1]⟩
  · refine Or.inr ⟨paired_none hp hiff h1, ?_⟩
    rw [h2]
    rfl

/-- C30. The lookup used by the TIFF based decoders: make and model are the trimmed texts of the two tags, the orientation comes
from the file, and everything else from the database. -/
theorem camera_lookup_tiff (s : RawLoader) (tiff : TiffIFD) (mode : Bytes) (cam : Camera) (h : s.checkSupportedWithMode tiff mode = .ok cam) :
    ∃ me mo make model base o, FirstIn TiffIFD.subifds (fun d => Map.get d.entries 0x10f) tiff me ∧
      FirstIn TiffIFD.subifds (fun d => Map.get d.entries 0x110) tiff mo ∧ me.getStr = .ok make ∧ mo.getStr = .ok model ∧
      s.checkSupportedWithEverything make model mode = .ok base ∧ RawLoader.orientationFromTiff tiff = .ok o ∧
      cam = { base with orientation := o } := by
  unfold RawLoader.checkSupportedWithMode at h
  simp only [bind_eq_ok] at h
  obtain ⟨me, h1, make, h2, mo, h3, model, h4, base, h5, o, h6, h⟩ := h
  injection h with h
  have first : ∀ tag e, tiff.fetchTag tag = .ok e → FirstIn TiffIFD.subifds (fun d => Map.get d.entries tag) tiff e := by
    intro tag e he
    unfold TiffIFD.fetchTag at he
    have hs := TiffIFD.findEntry_spec tag tiff
    cases hf : TiffIFD.findEntry tag tiff with
    | none => rw [hf] at he; exact absurd he (fail_ne_ok _ _)
    | some e' => rw [hf] at he hs; injection he with he; subst he; exact hs
  exact ⟨me, mo, make, model, base, o, first _ _ h1, first _ _ h3, h2, h4, h5, h6, h.symm⟩

section Examples

/-- A database with two entries for the same camera, an alias and a mode. -/
private def db : Toml := .table [(b! "cameras", .arr [
  .table [(b! "make", .str (b! "A")), (b! "model", .str (b! "one")), (b! "clean_model", .str (b! "One")), (b! "whitepoint", .int 1000),
    (b! "model_aliases", .arr [.arr [.str (b! "uno"), .str (b! "Uno")]]),
    (b! "crops", .arr [.int 1, .int 2, .int 3, .int 4]),
    (b! "modes", .arr [.table [(b! "mode", .str (b! "small")), (b! "whitepoint", .int 2000), (b! "crops", .arr [.int 9])]])],
  .table [(b! "make", .str (b! "A")), (b! "model", .str (b! "one")), (b! "whitepoint", .int 3000), (b! "filesize", .int 77)]])]

private def look (model mode : Bytes) : M (Bytes × List Nat × List Nat) := do
  let s ← RawLoader.new db
  let c ← s.checkSupportedWithEverything (b! "A") model mode
  .ok (c.cleanModel, c.whitelevels, c.crops)

/-- The later entry wins; the alias and the mode of the first entry are still found; the mode overrides one crop and the white level. -/
example : look (b! "one") [] = .ok ([], [3000, 3000, 3000, 3000], [0, 0, 0, 0]) ∧
    look (b! "uno") [] = .ok (b! "Uno", [1000, 1000, 1000, 1000], [1, 2, 3, 4]) ∧
    look (b! "uno") (b! "small") = .ok (b! "Uno", [2000, 2000, 2000, 2000], [9, 2, 3, 4]) := by decide +kernel

example : look (b! "two") [] = fail "Couldn't find camera \"A\" \"two\" mode \"\"." := by decide +kernel

end Examples

end Props

import Verif.Props.Shipped
import Verif.Props.Matrix
import Verif.Props.OtherFile
import Verif.Props.SmallFile
import Verif.Lemmas.F32Ops
import Mathlib.LinearAlgebra.Matrix.NonsingularInverse
/-!
# C86, C87: the settings in the database that comes with the program
-/

namespace Props
open Model Rust Spec Shipped TomlText Matrix

theorem shipped_variant {db : Toml} (h : IsShipped db) {s : RawLoader} (hs : RawLoader.new db = .ok s) {make model mode : Bytes} {cam : Camera}
    (hl : s.checkSupportedWithEverything make model mode = .ok cam) :
    ∃ t v, Checked t ∧ v ∈ variantsIn t ∧ v.key = (make, model, mode) ∧ v.Describes cam := by
  obtain ⟨f, hf, t, ht, v, hv, hk, hd⟩ := shipped_from_file h hs hl
  obtain ⟨order, -, hm, hc, -⟩ := shipped_order h
  exact ⟨t, v, hc t ((hm t).mpr ⟨f, hf, ht⟩), hv, hk, hd⟩

/-! ## Levels -/

/-- **C86** (partial). The white level of every camera found is above its black level, except for Nikon cameras without a mode. -/
theorem shipped_levels_partial {db : Toml} (h : IsShipped db) {s : RawLoader} (hs : RawLoader.new db = .ok s) {make model mode : Bytes} {cam : Camera}
    (hl : s.checkSupportedWithEverything make model mode = .ok cam) (hx : ¬ LevelsInModes (make, model, mode)) :
    ∃ black white, black < white ∧ white < 65536 ∧ cam.blacklevels = List.replicate 4 black ∧ cam.whitelevels = List.replicate 4 white := by
  obtain ⟨t, v, hc, hv, hk, hd⟩ := shipped_variant h hs hl
  refine ⟨_, _, ?_, ?_, hd.blacklevels, hd.whitelevels⟩
  · have := hc.levels v hv
    unfold goodLevels at this
    rw [hk, Bool.or_eq_true, decide_eq_true_eq, decide_eq_true_eq] at this
    exact this.resolve_right hx
  · unfold levelOf
    omega

theorem coolpix_levels {db : Toml} (h : IsShipped db) {s : RawLoader} (hs : RawLoader.new db = .ok s) {i : Nat} (hi : i < Model.Shipped.nikon.length)
    {model : Bytes} (hfile : (readFile Model.Shipped.nikon[i]).map (fun t => levelsIn t (b! "NIKON", model, [])) = some [(0, 0)])
    (hsh : (b! "NIKON", model, []) ∉ sharedNames) :
    ∃ cam, s.checkSupportedWithEverything (b! "NIKON") model [] = .ok cam ∧ cam.whitelevels = [0, 0, 0, 0] ∧ cam.blacklevels = [0, 0, 0, 0] := by
  have hf : Model.Shipped.nikon[i] ∈ Model.Shipped.files := by
    have := List.getElem_mem hi
    unfold Model.Shipped.files
    simp only [List.mem_append]
    tauto
  obtain ⟨t, ht, hc⟩ := Option.map_eq_some_iff.mp hfile
  have : (0, 0) ∈ levelsIn t (b! "NIKON", model, []) := by rw [hc]; simp
  obtain ⟨v, hv, e⟩ := List.mem_map.mp this
  obtain ⟨hv, hk⟩ := List.mem_filter.mp hv
  have hk : v.key = (b! "NIKON", model, []) := by simpa using hk
  obtain ⟨cam, h1, h2⟩ := shipped_found h hs hf ht hv
  have h2 := h2 (by rw [hk]; exact hsh)
  unfold Variant.key at hk
  rw [Prod.mk.injEq, Prod.mk.injEq] at hk
  rw [hk.1, hk.2.1, hk.2.2] at h1
  rw [Prod.mk.injEq] at e
  exact ⟨cam, h1, by rw [h2.whitelevels, e.2]; rfl, by rw [h2.blacklevels, e.1]; rfl⟩

/-- A picture of a Coolpix has the white level of its camera. -/
theorem nrw_white {b : Build} {buffer : Bytes} {tiff : TiffIFD} {s : RawLoader} {img : RawImage} {cam : Camera} (hc : s.checkSupported tiff = .ok cam)
    (h : Nrw.image b buffer tiff s = .ok img) : img.whitelevels = cam.whitelevels := by
  unfold Nrw.image at h
  rw [hc, ok_bind] at h
  simp only [bind_eq_ok] at h
  obtain ⟨_, -, _, -, _, -, _, -, _, -, h⟩ := h
  have key : ∀ (data : M (List Nat)) {w ht : Nat}, (data >>= fun d => Nrw.getWb b tiff cam >>= fun wb => okImage b cam w ht wb d) = .ok img → img.whitelevels = cam.whitelevels := by
    intro data w ht h
    simp only [bind_eq_ok] at h
    obtain ⟨_, -, _, -, h⟩ := h
    unfold okImage RawImage.new at h
    dsimp only at h
    split at h <;> rw [bind_eq_ok] at h <;> obtain ⟨_, -, h⟩ := h <;> injection h with h <;> rw [← h]
  split at h
  · exact key _ h
  · split at h
    · exact key _ h
    · exact key _ h

/-- **C86**: the exception is real. The Coolpix P330 and B700 have levels for a mode only, which is never asked for: with the shipped
database every file of theirs that is decoded comes back with white level 0. -/
theorem coolpix_white_zero {db : Toml} (hdb : IsShipped db) {s : RawLoader} (hs : RawLoader.new db = .ok s) (env : Platform) (b : Build) {contents : Bytes} {big : Bool}
    {dirs : List Dir} {model : Bytes} {o : Option Nat} (h : CameraFile contents big dirs (b! "NIKON") model o)
    (hm : model = b! "COOLPIX P330" ∨ model = b! "COOLPIX B700") {img : RawImage} (hi : s.decodeSafe env b (.ok contents) = .ok img) :
    img.whitelevels = [0, 0, 0, 0] := by
  have h560 : model ≠ b! "DCS560C" := by rcases hm with rfl | rfl <;> decide
  have hcam : ∃ cam, s.checkSupportedWithEverything (b! "NIKON") model [] = .ok cam ∧ cam.whitelevels = [0, 0, 0, 0] ∧ cam.blacklevels = [0, 0, 0, 0] := by
    rcases hm with rfl | rfl
    · exact coolpix_levels hdb hs (i := 51) (by decide) (by decide +kernel) (by decide)
    · exact coolpix_levels hdb hs (i := 5) (by decide) (by decide +kernel) (by decide)
  obtain ⟨cam, h1, h2, -⟩ := hcam
  have hget : Map.get s.cameras (b! "NIKON", model, []) = some cam := by
    unfold RawLoader.checkSupportedWithEverything at h1
    split at h1
    · rename_i c hc
      injection h1 with h1
      rw [hc, h1]
    · exact absurd h1 (fail_ne_ok _ _)
  obtain ⟨root, d, e1, e2, e3, -, e5⟩ := camera_opens s b h (k := .nrw) (by decide) h560
  have hdec : d.image env b (contents ++ List.replicate 16 0) s = .ok img := by
    rw [(decode_results s env b contents).1 img] at hi
    unfold RawLoader.decode at hi
    dsimp only at hi
    rw [e1, ok_bind] at hi
    exact hi
  cases d <;> first | cases e2 | skip
  cases e3
  rw [← h2]
  exact nrw_white (cam := turned cam o) (e5 _ _ hget) hdec

/-! ## Colour matrices -/

theorem exact_value {i : Int} (h : exact i = true) : (F32.ofRat (i : ℚ)).val? = some (i : ℚ) := by
  by_cases h0 : i = 0
  · subst h0
    rw [Int.cast_zero, F32.ofRat_zero]
    rfl
  · have hr : Repr32 (i : ℚ) ∧ |i| ≤ 2 ^ 25 := by
      unfold exact at h
      simp only [Bool.or_eq_true, Bool.and_eq_true, decide_eq_true_eq] at h
      rcases h with h | ⟨h, h'⟩
      · exact ⟨repr32_int (by rw [Int.abs_eq_natAbs]; omega), by rw [Int.abs_eq_natAbs]; omega⟩
      · refine ⟨⟨i / 2, 1, ?_, by rw [Int.abs_eq_natAbs]; omega, by norm_num⟩, by rw [Int.abs_eq_natAbs]; omega⟩
        have : (i : ℚ) = ((i / 2 * 2 : Int) : ℚ) := by congr 1; omega
        rw [this]
        push_cast
        rw [show pow2 1 = 2 by unfold pow2; norm_num]
    rw [F32.ofRat_of_repr hr.1 (by exact_mod_cast h0) ?_]
    · rfl
    · have h2 : |(i : ℚ)| ≤ 2 ^ 25 := by exact_mod_cast hr.2
      exact lt_of_le_of_lt h2 (by rw [show pow2 128 = 2 ^ 128 from rfl]; norm_num)

theorem injective_of_det {a : Mat ℚ} (h : a 0 0 * (a 1 1 * a 2 2 - a 1 2 * a 2 1) - a 0 1 * (a 1 0 * a 2 2 - a 1 2 * a 2 0) + a 0 2 * (a 1 0 * a 2 1 - a 1 1 * a 2 0) ≠ 0) :
    Function.Injective (arr 4 3 a).mulVec := by
  have hd : (arr 3 3 a).det ≠ 0 := by
    rw [Matrix.det_fin_three]
    intro h0
    apply h
    rw [← h0]
    simp [arr]
    ring
  have hi := Matrix.mulVec_injective_iff_isUnit.mpr ((Matrix.isUnit_iff_isUnit_det _).mpr (isUnit_iff_ne_zero.mpr hd))
  intro x y hxy
  apply hi
  ext k
  have := congrFun hxy ⟨k, by omega⟩
  exact this

/-- **C86**. The colour matrix of every camera found holds exactly the integers of the file, and its columns are independent: the
hypothesis under which C42 and C51 hold. -/
theorem shipped_matrix {db : Toml} (h : IsShipped db) {s : RawLoader} (hs : RawLoader.new db = .ok s) {make model mode : Bytes} {cam : Camera}
    (hl : s.checkSupportedWithEverything make model mode = .ok cam) :
    ∃ m : Mat ℚ, (∀ i j, i < 4 → j < 3 → ∃ row x, cam.xyzToCam[i]? = some row ∧ row[j]? = some x ∧ x.val? = some (m i j)) ∧
      Function.Injective (arr 4 3 m).mulVec := by
  obtain ⟨t, v, hc, hv, hk, hd⟩ := shipped_variant h hs hl
  have hg := hc.matrices v hv
  unfold goodEntries at hg
  simp only [Bool.and_eq_true, List.all_eq_true, decide_eq_true_eq] at hg
  replace hg := hg.1
  refine ⟨fun i j => (intOf (v.item (b! "color_matrix") (3 * i + j)) : ℚ), fun i j hi hj => ?_, ?_⟩
  · have hx := hd.xyzToCam i j hi hj
    obtain ⟨row, h1, h2⟩ := Option.bind_eq_some_iff.mp hx
    refine ⟨row, _, h1, h2, exact_value (hg.1 _ ?_)⟩
    exact List.mem_map.mpr ⟨3 * i + j, List.mem_range.mpr (by omega), rfl⟩
  · apply injective_of_det
    have hdet := hg.2
    unfold entries Shipped.det at hdet
    simp only [List.range, List.range.loop, List.map] at hdet
    intro h0
    apply hdet
    exact_mod_cast h0

/-! ## Headerless files -/

theorem every_colour {name : Bytes} {cfa : CFA} (h : CFA.new name = .ok cfa) (h0 : name ≠ []) :
    ∃ colour : Nat → Nat → Nat, ∀ r c, patternColour name cfa.width cfa.height r c = some (colour r c) := by
  have hall : ∀ r c, ∃ v, patternColour name cfa.width cfa.height r c = some v := by
    intro r c
    obtain ⟨-, -, -, hsz⟩ := cfa_matches_name .release name cfa h h0 0 0 (by norm_num) (by norm_num)
    rcases patternSize_cases hsz with ⟨e, -⟩ | ⟨-, hw, hh, -, -, hw', hh'⟩
    · exact absurd (List.length_eq_zero_iff.mp e) h0
    · have h1 := Nat.mod_lt r hh
      have h2 := Nat.mod_lt c hw
      obtain ⟨v, -, hv, -⟩ := cfa_matches_name .release name cfa h h0 (r % cfa.height) (c % cfa.width) (by omega) (by omega)
      refine ⟨v, ?_⟩
      rw [← hv]
      unfold patternColour
      rw [Nat.mod_mod, Nat.mod_mod]
  choose colour hcol using hall
  exact ⟨colour, hcol⟩

/-- **C87**. Every headerless file with one of the sizes in the database is decoded: to a picture of the camera with that size, with the
pixels packed as its settings say, and with its black levels, measured or not. -/
theorem shipped_headerless {db : Toml} (hdb : IsShipped db) {s : RawLoader} (hs : RawLoader.new db = .ok s) (env : Platform) (b : Build) {contents : Bytes}
    (hh : Headerless b contents) {f : Nat} (hf : f ∈ Model.Shipped.files) {t : Table} (ht : readFile f = some t) {v : Variant} (hv : v ∈ variantsIn t)
    (h0 : 0 < v.filesize) (hlen : contents.length = v.filesize) :
    ∃ cam img blacks, v.Describes cam ∧ NakedPixels cam contents img ∧ BlacksOf cam cam.rawWidth cam.rawHeight img blacks ∧
      s.decodeSafe env b (.ok contents) = .ok (pictureOf cam .unknown cam.rawWidth cam.rawHeight [.nan, .nan, .nan, .nan] blacks (raster cam.rawWidth cam.rawHeight img)) := by
  have hdk := (shipped_loads hdb).1
  obtain ⟨order, rfl, hmem, hc, -, hn⟩ := shipped_order hdb
  have hto := (hmem t).mpr ⟨f, hf, ht⟩
  have hvo : v ∈ variants (joined order) := by
    rw [variants_joined]
    exact List.mem_flatMap.mpr ⟨t, hto, hv⟩
  obtain ⟨cams, hp, rfl⟩ := RawLoader.new_ok hdk hs
  have hiff : ∀ (v : Variant) (c : Camera), v.Describes c → ((0 < v.filesize ∧ v.filesize = contents.length) ↔ (0 < c.filesize ∧ c.filesize = contents.length)) := by
    intro v c hv
    rw [hv.filesize]
  rcases RawLoader.fold_naked contents.length cams ⟨[], []⟩ with ⟨cam, h1, h2⟩ | ⟨h1, -⟩
  · obtain ⟨w, ⟨pre, post, e, hw, -⟩, hdesc⟩ := paired_last hp hiff h2
    have hwo : w ∈ variants (joined order) := by rw [e]; simp
    have hvw : v = w := by
      refine eq_of_key (key := Variant.filesize) (p := fun n => decide (0 < n)) (l := variants (joined order)) ?_ hvo hwo (by omega) (by simpa using h0)
      rw [variants_joined, ← flatMap_filter_key]
      exact hn
    subst hvw
    have hg := (hc t hto).naked v hv
    unfold goodNaked at hg
    dsimp only at hg
    rw [if_neg (by omega)] at hg
    rw [← hdesc.rawWidth, ← hdesc.rawHeight, ← hdesc.filesize] at hg
    simp only [Bool.and_eq_true, decide_eq_true_eq] at hg
    obtain ⟨⟨⟨⟨⟨⟨⟨g1, g2⟩, g3⟩, g4⟩, g5⟩, g6⟩, g7⟩, g8⟩ := hg
    have hsize : cam.filesize = contents.length := by rw [hdesc.filesize, hlen]
    have hpix : ∃ img, NakedPixels cam contents img := by
      have hhint : cam.findHint (b! "12le_16bitaligned") = (itemsOf (v.setting (b! "hints"))).any (fun t => textOf (some t) = b! "12le_16bitaligned") := by
        unfold Camera.findHint
        rw [hdesc.hints, Bool.eq_iff_iff, List.contains_iff_mem, List.mem_map, List.any_eq_true]
        simp only [decide_eq_true_eq]
      rw [← hhint] at g8
      cases hfh : cam.findHint (b! "12le_16bitaligned") with
      | true =>
        rw [hfh, if_pos rfl] at g8
        simp only [Bool.and_eq_true, decide_eq_true_eq] at g8
        exact ⟨_, .aligned hfh g8.1 (by omega)⟩
      | false =>
        rw [hfh, if_neg (by decide)] at g8
        simp only [Bool.and_eq_true, Bool.or_eq_true, decide_eq_true_eq] at g8
        rcases g8 with g8 | g8
        · exact ⟨_, .ten hfh g8.1 g8.2⟩
        · exact ⟨_, .twelve hfh g8.1 g8.2⟩
    obtain ⟨img, hpix⟩ := hpix
    have hblack : ∃ blacks, BlacksOf cam cam.rawWidth cam.rawHeight img blacks := by
      by_cases hb : NoBlackAreas cam
      · exact ⟨_, Or.inl ⟨hb, rfl⟩⟩
      · obtain ⟨colour, hcol⟩ := every_colour hdesc.cfa g5
        refine ⟨_, Or.inr ⟨hb, _, colour, hdesc.cfa, g5, hcol, by omega, by omega, ?_, ?_, rfl⟩⟩
        · rw [hdesc.blackareah]; exact g6
        · rw [hdesc.blackareav]; exact g7
    obtain ⟨blacks, hblack⟩ := hblack
    refine ⟨cam, img, blacks, hdesc, hpix, hblack, ?_⟩
    rw [← hdesc.orientation]
    exact nkd_file _ env b hh h1 hsize g1 g3 hpix hblack
  · exact absurd ⟨h0, hlen.symm⟩ (paired_none hp hiff h1 v hvo)

section Examples

/-- A headerless file of the Pentax Optio S4, all black, is decoded to a picture with its white level. -/
example {db : Toml} (hdb : IsShipped db) {s : RawLoader} (hs : RawLoader.new db = .ok s) (env : Platform) (b : Build) :
    ∃ img, s.decodeSafe env b (.ok (List.replicate 6114240 0)) = .ok img ∧ img.make = b! "Pentax" ∧ img.width = 2346 ∧ img.height = 1737 := by
  have hfile : (Model.Shipped.pentax.find? fun f => (readFile f).any fun t => ownSizes t = [6114240]).any (fun f => (readFile f).any fun t =>
      (variantsIn t).any fun v => v.make = b! "Pentax" ∧ natOf (v.setting (b! "raw_width")) = 2346 ∧
        natOf (v.setting (b! "raw_height")) = 1737 ∧ v.filesize = 6114240) = true := by decide +kernel
  rw [Option.any_eq_true] at hfile
  obtain ⟨f, hf, hfile⟩ := hfile
  rw [Option.any_eq_true] at hfile
  obtain ⟨t, ht, hfile⟩ := hfile
  rw [List.any_eq_true] at hfile
  obtain ⟨v, hv, hfile⟩ := hfile
  simp only [decide_eq_true_eq] at hfile
  obtain ⟨e1, e2, e3, e4⟩ := hfile
  have hf : f ∈ Model.Shipped.files := by
    have hm := List.mem_of_find?_eq_some hf
    clear hf ht
    unfold Model.Shipped.files
    simp only [List.mem_append]
    tauto
  have hh : Headerless b (List.replicate 6114240 0) := ⟨by decide +kernel, Or.inl ⟨_, tiff_sniffing_safe b _ (by decide) (by decide) (by decide)⟩⟩
  obtain ⟨cam, img, blacks, hd, -, -, h⟩ := shipped_headerless hdb hs env b hh hf ht hv (by omega) (by rw [List.length_replicate, e4])
  exact ⟨_, h, by rw [← e1]; exact hd.make, by rw [← e2]; exact hd.rawWidth, by rw [← e3]; exact hd.rawHeight⟩

end Examples

end Props

import Verif.Lemmas.FileExample
import Verif.Lemmas.OpenFile
import Verif.Lemmas.Listed
import Verif.Lemmas.Reals
import Verif.Spec.DngFile
import Verif.Props.Tiles
import Verif.Props.Packed
import Verif.Props.Dither
import Verif.Props.Cfa
/-!
# C78: whole DNG files
-/

namespace Props
open Rust Spec Model

/-! ## Which directory -/

private theorem even_bit (v : Nat) : (v &&& 1 ≠ 0) ↔ v % 2 = 1 := by rw [Nat.and_one_is_mod]; omega

/-- What the filter says of a directory. -/
private theorem is_raw {d : Dir} {ifd : TiffIFD} (hh : Holds d ifd) {c : Nat} (hc : d.Compressed c) :
    (d.Full → Dng.isRaw ifd = .ok (decide (c ∈ dngCompressions))) ∧ (d.Reduced → Dng.isRaw ifd = .ok false) := by
  obtain ⟨_, t, hn⟩ := hc
  obtain ⟨ent, e1, _, e2, _⟩ := find_numbers hh (tag := 0x103) (by decide) hn
  have hcomp : (c == 7 || c == 1 || c == 0x884c) = decide (c ∈ dngCompressions) := by
    rw [Bool.eq_iff_iff]
    unfold dngCompressions
    simp only [Bool.or_eq_true, beq_iff_eq, decide_eq_true_eq, List.mem_cons, List.not_mem_nil, or_false]
    omega
  have h0 := e2 0 (by simp)
  simp only [List.getElem_cons_zero] at h0
  unfold Dng.isRaw
  rw [show TiffIFD.findEntry Tag.Compression ifd = some ent from e1]
  dsimp only
  rw [h0]
  simp only [ok_bind]
  constructor
  · rintro (hl | ⟨v, t', hv, hm⟩)
    · rw [show TiffIFD.findEntry Tag.NewSubFileType ifd = none from find_lacks hh hl]
      simp only [ok_bind]
      rw [hcomp]
      rfl
    · obtain ⟨ent', g1, _, g2, _⟩ := find_numbers hh (tag := 0xfe) (by decide) hv
      have g0 := g2 0 (by simp)
      simp only [List.getElem_cons_zero] at g0
      rw [show TiffIFD.findEntry Tag.NewSubFileType ifd = some ent' from g1]
      dsimp only
      rw [g0]
      simp only [ok_bind]
      rw [show decide (v &&& 1 ≠ 0) = false by rw [decide_eq_false_iff_not, even_bit]; omega, hcomp]
      rfl
  · rintro ⟨v, t', hv, hm⟩
    obtain ⟨ent', g1, _, g2, _⟩ := find_numbers hh (tag := 0xfe) (by decide) hv
    have g0 := g2 0 (by simp)
    simp only [List.getElem_cons_zero] at g0
    rw [show TiffIFD.findEntry Tag.NewSubFileType ifd = some ent' from g1]
    dsimp only
    rw [g0]
    simp only [ok_bind]
    rw [show decide (v &&& 1 ≠ 0) = true by rw [decide_eq_true_iff, even_bit]; omega]
    rfl

private def passes (ifd : TiffIFD) : Bool := match Dng.isRaw ifd with | .ok x => x | .error _ => false

/-- The directories are filtered without incident. -/
private theorem dng_filter {root : Dir} {tree : TiffIFD} (hh : Holds root tree)
    (hs : ∀ d, Below Dir.subdirs root d → (d.field 0x103).isSome = true → (∃ c, d.Compressed c) ∧ (d.Reduced ∨ d.Full)) :
    (tree.findIfdsWithTag Tag.Compression).filterM Dng.isRaw = .ok ((tree.findIfdsWithTag Tag.Compression).filter passes) := by
  apply filterM_ok
  intro x hx
  rw [TiffIFD.findIfds_mem] at hx
  obtain ⟨⟨p, hp⟩, hk⟩ := hx
  obtain ⟨d, hd, hhd⟩ := (holds_path hh p).2 x hp
  obtain ⟨⟨c, hc⟩, hm⟩ := hs d ⟨p, hd⟩ ((present_iff hhd (by decide)).mp hk)
  obtain ⟨h1, h2⟩ := is_raw hhd hc
  unfold passes
  rcases hm with hm | hm
  · rw [h2 hm]
  · rw [h1 hm]

/-- **C78**, the directory of the picture. -/
theorem dng_raw_found {root raw : Dir} {tree : TiffIFD} (hh : Holds root tree) {compression : Nat} (h : DngRaw root raw compression) :
    ∃ ifd ifds, (tree.findIfdsWithTag Tag.Compression).filterM Dng.isRaw = .ok ifds ∧ idx ifds 0 = .ok ifd ∧ Holds raw ifd := by
  obtain ⟨path, hpath, hbefore⟩ := h.first
  obtain ⟨ifd, hifd, hhr⟩ := (holds_path hh path).1 raw hpath
  refine ⟨ifd, _, dng_filter hh h.sane, ?_, hhr⟩
  rw [idx_eq_ok]
  have hfirst : FirstIn TiffIFD.subifds (passing Tag.Compression passes) tree ifd := by
    refine ⟨path, ifd, hifd, ?_, ?_⟩
    · unfold passing
      rw [if_pos]
      rw [Bool.and_eq_true]
      refine ⟨(present_iff hhr (by decide)).mpr h.compressed.1, ?_⟩
      unfold passes
      rw [(is_raw hhr h.compressed).1 h.full]
      exact decide_eq_true h.listed
    · intro q c hq hc
      obtain ⟨d, hd, hhd⟩ := (holds_path hh q).2 c hc
      unfold passing
      rw [if_neg]
      rw [Bool.and_eq_true]
      rintro ⟨hk, hp⟩
      obtain ⟨⟨c', hc'⟩, hm⟩ := h.sane d ⟨q, hd⟩ ((present_iff hhd (by decide)).mp hk)
      obtain ⟨g1, g2⟩ := is_raw hhd hc'
      unfold passes at hp
      rcases hbefore q d hq hd with hr | hr
      · rw [g2 hr] at hp; cases hp
      · rcases hm with hm | hm
        · rw [g2 hm] at hp; cases hp
        · rw [g1 hm] at hp
          exact hr c' hc' (of_decide_eq_true hp)
  have hl := listed_head Tag.Compression passes tree
  cases hr : ((TiffIFD.findIfdsWithTag Tag.Compression tree).filter passes)[0]? with
  | none => rw [hr] at hl; exact absurd hfirst (noneIn_not_firstIn hl)
  | some x => rw [hr] at hl; rw [firstIn_unique hl hfirst]

/-! ## What the directories say -/

/-- The multipliers are the reciprocals of the colour of white, unless it is missing. -/
def DngBalance (root : Dir) (wb : List F32) : Prop :=
  root.Lacks 0xc628 ∧ wb = [.nan, .nan, .nan, .nan] ∨
  ∃ red green blue t, Dir.Reals root 0xc628 (red :: green :: blue :: t) ∧ wb = [(F32.ofNat 1).div red, (F32.ofNat 1).div green, (F32.ofNat 1).div blue, .nan]

/-- The black levels: none stored, fewer than four (only the first counts), or four and more. -/
def DngBlacks (raw : Dir) (blacks : List Nat) : Prop :=
  raw.Lacks 0xc61a ∧ blacks = [0, 0, 0, 0] ∨
  (∃ v t, Dir.Reals raw 0xc61a (v :: t) ∧ t.length < 3 ∧ blacks = List.replicate 4 (v.toUnsigned 16)) ∨
  ∃ v0 v1 v2 v3 t, Dir.Reals raw 0xc61a (v0 :: v1 :: v2 :: v3 :: t) ∧ blacks = [v0.toUnsigned 16, v1.toUnsigned 16, v2.toUnsigned 16, v3.toUnsigned 16]

/-- A stored level. -/
theorem dng_level {x y : Nat} (hx : x < 2 ^ 24) (h0 : 0 < y) (hy : y ≤ 2 ^ 24) (hq : x / y ≤ 65535) :
    ((F32.ofNat x).div (F32.ofNat y)).toUnsigned 16 = x / y := quotient_level hx h0 hy hq

/-- A matrix of four rows of three, from the numbers stored row after row. -/
def dngRows (l : List F32) : List (List F32) :=
  (List.range 4).map fun r => (List.range 3).map fun c => (l[3 * r + c]?).getD (.zero false)

/-- The matrix of the second illuminant, or else of the first, or else that of sRGB. -/
def DngMatrix (root : Dir) (m : List (List F32)) : Prop :=
  (∃ l, Dir.Reals root 0xc622 l ∧ l.length ≤ 12 ∧ m = dngRows l) ∨
  root.Lacks 0xc622 ∧ (∃ l, Dir.Reals root 0xc621 l ∧ l.length ≤ 12 ∧ m = dngRows l) ∨
  root.Lacks 0xc622 ∧ root.Lacks 0xc621 ∧ m =
    [[F32.ofRat 0.412453, F32.ofRat 0.357580, F32.ofRat 0.180423], [F32.ofRat 0.212671, F32.ofRat 0.715160, F32.ofRat 0.072169],
     [F32.ofRat 0.019334, F32.ofRat 0.119193, F32.ofRat 0.950227], [.zero false, .zero false, .zero false]]

/-- The colours: none for a picture that has all of them at every place, else those of the stored pattern. -/
def DngColours (raw : Dir) (cfa : CFA) : Prop :=
  (∃ t, raw.Numbers 0x106 (34892 :: t)) ∧ CFA.new [] = .ok cfa ∨
  (∃ p t, raw.Numbers 0x106 (p :: t) ∧ p ≠ 34892) ∧ ∃ pattern, raw.Numbers 0x828e pattern ∧ (∀ v ∈ pattern, v < 3) ∧ CFA.new (pattern.map patternLetter) = .ok cfa

private theorem letter_colour {v : Nat} (h : v < 3) : letterColour (patternLetter v) = some v := by
  revert v
  decide

/-- A pattern of a possible size is accepted, and its colours repeat over the picture. -/
theorem dng_pattern (b : Build) (pattern : List Nat) (hv : ∀ v ∈ pattern, v < 3) {w h : Nat} (hsize : patternSize pattern.length = some (w, h)) (hw : 0 < w) :
    ∃ cfa, CFA.new (pattern.map patternLetter) = .ok cfa ∧ ∀ row col, row + 48 < 2 ^ 64 → col + 48 < 2 ^ 64 →
      ∃ v, cfa.colorAt b row col = .ok v ∧ pattern[row % h * w + col % w]? = some v := by
  obtain ⟨p, h1, _⟩ := cfa_new_cells (pattern.map patternLetter) w h (by rw [List.length_map]; exact hsize) hw (by
    intro c hc
    obtain ⟨v, hm, rfl⟩ := List.mem_map.mp hc
    rw [letter_colour (hv v hm)]
    rfl)
  refine ⟨_, h1, fun row col hr hc => ?_⟩
  have h0 : pattern.map patternLetter ≠ [] := by
    intro hn
    rw [List.map_eq_nil_iff] at hn
    rw [hn] at hsize
    simp [patternSize] at hsize
    omega
  obtain ⟨v, e1, e2, _⟩ := cfa_matches_name b _ _ h1 h0 row col hr hc
  refine ⟨v, e1, ?_⟩
  unfold patternColour at e2
  dsimp only at e2
  rw [List.getElem?_map] at e2
  cases hx : pattern[row % h * w + col % w]? with
  | none => rw [hx] at e2; cases e2
  | some x =>
    rw [hx] at e2
    change letterColour (patternLetter x) = some v at e2
    rw [letter_colour (hv x (List.mem_of_getElem? hx))] at e2
    exact e2

private theorem dng_wb {root : Dir} {tree : TiffIFD} (hh : Holds root tree) {wb : List F32} (h : DngBalance root wb) : Dng.getWb tree = .ok wb := by
  unfold Dng.getWb
  rcases h with ⟨hl, rfl⟩ | ⟨red, green, blue, t, hr, rfl⟩
  · rw [show TiffIFD.findEntry Tag.AsShotNeutral tree = none from find_lacks hh hl]
    rfl
  · obtain ⟨ent, e1, e2, e3⟩ := find_reals hh (tag := 0xc628) (by decide) hr
    rw [show TiffIFD.findEntry Tag.AsShotNeutral tree = some ent from e1]
    dsimp only
    rw [e3 0 (by simp), ok_bind, e3 1 (by simp), ok_bind, e3 2 (by simp), ok_bind]
    rfl

private theorem dng_black {raw : Dir} {ifd : TiffIFD} (hh : Holds raw ifd) {blacks : List Nat} (h : DngBlacks raw blacks) : Dng.getBlacklevels ifd = .ok blacks := by
  unfold Dng.getBlacklevels
  rcases h with ⟨hl, rfl⟩ | ⟨v, t, hr, ht, rfl⟩ | ⟨v0, v1, v2, v3, t, hr, rfl⟩
  · rw [show TiffIFD.findEntry Tag.BlackLevels ifd = none from find_lacks hh hl]
  · obtain ⟨ent, e1, e2, e3⟩ := find_reals hh (tag := 0xc61a) (by decide) hr
    rw [show TiffIFD.findEntry Tag.BlackLevels ifd = some ent from e1]
    dsimp only
    rw [if_pos (by rw [e2, List.length_cons]; omega), e3 0 (by simp)]
    rfl
  · obtain ⟨ent, e1, e2, e3⟩ := find_reals hh (tag := 0xc61a) (by decide) hr
    rw [show TiffIFD.findEntry Tag.BlackLevels ifd = some ent from e1]
    dsimp only
    rw [if_neg (by rw [e2]; simp), e3 0 (by simp), ok_bind, e3 1 (by simp), ok_bind, e3 2 (by simp), ok_bind, e3 3 (by simp)]
    rfl

private theorem set_row (pre : List F32) (hl : pre.length < 12) (x : F32) :
    setIdx2 (dngRows pre) (pre.length / 3) (pre.length % 3) x = .ok (dngRows (pre ++ [x])) := by
  match pre, hl with
  | [], _ => rfl
  | [_a0], _ => simp only [List.length_cons, List.length_nil, Nat.reduceAdd, Nat.reduceDiv, Nat.reduceMod]; rfl
  | [_a0, _a1], _ => simp only [List.length_cons, List.length_nil, Nat.reduceAdd, Nat.reduceDiv, Nat.reduceMod]; rfl
  | [_a0, _a1, _a2], _ => simp only [List.length_cons, List.length_nil, Nat.reduceAdd, Nat.reduceDiv, Nat.reduceMod]; rfl
  | [_a0, _a1, _a2, _a3], _ => simp only [List.length_cons, List.length_nil, Nat.reduceAdd, Nat.reduceDiv, Nat.reduceMod]; rfl
  | [_a0, _a1, _a2, _a3, _a4], _ => simp only [List.length_cons, List.length_nil, Nat.reduceAdd, Nat.reduceDiv, Nat.reduceMod]; rfl
  | [_a0, _a1, _a2, _a3, _a4, _a5], _ => simp only [List.length_cons, List.length_nil, Nat.reduceAdd, Nat.reduceDiv, Nat.reduceMod]; rfl
  | [_a0, _a1, _a2, _a3, _a4, _a5, _a6], _ => simp only [List.length_cons, List.length_nil, Nat.reduceAdd, Nat.reduceDiv, Nat.reduceMod]; rfl
  | [_a0, _a1, _a2, _a3, _a4, _a5, _a6, _a7], _ => simp only [List.length_cons, List.length_nil, Nat.reduceAdd, Nat.reduceDiv, Nat.reduceMod]; rfl
  | [_a0, _a1, _a2, _a3, _a4, _a5, _a6, _a7, _a8], _ => simp only [List.length_cons, List.length_nil, Nat.reduceAdd, Nat.reduceDiv, Nat.reduceMod]; rfl
  | [_a0, _a1, _a2, _a3, _a4, _a5, _a6, _a7, _a8, _a9], _ => simp only [List.length_cons, List.length_nil, Nat.reduceAdd, Nat.reduceDiv, Nat.reduceMod]; rfl
  | [_a0, _a1, _a2, _a3, _a4, _a5, _a6, _a7, _a8, _a9, _a10], _ => simp only [List.length_cons, List.length_nil, Nat.reduceAdd, Nat.reduceDiv, Nat.reduceMod]; rfl
  | _ :: _ :: _ :: _ :: _ :: _ :: _ :: _ :: _ :: _ :: _ :: _ :: t, h => simp only [List.length_cons] at h; omega

private theorem matrix_rows {ent : TiffEntry} {l : List F32} (hc : ent.count = l.length) (hl : l.length ≤ 12) (hv : ∀ i (hi : i < l.length), ent.getF32 i = .ok l[i]) :
    (if ent.count > 12 then fail "color matrix has too many components"
    else forRange 0 ent.count (fun i m => do
      let v ← ent.getF32 i
      setIdx2 m (i / 3) (i % 3) v) (List.replicate 4 (List.replicate 3 (F32.zero false)))) = .ok (dngRows l) := by
  rw [if_neg (by omega), hc]
  obtain ⟨m, h1, h2⟩ := forRange_inv (lo := 0) (hi := l.length) (P := fun n m => m = dngRows (l.take n))
    (f := fun i m => do
      let v ← ent.getF32 i
      setIdx2 m (i / 3) (i % 3) v) (s := List.replicate 4 (List.replicate 3 (F32.zero false))) (Nat.zero_le _) rfl (by
    intro i m _ hi hm
    rw [hv i hi, ok_bind, hm]
    have hi12 : i < 12 := by omega
    have htake : l.take (i + 1) = l.take i ++ [l[i]] := by rw [List.take_succ_eq_append_getElem hi]
    have hlen : (l.take i).length = i := by rw [List.length_take]; omega
    rw [htake]
    have hset := set_row (l.take i) (by omega) l[i]
    rw [hlen] at hset
    exact ⟨_, hset, rfl⟩)
  rw [h1, h2, List.take_length]

private theorem dng_matrix {root : Dir} {tree : TiffIFD} (hh : Holds root tree) {m : List (List F32)} (h : DngMatrix root m) : Dng.getColorMatrix tree = .ok m := by
  unfold Dng.getColorMatrix
  dsimp only
  rcases h with ⟨l, hr, hl, rfl⟩ | ⟨hn, l, hr, hl, rfl⟩ | ⟨hn, hn', rfl⟩
  · obtain ⟨ent, e1, e2, e3⟩ := find_reals hh (tag := 0xc622) (by decide) hr
    rw [show TiffIFD.findEntry Tag.ColorMatrix2 tree = some ent from e1]
    exact matrix_rows e2 hl e3
  · obtain ⟨ent, e1, e2, e3⟩ := find_reals hh (tag := 0xc621) (by decide) hr
    rw [show TiffIFD.findEntry Tag.ColorMatrix2 tree = none from find_lacks hh hn, show TiffIFD.findEntry Tag.ColorMatrix1 tree = some ent from e1]
    exact matrix_rows e2 hl e3
  · rw [show TiffIFD.findEntry Tag.ColorMatrix2 tree = none from find_lacks hh hn, show TiffIFD.findEntry Tag.ColorMatrix1 tree = none from find_lacks hh hn']
    norm_num

private theorem dng_cfa {raw : Dir} {ifd : TiffIFD} (hh : Holds raw ifd) {cfa : CFA} (h : DngColours raw cfa) :
    ∃ p, fetchUsize ifd Tag.PhotometricInt = .ok p ∧ (if p = 34892 then CFA.new [] else Dng.getCfa ifd) = .ok cfa := by
  rcases h with ⟨⟨t, hp⟩, hc⟩ | ⟨⟨p, t, hp, hne⟩, pattern, hn, hv, hc⟩
  · exact ⟨34892, fetch_number hh (by decide) hp, by rw [if_pos rfl]; exact hc⟩
  · refine ⟨p, fetch_number hh (by decide) hp, ?_⟩
    obtain ⟨ent, e1, e2, e3, _⟩ := find_numbers hh (tag := 0x828e) (by decide) hn
    rw [if_neg hne]
    unfold Dng.getCfa TiffIFD.fetchTag
    rw [show TiffIFD.findEntry Tag.CFAPattern ifd = some ent from e1]
    simp only [ok_bind]
    have hvals : (List.range ent.count).mapM ent.getU32 = .ok pattern := by
      rw [mapM_ok _ (fun i => (pattern[i]?).getD 0) _ (fun i hi => by
        rw [List.mem_range, e2] at hi
        rw [e3 i hi, List.getElem?_eq_getElem hi]
        rfl)]
      congr 1
      rw [e2]
      apply List.ext_getElem (by simp)
      intro i h1 h2
      rw [List.getElem_map, List.getElem_range, List.getElem?_eq_getElem h2]
      rfl
    rw [hvals, ok_bind, show CFA.tagName pattern = pattern.map patternLetter from ?_, hc]
    unfold CFA.tagName
    apply List.map_congr_left
    intro v hm
    have := hv v hm
    unfold patternLetter
    rcases (by omega : v = 0 ∨ v = 1 ∨ v = 2) with rfl | rfl | rfl <;> rfl

private theorem dng_crops (b : Build) {raw : Dir} {ifd : TiffIFD} (hh : Holds raw ifd) {w h : Nat} {crops : List Nat} (hc : DngBorders raw w h crops) :
    Dng.getCrops b ifd w h = .ok crops := by
  unfold Dng.getCrops
  rcases hc with ⟨hl, rfl⟩ | ⟨top, left, bottom, right, t, hn, hr, hb, rfl⟩
  · rw [show TiffIFD.findEntry Tag.ActiveArea ifd = none from find_lacks hh hl]
  · obtain ⟨ent, e1, e2, e3, _⟩ := find_numbers hh (tag := 0xc68d) (by decide) hn
    rw [show TiffIFD.findEntry Tag.ActiveArea ifd = some ent from e1]
    dsimp only
    rw [e3 0 (by simp), ok_bind, e3 3 (by simp), ok_bind, subU_ok (by exact hr), ok_bind, e3 2 (by simp), ok_bind, subU_ok (by exact hb), ok_bind, e3 1 (by simp), ok_bind]
    rfl

/-- The names given to a camera: those of the database or, for a camera it does not have, those in the file. -/
def dngNames (s : RawLoader) (make model : Bytes) : Bytes × Bytes × Bytes × Bytes :=
  match Map.get s.cameras (make, model, []) with
  | some cam => (cam.make, cam.model, cam.cleanMake, cam.cleanModel)
  | none => (make, model, make, model)

private theorem dng_identify (s : RawLoader) {contents : Bytes} {big : Bool} {dirs : List Dir} {make model : Bytes} {o : Option Nat}
    (h : DngFile contents big dirs make model o) {root : TiffIFD} (hh : Holds (fileRoot big dirs) root) :
    Dng.identify root s = .ok ((dngNames s make model).1, (dngNames s make model).2.1, (dngNames s make model).2.2.1, (dngNames s make model).2.2.2, orientationOf o) := by
  obtain ⟨emake, m1, m2⟩ := fetch_text hh (tag := 0x10f) (by decide) h.make
  obtain ⟨emodel, n1, n2⟩ := fetch_text hh (tag := 0x110) (by decide) h.model
  have ho : RawLoader.orientationFromTiff root = .ok (orientationOf o) := by
    rw [orientation_read hh h.orientation]
    cases o <;> rfl
  unfold Dng.identify RawLoader.checkSupported RawLoader.checkSupportedWithMode RawLoader.checkSupportedWithEverything TiffIFD.fetchTag
  rw [show TiffIFD.findEntry Tag.Make root = some emake from m1, show TiffIFD.findEntry Tag.Model root = some emodel from n1]
  simp only [ok_bind]
  rw [m2]
  simp only [ok_bind]
  rw [n2]
  simp only [ok_bind]
  unfold dngNames
  cases hcam : Map.get s.cameras (make, model, []) with
  | some cam =>
    simp only [ok_bind]
    rw [ho]
    rfl
  | none =>
    simp only [fail, error_bind]
    rw [ho]
    rfl

/-! ## The samples -/

/-- How the samples are stored, for pictures of `w` by `h` pixels of `cpp` samples: `W = w * cpp` samples a line. -/
inductive DngPixels (contents : Bytes) (root raw : Dir) (compression w h cpp : Nat) : (Nat → Nat → Nat) → Prop
  /-- 16-bit words, little endian in every file. -/
  | words {offset : Nat} {t t' : List Nat} (hc : compression = 1) (pos : raw.Numbers 0x111 (offset :: t)) (bits : raw.Numbers 0x102 (16 :: t'))
      (room : offset + 2 * (w * cpp * h) ≤ contents.length) :
      DngPixels contents root raw compression w h cpp (fun r c => bytesOf contents (offset + 2 * (r * (w * cpp) + c)) + 256 * bytesOf contents (offset + 2 * (r * (w * cpp) + c) + 1))
  /-- Packed 12-bit samples, the high bits first. -/
  | twelve {offset : Nat} {t t' : List Nat} (hc : compression = 1) (pos : raw.Numbers 0x111 (offset :: t)) (bits : raw.Numbers 0x102 (12 :: t'))
      (even : w * cpp % 2 = 0) (room : offset + w * cpp * h * 12 / 8 ≤ contents.length) :
      DngPixels contents root raw compression w h cpp (fun r c => fieldMSB (bytesOf contents) (8 * offset + 12 * (r * (w * cpp) + c)) 12)
  /-- Packed 10-bit samples; of every four, the third is put together from its last four bits and the six before them. -/
  | ten {offset : Nat} {t t' : List Nat} (hc : compression = 1) (pos : raw.Numbers 0x111 (offset :: t)) (bits : raw.Numbers 0x102 (10 :: t'))
      (four : w * cpp % 4 = 0) (room : offset + w * cpp * h * 10 / 8 ≤ contents.length) :
      DngPixels contents root raw compression w h cpp (fun r c =>
        if c % 4 = 2 then fieldMSB (bytesOf contents) (8 * offset + 10 * (r * (w * cpp) + c)) 4 * 64 + fieldMSB (bytesOf contents) (8 * offset + (10 * (r * (w * cpp) + c) - 4)) 6
        else fieldMSB (bytesOf contents) (8 * offset + 10 * (r * (w * cpp) + c)) 10)
  /-- Bytes, looked up in a table of 256 entries and dithered. -/
  | eight {offset : Nat} {t t' table rest : List Nat} (hc : compression = 1) (pos : raw.Numbers 0x111 (offset :: t)) (bits : raw.Numbers 0x102 (8 :: t'))
      (curve : root.Numbers 0xc618 (table ++ rest)) (full : table.length = 256) (small : ∀ v ∈ table, v < 65536) (smooth : ∀ i, i < table.length → gentle table i)
      (room : offset + w * cpp * h ≤ contents.length) :
      DngPixels contents root raw compression w h cpp (fun r c =>
        dithered (table[bytesOf contents (offset + (r * (w * cpp) + c))]?.getD 0)
          (above table (bytesOf contents (offset + (r * (w * cpp) + c))) - below table (bytesOf contents (offset + (r * (w * cpp) + c))))
          (mwcAfter (bytesOf contents (offset + (r * (w * cpp) + 3)) * 16777216 + bytesOf contents (offset + (r * (w * cpp) + 2)) * 65536 +
            bytesOf contents (offset + (r * (w * cpp) + 1)) * 256 + bytesOf contents (offset + r * (w * cpp))) c))
  /-- One lossless JPEG picture of `n` components, at least as large. -/
  | strip {offset m n w' h' : Nat} {j : Nat → Nat → Nat → Nat} {img : Nat → Nat → Nat} (hc : compression = 7) (pos : raw.Numbers 0x111 [offset])
      (components : 2 ≤ n ∧ n ≤ 4) (whole : w * cpp = m * n) (large : m ≤ w' ∧ h ≤ h') (room : offset ≤ contents.length) (jpeg : BeginsWithJpeg n h' w' j (contents.drop offset))
      (same : ∀ r p k, r < h → p < m → k < n → j r p k = img r (p * n + k)) :
      DngPixels contents root raw compression w h cpp img
  /-- Tiles, each a lossless JPEG picture of `n` components. -/
  | tiles {offsets t t' : List Nat} {m n tw tw' tl : Nat} {img : Nat → Nat → Nat} (hc : compression = 7) (strips : raw.Lacks 0x111) (pos : raw.Numbers 0x144 offsets)
      (width : raw.Numbers 0x142 (tw' :: t)) (length : raw.Numbers 0x143 (tl :: t')) (components : 2 ≤ n ∧ n ≤ 4) (four : n = 4 → m ≤ tw)
      (whole : w * cpp = m * n) (wholeTile : tw' * cpp = tw * n) (positive : 0 < tw ∧ 0 < tl)
      (count : offsets.length = ((m + tw - 1) / tw) * ((h + tl - 1) / tl))
      (each : ∀ row col, row * tl < h → col * tw < m → ∃ off j, offsets[row * ((m + tw - 1) / tw) + col]? = some off ∧ off ≤ contents.length ∧
        BeginsWithJpeg n tl tw j (contents.drop off) ∧
        ∀ r p k, r < tl → p < tw → k < n → row * tl + r < h → col * tw + p < m → j r p k = img (row * tl + r) ((col * tw + p) * n + k)) :
      DngPixels contents root raw compression w h cpp img

/-- **C78**, the samples. -/
theorem dng_pixels (b : Build) {contents : Bytes} {root raw : Dir} {tree ifd : TiffIFD} (hh : Holds root tree) (hr : Holds raw ifd) {compression w h cpp : Nat} {img : Nat → Nat → Nat}
    (hc : raw.Compressed compression) (hw : 0 < w) (hh0 : 0 < h) (hcpp : 0 < cpp) (hp : DngPixels contents root raw compression w h cpp img) :
    Dng.pixels b (contents ++ List.replicate 16 0) tree ifd w h cpp = .ok (raster (w * cpp) h img) := by
  have hW : 0 < w * cpp := Nat.mul_pos hw hcpp
  unfold Dng.pixels
  rw [show fetchUsize ifd Tag.Compression = _ from fetch_number hr (by decide) hc.2.choose_spec, ok_bind]
  cases hp with
  | words hc pos bits room =>
    rename_i offset t t'
    rw [if_pos hc]
    unfold Dng.decodeUncompressed
    rw [show fetchUsize ifd Tag.StripOffsets = _ from fetch_number hr (by decide) pos, ok_bind, sliceFrom_le (by simp; omega), ok_bind,
      show fetchUsize ifd Tag.BitsPerSample = _ from fetch_number hr (by decide) bits, ok_bind, if_pos rfl, decode_16le_exact _ _ _ hW (by simp; omega)]
    refine congrArg Except.ok (raster_congr fun r c _ _ => ?_)
    rw [bytes_from_offset, bytes_from_offset, Nat.add_assoc offset]
  | twelve hc pos bits even room =>
    rename_i offset t t'
    rw [if_pos hc]
    unfold Dng.decodeUncompressed
    rw [show fetchUsize ifd Tag.StripOffsets = _ from fetch_number hr (by decide) pos, ok_bind, sliceFrom_le (by simp; omega), ok_bind,
      show fetchUsize ifd Tag.BitsPerSample = _ from fetch_number hr (by decide) bits, ok_bind, if_neg (by decide), if_pos rfl,
      decode_12be_exact _ _ _ hW even (by simp; omega)]
    refine congrArg Except.ok (raster_congr fun r c _ _ => ?_)
    rw [field_at]
  | ten hc pos bits four room =>
    rename_i offset t t'
    rw [if_pos hc]
    unfold Dng.decodeUncompressed
    rw [show fetchUsize ifd Tag.StripOffsets = _ from fetch_number hr (by decide) pos, ok_bind, sliceFrom_le (by simp; omega), ok_bind,
      show fetchUsize ifd Tag.BitsPerSample = _ from fetch_number hr (by decide) bits, ok_bind, if_neg (by decide), if_neg (by decide), if_pos rfl,
      decode_10le_exact_partial _ _ _ hW four (by simp; omega)]
    refine congrArg Except.ok (raster_congr fun r c _ _ => ?_)
    simp only [field_at]
  | eight hc pos bits curve full small smooth room =>
    rename_i offset t t' table rest
    rw [if_pos hc]
    unfold Dng.decodeUncompressed
    obtain ⟨ent, e1, e2, e3, _⟩ := find_numbers hh (tag := 0xc618) (by decide) curve
    have htab := table_read full small e3
    have hexact := decode_8bit_wtable_exact b table full smooth ((contents ++ List.replicate 16 0).drop offset) (w * cpp) h hW (by simp; omega) (by
      intro _
      rw [Nat.sub_mul, Nat.one_mul, Nat.mul_comm h]
      have : w * cpp ≤ w * cpp * h := Nat.le_mul_of_pos_right _ hh0
      simp
      omega)
    rw [show fetchUsize ifd Tag.StripOffsets = _ from fetch_number hr (by decide) pos, ok_bind, sliceFrom_le (by simp; omega), ok_bind,
      show fetchUsize ifd Tag.BitsPerSample = _ from fetch_number hr (by decide) bits, ok_bind, if_neg (by decide), if_neg (by decide), if_neg (by decide), if_pos rfl]
    unfold TiffIFD.fetchTag
    rw [show TiffIFD.findEntry Tag.Linearization tree = some ent from e1]
    simp only [ok_bind]
    unfold Dng.curve8
    rw [htab, ok_bind, hexact]
    refine congrArg Except.ok (raster_congr fun r c _ _ => ?_)
    simp only [bytes_from_offset]
  | strip hc pos components whole large room jpeg same =>
    rename_i offset m n w' h' j
    rw [if_neg (by omega), if_pos hc]
    unfold Dng.decodeCompressed
    obtain ⟨ent, e1, e2, e3, _⟩ := find_numbers hr (tag := 0x111) (by decide) pos
    obtain ⟨precision, pt, id, tab, tail, hp, hpt, hsz, hid, ht, himg, hcat, hlong, hbytes⟩ := begins_pad 16 jpeg
    have hm : 0 < m := by
      rcases Nat.eq_zero_or_pos m with h0 | h0
      · rw [h0, Nat.zero_mul] at whole; omega
      · exact h0
    obtain ⟨d, out, k1, k2, k3, k4, k5⟩ := ljpeg_round_trip b false precision pt h' w' n id tab j tail hp.1 hp.2 hpt.1 hpt.2 hsz.1 hsz.2 components.1 components.2 hid.1 hid.2 ht himg hcat hlong
      (List.replicate (m * n * h) 0) 0 (m * n) m h hh0 large.2 hm large.1 (Nat.le_refl _) (fun _ => ⟨rfl, rfl⟩) (by
        rw [List.length_replicate, Nat.add_zero]
        obtain ⟨q, rfl⟩ : ∃ q, h = q + 1 := ⟨h - 1, by omega⟩
        rw [Nat.add_sub_cancel, Nat.mul_comm (m * n), Nat.add_mul, Nat.one_mul])
    rw [show TiffIFD.findEntry Tag.StripOffsets ifd = some ent from e1]
    dsimp only
    rw [if_neg (by rw [e2]; simp), e3 0 (by simp), ok_bind]
    simp only [List.getElem_cons_zero]
    rw [sliceFrom_le (by simp; omega), ok_bind, List.drop_append_of_le_length room, hbytes]
    unfold Ljpeg.new
    rw [k1, ok_bind, whole, k4]
    congr 1
    apply List.ext_getElem?
    intro i
    have hn0 : 0 < m * n := by omega
    by_cases hi : i < m * n * h
    · have hi' : i = i / (m * n) * (m * n) + i % (m * n) := by rw [Nat.mul_comm]; exact (Nat.div_add_mod i (m * n)).symm
      have hmod := Nat.mod_lt i hn0
      have hrow : i / (m * n) < h := by rw [Nat.div_lt_iff_lt_mul hn0, Nat.mul_comm]; exact hi
      generalize i / (m * n) = r at hi' hrow
      generalize i % (m * n) = c at hi' hmod
      subst hi'
      have hc' : c = c / n * n + c % n := by rw [Nat.mul_comm]; exact (Nat.div_add_mod c n).symm
      have hk : c % n < n := Nat.mod_lt _ (by omega)
      have hpp : c / n < m := by rw [Nat.div_lt_iff_lt_mul (by omega)]; exact hmod
      have hdone := k5.done r (c / n) (c % n) hrow hpp hk
      rw [Nat.add_zero, Nat.add_assoc, ← hc'] at hdone
      rw [raster_getElem? _ _ _ _ _ hrow hmod]
      have hsame := same r (c / n) (c % n) hrow hpp hk
      rw [← hc'] at hsame
      rw [← hsame]
      exact hdone
    · have hlen := k5.len
      rw [List.length_replicate] at hlen
      rw [List.getElem?_eq_none (by omega), List.getElem?_eq_none (by rw [raster_length]; omega)]
  | tiles hc strips pos width length components four whole wholeTile positive count each =>
    rename_i offsets t t' m n tw tw' tl
    rw [if_neg (by omega), if_pos hc]
    unfold Dng.decodeCompressed
    obtain ⟨ent, e1, e2, e3, _⟩ := find_numbers hr (tag := 0x144) (by decide) pos
    have hm : 0 < m := by
      rcases Nat.eq_zero_or_pos m with h0 | h0
      · rw [h0, Nat.zero_mul] at whole; omega
      · exact h0
    rw [show TiffIFD.findEntry Tag.StripOffsets ifd = none from find_lacks hr strips, show TiffIFD.findEntry Tag.TileOffsets ifd = some ent from e1]
    dsimp only
    rw [show fetchUsize ifd Tag.TileWidth = _ from fetch_number hr (by decide) width, ok_bind,
      show fetchUsize ifd Tag.TileLength = _ from fetch_number hr (by decide) length, ok_bind, whole, wholeTile]
    refine dng_tiles_restored_partial b _ ent m h tw tl n img components four hm hh0 positive.1 positive.2 (by rw [e2, count]) ?_
    intro row col hrow hcol
    obtain ⟨off, j, g1, g2, g3, g4⟩ := each row col hrow hcol
    obtain ⟨hlt, hget⟩ := List.getElem?_eq_some_iff.mp g1
    refine ⟨off, j, by rw [e3 _ hlt, hget], by simp; omega, ?_, g4⟩
    rw [List.drop_append_of_le_length g2]
    exact begins_pad 16 g3

/-! ## Whole files -/

/-- A DNG is opened as one, whatever its maker. -/
private theorem dng_decodes (s : RawLoader) (env : Platform) (b : Build) {contents : Bytes} {big : Bool} {dirs : List Dir} {make model : Bytes}
    {o : Option Nat} (h : DngFile contents big dirs make model o) :
    ∃ root, Holds (fileRoot big dirs) root ∧ ∀ img, s.decodeSafe env b (.ok contents) = .ok img ↔ Dng.image b (contents ++ List.replicate 16 0) root s = .ok img := by
  obtain ⟨root, hnew, hh⟩ := tiff_read b h.tiff h.few
  obtain ⟨big', f, hf⟩ := h.dng
  obtain ⟨ent, hent, _⟩ := find_first hh (tag := 0xc612) (by decide) hf
  have hv : IsView root ⟨true, none, none, none⟩ := by
    refine ⟨⟨fun _ => ?_, fun _ => rfl⟩, fun hf => by simp at hf, fun hf => by simp at hf, fun hf => by simp at hf⟩
    exact (has_entry_iff _ _).mp (by unfold TiffIFD.hasEntry; rw [hent]; rfl)
  obtain ⟨d, h1, h2, h3⟩ := dispatch_complete s b contents root _ (tiff_magic h.tiff h.notCiff) hnew hv
  refine ⟨root, hh, fun img => ?_⟩
  rw [(decode_results s env b contents).1 img]
  unfold RawLoader.decode
  dsimp only
  rw [h1, ok_bind]
  cases d <;> cases h2
  injection h3 with h3
  subst h3
  rfl

/-- **C78**. A DNG file is decoded to its picture, with the levels, the colours, the borders and the matrix its directories state. -/
theorem dng_file (s : RawLoader) (env : Platform) (b : Build) {contents : Bytes} {big : Bool} {dirs : List Dir} {make model : Bytes} {o : Option Nat}
    (h : DngFile contents big dirs make model o) {raw : Dir} {compression : Nat} (hraw : DngRaw (fileRoot big dirs) raw compression)
    {w ht cpp white : Nat} {tw th tc tl : List Nat} (hwidth : raw.Numbers 0x100 (w :: tw)) (hheight : raw.Numbers 0x101 (ht :: th)) (hcpp : raw.Numbers 0x115 (cpp :: tc))
    (hwhite : raw.Numbers 0xc61d (white :: tl)) (hw0 : 0 < w) (hh0 : 0 < ht) (hc0 : 0 < cpp)
    {img : Nat → Nat → Nat} (hpix : DngPixels contents (fileRoot big dirs) raw compression w ht cpp img)
    {wb : List F32} (hwb : DngBalance (fileRoot big dirs) wb) {blacks : List Nat} (hblack : DngBlacks raw blacks)
    {matrix : List (List F32)} (hmatrix : DngMatrix (fileRoot big dirs) matrix) {cfa : CFA} (hcfa : DngColours raw cfa)
    {crops : List Nat} (hcrops : DngBorders raw w ht crops) :
    s.decodeSafe env b (.ok contents) = .ok {
      make := (dngNames s make model).1, model := (dngNames s make model).2.1, cleanMake := (dngNames s make model).2.2.1, cleanModel := (dngNames s make model).2.2.2,
      width := w, height := ht, cpp := cpp, wbCoeffs := wb, whitelevels := List.replicate 4 (white % 65536), blacklevels := blacks, xyzToCam := matrix, cfa := cfa,
      crops := crops, data := raster (w * cpp) ht img, orientation := orientationOf o } := by
  obtain ⟨root, hh, hd⟩ := dng_decodes s env b h
  obtain ⟨ifd, ifds, f1, f2, f3⟩ := dng_raw_found hh hraw
  obtain ⟨p, p1, p2⟩ := dng_cfa f3 hcfa
  rw [hd]
  unfold Dng.image
  rw [f1, ok_bind, f2, ok_bind, show fetchUsize ifd Tag.ImageWidth = _ from fetch_number f3 (by decide) hwidth, ok_bind,
    show fetchUsize ifd Tag.ImageLength = _ from fetch_number f3 (by decide) hheight, ok_bind,
    show fetchUsize ifd Tag.SamplesPerPixel = _ from fetch_number f3 (by decide) hcpp, ok_bind, p1, ok_bind,
    dng_pixels b hh f3 hraw.compressed hw0 hh0 hc0 hpix, ok_bind, dng_identify s h hh, ok_bind]
  dsimp only
  rw [dng_wb hh hwb, ok_bind, dng_black f3 hblack, ok_bind]
  unfold Dng.getWhitelevels
  rw [show fetchUsize ifd Tag.WhiteLevel = _ from fetch_number f3 (by decide) hwhite, ok_bind, ok_bind, dng_matrix hh hmatrix, ok_bind]
  by_cases hp : p = 34892
  · rw [if_pos hp] at p2
    rw [if_pos hp, p2, ok_bind, dng_crops b f3 hcrops, ok_bind]
  · rw [if_neg hp] at p2
    rw [if_neg hp, p2, ok_bind, dng_crops b f3 hcrops, ok_bind]

/-! ## What is refused -/

/-- A picture with lossy compression is chosen, and then refused. -/
theorem dng_lossy_refused (s : RawLoader) (env : Platform) (b : Build) {contents : Bytes} {big : Bool} {dirs : List Dir} {make model : Bytes} {o : Option Nat}
    (h : DngFile contents big dirs make model o) {raw : Dir} (hraw : DngRaw (fileRoot big dirs) raw 34892) (img : RawImage) :
    s.decodeSafe env b (.ok contents) ≠ .ok img := by
  obtain ⟨root, hh, hd⟩ := dng_decodes s env b h
  obtain ⟨ifd, ifds, f1, f2, f3⟩ := dng_raw_found hh hraw
  rw [ne_eq, hd]
  unfold Dng.image
  rw [f1, ok_bind, f2, ok_bind]
  intro hi
  simp only [bind_eq_ok] at hi
  obtain ⟨w, _, ht, _, cpp, _, p, _, data, hdata, _⟩ := hi
  unfold Dng.pixels at hdata
  rw [show fetchUsize ifd Tag.Compression = _ from fetch_number f3 (by decide) hraw.compressed.2.choose_spec, ok_bind, if_neg (by decide), if_neg (by decide)] at hdata
  cases hdata

/-- A lossless JPEG picture in several strips, which the format allows, is refused rather than read from the first strip. -/
theorem dng_strips_refused (s : RawLoader) (env : Platform) (b : Build) {contents : Bytes} {big : Bool} {dirs : List Dir} {make model : Bytes} {o : Option Nat}
    (h : DngFile contents big dirs make model o) {raw : Dir} (hraw : DngRaw (fileRoot big dirs) raw 7) {strips : List Nat} (hs : raw.Numbers 0x111 strips)
    (hmany : strips.length ≠ 1) (img : RawImage) : s.decodeSafe env b (.ok contents) ≠ .ok img := by
  obtain ⟨root, hh, hd⟩ := dng_decodes s env b h
  obtain ⟨ifd, ifds, f1, f2, f3⟩ := dng_raw_found hh hraw
  rw [ne_eq, hd]
  unfold Dng.image
  rw [f1, ok_bind, f2, ok_bind]
  intro hi
  simp only [bind_eq_ok] at hi
  obtain ⟨w, _, ht, _, cpp, _, p, _, data, hdata, _⟩ := hi
  unfold Dng.pixels at hdata
  rw [show fetchUsize ifd Tag.Compression = _ from fetch_number f3 (by decide) hraw.compressed.2.choose_spec, ok_bind, if_neg (by decide), if_pos rfl] at hdata
  obtain ⟨ent, e1, e2, _⟩ := find_numbers f3 (tag := 0x111) (by decide) hs
  unfold Dng.decodeCompressed at hdata
  rw [show TiffIFD.findEntry Tag.StripOffsets ifd = some ent from e1] at hdata
  dsimp only at hdata
  rw [if_pos (by omega)] at hdata
  cases hdata

/-- The format has a default for the white level; a file that relies on it is refused. -/
theorem dng_white_required (s : RawLoader) (env : Platform) (b : Build) {contents : Bytes} {big : Bool} {dirs : List Dir} {make model : Bytes} {o : Option Nat}
    (h : DngFile contents big dirs make model o) {raw : Dir} {compression : Nat} (hraw : DngRaw (fileRoot big dirs) raw compression) (hn : raw.Lacks 0xc61d) (img : RawImage) :
    s.decodeSafe env b (.ok contents) ≠ .ok img := by
  obtain ⟨root, hh, hd⟩ := dng_decodes s env b h
  obtain ⟨ifd, ifds, f1, f2, f3⟩ := dng_raw_found hh hraw
  rw [ne_eq, hd]
  unfold Dng.image
  rw [f1, ok_bind, f2, ok_bind]
  intro hi
  simp only [bind_eq_ok] at hi
  obtain ⟨w, _, ht, _, cpp, _, p, _, data, _, id, _, wb, _, blacks, _, whites, hwhites, _⟩ := hi
  unfold Dng.getWhitelevels fetchUsize TiffIFD.fetchTag at hwhites
  rw [show TiffIFD.findEntry Tag.WhiteLevel ifd = none from find_lacks f3 hn] at hwhites
  cases hwhites

/-- Without a directory for the picture the first of none is asked for: the decoder panics, which reaches the caller as an error. -/
theorem dng_no_picture (s : RawLoader) (env : Platform) (b : Build) {contents : Bytes} {big : Bool} {dirs : List Dir} {make model : Bytes} {o : Option Nat}
    (h : DngFile contents big dirs make model o)
    (hsane : ∀ d, Below Dir.subdirs (fileRoot big dirs) d → (d.field 0x103).isSome = true → (∃ c, d.Compressed c) ∧ (d.Reduced ∨ d.Full))
    (hnone : ∀ d, Below Dir.subdirs (fileRoot big dirs) d → d.Reduced ∨ ∀ c, d.Compressed c → c ∉ dngCompressions) :
    ∃ root, Holds (fileRoot big dirs) root ∧ Dng.image b (contents ++ List.replicate 16 0) root s = crash ∧ ∀ img, s.decodeSafe env b (.ok contents) ≠ .ok img := by
  obtain ⟨root, hh, hd⟩ := dng_decodes s env b h
  have hcrash : Dng.image b (contents ++ List.replicate 16 0) root s = crash := by
    have hempty : (root.findIfdsWithTag Tag.Compression).filter passes = [] := by
      rw [List.filter_eq_nil_iff]
      intro x hx hp
      rw [TiffIFD.findIfds_mem] at hx
      obtain ⟨⟨q, hq⟩, hk⟩ := hx
      obtain ⟨d, hd, hhd⟩ := (holds_path hh q).2 x hq
      obtain ⟨⟨c, hc⟩, hm⟩ := hsane d ⟨q, hd⟩ ((present_iff hhd (by decide)).mp hk)
      obtain ⟨h1, h2⟩ := is_raw hhd hc
      unfold passes at hp
      rcases hnone d ⟨q, hd⟩ with hr | hr
      · rw [h2 hr] at hp; cases hp
      · rcases hm with hm | hm
        · rw [h2 hm] at hp; cases hp
        · rw [h1 hm] at hp
          exact hr c hc (of_decide_eq_true hp)
    unfold Dng.image
    rw [dng_filter hh hsane, ok_bind, hempty]
    rfl
  refine ⟨root, hh, hcrash, fun img => ?_⟩
  rw [ne_eq, hd, hcrash]
  intro hi
  cases hi

/-! ## Examples -/

section Examples

/-- A preview is in the first directory, the picture in a sub-directory. -/
private def subFile : Bytes :=
  [73, 73, 42, 0, 8, 0, 0, 0] ++
  [9, 0] ++
  [254, 0, 4, 0, 1, 0, 0, 0, 1, 0, 0, 0] ++
  [3, 1, 3, 0, 1, 0, 0, 0, 7, 0, 0, 0] ++
  [15, 1, 2, 0, 6, 0, 0, 0, 122, 0, 0, 0] ++
  [16, 1, 2, 0, 4, 0, 0, 0, 71, 88, 82, 0] ++
  [18, 1, 3, 0, 1, 0, 0, 0, 6, 0, 0, 0] ++
  [74, 1, 4, 0, 1, 0, 0, 0, 224, 0, 0, 0] ++
  [18, 198, 1, 0, 4, 0, 0, 0, 1, 4, 0, 0] ++
  [33, 198, 10, 0, 9, 0, 0, 0, 128, 0, 0, 0] ++
  [40, 198, 5, 0, 3, 0, 0, 0, 200, 0, 0, 0] ++
  [0, 0, 0, 0] ++
  [82, 105, 99, 111, 104, 0] ++
  [1, 0, 0, 0, 1, 0, 0, 0, 255, 255, 255, 255, 2, 0, 0, 0, 0, 0, 0, 0, 1, 0, 0, 0, 0, 0, 0, 0, 1, 0, 0, 0, 1, 0, 0, 0, 1, 0, 0, 0, 1, 0, 0, 0, 4, 0, 0, 0, 1, 0, 0, 0, 8, 0, 0, 0, 0, 0, 0, 0, 1, 0, 0, 0, 1, 0, 0, 0, 1, 0, 0, 0] ++
  [1, 0, 0, 0, 2, 0, 0, 0, 1, 0, 0, 0, 1, 0, 0, 0, 2, 0, 0, 0, 3, 0, 0, 0] ++
  [12, 0] ++
  [254, 0, 4, 0, 1, 0, 0, 0, 0, 0, 0, 0] ++
  [0, 1, 4, 0, 1, 0, 0, 0, 4, 0, 0, 0] ++
  [1, 1, 4, 0, 1, 0, 0, 0, 2, 0, 0, 0] ++
  [2, 1, 3, 0, 1, 0, 0, 0, 16, 0, 0, 0] ++
  [3, 1, 3, 0, 1, 0, 0, 0, 1, 0, 0, 0] ++
  [6, 1, 3, 0, 1, 0, 0, 0, 35, 128, 0, 0] ++
  [17, 1, 4, 0, 1, 0, 0, 0, 166, 1, 0, 0] ++
  [21, 1, 3, 0, 1, 0, 0, 0, 1, 0, 0, 0] ++
  [142, 130, 1, 0, 4, 0, 0, 0, 1, 0, 2, 1] ++
  [26, 198, 5, 0, 4, 0, 0, 0, 118, 1, 0, 0] ++
  [29, 198, 3, 0, 1, 0, 0, 0, 255, 63, 0, 0] ++
  [141, 198, 4, 0, 4, 0, 0, 0, 150, 1, 0, 0] ++
  [0, 0, 0, 0] ++
  [1, 2, 0, 0, 4, 0, 0, 0, 128, 0, 0, 0, 1, 0, 0, 0, 129, 0, 0, 0, 1, 0, 0, 0, 5, 1, 0, 0, 2, 0, 0, 0] ++
  [0, 0, 0, 0, 1, 0, 0, 0, 2, 0, 0, 0, 3, 0, 0, 0] ++
  [100, 0, 200, 0, 44, 1, 144, 1, 244, 1, 88, 2, 188, 2, 255, 255]

private def subPicture : Dir := .mk false [.plain ⟨0xfe, 4, [0]⟩, .plain ⟨0x100, 4, [4]⟩, .plain ⟨0x101, 4, [2]⟩, .plain ⟨0x102, 3, [16]⟩, .plain ⟨0x103, 3, [1]⟩, .plain ⟨0x106, 3, [32803]⟩, .plain ⟨0x111, 4, [422]⟩, .plain ⟨0x115, 3, [1]⟩, .plain ⟨0x828e, 1, [1, 0, 2, 1]⟩, .plain ⟨0xc61a, 5, [17179869697, 4294967424, 4294967425, 8589934853]⟩, .plain ⟨0xc61d, 3, [16383]⟩, .plain ⟨0xc68d, 4, [0, 1, 2, 3]⟩]

private def subMain : Dir := .mk false [.plain ⟨0xfe, 4, [1]⟩, .plain ⟨0x103, 3, [7]⟩, .plain ⟨0x10f, 2, [82, 105, 99, 111, 104, 0]⟩, .plain ⟨0x110, 2, [71, 88, 82, 0]⟩, .plain ⟨0x112, 3, [6]⟩, .pointer 0x14a [subPicture], .plain ⟨0xc612, 1, [1, 4, 0, 0]⟩, .plain ⟨0xc621, 10, [4294967297, 12884901887, 4294967296, 4294967296, 4294967297, 17179869185, 34359738369, 4294967296, 4294967297]⟩, .plain ⟨0xc628, 5, [8589934593, 4294967297, 12884901890]⟩]

private theorem subPicture_stored : subPicture.StoredAt 10 subFile 224 0 := by
  refine ⟨by decide, by decide +kernel, by decide, by decide +kernel, by decide +kernel, ?_⟩
  intro i it hi
  match i with
  | 0 => injection hi with hi; subst hi; stored_inline
  | 1 => injection hi with hi; subst hi; stored_inline
  | 2 => injection hi with hi; subst hi; stored_inline
  | 3 => injection hi with hi; subst hi; stored_inline
  | 4 => injection hi with hi; subst hi; stored_inline
  | 5 => injection hi with hi; subst hi; stored_inline
  | 6 => injection hi with hi; subst hi; stored_inline
  | 7 => injection hi with hi; subst hi; stored_inline
  | 8 => injection hi with hi; subst hi; stored_inline
  | 9 => injection hi with hi; subst hi; stored_outside 374
  | 10 => injection hi with hi; subst hi; stored_inline
  | 11 => injection hi with hi; subst hi; stored_outside 406
  | i + 12 => cases hi

private theorem sub_stored : TiffFile 11 false subFile [subMain] := by
  refine ⟨by decide +kernel, by decide +kernel, 8, by decide, by decide +kernel, rfl, ?_⟩
  refine ⟨by decide, by decide +kernel, by decide, by decide +kernel, by decide +kernel, ?_⟩
  intro i it hi
  match i with
  | 0 => injection hi with hi; subst hi; stored_inline
  | 1 => injection hi with hi; subst hi; stored_inline
  | 2 => injection hi with hi; subst hi; stored_outside 122
  | 3 => injection hi with hi; subst hi; stored_inline
  | 4 => injection hi with hi; subst hi; stored_inline
  | 5 =>
    injection hi with hi
    subst hi
    refine ⟨by decide, 4, [224], by decide, rfl,
      ⟨by decide, by decide, by decide, by decide, by decide +kernel, by decide +kernel, by decide +kernel, by decide +kernel, fun _ => by decide +kernel, fun h => absurd h (by decide +kernel)⟩, ?_⟩
    intro k o d hk hd
    match k with
    | 0 =>
      injection hk with hk; injection hd with hd
      subst hk hd
      exact ⟨rfl, 0, subPicture_stored⟩
    | k + 1 => cases hk
  | 6 => injection hi with hi; subst hi; stored_inline
  | 7 => injection hi with hi; subst hi; stored_outside 128
  | 8 => injection hi with hi; subst hi; stored_outside 200
  | i + 9 => cases hi

private theorem sub_dng : DngFile subFile false [subMain] (b! "Ricoh") (b! "GXR") (some 6) where
  tiff := sub_stored
  few := by decide
  notCiff := by decide +kernel
  dng := ⟨false, _, first_main rfl⟩
  make := ⟨⟨by decide, by decide, by decide⟩, false, _, first_main rfl, rfl, 0, 0, [0], Or.inr rfl, rfl⟩
  model := ⟨⟨by decide, by decide, by decide⟩, false, _, first_main rfl, rfl, 0, 0, [0], Or.inr rfl, rfl⟩
  orientation := ⟨false, ⟨0x112, 3, [6]⟩, first_main rfl, by decide, rfl⟩

private theorem sub_raw : DngRaw (fileRoot false [subMain]) subPicture 1 where
  sane := by
    intro d hd hf
    rcases below_two (sub := subPicture) rfl rfl hd with rfl | rfl | rfl
    · cases hf
    · exact ⟨⟨7, rfl, [], numbers_here (f := ⟨0x103, 3, [7]⟩) rfl (by decide)⟩, Or.inl ⟨1, [], numbers_here (f := ⟨0xfe, 4, [1]⟩) rfl (by decide), rfl⟩⟩
    · exact ⟨⟨1, rfl, [], numbers_here (f := ⟨0x103, 3, [1]⟩) rfl (by decide)⟩, Or.inr (Or.inr ⟨0, [], numbers_here (f := ⟨0xfe, 4, [0]⟩) rfl (by decide), rfl⟩)⟩
  compressed := ⟨rfl, [], numbers_here (f := ⟨0x103, 3, [1]⟩) rfl (by decide)⟩
  listed := by decide
  full := Or.inr ⟨0, [], numbers_here (f := ⟨0xfe, 4, [0]⟩) rfl (by decide), rfl⟩
  first := ⟨[0, 0], rfl, by
    intro q d hq hd
    match q with
    | [] =>
      obtain rfl := Option.some.inj hd
      exact Or.inr fun c hc => by cases hc.1
    | [0] =>
      obtain rfl := Option.some.inj hd
      exact Or.inl ⟨1, [], numbers_here (f := ⟨0xfe, 4, [1]⟩) rfl (by decide), rfl⟩
    | 0 :: 0 :: q => simp [List.cons_lt_cons_iff] at hq
    | 0 :: (k + 1) :: q => simp [List.cons_lt_cons_iff] at hq
    | (k + 1) :: q => simp [List.cons_lt_cons_iff] at hq⟩

/-- The picture of a camera that is not in the database. Its black levels are 128.25, 128, 129 and 130.5. -/
example (env : Platform) (b : Build) : ∃ cfa, CFA.new (b! "GRBG") = .ok cfa ∧
    (RawLoader.mk [] []).decodeSafe env b (.ok subFile) = .ok {
      make := b! "Ricoh", model := b! "GXR", cleanMake := b! "Ricoh", cleanModel := b! "GXR", width := 4, height := 2, cpp := 1,
      wbCoeffs := [(F32.ofNat 1).div ((F32.ofNat 1).div (F32.ofNat 2)), (F32.ofNat 1).div ((F32.ofNat 1).div (F32.ofNat 1)), (F32.ofNat 1).div ((F32.ofNat 2).div (F32.ofNat 3)), .nan],
      whitelevels := [16383, 16383, 16383, 16383], blacklevels := [128, 128, 129, 130],
      xyzToCam := [[(F32.ofRat (signed32 1)).div (F32.ofRat (signed32 1)), (F32.ofRat (signed32 4294967295)).div (F32.ofRat (signed32 2)), (F32.ofRat (signed32 0)).div (F32.ofRat (signed32 1))], [(F32.ofRat (signed32 0)).div (F32.ofRat (signed32 1)), (F32.ofRat (signed32 1)).div (F32.ofRat (signed32 1)), (F32.ofRat (signed32 1)).div (F32.ofRat (signed32 4))], [(F32.ofRat (signed32 1)).div (F32.ofRat (signed32 8)), (F32.ofRat (signed32 0)).div (F32.ofRat (signed32 1)), (F32.ofRat (signed32 1)).div (F32.ofRat (signed32 1))], [.zero false, .zero false, .zero false]],
      cfa := cfa, crops := [0, 1, 0, 1], data := [100, 200, 300, 400, 500, 600, 700, 65535], orientation := .rotate90 } := by
  obtain ⟨cfa, hcfa⟩ := (cfa_accepts (b! "GRBG")).1.mpr (by decide)
  refine ⟨cfa, hcfa, ?_⟩
  have := dng_file (RawLoader.mk [] []) env b sub_dng sub_raw (w := 4) (ht := 2) (cpp := 1) (white := 16383)
    (numbers_here (f := ⟨0x100, 4, [4]⟩) rfl (by decide)) (numbers_here (f := ⟨0x101, 4, [2]⟩) rfl (by decide)) (numbers_here (f := ⟨0x115, 3, [1]⟩) rfl (by decide)) (numbers_here (f := ⟨0xc61d, 3, [16383]⟩) rfl (by decide)) (by decide) (by decide) (by decide)
    (.words (offset := 422) rfl (numbers_here (f := ⟨0x111, 4, [422]⟩) rfl (by decide)) (numbers_here (f := ⟨0x102, 3, [16]⟩) rfl (by decide)) (by decide +kernel))
    (Or.inr ⟨_, _, _, [], ⟨_, _, first_main rfl, Or.inr ⟨[(1, 2), (1, 1), (2, 3)], by decide, by decide, Or.inl ⟨rfl, rfl⟩⟩⟩, rfl⟩)
    (Or.inr (Or.inr ⟨_, _, _, _, [], ⟨_, _, first_here rfl, Or.inr ⟨[(513, 4), (128, 1), (129, 1), (261, 2)], by decide, by decide, Or.inl ⟨rfl, rfl⟩⟩⟩, rfl⟩))
    (Or.inr (Or.inl ⟨lacks_two (sub := subPicture) rfl rfl rfl rfl, _, ⟨_, _, first_main rfl, Or.inr ⟨[(1, 1), (4294967295, 2), (0, 1), (0, 1), (1, 1), (1, 4), (1, 8), (0, 1), (1, 1)], by decide, by decide, Or.inr ⟨rfl, rfl⟩⟩⟩, by decide, rfl⟩))
    (Or.inr ⟨⟨32803, [], (numbers_here (f := ⟨0x106, 3, [32803]⟩) rfl (by decide)), by decide⟩, [1, 0, 2, 1], (numbers_here (f := ⟨0x828e, 1, [1, 0, 2, 1]⟩) rfl (by decide)), by decide, hcfa⟩)
    (Or.inr ⟨0, 1, 2, 3, [], (numbers_here (f := ⟨0xc68d, 4, [0, 1, 2, 3]⟩) rfl (by decide)), by decide, by decide, rfl⟩)
  rw [dng_level (by decide) (by decide) (by decide) (by decide), dng_level (by decide) (by decide) (by decide) (by decide),
    dng_level (by decide) (by decide) (by decide) (by decide), dng_level (by decide) (by decide) (by decide) (by decide),
    show raster (4 * 1) 2 (fun r c => bytesOf subFile (422 + 2 * (r * (4 * 1) + c)) + 256 * bytesOf subFile (422 + 2 * (r * (4 * 1) + c) + 1)) = [100, 200, 300, 400, 500, 600, 700, 65535] by decide +kernel] at this
  exact this

/-- A big endian file with the words [1, 2, 515, 4]. -/
def bigDngFile : Bytes :=
  [77, 77, 0, 42, 0, 0, 0, 8] ++
  [0, 11] ++
  [1, 0, 0, 3, 0, 0, 0, 1, 0, 2, 0, 0] ++
  [1, 1, 0, 3, 0, 0, 0, 1, 0, 2, 0, 0] ++
  [1, 2, 0, 3, 0, 0, 0, 1, 0, 16, 0, 0] ++
  [1, 3, 0, 3, 0, 0, 0, 1, 0, 1, 0, 0] ++
  [1, 6, 0, 3, 0, 0, 0, 1, 136, 76, 0, 0] ++
  [1, 15, 0, 2, 0, 0, 0, 5, 0, 0, 0, 146] ++
  [1, 16, 0, 2, 0, 0, 0, 6, 0, 0, 0, 151] ++
  [1, 17, 0, 4, 0, 0, 0, 1, 0, 0, 0, 157] ++
  [1, 21, 0, 3, 0, 0, 0, 1, 0, 1, 0, 0] ++
  [198, 18, 0, 1, 0, 0, 0, 4, 1, 1, 0, 0] ++
  [198, 29, 0, 3, 0, 0, 0, 1, 3, 255, 0, 0] ++
  [0, 0, 0, 0] ++
  [76, 101, 97, 102, 0] ++
  [65, 112, 116, 117, 115, 0] ++
  [0, 1, 0, 2, 2, 3, 0, 4]

private def bigDngDir : Dir := .mk true [.plain ⟨0x100, 3, [2]⟩, .plain ⟨0x101, 3, [2]⟩, .plain ⟨0x102, 3, [16]⟩, .plain ⟨0x103, 3, [1]⟩, .plain ⟨0x106, 3, [34892]⟩, .plain ⟨0x10f, 2, [76, 101, 97, 102, 0]⟩, .plain ⟨0x110, 2, [65, 112, 116, 117, 115, 0]⟩, .plain ⟨0x111, 4, [157]⟩, .plain ⟨0x115, 3, [1]⟩, .plain ⟨0xc612, 1, [1, 1, 0, 0]⟩, .plain ⟨0xc61d, 3, [1023]⟩]

private theorem bigDng_stored : TiffFile 11 true bigDngFile [bigDngDir] := by
  refine ⟨by decide +kernel, by decide +kernel, 8, by decide, by decide +kernel, rfl, ?_⟩
  refine ⟨by decide, by decide +kernel, by decide, by decide +kernel, by decide +kernel, ?_⟩
  intro i it hi
  match i with
  | 0 => injection hi with hi; subst hi; stored_inline
  | 1 => injection hi with hi; subst hi; stored_inline
  | 2 => injection hi with hi; subst hi; stored_inline
  | 3 => injection hi with hi; subst hi; stored_inline
  | 4 => injection hi with hi; subst hi; stored_inline
  | 5 => injection hi with hi; subst hi; stored_outside 146
  | 6 => injection hi with hi; subst hi; stored_outside 151
  | 7 => injection hi with hi; subst hi; stored_inline
  | 8 => injection hi with hi; subst hi; stored_inline
  | 9 => injection hi with hi; subst hi; stored_inline
  | 10 => injection hi with hi; subst hi; stored_inline
  | i + 11 => cases hi

private theorem bigDng_dng : DngFile bigDngFile true [bigDngDir] (b! "Leaf") (b! "Aptus") none where
  tiff := bigDng_stored
  few := by decide
  notCiff := by decide +kernel
  dng := ⟨true, _, first_one rfl⟩
  make := ⟨⟨by decide, by decide, by decide⟩, true, _, first_one rfl, rfl, 0, 0, [0], Or.inr rfl, rfl⟩
  model := ⟨⟨by decide, by decide, by decide⟩, true, _, first_one rfl, rfl, 0, 0, [0], Or.inr rfl, rfl⟩
  orientation := lacks_one rfl rfl

private theorem bigDng_raw : DngRaw (fileRoot true [bigDngDir]) bigDngDir 1 where
  sane := by
    intro d hd hf
    rcases below_one rfl hd with rfl | rfl
    · cases hf
    · exact ⟨⟨1, rfl, [], numbers_here (f := ⟨0x103, 3, [1]⟩) rfl (by decide)⟩, Or.inr (Or.inl (lacks_leaf rfl rfl))⟩
  compressed := ⟨rfl, [], numbers_here (f := ⟨0x103, 3, [1]⟩) rfl (by decide)⟩
  listed := by decide
  full := Or.inl (lacks_leaf rfl rfl)
  first := ⟨[0], rfl, by
    intro q d hq hd
    match q with
    | [] =>
      obtain rfl := Option.some.inj hd
      exact Or.inr fun c hc => by cases hc.1
    | 0 :: q => simp [List.cons_lt_cons_iff] at hq
    | (k + 1) :: q => simp [List.cons_lt_cons_iff] at hq⟩

/-- The samples of a big endian file come out with their bytes swapped. -/
theorem dng_big_endian_swapped (env : Platform) (b : Build) : ∃ cfa, CFA.new [] = .ok cfa ∧
    (RawLoader.mk [] []).decodeSafe env b (.ok bigDngFile) = .ok {
      make := b! "Leaf", model := b! "Aptus", cleanMake := b! "Leaf", cleanModel := b! "Aptus", width := 2, height := 2, cpp := 1,
      wbCoeffs := [.nan, .nan, .nan, .nan], whitelevels := [1023, 1023, 1023, 1023], blacklevels := [0, 0, 0, 0],
      xyzToCam := [[F32.ofRat 0.412453, F32.ofRat 0.357580, F32.ofRat 0.180423], [F32.ofRat 0.212671, F32.ofRat 0.715160, F32.ofRat 0.072169],
        [F32.ofRat 0.019334, F32.ofRat 0.119193, F32.ofRat 0.950227], [.zero false, .zero false, .zero false]],
      cfa := cfa, crops := [0, 0, 0, 0], data := [256, 512, 770, 1024], orientation := .unknown } := by
  obtain ⟨cfa, hcfa⟩ := (cfa_accepts []).1.mpr (by decide)
  refine ⟨cfa, hcfa, ?_⟩
  have := dng_file (RawLoader.mk [] []) env b bigDng_dng bigDng_raw (w := 2) (ht := 2) (cpp := 1) (white := 1023)
    (numbers_here (f := ⟨0x100, 3, [2]⟩) rfl (by decide)) (numbers_here (f := ⟨0x101, 3, [2]⟩) rfl (by decide)) (numbers_here (f := ⟨0x115, 3, [1]⟩) rfl (by decide)) (numbers_here (f := ⟨0xc61d, 3, [1023]⟩) rfl (by decide)) (by decide) (by decide) (by decide)
    (.words (offset := 157) rfl (numbers_here (f := ⟨0x111, 4, [157]⟩) rfl (by decide)) (numbers_here (f := ⟨0x102, 3, [16]⟩) rfl (by decide)) (by decide +kernel))
    (Or.inl ⟨lacks_one rfl rfl, rfl⟩) (Or.inl ⟨lacks_leaf rfl rfl, rfl⟩) (Or.inr (Or.inr ⟨lacks_one rfl rfl, lacks_one rfl rfl, rfl⟩))
    (Or.inl ⟨⟨[], (numbers_here (f := ⟨0x106, 3, [34892]⟩) rfl (by decide))⟩, hcfa⟩) (Or.inl ⟨lacks_leaf rfl rfl, rfl⟩)
  rw [show raster (2 * 1) 2 (fun r c => bytesOf bigDngFile (157 + 2 * (r * (2 * 1) + c)) + 256 * bytesOf bigDngFile (157 + 2 * (r * (2 * 1) + c) + 1)) = [256, 512, 770, 1024] by decide +kernel] at this
  exact this

/-- Packed samples of 12 bits. -/
private def packDngFile : Bytes :=
  [77, 77, 0, 42, 0, 0, 0, 8] ++
  [0, 11] ++
  [1, 0, 0, 3, 0, 0, 0, 1, 0, 2, 0, 0] ++
  [1, 1, 0, 3, 0, 0, 0, 1, 0, 2, 0, 0] ++
  [1, 2, 0, 3, 0, 0, 0, 1, 0, 12, 0, 0] ++
  [1, 3, 0, 3, 0, 0, 0, 1, 0, 1, 0, 0] ++
  [1, 6, 0, 3, 0, 0, 0, 1, 136, 76, 0, 0] ++
  [1, 15, 0, 2, 0, 0, 0, 5, 0, 0, 0, 146] ++
  [1, 16, 0, 2, 0, 0, 0, 6, 0, 0, 0, 151] ++
  [1, 17, 0, 4, 0, 0, 0, 1, 0, 0, 0, 157] ++
  [1, 21, 0, 3, 0, 0, 0, 1, 0, 1, 0, 0] ++
  [198, 18, 0, 1, 0, 0, 0, 4, 1, 1, 0, 0] ++
  [198, 29, 0, 3, 0, 0, 0, 1, 15, 255, 0, 0] ++
  [0, 0, 0, 0] ++
  [76, 101, 97, 102, 0] ++
  [65, 112, 116, 117, 115, 0] ++
  [171, 193, 35, 69, 103, 137]

private def packDngDir : Dir := .mk true [.plain ⟨0x100, 3, [2]⟩, .plain ⟨0x101, 3, [2]⟩, .plain ⟨0x102, 3, [12]⟩, .plain ⟨0x103, 3, [1]⟩, .plain ⟨0x106, 3, [34892]⟩, .plain ⟨0x10f, 2, [76, 101, 97, 102, 0]⟩, .plain ⟨0x110, 2, [65, 112, 116, 117, 115, 0]⟩, .plain ⟨0x111, 4, [157]⟩, .plain ⟨0x115, 3, [1]⟩, .plain ⟨0xc612, 1, [1, 1, 0, 0]⟩, .plain ⟨0xc61d, 3, [4095]⟩]

private theorem packDng_stored : TiffFile 11 true packDngFile [packDngDir] := by
  refine ⟨by decide +kernel, by decide +kernel, 8, by decide, by decide +kernel, rfl, ?_⟩
  refine ⟨by decide, by decide +kernel, by decide, by decide +kernel, by decide +kernel, ?_⟩
  intro i it hi
  match i with
  | 0 => injection hi with hi; subst hi; stored_inline
  | 1 => injection hi with hi; subst hi; stored_inline
  | 2 => injection hi with hi; subst hi; stored_inline
  | 3 => injection hi with hi; subst hi; stored_inline
  | 4 => injection hi with hi; subst hi; stored_inline
  | 5 => injection hi with hi; subst hi; stored_outside 146
  | 6 => injection hi with hi; subst hi; stored_outside 151
  | 7 => injection hi with hi; subst hi; stored_inline
  | 8 => injection hi with hi; subst hi; stored_inline
  | 9 => injection hi with hi; subst hi; stored_inline
  | 10 => injection hi with hi; subst hi; stored_inline
  | i + 11 => cases hi

private theorem packDng_dng : DngFile packDngFile true [packDngDir] (b! "Leaf") (b! "Aptus") none where
  tiff := packDng_stored
  few := by decide
  notCiff := by decide +kernel
  dng := ⟨true, _, first_one rfl⟩
  make := ⟨⟨by decide, by decide, by decide⟩, true, _, first_one rfl, rfl, 0, 0, [0], Or.inr rfl, rfl⟩
  model := ⟨⟨by decide, by decide, by decide⟩, true, _, first_one rfl, rfl, 0, 0, [0], Or.inr rfl, rfl⟩
  orientation := lacks_one rfl rfl

private theorem packDng_raw : DngRaw (fileRoot true [packDngDir]) packDngDir 1 where
  sane := by
    intro d hd hf
    rcases below_one rfl hd with rfl | rfl
    · cases hf
    · exact ⟨⟨1, rfl, [], numbers_here (f := ⟨0x103, 3, [1]⟩) rfl (by decide)⟩, Or.inr (Or.inl (lacks_leaf rfl rfl))⟩
  compressed := ⟨rfl, [], numbers_here (f := ⟨0x103, 3, [1]⟩) rfl (by decide)⟩
  listed := by decide
  full := Or.inl (lacks_leaf rfl rfl)
  first := ⟨[0], rfl, by
    intro q d hq hd
    match q with
    | [] =>
      obtain rfl := Option.some.inj hd
      exact Or.inr fun c hc => by cases hc.1
    | 0 :: q => simp [List.cons_lt_cons_iff] at hq
    | (k + 1) :: q => simp [List.cons_lt_cons_iff] at hq⟩

example (env : Platform) (b : Build) : ∃ cfa, CFA.new [] = .ok cfa ∧
    (RawLoader.mk [] []).decodeSafe env b (.ok packDngFile) = .ok {
      make := b! "Leaf", model := b! "Aptus", cleanMake := b! "Leaf", cleanModel := b! "Aptus", width := 2, height := 2, cpp := 1,
      wbCoeffs := [.nan, .nan, .nan, .nan], whitelevels := [4095, 4095, 4095, 4095], blacklevels := [0, 0, 0, 0],
      xyzToCam := [[F32.ofRat 0.412453, F32.ofRat 0.357580, F32.ofRat 0.180423], [F32.ofRat 0.212671, F32.ofRat 0.715160, F32.ofRat 0.072169],
        [F32.ofRat 0.019334, F32.ofRat 0.119193, F32.ofRat 0.950227], [.zero false, .zero false, .zero false]],
      cfa := cfa, crops := [0, 0, 0, 0], data := [2748, 291, 1110, 1929], orientation := .unknown } := by
  obtain ⟨cfa, hcfa⟩ := (cfa_accepts []).1.mpr (by decide)
  refine ⟨cfa, hcfa, ?_⟩
  have := dng_file (RawLoader.mk [] []) env b packDng_dng packDng_raw (w := 2) (ht := 2) (cpp := 1) (white := 4095)
    (numbers_here (f := ⟨0x100, 3, [2]⟩) rfl (by decide)) (numbers_here (f := ⟨0x101, 3, [2]⟩) rfl (by decide)) (numbers_here (f := ⟨0x115, 3, [1]⟩) rfl (by decide)) (numbers_here (f := ⟨0xc61d, 3, [4095]⟩) rfl (by decide)) (by decide) (by decide) (by decide)
    (.twelve (offset := 157) rfl (numbers_here (f := ⟨0x111, 4, [157]⟩) rfl (by decide)) (numbers_here (f := ⟨0x102, 3, [12]⟩) rfl (by decide)) (by decide) (by decide +kernel))
    (Or.inl ⟨lacks_one rfl rfl, rfl⟩) (Or.inl ⟨lacks_leaf rfl rfl, rfl⟩) (Or.inr (Or.inr ⟨lacks_one rfl rfl, lacks_one rfl rfl, rfl⟩))
    (Or.inl ⟨⟨[], (numbers_here (f := ⟨0x106, 3, [34892]⟩) rfl (by decide))⟩, hcfa⟩) (Or.inl ⟨lacks_leaf rfl rfl, rfl⟩)
  rw [show raster (2 * 1) 2 (fun r c => fieldMSB (bytesOf packDngFile) (8 * 157 + 12 * (r * (2 * 1) + c)) 12) = [2748, 291, 1110, 1929] by decide +kernel] at this
  exact this

/-- A lossless JPEG picture of two components in one strip. -/
private def stripDngFile : Bytes :=
  [77, 77, 0, 42, 0, 0, 0, 8] ++
  [0, 10] ++
  [1, 0, 0, 3, 0, 0, 0, 1, 0, 4, 0, 0] ++
  [1, 1, 0, 3, 0, 0, 0, 1, 0, 2, 0, 0] ++
  [1, 3, 0, 3, 0, 0, 0, 1, 0, 7, 0, 0] ++
  [1, 6, 0, 3, 0, 0, 0, 1, 136, 76, 0, 0] ++
  [1, 15, 0, 2, 0, 0, 0, 5, 0, 0, 0, 134] ++
  [1, 16, 0, 2, 0, 0, 0, 6, 0, 0, 0, 139] ++
  [1, 17, 0, 4, 0, 0, 0, 1, 0, 0, 0, 145] ++
  [1, 21, 0, 3, 0, 0, 0, 1, 0, 1, 0, 0] ++
  [198, 18, 0, 1, 0, 0, 0, 4, 1, 1, 0, 0] ++
  [198, 29, 0, 3, 0, 0, 0, 1, 63, 255, 0, 0] ++
  [0, 0, 0, 0] ++
  [76, 101, 97, 102, 0] ++
  [65, 112, 116, 117, 115, 0] ++
  (tileFile 2 2 2 2 0 0 ++ ([] ++ [0, 0]))

private def stripDngDir : Dir := .mk true [.plain ⟨0x100, 3, [4]⟩, .plain ⟨0x101, 3, [2]⟩, .plain ⟨0x103, 3, [7]⟩, .plain ⟨0x106, 3, [34892]⟩, .plain ⟨0x10f, 2, [76, 101, 97, 102, 0]⟩, .plain ⟨0x110, 2, [65, 112, 116, 117, 115, 0]⟩, .plain ⟨0x111, 4, [145]⟩, .plain ⟨0x115, 3, [1]⟩, .plain ⟨0xc612, 1, [1, 1, 0, 0]⟩, .plain ⟨0xc61d, 3, [16383]⟩]

private theorem stripDng_stored : TiffFile 11 true stripDngFile [stripDngDir] := by
  refine ⟨by decide +kernel, by decide +kernel, 8, by decide, by decide +kernel, rfl, ?_⟩
  refine ⟨by decide, by decide +kernel, by decide, by decide +kernel, by decide +kernel, ?_⟩
  intro i it hi
  match i with
  | 0 => injection hi with hi; subst hi; stored_inline
  | 1 => injection hi with hi; subst hi; stored_inline
  | 2 => injection hi with hi; subst hi; stored_inline
  | 3 => injection hi with hi; subst hi; stored_inline
  | 4 => injection hi with hi; subst hi; stored_outside 134
  | 5 => injection hi with hi; subst hi; stored_outside 139
  | 6 => injection hi with hi; subst hi; stored_inline
  | 7 => injection hi with hi; subst hi; stored_inline
  | 8 => injection hi with hi; subst hi; stored_inline
  | 9 => injection hi with hi; subst hi; stored_inline
  | i + 10 => cases hi

private theorem stripDng_dng : DngFile stripDngFile true [stripDngDir] (b! "Leaf") (b! "Aptus") none where
  tiff := stripDng_stored
  few := by decide
  notCiff := by decide +kernel
  dng := ⟨true, _, first_one rfl⟩
  make := ⟨⟨by decide, by decide, by decide⟩, true, _, first_one rfl, rfl, 0, 0, [0], Or.inr rfl, rfl⟩
  model := ⟨⟨by decide, by decide, by decide⟩, true, _, first_one rfl, rfl, 0, 0, [0], Or.inr rfl, rfl⟩
  orientation := lacks_one rfl rfl

private theorem stripDng_raw : DngRaw (fileRoot true [stripDngDir]) stripDngDir 7 where
  sane := by
    intro d hd hf
    rcases below_one rfl hd with rfl | rfl
    · cases hf
    · exact ⟨⟨7, rfl, [], numbers_here (f := ⟨0x103, 3, [7]⟩) rfl (by decide)⟩, Or.inr (Or.inl (lacks_leaf rfl rfl))⟩
  compressed := ⟨rfl, [], numbers_here (f := ⟨0x103, 3, [7]⟩) rfl (by decide)⟩
  listed := by decide
  full := Or.inl (lacks_leaf rfl rfl)
  first := ⟨[0], rfl, by
    intro q d hq hd
    match q with
    | [] =>
      obtain rfl := Option.some.inj hd
      exact Or.inr fun c hc => by cases hc.1
    | 0 :: q => simp [List.cons_lt_cons_iff] at hq
    | (k + 1) :: q => simp [List.cons_lt_cons_iff] at hq⟩

private theorem strip_begins : BeginsWithJpeg 2 2 2 (cutTile 2 2 2 2 0 0) (stripDngFile.drop 145) := by
  rw [show stripDngFile.drop 145 = tileFile 2 2 2 2 0 0 ++ ([] ++ [0, 0]) by decide +kernel]
  exact begins_jpeg (by decide) (by decide) (by decide) (fun r p k => Nat.mod_lt _ (by decide)) fun r p k hr hp hk =>
    (by decide +kernel : ∀ r, r < 2 → ∀ p, p < 2 → ∀ k, k < 2 → category (residual (2 ^ (14 - 0 - 1)) (cutTile 2 2 2 2 0 0) r p k) ∈ tableK3.vals) r hr p hp k hk

example (env : Platform) (b : Build) : ∃ cfa, CFA.new [] = .ok cfa ∧
    (RawLoader.mk [] []).decodeSafe env b (.ok stripDngFile) = .ok {
      make := b! "Leaf", model := b! "Aptus", cleanMake := b! "Leaf", cleanModel := b! "Aptus", width := 4, height := 2, cpp := 1,
      wbCoeffs := [.nan, .nan, .nan, .nan], whitelevels := [16383, 16383, 16383, 16383], blacklevels := [0, 0, 0, 0],
      xyzToCam := [[F32.ofRat 0.412453, F32.ofRat 0.357580, F32.ofRat 0.180423], [F32.ofRat 0.212671, F32.ofRat 0.715160, F32.ofRat 0.072169],
        [F32.ofRat 0.019334, F32.ofRat 0.119193, F32.ofRat 0.950227], [.zero false, .zero false, .zero false]],
      cfa := cfa, crops := [0, 0, 0, 0], data := [8000, 8030, 8060, 8090, 8007, 8048, 8089, 8130], orientation := .unknown } := by
  obtain ⟨cfa, hcfa⟩ := (cfa_accepts []).1.mpr (by decide)
  refine ⟨cfa, hcfa, ?_⟩
  have := dng_file (RawLoader.mk [] []) env b stripDng_dng stripDng_raw (w := 4) (ht := 2) (cpp := 1) (white := 16383)
    (numbers_here (f := ⟨0x100, 3, [4]⟩) rfl (by decide)) (numbers_here (f := ⟨0x101, 3, [2]⟩) rfl (by decide)) (numbers_here (f := ⟨0x115, 3, [1]⟩) rfl (by decide)) (numbers_here (f := ⟨0xc61d, 3, [16383]⟩) rfl (by decide)) (by decide) (by decide) (by decide)
    (.strip (img := tiledImage) (offset := 145) (m := 2) (w' := 2) (h' := 2) rfl (numbers_here (f := ⟨0x111, 4, [145]⟩) rfl (by decide)) (by decide) rfl (by decide) (by decide +kernel) strip_begins (fun r p k hr hp hk => by
      unfold cutTile
      rw [Nat.min_eq_left (by omega), Nat.zero_mul, Nat.zero_add, Nat.zero_add]))
    (Or.inl ⟨lacks_one rfl rfl, rfl⟩) (Or.inl ⟨lacks_leaf rfl rfl, rfl⟩) (Or.inr (Or.inr ⟨lacks_one rfl rfl, lacks_one rfl rfl, rfl⟩))
    (Or.inl ⟨⟨[], (numbers_here (f := ⟨0x106, 3, [34892]⟩) rfl (by decide))⟩, hcfa⟩) (Or.inl ⟨lacks_leaf rfl rfl, rfl⟩)
  rw [show raster (4 * 1) 2 tiledImage = [8000, 8030, 8060, 8090, 8007, 8048, 8089, 8130] by decide +kernel] at this
  exact this

/-- The tiles of C49 in a file: two tiles of two by three JPEG pixels, reaching beyond the lower and the right edge. -/
private def tileDngFile : Bytes :=
  [77, 77, 0, 42, 0, 0, 0, 8] ++
  [0, 12] ++
  [1, 0, 0, 3, 0, 0, 0, 1, 0, 6, 0, 0] ++
  [1, 1, 0, 3, 0, 0, 0, 1, 0, 2, 0, 0] ++
  [1, 3, 0, 3, 0, 0, 0, 1, 0, 7, 0, 0] ++
  [1, 6, 0, 3, 0, 0, 0, 1, 136, 76, 0, 0] ++
  [1, 15, 0, 2, 0, 0, 0, 5, 0, 0, 0, 158] ++
  [1, 16, 0, 2, 0, 0, 0, 6, 0, 0, 0, 163] ++
  [1, 21, 0, 3, 0, 0, 0, 1, 0, 1, 0, 0] ++
  [1, 66, 0, 3, 0, 0, 0, 1, 0, 4, 0, 0] ++
  [1, 67, 0, 3, 0, 0, 0, 1, 0, 3, 0, 0] ++
  [1, 68, 0, 4, 0, 0, 0, 2, 0, 0, 0, 169] ++
  [198, 18, 0, 1, 0, 0, 0, 4, 1, 1, 0, 0] ++
  [198, 29, 0, 3, 0, 0, 0, 1, 63, 255, 0, 0] ++
  [0, 0, 0, 0] ++
  [76, 101, 97, 102, 0] ++
  [65, 112, 116, 117, 115, 0] ++
  [0, 0, 0, 177, 0, 0, 1, 32] ++
  (exampleFiles.flatten ++ [0, 0])

private def tileDngDir : Dir := .mk true [.plain ⟨0x100, 3, [6]⟩, .plain ⟨0x101, 3, [2]⟩, .plain ⟨0x103, 3, [7]⟩, .plain ⟨0x106, 3, [34892]⟩, .plain ⟨0x10f, 2, [76, 101, 97, 102, 0]⟩, .plain ⟨0x110, 2, [65, 112, 116, 117, 115, 0]⟩, .plain ⟨0x115, 3, [1]⟩, .plain ⟨0x142, 3, [4]⟩, .plain ⟨0x143, 3, [3]⟩, .plain ⟨0x144, 4, [177, 288]⟩, .plain ⟨0xc612, 1, [1, 1, 0, 0]⟩, .plain ⟨0xc61d, 3, [16383]⟩]

private theorem tileDng_stored : TiffFile 11 true tileDngFile [tileDngDir] := by
  refine ⟨by decide +kernel, by decide +kernel, 8, by decide, by decide +kernel, rfl, ?_⟩
  refine ⟨by decide, by decide +kernel, by decide, by decide +kernel, by decide +kernel, ?_⟩
  intro i it hi
  match i with
  | 0 => injection hi with hi; subst hi; stored_inline
  | 1 => injection hi with hi; subst hi; stored_inline
  | 2 => injection hi with hi; subst hi; stored_inline
  | 3 => injection hi with hi; subst hi; stored_inline
  | 4 => injection hi with hi; subst hi; stored_outside 158
  | 5 => injection hi with hi; subst hi; stored_outside 163
  | 6 => injection hi with hi; subst hi; stored_inline
  | 7 => injection hi with hi; subst hi; stored_inline
  | 8 => injection hi with hi; subst hi; stored_inline
  | 9 => injection hi with hi; subst hi; stored_outside 169
  | 10 => injection hi with hi; subst hi; stored_inline
  | 11 => injection hi with hi; subst hi; stored_inline
  | i + 12 => cases hi

private theorem tileDng_dng : DngFile tileDngFile true [tileDngDir] (b! "Leaf") (b! "Aptus") none where
  tiff := tileDng_stored
  few := by decide
  notCiff := by decide +kernel
  dng := ⟨true, _, first_one rfl⟩
  make := ⟨⟨by decide, by decide, by decide⟩, true, _, first_one rfl, rfl, 0, 0, [0], Or.inr rfl, rfl⟩
  model := ⟨⟨by decide, by decide, by decide⟩, true, _, first_one rfl, rfl, 0, 0, [0], Or.inr rfl, rfl⟩
  orientation := lacks_one rfl rfl

private theorem tileDng_raw : DngRaw (fileRoot true [tileDngDir]) tileDngDir 7 where
  sane := by
    intro d hd hf
    rcases below_one rfl hd with rfl | rfl
    · cases hf
    · exact ⟨⟨7, rfl, [], numbers_here (f := ⟨0x103, 3, [7]⟩) rfl (by decide)⟩, Or.inr (Or.inl (lacks_leaf rfl rfl))⟩
  compressed := ⟨rfl, [], numbers_here (f := ⟨0x103, 3, [7]⟩) rfl (by decide)⟩
  listed := by decide
  full := Or.inl (lacks_leaf rfl rfl)
  first := ⟨[0], rfl, by
    intro q d hq hd
    match q with
    | [] =>
      obtain rfl := Option.some.inj hd
      exact Or.inr fun c hc => by cases hc.1
    | 0 :: q => simp [List.cons_lt_cons_iff] at hq
    | (k + 1) :: q => simp [List.cons_lt_cons_iff] at hq⟩

private theorem tiles_begin : ∀ col, col < 2 → tileDngFile.drop ([177, 288].getD col 0) = tileFile 2 3 2 3 0 col ++ ((exampleFiles.drop (col + 1)).flatten ++ [0, 0]) ∧
    [177, 288][0 * ((3 + 2 - 1) / 2) + col]? = some ([177, 288].getD col 0) ∧ [177, 288].getD col 0 ≤ tileDngFile.length := by
  decide +kernel

example (env : Platform) (b : Build) : ∃ cfa, CFA.new [] = .ok cfa ∧
    (RawLoader.mk [] []).decodeSafe env b (.ok tileDngFile) = .ok {
      make := b! "Leaf", model := b! "Aptus", cleanMake := b! "Leaf", cleanModel := b! "Aptus", width := 6, height := 2, cpp := 1,
      wbCoeffs := [.nan, .nan, .nan, .nan], whitelevels := [16383, 16383, 16383, 16383], blacklevels := [0, 0, 0, 0],
      xyzToCam := [[F32.ofRat 0.412453, F32.ofRat 0.357580, F32.ofRat 0.180423], [F32.ofRat 0.212671, F32.ofRat 0.715160, F32.ofRat 0.072169],
        [F32.ofRat 0.019334, F32.ofRat 0.119193, F32.ofRat 0.950227], [.zero false, .zero false, .zero false]],
      cfa := cfa, crops := [0, 0, 0, 0], data := [8000, 8030, 8060, 8090, 8120, 8150, 8007, 8048, 8089, 8130, 8171, 8212], orientation := .unknown } := by
  obtain ⟨cfa, hcfa⟩ := (cfa_accepts []).1.mpr (by decide)
  refine ⟨cfa, hcfa, ?_⟩
  have := dng_file (RawLoader.mk [] []) env b tileDng_dng tileDng_raw (w := 6) (ht := 2) (cpp := 1) (white := 16383)
    (numbers_here (f := ⟨0x100, 3, [6]⟩) rfl (by decide)) (numbers_here (f := ⟨0x101, 3, [2]⟩) rfl (by decide)) (numbers_here (f := ⟨0x115, 3, [1]⟩) rfl (by decide)) (numbers_here (f := ⟨0xc61d, 3, [16383]⟩) rfl (by decide)) (by decide) (by decide) (by decide)
    (.tiles (img := tiledImage) (offsets := [177, 288]) (m := 3) (n := 2) (tw := 2) (tw' := 4) (tl := 3) rfl (lacks_leaf rfl rfl)
      (numbers_here (f := ⟨0x144, 4, [177, 288]⟩) rfl (by decide)) (numbers_here (f := ⟨0x142, 3, [4]⟩) rfl (by decide)) (numbers_here (f := ⟨0x143, 3, [3]⟩) rfl (by decide)) (by decide) (by decide) rfl rfl (by decide) rfl (by
      intro row col hr hc
      obtain rfl : row = 0 := by omega
      obtain ⟨h1, h2, h3⟩ := tiles_begin col (by omega)
      refine ⟨_, cutTile 2 3 2 3 0 col, h2, h3, ?_, fun r p k hr hp hk _ hw => ?_⟩
      · rw [h1]
        exact begins_jpeg (by decide) (by decide) (by decide) (fun r p k => Nat.mod_lt _ (by decide)) fun r p k hr hp hk => exampleFiles_cat col (by omega) r hr p hp k hk
      · unfold cutTile
        rw [Nat.min_eq_left (by omega)]))
    (Or.inl ⟨lacks_one rfl rfl, rfl⟩) (Or.inl ⟨lacks_leaf rfl rfl, rfl⟩) (Or.inr (Or.inr ⟨lacks_one rfl rfl, lacks_one rfl rfl, rfl⟩))
    (Or.inl ⟨⟨[], (numbers_here (f := ⟨0x106, 3, [34892]⟩) rfl (by decide))⟩, hcfa⟩) (Or.inl ⟨lacks_leaf rfl rfl, rfl⟩)
  rw [show raster (6 * 1) 2 tiledImage = [8000, 8030, 8060, 8090, 8120, 8150, 8007, 8048, 8089, 8130, 8171, 8212] by decide +kernel] at this
  exact this

end Examples

end Props

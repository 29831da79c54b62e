import Verif.Props.FlatField
/-!
# C94: developing a cropped picture is developing what is inside the crop
-/

namespace Props
open Model Rust Spec F32

/-! ## Buffers and patterns -/

theorem buffer_ext {α : Type} (z : α) {a b : OpBuffer α} (ha : a.wf) (hb : b.wf) (hw : a.width = b.width) (hh : a.height = b.height) (hk : a.colors = b.colors)
    (h : ∀ r c k, r < a.height → c < a.width → k < a.colors → a.at? r c k = b.at? r c k) : a = b := by
  rw [wf_eq_ofPix z a ha, wf_eq_ofPix z b hb, ← hw, ← hh, ← hk]
  apply ofPix_congr
  intro r c k hr hc hk
  rw [h r c k hr hc hk]

theorem grid_ext {α : Type} {h w : Nat} {a b : List (List α)} (ha : IsGrid h w a) (hb : IsGrid h w b)
    (hc : ∀ r c, r < h → c < w → cell a r c = cell b r c) : a = b := by
  apply List.ext_getElem?
  intro r
  by_cases hr : r < h
  · obtain ⟨x, hx, lx⟩ := ha.row hr
    obtain ⟨y, hy, ly⟩ := hb.row hr
    rw [hx, hy]
    congr 1
    apply List.ext_getElem?
    intro c
    by_cases hcw : c < w
    · have := hc r c hr hcw
      unfold cell at this
      rw [hx, hy] at this
      exact this
    · rw [List.getElem?_eq_none (by omega), List.getElem?_eq_none (by omega)]
  · rw [List.getElem?_eq_none (by rw [ha.1]; omega), List.getElem?_eq_none (by rw [hb.1]; omega)]

/-- Colours come from the array of the pattern, not from its name. -/
theorem colorAt_pattern (b : Build) {s t : CFA} (h : s.pattern = t.pattern) : s.colorAt b = t.colorAt b := by
  funext r c
  unfold CFA.colorAt
  rw [h]

/-- The two stages that look at the pattern. -/
theorem demosaic_same (b : Build) {img img' : RawImage} (buf : OpBuffer F32) (mw mh : Nat) (hw : img.cfa.width = img'.cfa.width)
    {s t : CFA} (hs : img.croppedCfa b = .ok s) (ht : img'.croppedCfa b = .ok t) (h : s.pattern = t.pattern) :
    demosaicAndScale b img buf mw mh = demosaicAndScale b img' buf mw mh := by
  have hc := colorAt_pattern b h
  have hfull : full b img buf = full b img' buf := by
    unfold full
    rw [hs, ht, ok_bind, ok_bind]
    unfold fullMeasured fullPixel fullNeighbour
    simp only [hc]
  have hscaled : ∀ nw nh, scaled b img buf nw nh = scaled b img' buf nw nh := by
    intro nw nh
    unfold scaled
    rw [hs, ht, ok_bind, ok_bind]
    unfold scaledPixel scaledSource
    simp only [hc]
  unfold demosaicAndScale fourChannels
  simp only [hw, hfull, hscaled]

/-! ## Two pictures with the same window -/

/-- Two pictures with one sample per pixel whose cropped areas have the same size, samples and filter colours. Sizes, crops and what is
outside of them may differ. An empty name stands for a sensor without filters. -/
structure SameWindow (img img' : RawImage) (name name' : Bytes) (top right bottom left top' right' bottom' left' cw ch : Nat) : Prop where
  crops : CropsFit img top right bottom left cw ch
  crops' : CropsFit img' top' right' bottom' left' cw ch
  small : img.width < 2 ^ 63 ∧ img.height < 2 ^ 63 ∧ img'.width < 2 ^ 63 ∧ img'.height < 2 ^ 63
  single : img.cpp = 1 ∧ img'.cpp = 1
  pattern : CFA.new name = .ok img.cfa
  pattern' : CFA.new name' = .ok img'.cfa
  period : name.length = name'.length
  full : img.data.length = img.width * img.height
  full' : img'.data.length = img'.width * img'.height
  colours : ∀ r c, patternColour name img.cfa.width img.cfa.height (r + top) (c + left) = patternColour name' img'.cfa.width img'.cfa.height (r + top') (c + left')
  samples : ∀ r c, r < ch → c < cw → img.data[img.width * (r + top) + (c + left)]? = img'.data[img'.width * (r + top') + (c + left')]?

theorem cfa_size {name : Bytes} {cfa : CFA} (h : CFA.new name = .ok cfa) : patternSize name.length = some (cfa.width, cfa.height) := by
  by_cases h0 : name = []
  · subst h0
    have : CFA.new [] = .ok ⟨[], 0, 0, List.replicate 48 (List.replicate 48 0)⟩ := rfl
    rw [this] at h
    injection h with h
    subst h
    rfl
  · obtain ⟨_, _, _, h3⟩ := cfa_matches_name .release name cfa h h0 0 0 (by decide) (by decide)
    exact h3

theorem window_decoder (m : Libm) (b : Build) {img img' : RawImage} {name name' : Bytes} {top right bottom left top' right' bottom' left' cw ch : Nat}
    (h : SameWindow img img' name name' top right bottom left top' right' bottom' left' cw ch) (hs : SameColours img img')
    (ho : img.orientation = img'.orientation) (mw mh : Nat) (linear : Bool) :
    decoder m b img mw mh linear = decoder m b img' mw mh linear := by
  have hsz := cfa_size h.pattern
  have hsz' := cfa_size h.pattern'
  rw [h.period, hsz'] at hsz
  injection hsz with hsz
  rw [Prod.mk.injEq] at hsz
  obtain ⟨hw, hh⟩ := hsz
  have hvalid : img.cfa.isValid = img'.cfa.isValid := by unfold CFA.isValid; rw [hw, hh]
  have hmono : img.isMonochrome = img'.isMonochrome := by unfold RawImage.isMonochrome; rw [h.single.1, h.single.2, hvalid]
  have hstage : ∃ buf, convert b img = .ok buf ∧ convert b img' = .ok buf ∧ ∀ mw mh, demosaicAndScale b img buf mw mh = demosaicAndScale b img' buf mw mh := by
    by_cases hv : img.cfa.isValid = true
    · have hv' := hvalid ▸ hv
      obtain ⟨o, c1, c2, c3, c4, c5, c6⟩ := gofloat_bayer b img top right bottom left cw ch h.crops h.single.1 hv h.full
      obtain ⟨o', d1, d2, d3, d4, d5, d6⟩ := gofloat_bayer b img' top' right' bottom' left' cw ch h.crops' h.single.2 hv' h.full'
      have e : o = o' := by
        refine buffer_ext (.zero false) c2 d2 (by rw [c3, d3]) (by rw [c4, d4]) (by rw [c5, d5]) ?_
        intro r c k hr hc hk
        obtain rfl : k = 0 := by omega
        obtain ⟨v, v1, v2⟩ := c6 r c (by omega) (by omega)
        obtain ⟨v', w1, w2⟩ := d6 r c (by omega) (by omega)
        rw [h.samples r c (by omega) (by omega), w1] at v1
        injection v1 with v1
        rw [v2, w2, v1]
      subst e
      refine ⟨o, c1, d1, fun mw mh => ?_⟩
      have hn : name ≠ [] := by
        rintro rfl
        have := cfa_size h.pattern
        simp only [List.length_nil, patternSize, Option.some.injEq, Prod.mk.injEq] at this
        unfold CFA.isValid at hv
        rw [← this.1] at hv
        simp at hv
      have hn' : name' ≠ [] := by
        intro e
        have := h.period
        rw [e] at this
        exact hn (List.eq_nil_of_length_eq_zero this)
      have hx := h.crops.width
      have hy := h.crops.height
      have hx' := h.crops'.width
      have hy' := h.crops'.height
      obtain ⟨s1, s2, s3, s4⟩ := h.small
      have g1 := (cfa_new_grid h.pattern).1
      have g2 := (cfa_new_grid h.pattern').1
      obtain ⟨t, t1, t2, _, _, t3⟩ := shift_grid b img.cfa g1 left top (by omega) (by omega)
      obtain ⟨t', u1, u2, _, _, u3⟩ := shift_grid b img'.cfa g2 left' top' (by omega) (by omega)
      have hcrop : img.croppedCfa b = .ok t := by
        unfold RawImage.croppedCfa Model.croppedCfa
        rw [h.crops.crops]
        exact t1
      have hcrop' : img'.croppedCfa b = .ok t' := by
        unfold RawImage.croppedCfa Model.croppedCfa
        rw [h.crops'.crops]
        exact u1
      refine demosaic_same b o mw mh hw.symm hcrop hcrop' (grid_ext t2 u2 ?_)
      intro r c hr hc
      have key : ∀ {n : Bytes} {cfa : CFA}, CFA.new n = .ok cfa → n ≠ [] → ∀ r c, r + 48 < 2 ^ 64 → c + 48 < 2 ^ 64 →
          cell cfa.pattern (r % 48) (c % 48) = patternColour n cfa.width cfa.height r c := by
        intro n cfa hc h0 r c hr hcc
        obtain ⟨v, k1, k2, _⟩ := cfa_matches_name b n cfa hc h0 r c hr hcc
        rw [k2]
        rw [colorAt_eq b cfa r c hr hcc] at k1
        obtain ⟨x, hx⟩ := (cfa_new_grid hc).1.cell (Nat.mod_lt r (by decide)) (Nat.mod_lt c (by decide))
        rw [idx2_eq hx] at k1
        injection k1 with k1
        rw [hx, k1]
      rw [t3 r c hr hc, u3 r c hr hc, key h.pattern hn _ _ (by omega) (by omega), key h.pattern' hn' _ _ (by omega) (by omega), h.colours r c]
    · have hv : img.cfa.isValid = false := by simpa using hv
      have hv' := hvalid ▸ hv
      obtain ⟨o, c1, c2, c3, c4, c5, c6⟩ := gofloat_mono b img top right bottom left cw ch h.crops h.single.1 hv h.full
      obtain ⟨o', d1, d2, d3, d4, d5, d6⟩ := gofloat_mono b img' top' right' bottom' left' cw ch h.crops' h.single.2 hv' h.full'
      have e : o = o' := by
        refine buffer_ext (.zero false) c2 d2 (by rw [c3, d3]) (by rw [c4, d4]) (by rw [c5, d5]) ?_
        intro r c k hr hc hk
        obtain ⟨v, v1, v2, v3⟩ := c6 r c (by omega) (by omega)
        obtain ⟨v', w1, w2, w3⟩ := d6 r c (by omega) (by omega)
        rw [h.samples r c (by omega) (by omega), w1] at v1
        injection v1 with v1
        rcases Nat.lt_or_ge k 3 with hk3 | hk3
        · rw [v2 k hk3, w2 k hk3, v1]
        · obtain rfl : k = 3 := by omega
          rw [v3, w3]
      subst e
      refine ⟨o, c1, d1, fun mw mh => ?_⟩
      unfold demosaicAndScale fourChannels
      rw [hw, if_pos c5, if_pos c5, if_pos (by right; omega), if_pos (by right; omega)]
  obtain ⟨buf, h1, h2, h3⟩ := hstage
  have hbal : levelAndBalance img = levelAndBalance img' := by
    funext x
    unfold levelAndBalance balanceCoeffs RawImage.neutralwb RawImage.xyzToCamMat
    rw [hs.wb, hs.white, hs.black, hs.matrix, hmono]
  have hlab : cameraToLab m img = cameraToLab m img' := by
    funext x
    unfold cameraToLab RawImage.camToXyzMat RawImage.xyzToCamMat
    rw [hs.matrix]
  have hrot : finalRotate img = finalRotate img' := by
    funext x
    unfold finalRotate
    rw [ho]
  unfold decoder
  rw [h1, h2, ok_bind, ok_bind, h3, hbal, hlab, hrot, ho]

/-- **C94.** At every requested size, pictures with the same window give the same results: the same three outputs, or the same panic. -/
theorem same_window (m : Libm) (b : Build) {img img' : RawImage} {name name' : Bytes} {top right bottom left top' right' bottom' left' cw ch : Nat}
    (h : SameWindow img img' name name' top right bottom left top' right' bottom' left' cw ch) (hs : SameColours img img')
    (ho : img.orientation = img'.orientation) (mw mh : Nat) :
    toLinearRgb m b img mw mh = toLinearRgb m b img' mw mh ∧ toRgb m b img mw mh = toRgb m b img' mw mh ∧ toSrgb m b img mw mh = toSrgb m b img' mw mh := by
  unfold toLinearRgb toRgb toSrgb
  rw [window_decoder m b h hs ho, window_decoder m b h hs ho]
  exact ⟨rfl, rfl, rfl⟩

/-! ## Cutting a picture out -/

/-- The letters of a pattern of `h` rows of `w`, from row `top` and column `left` on. -/
def turnName (name : Bytes) (w h top left : Nat) : Bytes :=
  (List.range name.length).map fun i => name.getD ((i / w + top) % h * w + (i % w + left) % w) 0

/-- The picture inside the crop, with the filter pattern that is there. -/
def cutOut (img : RawImage) (cfa : CFA) (top left cw ch : Nat) : RawImage :=
  { img with width := cw, height := ch, crops := [0, 0, 0, 0], cfa := cfa,
             data := raster cw ch fun r c => img.data.getD (img.width * (r + top) + (c + left)) 0 }

theorem turnName_colour {name : Bytes} {w h : Nat} (hs : patternSize name.length = some (w, h)) (top left r c : Nat) :
    patternColour (turnName name w h top left) w h r c = patternColour name w h (r + top) (c + left) := by
  rcases patternSize_cases hs with ⟨hl, rfl, rfl⟩ | ⟨hl, hw, hh, _⟩
  · have : name = [] := List.eq_nil_of_length_eq_zero hl
    subst this
    simp [turnName, patternColour]
  · unfold patternColour turnName
    have hr := Nat.mod_lt r hh
    have hc := Nat.mod_lt c hw
    have hlt : r % h * w + c % w < w * h := by
      have : (r % h + 1) * w ≤ h * w := Nat.mul_le_mul_right w hr
      rw [Nat.mul_comm w h]
      linarith
    have hlt' : (r + top) % h * w + (c + left) % w < w * h := by
      have h1 := Nat.mod_lt (r + top) hh
      have h2 := Nat.mod_lt (c + left) hw
      have : ((r + top) % h + 1) * w ≤ h * w := Nat.mul_le_mul_right w h1
      rw [Nat.mul_comm w h]
      linarith
    rw [List.getElem?_map, List.getElem?_range (by omega), Option.map_some]
    have e1 : (r % h * w + c % w) / w = r % h := by
      rw [Nat.mul_comm, Nat.mul_add_div hw, Nat.div_eq_of_lt hc, Nat.add_zero]
    have e2 : (r % h * w + c % w) % w = c % w := by
      rw [Nat.mul_comm, Nat.mul_add_mod, Nat.mod_mod]
    rw [e1, e2, Nat.mod_add_mod, Nat.mod_add_mod, List.getD_eq_getElem?_getD, List.getElem?_eq_getElem (by omega)]
    rfl

theorem turnName_accepted {name : Bytes} {cfa : CFA} (h : CFA.new name = .ok cfa) (top left : Nat) :
    ∃ cfa', CFA.new (turnName name cfa.width cfa.height top left) = .ok cfa' ∧ cfa'.width = cfa.width ∧ cfa'.height = cfa.height := by
  obtain ⟨h1, h2⟩ := (cfa_accepts name).1.mp ⟨cfa, h⟩
  have hl : (turnName name cfa.width cfa.height top left).length = name.length := by simp [turnName]
  obtain ⟨cfa', hc⟩ : ∃ cfa', CFA.new (turnName name cfa.width cfa.height top left) = .ok cfa' := by
    rw [(cfa_accepts _).1, hl]
    refine ⟨h1, ?_⟩
    intro c hc
    unfold turnName at hc
    simp only [List.mem_map, List.mem_range] at hc
    obtain ⟨i, hi, rfl⟩ := hc
    rcases patternSize_cases (cfa_size h) with ⟨h0, _⟩ | ⟨hl, hw, hh, _⟩
    · omega
    · have g1 := Nat.mod_lt (i / cfa.width + top) hh
      have g2 := Nat.mod_lt (i % cfa.width + left) hw
      have : ((i / cfa.width + top) % cfa.height + 1) * cfa.width ≤ cfa.height * cfa.width := Nat.mul_le_mul_right _ g1
      have hlt : (i / cfa.width + top) % cfa.height * cfa.width + (i % cfa.width + left) % cfa.width < name.length := by
        rw [hl, Nat.mul_comm cfa.width cfa.height]
        linarith
      rw [List.getD_eq_getElem?_getD, List.getElem?_eq_getElem hlt]
      exact h2 _ (List.getElem_mem hlt)
  refine ⟨cfa', hc, ?_⟩
  have e1 := cfa_size hc
  rw [hl, cfa_size h] at e1
  injection e1 with e1
  rw [Prod.mk.injEq] at e1
  exact ⟨e1.1.symm, e1.2.symm⟩

/-- **C94.** A cropped picture is developed as if the sensor had been no larger than the crop, at every requested size. -/
theorem crop_is_cut (m : Libm) (b : Build) (img : RawImage) (name : Bytes) (top right bottom left cw ch : Nat)
    (hc : CropsFit img top right bottom left cw ch) (hsmall : img.width < 2 ^ 63 ∧ img.height < 2 ^ 63) (hone : img.cpp = 1)
    (hcfa : CFA.new name = .ok img.cfa) (hlen : img.data.length = img.width * img.height) :
    ∃ cfa', CFA.new (turnName name img.cfa.width img.cfa.height top left) = .ok cfa' ∧ ∀ mw mh,
      toLinearRgb m b img mw mh = toLinearRgb m b (cutOut img cfa' top left cw ch) mw mh ∧
      toRgb m b img mw mh = toRgb m b (cutOut img cfa' top left cw ch) mw mh ∧
      toSrgb m b img mw mh = toSrgb m b (cutOut img cfa' top left cw ch) mw mh := by
  obtain ⟨cfa', h1, h2, h3⟩ := turnName_accepted hcfa top left
  refine ⟨cfa', h1, fun mw mh => same_window m b (img := img) (img' := cutOut img cfa' top left cw ch) (name := name) (name' := turnName name img.cfa.width img.cfa.height top left) (top := top) (right := right) (bottom := bottom) (left := left) (top' := 0) (right' := 0) (bottom' := 0) (left' := 0) (cw := cw) (ch := ch) ?_ ⟨rfl, rfl, rfl, rfl⟩ rfl mw mh⟩
  have hw := hc.width
  have hh := hc.height
  exact
    { crops := hc
      crops' := ⟨rfl, by show cw = 0 + cw + 0; omega, by show ch = 0 + ch + 0; omega, hc.cw_pos⟩
      small := ⟨hsmall.1, hsmall.2, by show cw < _; omega, by show ch < _; omega⟩
      single := ⟨hone, hone⟩
      pattern := hcfa
      pattern' := h1
      period := by simp [turnName]
      full := hlen
      full' := by
        show (raster cw ch fun r c => img.data.getD (img.width * (r + top) + (c + left)) 0).length = cw * ch
        exact raster_length _ _ _
      colours := fun r c => by
        show _ = patternColour _ cfa'.width cfa'.height (r + 0) (c + 0)
        rw [h2, h3, turnName_colour (cfa_size hcfa)]
        rfl
      samples := fun r c hr hcc => by
        show _ = (raster cw ch fun r c => img.data.getD (img.width * (r + top) + (c + left)) 0)[cw * (r + 0) + (c + 0)]?
        have hlt := crop_index_lt hw hh hr hcc
        rw [Nat.add_zero, Nat.add_zero, Nat.mul_comm cw r, raster_getElem? _ _ _ _ _ hr hcc, List.getD_eq_getElem?_getD, List.getElem?_eq_getElem (by omega)]
        rfl }

/-- Samples outside of the crop have no influence, whatever their values. -/
theorem margins_ignored (m : Libm) (b : Build) (img : RawImage) (name : Bytes) (top right bottom left cw ch : Nat)
    (hc : CropsFit img top right bottom left cw ch) (hsmall : img.width < 2 ^ 63 ∧ img.height < 2 ^ 63) (hone : img.cpp = 1)
    (hcfa : CFA.new name = .ok img.cfa) (hlen : img.data.length = img.width * img.height) (data : List Nat) (hlen' : data.length = img.data.length)
    (hsame : ∀ r c, r < ch → c < cw → data[img.width * (r + top) + (c + left)]? = img.data[img.width * (r + top) + (c + left)]?) (mw mh : Nat) :
    toLinearRgb m b { img with data := data } mw mh = toLinearRgb m b img mw mh ∧ toRgb m b { img with data := data } mw mh = toRgb m b img mw mh ∧
      toSrgb m b { img with data := data } mw mh = toSrgb m b img mw mh :=
  same_window m b (img := { img with data := data }) (img' := img) (name := name) (name' := name)
    { crops := ⟨hc.crops, hc.width, hc.height, hc.cw_pos⟩
      crops' := hc
      small := ⟨hsmall.1, hsmall.2, hsmall.1, hsmall.2⟩
      single := ⟨hone, hone⟩
      pattern := hcfa
      pattern' := hcfa
      period := rfl
      full := hlen'.trans hlen
      full' := hlen
      colours := fun _ _ => rfl
      samples := hsame } ⟨rfl, rfl, rfl, rfl⟩ rfl mw mh

/-! ## Cases -/

/-- From the second row and the first column on, RGGB is GBRG. -/
example : turnName (b! "RGGB") 2 2 1 0 = b! "GBRG" ∧ turnName (b! "RGGB") 2 2 3 5 = b! "BGGR" := by decide

private def framed (cfa : CFA) : RawImage :=
  { width := 5, height := 4, cpp := 1, wbCoeffs := [lit 2, lit 1, lit (3 / 2), .nan], whitelevels := [1023, 1023, 1023, 1023], blacklevels := [16, 16, 16, 16],
    xyzToCam := [[lit 1, lit 0, lit 0], [lit 0, lit 1, lit 0], [lit 0, lit 0, lit 1], [lit 0, lit 0, lit 0]], cfa := cfa, crops := [1, 1, 1, 0],
    orientation := .rotate90, data := [0, 0, 0, 0, 0, 100, 200, 300, 400, 0, 500, 600, 700, 800, 0, 0, 0, 0, 0, 0] }

/-- A picture of 4 by 2 with a frame of black samples. -/
example (m : Libm) {cfa : CFA} (hcfa : CFA.new (b! "RGGB") = .ok cfa) : ∃ cfa', CFA.new (b! "GBRG") = .ok cfa' ∧ ∀ mw mh,
    toSrgb m .release (framed cfa) mw mh = toSrgb m .release { framed cfa with width := 4, height := 2, crops := [0, 0, 0, 0], cfa := cfa', data := [100, 200, 300, 400, 500, 600, 700, 800] } mw mh := by
  obtain ⟨cfa', h1, h2⟩ := crop_is_cut m .release (framed cfa) (b! "RGGB") 1 1 1 0 4 2 ⟨rfl, rfl, rfl, by decide⟩ ⟨show 5 < 2 ^ 63 by decide, show 4 < 2 ^ 63 by decide⟩ rfl hcfa rfl
  have hsz := cfa_size hcfa
  have hsz' : patternSize (b! "RGGB").length = some (2, 2) := by decide
  rw [hsz'] at hsz
  injection hsz with hsz
  rw [Prod.mk.injEq] at hsz
  have h1 : CFA.new (turnName (b! "RGGB") cfa.width cfa.height 1 0) = .ok cfa' := h1
  rw [← hsz.1, ← hsz.2] at h1
  exact ⟨cfa', h1, fun mw mh => (h2 mw mh).2.2⟩

end Props

import Verif.Props.PixelLocal
/-!
# C95: a rotated picture is the rotation of the picture
-/

namespace Props
open Model Rust Spec F32

theorem flips_swap (n : Nat) : (Orientation.fromU16 n).toFlips.1 = exifSwaps n := by
  rcases orient_cases n with hc | ⟨-, h1, h2⟩
  · rcases hc with rfl | rfl | rfl | rfl | rfl | rfl | rfl <;> decide
  · rw [h1, h2]

/-- The pipeline turns the picture at its very end, after developing it with the limits exchanged where the turn exchanges the sides. -/
theorem decoder_rotates (m : Libm) (b : Build) (img : RawImage) (mw mh : Nat) (linear : Bool) :
    decoder m b img mw mh linear =
      decoder m b { img with orientation := .normal } (if img.orientation.toFlips.1 then mh else mw) (if img.orientation.toFlips.1 then mw else mh) linear >>= finalRotate img := by
  unfold decoder
  have hrot : ∀ buf, finalRotate { img with orientation := .normal } buf = .ok buf := fun buf => rfl
  simp only [hrot]
  have e1 : convert b { img with orientation := .normal } = convert b img := rfl
  have e2 : demosaicAndScale b { img with orientation := .normal } = demosaicAndScale b img := rfl
  have e3 : levelAndBalance { img with orientation := .normal } = levelAndBalance img := rfl
  have e4 : cameraToLab m { img with orientation := .normal } = cameraToLab m img := rfl
  rw [e1, e2, e3, e4]
  simp only [bind_assoc, Orientation.toFlips, Bool.false_eq_true, if_false]
  rfl

/-- An upright picture with the gamma curve is the linear one put through the curve. -/
theorem decoder_gamma (m : Libm) (b : Build) (img : RawImage) (mw mh : Nat) :
    decoder m b { img with orientation := .normal } mw mh false = decoder m b { img with orientation := .normal } mw mh true >>= gamma m := by
  unfold decoder
  have hrot : ∀ buf, finalRotate { img with orientation := .normal } buf = .ok buf := fun buf => rfl
  have hid : ∀ x : M (OpBuffer F32), (x >>= fun buf => .ok buf) = x := fun x => by cases x <;> rfl
  simp only [hrot, bind_assoc, if_true, Bool.false_eq_true, if_false, ok_bind, hid]

/-- **C95.** At every requested size the picture with EXIF orientation `n` is the upright one, developed with the limits exchanged for the
orientations that exchange the sides, with every pixel moved to where EXIF says. -/
theorem rotation_last (m : Libm) (b : Build) (img : RawImage) (cw ch mw mh n : Nat) (hu : Usable img cw ch) (hn : img.orientation = Orientation.fromU16 n)
    (hmw : mw < 2 ^ 64) (hmh : mh < 2 ^ 64)
    (hasp : mw = 0 ∨ mh = 0 ∨ (ch ≤ cw * (if exifSwaps n then mw else mh) ∧ cw ≤ ch * (if exifSwaps n then mh else mw))) :
    ∃ (w h : Nat) (lin rgb lin' rgb' : List F32) (byte byte' : List Nat),
      let upright := { img with orientation := .normal }
      let pw := if exifSwaps n then mh else mw
      let ph := if exifSwaps n then mw else mh
      let w' := if exifSwaps n then h else w
      let h' := if exifSwaps n then w else h
      toLinearRgb m b upright pw ph = .ok (w, h, lin) ∧ toRgb m b upright pw ph = .ok (w, h, rgb) ∧ toSrgb m b upright pw ph = .ok (w, h, byte) ∧
      toLinearRgb m b img mw mh = .ok (w', h', lin') ∧ toRgb m b img mw mh = .ok (w', h', rgb') ∧ toSrgb m b img mw mh = .ok (w', h', byte') ∧
      0 < w ∧ 0 < h ∧ lin'.length = lin.length ∧ rgb'.length = rgb.length ∧ byte'.length = byte.length ∧
      ∀ r c k, r < h → c < w → k < 3 →
        let i := (r * w + c) * 3 + k
        let i' := ((exifPlace n h w r c).1 * w' + (exifPlace n h w r c).2) * 3 + k
        (lin'[i']? = lin[i]? ∧ lin[i]? ≠ none) ∧ (rgb'[i']? = rgb[i]? ∧ rgb[i]? ≠ none) ∧ (byte'[i']? = byte[i]? ∧ byte[i]? ≠ none) := by
  have hsw : img.orientation.toFlips.1 = exifSwaps n := by rw [hn]; exact flips_swap n
  have huu : Usable { img with orientation := .normal } cw ch := ⟨by
    obtain ⟨t, r, bt, l, hc⟩ := hu.crops
    exact ⟨t, r, bt, l, hc.crops, hc.width, hc.height, hc.cw_pos⟩, hu.rows, hu.small, hu.length, hu.words, ⟨hu.arrays.wb, hu.arrays.white, hu.arrays.black⟩, hu.kind⟩
  generalize hpw : (if exifSwaps n then mh else mw) = pw
  generalize hph : (if exifSwaps n then mw else mh) = ph
  have hasp' : pw = 0 ∨ ph = 0 ∨ (ch ≤ cw * ph ∧ cw ≤ ch * pw) := by
    rw [hpw, hph] at hasp
    rw [← hpw, ← hph]
    rcases hasp with h | h | h
    · cases exifSwaps n <;> simp [h]
    · cases exifSwaps n <;> simp [h]
    · rw [hpw, hph]; exact .inr (.inr h)
  have hpw' : pw < 2 ^ 64 := by rw [← hpw]; split <;> assumption
  have hph' : ph < 2 ^ 64 := by rw [← hph]; split <;> assumption
  obtain ⟨w, h, p, h1, h2, _⟩ := decoder_total m b { img with orientation := .normal } cw ch pw ph true huu hpw' hph' hasp'
  have h2 : OutputSize false cw ch pw ph w h := h2
  obtain ⟨nw, nh, e1, e2, p1, p2, _⟩ := h2.size
  have hw : 0 < w := by rw [e1]; exact p1
  have hh : 0 < h := by rw [e2]; exact p2
  have h1' : decoder m b { img with orientation := .normal } pw ph false = .ok (ofPix w h 3 fun r c k => gammaEntry m (gammaIndex (p r c k))) := by
    rw [decoder_gamma, h1, ok_bind, gamma_ofPix m hw (by decide)]
  have hdec : ∀ linear (p : Nat → Nat → Nat → F32), decoder m b { img with orientation := .normal } pw ph linear = .ok (ofPix w h 3 p) →
      ∃ q, decoder m b img mw mh linear = .ok (ofPix (if exifSwaps n then h else w) (if exifSwaps n then w else h) 3 q) ∧
        ∀ r c k, r < h → c < w → k < 3 → q (exifPlace n h w r c).1 (exifPlace n h w r c).2 k = p r c k := by
    intro linear p h1
    obtain ⟨q, g1, g2⟩ := finalRotate_place img hw hh (by decide : 0 < 3) p hn
    refine ⟨q, ?_, g2⟩
    rw [decoder_rotates, hsw, hpw, hph, h1, ok_bind]
    exact g1
  obtain ⟨ql, dl, hl⟩ := hdec true _ h1
  obtain ⟨qr, dr, hr'⟩ := hdec false _ h1'
  refine ⟨w, h, (ofPix w h 3 p).data, (ofPix w h 3 fun r c k => gammaEntry m (gammaIndex (p r c k))).data,
    (ofPix (if exifSwaps n then h else w) (if exifSwaps n then w else h) 3 ql).data,
    (ofPix (if exifSwaps n then h else w) (if exifSwaps n then w else h) 3 qr).data, _, _, ?_, ?_, toSrgb_map h1', ?_, ?_, toSrgb_map dr, ?_⟩
  · unfold toLinearRgb
    rw [h1, ok_bind]
    rfl
  · unfold toRgb
    rw [h1', ok_bind]
    rfl
  · unfold toLinearRgb
    rw [dl, ok_bind]
    rfl
  · unfold toRgb
    rw [dr, ok_bind]
    rfl
  · have hlen : ∀ (p q : Nat → Nat → Nat → F32), (ofPix (if exifSwaps n then h else w) (if exifSwaps n then w else h) 3 q).data.length = (ofPix w h 3 p).data.length := by
      intro p q
      have a1 := ofPix_wf (if exifSwaps n then h else w) (if exifSwaps n then w else h) 3 q
      have a2 := ofPix_wf w h 3 p
      unfold OpBuffer.wf at a1 a2
      rw [a1, a2]
      show (if exifSwaps n then h else w) * (if exifSwaps n then w else h) * 3 = w * h * 3
      split
      · rw [Nat.mul_comm h w]
      · rfl
    refine ⟨hw, hh, hlen _ _, hlen _ _, by rw [List.length_map, List.length_map]; exact hlen _ _, ?_⟩
    intro r c k hr hc hk
    obtain ⟨i1, i2⟩ := exifPlace_inside n h w r c hr hc
    have g1 := ofPix_at (k := 3) (p := ql) i1 i2 hk
    have g2 := ofPix_at (k := 3) (p := qr) i1 i2 hk
    have f1 := ofPix_at (k := 3) (p := p) hr hc hk
    have f2 := ofPix_at (k := 3) (p := fun r c k => gammaEntry m (gammaIndex (p r c k))) hr hc hk
    rw [hl r c k hr hc hk] at g1
    rw [hr' r c k hr hc hk] at g2
    have n1 : (ofPix w h 3 p).at? r c k ≠ none := by rw [f1]; simp
    have n2 : (ofPix w h 3 fun r c k => gammaEntry m (gammaIndex (p r c k))).at? r c k ≠ none := by rw [f2]; simp
    refine ⟨⟨g1.trans f1.symm, n1⟩, ⟨g2.trans f2.symm, n2⟩, ?_, ?_⟩
    · rw [List.getElem?_map, List.getElem?_map]
      exact congrArg (Option.map srgbByte) (g2.trans f2.symm)
    · rw [List.getElem?_map]
      intro hnone
      exact n2 (Option.map_eq_none_iff.mp hnone)

/-- A size at which the upright picture cannot be made is one at which the turned picture cannot be made. -/
theorem rotation_stops (m : Libm) (b : Build) (img : RawImage) (mw mh : Nat) (e : Stop)
    (h : toRgb m b { img with orientation := .normal } (if img.orientation.toFlips.1 then mh else mw) (if img.orientation.toFlips.1 then mw else mh) = .error e) :
    toRgb m b img mw mh = .error e ∧ toSrgb m b img mw mh = .error e := by
  have hd : decoder m b { img with orientation := .normal } (if img.orientation.toFlips.1 then mh else mw) (if img.orientation.toFlips.1 then mw else mh) false = .error e := by
    unfold toRgb at h
    cases hx : decoder m b { img with orientation := .normal } (if img.orientation.toFlips.1 then mh else mw) (if img.orientation.toFlips.1 then mw else mh) false with
    | error e' =>
      rw [hx] at h
      cases h
      rfl
    | ok buf =>
      rw [hx, ok_bind] at h
      cases h
  have : decoder m b img mw mh false = .error e := by
    rw [decoder_rotates, hd]
    rfl
  unfold toRgb toSrgb
  rw [this]
  exact ⟨rfl, rfl⟩

/-! ## Cases -/

theorem grey_upright (a b : Nat) (o : Orientation) : { grey a b o with orientation := .normal } = grey a b .normal := rfl

theorem grey_turn (a b : Nat) : (grey a b .rotate90).orientation = Orientation.fromU16 6 := rfl

/-- 6000 by 4000 taken upright, to fit 800 by 1000: it is developed to fit 1000 by 800 and then turned, the first pixel to the right upper corner. -/
example (m : Libm) : ∃ w h d d', toSrgb m .release (grey 6000 4000 .normal) 1000 800 = .ok (w, h, d) ∧ toSrgb m .release (grey 6000 4000 .rotate90) 800 1000 = .ok (h, w, d') ∧
    0 < w ∧ 0 < h ∧ d'[((h - 1) * 3)]? = d[0]? ∧ d[0]? ≠ none := by
  have hu := grey_usable 6000 4000 .rotate90 (by norm_num) (by norm_num) (by norm_num) (by norm_num)
  have ho := grey_turn 6000 4000
  have hg := grey_upright 6000 4000 .rotate90
  generalize grey 6000 4000 .rotate90 = img at hu ho hg ⊢
  obtain ⟨w, h, _, _, _, _, d, d', -, -, h1, -, -, h2, hw, hh, -, -, -, h3⟩ := rotation_last m .release img 6000 4000 800 1000 6
    hu ho (by norm_num) (by norm_num) (.inr (.inr (by decide)))
  rw [hg] at h1
  refine ⟨w, h, d, d', h1, h2, hw, hh, ?_⟩
  have := (h3 0 0 0 hh hw (by decide)).2.2
  simpa [exifPlace, exifSwaps] using this

end Props

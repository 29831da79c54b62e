import Verif.Props.RotateLast
/-!
# C96: a monochrome picture is developed by one curve
-/

namespace Props
open Model Rust Spec F32

/-- The levels and the matrix are the same; the white balance may differ. -/
structure SameLevels (img ref : RawImage) : Prop where
  white : img.whitelevels = ref.whitelevels
  black : img.blacklevels = ref.blacklevels
  matrix : img.xyzToCam = ref.xyzToCam

/-- A picture from a sensor without colour filters, whose cropped area of `cw` by `ch` pixels has the samples `S`. -/
structure MonoPicture (img : RawImage) (top right bottom left cw ch : Nat) (S : Nat → Nat → Nat) : Prop where
  crops : CropsFit img top right bottom left cw ch
  rows : 0 < ch
  single : img.cpp = 1
  plain : img.cfa.isValid = false
  full : img.data.length = img.width * img.height
  arrays : ArraysOk img
  samples : ∀ r c, r < ch → c < cw → img.data[img.width * (r + top) + (c + left)]? = some (S r c)

/-- The pattern of a sensor without filters. -/
def noPattern : CFA := ⟨[], 0, 0, []⟩

theorem mono_balance {img : RawImage} (h1 : img.cpp = 1) (h2 : img.cfa.isValid = false) (ref : RawImage) :
    balanceCoeffs img = balanceCoeffs { ref with cpp := 1, cfa := noPattern } := by
  have e1 : img.isMonochrome = true := by simp [RawImage.isMonochrome, h1, h2]
  have e2 : ({ ref with cpp := 1, cfa := noPattern } : RawImage).isMonochrome = true := by simp [RawImage.isMonochrome, noPattern, CFA.isValid]
  unfold balanceCoeffs
  rw [e1, e2]
  rfl

/-- The four channels of a pixel at full size: the sample three times and zero. -/
theorem mono_pixels (b : Build) {img : RawImage} {top right bottom left cw ch : Nat} {S : Nat → Nat → Nat} (h : MonoPicture img top right bottom left cw ch S) :
    ∃ p, (convert b img >>= fun buf => demosaicAndScale b img buf 0 0) = .ok (ofPix cw ch 4 p) ∧
      ∀ r c, r < ch → c < cw → ∀ k, k < 4 → p r c k = if k < 3 then F32.ofNat (S r c) else F32.ofNat 0 := by
  obtain ⟨out, h1, hwf, how, hoh, hoc, h2⟩ := gofloat_mono b img top right bottom left cw ch h.crops h.single h.plain h.full
  have he := wf_eq_ofPix (F32.zero false) out hwf
  rw [how, hoh, hoc] at he
  refine ⟨fun r c k => (out.at? r c k).getD (zero false), ?_, ?_⟩
  · rw [h1, ok_bind]
    have ht : targetSize out.width out.height 0 0 = (.zero false, out.width, out.height) := by
      unfold targetSize
      exact if_pos (.inl rfl)
    unfold demosaicAndScale fourChannels
    rw [ht, if_pos (.inr (by rw [hoc]; decide)), if_pos hoc, ok_bind, if_neg (show ¬ (ofNat 1).lt (zero false) = true by decide +kernel)]
    exact congrArg _ he
  · intro r c hr hc k hk
    obtain ⟨v, e1, e2, e3⟩ := h2 r c hr hc
    rw [h.samples r c hr hc] at e1
    cases e1
    split
    · rename_i hk3
      show (out.at? r c k).getD (zero false) = _
      rw [e2 k hk3, Option.getD_some]
    · have : k = 3 := by omega
      subst this
      show (out.at? r c 3).getD (zero false) = _
      rw [e3, Option.getD_some]

/-- **C96.** For given levels and matrix there is one curve that gives the three values of a pixel from its sample, such that every monochrome
picture with them, of any size, crop, orientation, white balance and build, is that curve applied to each sample, at the place EXIF says. -/
theorem mono_curve (m : Libm) (ref : RawImage) (ha : ArraysOk ref) : ∃ (lin rgb : Nat → Nat → F32) (byte : Nat → Nat → Nat),
    ∀ (img : RawImage) (b : Build) (top right bottom left cw ch : Nat) (S : Nat → Nat → Nat) (n : Nat), SameLevels img ref →
      MonoPicture img top right bottom left cw ch S → img.orientation = Orientation.fromU16 n →
      ∃ (w h : Nat) (dlin drgb : List F32) (dbyte : List Nat), w = (if exifSwaps n then ch else cw) ∧ h = (if exifSwaps n then cw else ch) ∧
        toLinearRgb m b img 0 0 = .ok (w, h, dlin) ∧ toRgb m b img 0 0 = .ok (w, h, drgb) ∧ toSrgb m b img 0 0 = .ok (w, h, dbyte) ∧
        ∀ r c k, r < ch → c < cw → k < 3 →
          let i := ((exifPlace n ch cw r c).1 * w + (exifPlace n ch cw r c).2) * 3 + k
          dlin[i]? = some (lin (S r c) k) ∧ drgb[i]? = some (rgb (S r c) k) ∧ dbyte[i]? = some (byte (S r c) k) := by
  -- the colour
  obtain ⟨mul, hmul, -⟩ := balance_total ({ ref with cpp := 1, cfa := noPattern }) ⟨ha.wb, ha.white, ha.black⟩
  let x : Nat → Nat → F32 := fun v k => levelled ref mul k (if k < 3 then F32.ofNat v else F32.ofNat 0)
  have hcol : ∀ v, ∃ lab : F32 × F32 × F32, xyzToLab m (dot4 ref.camToXyzMat 0 (x v 0) (x v 1) (x v 2) (x v 3))
      (dot4 ref.camToXyzMat 1 (x v 0) (x v 1) (x v 2) (x v 3)) (dot4 ref.camToXyzMat 2 (x v 0) (x v 1) (x v 2) (x v 3)) = .ok lab := fun v => xyzToLab_total m _ _ _
  obtain ⟨lab, hlab⟩ := Classical.axiomOfChoice hcol
  have htot : ∀ v, ∃ y, baseTone (lab v).1 = .ok y := fun v => by
    obtain ⟨q, -, hq⟩ := base_stage (w := 1) (h := 1) (by decide) (fun _ _ _ => (lab v).1)
    exact ⟨_, (hq 0 0).1⟩
  obtain ⟨tone, htone⟩ := Classical.axiomOfChoice htot
  let lin : Nat → Nat → F32 := fun v k => dot3 xyzToRec709Matrix k (labToXyz (tone v) (lab v).2.1 (lab v).2.2).1
    (labToXyz (tone v) (lab v).2.1 (lab v).2.2).2.1 (labToXyz (tone v) (lab v).2.1 (lab v).2.2).2.2
  let rgb : Nat → Nat → F32 := fun v k => gammaEntry m (gammaIndex (lin v k))
  refine ⟨lin, rgb, fun v k => srgbByte (rgb v k), ?_⟩
  intro img b top right bottom left cw ch S n hsame hpic hn
  have hcw := hpic.crops.cw_pos
  have hrows := hpic.rows
  have hai := hpic.arrays
  obtain ⟨p, hdem, hp⟩ := mono_pixels b hpic
  obtain ⟨mul', hm, e1⟩ := level_ofPix (h := ch) hcw img hai p
  obtain ⟨lab', e2, hlab'⟩ := cameraToLab_pixels m img (h := ch) hcw (fun r c k => levelled img mul' k (p r c k))
  obtain ⟨t, e3, ht⟩ := base_stage (h := ch) hcw lab'
  have hmul' : mul' = mul := by
    rw [mono_balance hpic.single hpic.plain ref, hmul] at hm
    injection hm with hm
    exact hm.symm
  subst hmul'
  have hmat : img.camToXyzMat = ref.camToXyzMat := by
    unfold RawImage.camToXyzMat RawImage.xyzToCamMat
    rw [hsame.matrix]
  have hx : ∀ r c, r < ch → c < cw → ∀ k, k < 4 → levelled img mul' k (p r c k) = x (S r c) k := by
    intro r c hr hc k hk
    rw [hp r c hr hc k hk]
    show levelled img mul' k _ = levelled ref mul' k _
    unfold levelled
    rw [hsame.white, hsame.black]
  have hlin : ∀ r c, r < ch → c < cw → ∀ k,
      dot3 xyzToRec709Matrix k (labToXyz (t r c 0) (t r c 1) (t r c 2)).1 (labToXyz (t r c 0) (t r c 1) (t r c 2)).2.1 (labToXyz (t r c 0) (t r c 1) (t r c 2)).2.2
        = lin (S r c) k := by
    intro r c hr hc k
    have hl := hlab' r c
    rw [hx r c hr hc 0 (by decide), hx r c hr hc 1 (by decide), hx r c hr hc 2 (by decide), hx r c hr hc 3 (by decide), hmat, hlab] at hl
    injection hl with hl
    obtain ⟨t0, t1, t2⟩ := ht r c
    have l0 : (lab (S r c)).1 = lab' r c 0 := by rw [hl]
    have l1 : (lab (S r c)).2.1 = lab' r c 1 := by rw [hl]
    have l2 : (lab (S r c)).2.2 = lab' r c 2 := by rw [hl]
    rw [← l0, htone] at t0
    injection t0 with t0
    rw [← t0, t1, t2, ← l1, ← l2]
  -- the pictures
  obtain ⟨buf', f1, f2⟩ := bind_eq_ok.mp hdem
  have hdec : ∀ linear, ∃ q, decoder m b img 0 0 linear = .ok (ofPix (if exifSwaps n then ch else cw) (if exifSwaps n then cw else ch) 3 q) ∧
      ∀ r c k, r < ch → c < cw → k < 3 → q (exifPlace n ch cw r c).1 (exifPlace n ch cw r c).2 k = (if linear then lin else rgb) (S r c) k := by
    intro linear
    unfold decoder
    simp only [ite_self]
    rw [f1, ok_bind, f2, ok_bind, e1, ok_bind, e2, ok_bind, e3, ok_bind, labToRec709_ofPix hcw, ok_bind]
    cases linear
    · rw [if_neg (by decide), gamma_ofPix m hcw (by decide), ok_bind]
      obtain ⟨q, e4, hq⟩ := finalRotate_place img hcw hrows (by decide : 0 < 3) (fun r c k => gammaEntry m (gammaIndex
        (dot3 xyzToRec709Matrix k (labToXyz (t r c 0) (t r c 1) (t r c 2)).1 (labToXyz (t r c 0) (t r c 1) (t r c 2)).2.1 (labToXyz (t r c 0) (t r c 1) (t r c 2)).2.2))) hn
      refine ⟨q, e4, fun r c k hr hc hk => ?_⟩
      rw [hq r c k hr hc hk, hlin r c hr hc k]
      rfl
    · rw [if_pos rfl, ok_bind]
      obtain ⟨q, e4, hq⟩ := finalRotate_place img hcw hrows (by decide : 0 < 3) (fun r c k =>
        dot3 xyzToRec709Matrix k (labToXyz (t r c 0) (t r c 1) (t r c 2)).1 (labToXyz (t r c 0) (t r c 1) (t r c 2)).2.1 (labToXyz (t r c 0) (t r c 1) (t r c 2)).2.2) hn
      refine ⟨q, e4, fun r c k hr hc hk => ?_⟩
      rw [hq r c k hr hc hk]
      exact hlin r c hr hc k
  obtain ⟨ql, dl, hl⟩ := hdec true
  obtain ⟨qr, dr, hr'⟩ := hdec false
  refine ⟨_, _, (ofPix (if exifSwaps n then ch else cw) (if exifSwaps n then cw else ch) 3 ql).data,
    (ofPix (if exifSwaps n then ch else cw) (if exifSwaps n then cw else ch) 3 qr).data, _, rfl, rfl, ?_, ?_, toSrgb_map dr, ?_⟩
  · unfold toLinearRgb
    rw [dl, ok_bind]
    rfl
  · unfold toRgb
    rw [dr, ok_bind]
    rfl
  · intro r c k hr hc hk
    obtain ⟨i1, i2⟩ := exifPlace_inside n ch cw r c hr hc
    have g1 := ofPix_at (k := 3) (p := ql) i1 i2 hk
    have g2 := ofPix_at (k := 3) (p := qr) i1 i2 hk
    rw [hl r c k hr hc hk] at g1
    rw [hr' r c k hr hc hk] at g2
    refine ⟨g1, g2, ?_⟩
    rw [List.getElem?_map]
    exact congrArg (Option.map srgbByte) g2

/-- The white balance of a monochrome picture is not used, at any size. -/
theorem mono_balance_ignored (m : Libm) (b : Build) (img : RawImage) (wb : List F32) (mw mh : Nat) (h1 : img.cpp = 1) (h2 : img.cfa.isValid = false) :
    toLinearRgb m b { img with wbCoeffs := wb } mw mh = toLinearRgb m b img mw mh ∧ toRgb m b { img with wbCoeffs := wb } mw mh = toRgb m b img mw mh ∧
      toSrgb m b { img with wbCoeffs := wb } mw mh = toSrgb m b img mw mh := by
  have hb : balanceCoeffs { img with wbCoeffs := wb } = balanceCoeffs img := by
    rw [mono_balance (img := { img with wbCoeffs := wb }) h1 h2 img, mono_balance h1 h2 img]
  have hl : levelAndBalance { img with wbCoeffs := wb } = levelAndBalance img := by
    funext buf
    unfold levelAndBalance
    rw [hb]
  have hd : ∀ linear, decoder m b { img with wbCoeffs := wb } mw mh linear = decoder m b img mw mh linear := by
    intro linear
    unfold decoder
    rw [hl]
    rfl
  unfold toLinearRgb toRgb toSrgb
  rw [hd, hd]
  exact ⟨rfl, rfl, rfl⟩

/-! ## Cases -/

/-- Three by two samples without a pattern, turned by a quarter; two samples are equal. -/
def monoImage (wb : List F32) : RawImage where
  width := 3
  height := 2
  cpp := 1
  wbCoeffs := wb
  whitelevels := [4000, 4000, 4000, 4000]
  blacklevels := [256, 256, 256, 256]
  xyzToCam := [[.fin 1, .zero false, .zero false], [.zero false, .fin 1, .zero false], [.zero false, .zero false, .fin 1], [.zero false, .zero false, .zero false]]
  cfa := noPattern
  crops := [0, 0, 0, 0]
  orientation := .rotate90
  data := [300, 2000, 700, 900, 1100, 2000]

/-- The samples 2000, at row 0 column 1 and row 1 column 2, are displayed at row 1 column 1 and row 2 column 0, with the same bytes. -/
example (m : Libm) : ∃ d : List Nat, toSrgb m .debug (monoImage [.fin 2, .fin 1, .fin (3 / 2), .nan]) 0 0 = .ok (2, 3, d) ∧
    ∀ k, k < 3 → ∃ x, d[9 + k]? = some x ∧ d[12 + k]? = some x := by
  have ha : ArraysOk (monoImage [.fin 2, .fin 1, .fin (3 / 2), .nan]) := ⟨by decide, by decide, by decide⟩
  obtain ⟨_, _, byte, hall⟩ := mono_curve m (monoImage [.fin 2, .fin 1, .fin (3 / 2), .nan]) ha
  obtain ⟨_, _, _, _, d, rfl, rfl, -, -, e1, e2⟩ := hall _ .debug 0 0 0 0 3 2 (fun r c => [300, 2000, 700, 900, 1100, 2000].getD (r * 3 + c) 0) 6 ⟨rfl, rfl, rfl⟩
    ⟨⟨rfl, rfl, rfl, by decide⟩, by decide, rfl, rfl, rfl, ha, by
      intro r c hr hc
      interval_cases r <;> interval_cases c <;> rfl⟩ rfl
  refine ⟨d, e1, fun k hk => ⟨byte 2000 k, ?_, ?_⟩⟩
  · exact (e2 0 1 k (by decide) (by decide) hk).2.2
  · exact (e2 1 2 k (by decide) (by decide) hk).2.2

end Props

import Verif.Props.BlackPicture
/-!
# C91: a flat field stays flat
-/

namespace Props
open Model Rust Spec F32

/-- Four values per channel and the matrix are the same. -/
structure SameColours (img ref : RawImage) : Prop where
  wb : img.wbCoeffs = ref.wbCoeffs
  white : img.whitelevels = ref.whitelevels
  black : img.blacklevels = ref.blacklevels
  matrix : img.xyzToCam = ref.xyzToCam

/-- A picture taken through a colour filter pattern of a scene without detail: all samples of channel `k` in the cropped area of `cw` by `ch`
pixels are `V k`. Each channel of the pattern is measured at every pixel or next to it; `V` is 0 for the others. -/
structure FlatPicture (img : RawImage) (name : Bytes) (top right bottom left cw ch : Nat) (K : Nat → Nat → Nat) (V : Nat → Nat) : Prop where
  crops : CropsFit img top right bottom left cw ch
  rows : 0 < ch
  single : img.cpp = 1
  pattern : CFA.new name = .ok img.cfa
  named : name ≠ []
  full : img.data.length = img.width * img.height
  small : img.width ≤ 2 ^ 22 ∧ img.height ≤ 2 ^ 22
  words : ∀ v ∈ img.data, v < 65536
  colours : ∀ r c, patternColour name img.cfa.width img.cfa.height (r + top) (c + left) = some (K r c)
  flat : ∀ r c, r < ch → c < cw → img.data[img.width * (r + top) + (c + left)]? = some (V (K r c))
  covered : ∀ k, k < 4 → (∀ r c, r < ch → c < cw → k = K r c ∨ 0 < (measuring ch cw K r c k).card) ∨ (V k = 0 ∧ ∀ r c, r < ch → c < cw → K r c ≠ k)

/-- The same three values at every pixel. -/
def everyPixel {α : Type} (pixels : Nat) (f : Nat → α) : List α := (List.range (pixels * 3)).map fun i => f (i % 3)

theorem ofPix_everyPixel {w h n : Nat} (hn : w * h = n) {q : Nat → Nat → Nat → F32} {v : Nat → F32} (hq : ∀ r c k, r < h → c < w → k < 3 → q r c k = v k) :
    ofPix w h 3 q = ⟨w, h, 3, everyPixel n v⟩ := by
  subst hn
  have : (ofPix w h 3 q).data = everyPixel (w * h) v := by
    apply List.ext_getElem?
    intro i
    rw [ofPix_data]
    unfold raster everyPixel
    rw [List.getElem?_map, List.getElem?_map]
    have hn : w * 3 * h = w * h * 3 := by rw [Nat.mul_assoc, Nat.mul_comm 3 h, ← Nat.mul_assoc]
    by_cases hi : i < w * h * 3
    · have hw3 : 0 < w * 3 := by
        rcases Nat.eq_zero_or_pos w with h0 | h0
        · rw [h0] at hi; omega
        · omega
      rw [List.getElem?_range (by rw [hn]; exact hi), List.getElem?_range hi]
      simp only [Option.map_some]
      rw [hq _ _ _ (Nat.div_lt_of_lt_mul (by rw [hn]; exact hi)) (Nat.div_lt_of_lt_mul (Nat.lt_of_lt_of_eq (Nat.mod_lt _ hw3) (Nat.mul_comm w 3))) (Nat.mod_lt _ (by decide)),
        Nat.mod_mul_left_mod]
    · rw [List.getElem?_eq_none (by simp; omega), List.getElem?_eq_none (by simp; omega)]
      rfl
  rw [← this]
  rfl

/-- The demosaiced picture has the value of each channel at every pixel. -/
theorem flat_pixels (b : Build) {img : RawImage} {name : Bytes} {top right bottom left cw ch : Nat} {K : Nat → Nat → Nat} {V : Nat → Nat}
    (h : FlatPicture img name top right bottom left cw ch K V) :
    ∃ p, (convert b img >>= fun buf => demosaicAndScale b img buf 0 0) = .ok (ofPix cw ch 4 p) ∧
      ∀ r c, r < ch → c < cw → ∀ k, k < 4 → p r c k = F32.ofNat (V k) := by
  obtain ⟨p, hdem, d6⟩ := full_size_pixels b img name top right bottom left cw ch K (fun r c => V (K r c)) h.crops h.single h.pattern h.named h.full h.small h.colours h.flat h.words
  refine ⟨p, hdem, fun r c hr hc k hk => ?_⟩
  obtain ⟨o1, o2⟩ := d6 r c hr hc
  by_cases hkk : k = K r c
  · subst hkk
    exact o1
  · obtain ⟨o3, o4⟩ := o2 k hk hkk
    have hmem : ∀ q ∈ measuring ch cw K r c k, q.1 < ch ∧ q.2 < cw ∧ K q.1 q.2 = k := by
      intro q hq
      unfold measuring around at hq
      simp only [Finset.mem_filter, Finset.mem_product, Finset.mem_range] at hq
      exact ⟨hq.1.1.1, hq.1.1.2, hq.2⟩
    rcases h.covered k hk with h1 | ⟨h1, h2⟩
    · have h0 := (h1 r c hr hc).resolve_left hkk
      rw [o3 h0, meanAt_const h0 (v := V k) (fun q hq => by rw [(hmem q hq).2.2])]
      rfl
    · rw [o4 (Finset.card_eq_zero.mpr (Finset.eq_empty_of_forall_notMem fun q hq => h2 q.1 q.2 (hmem q hq).1 (hmem q hq).2.1 (hmem q hq).2.2)), h1]

/-- A picture with a colour filter pattern is not monochrome. -/
theorem named_colour (b : Build) {img : RawImage} {name : Bytes} (h : CFA.new name = .ok img.cfa) (hn : name ≠ []) : img.isMonochrome = false := by
  obtain ⟨_, _, _, hsz⟩ := cfa_matches_name b name img.cfa h hn 0 0 (by decide) (by decide)
  have hvalid : img.cfa.isValid = true := by
    rcases patternSize_cases hsz with ⟨h0, _⟩ | ⟨_, h0, h0', _⟩
    · exact absurd (List.eq_nil_of_length_eq_zero h0) hn
    · unfold CFA.isValid
      simp only [bne_iff_ne, Bool.and_eq_true, ne_eq]
      first | exact ⟨by omega, by omega⟩ | (simp; omega)
  simp [RawImage.isMonochrome, hvalid]

theorem same_balance {img ref : RawImage} (h : SameColours img ref) (hmono : img.isMonochrome = false) : balanceCoeffs img = balanceCoeffs { ref with cpp := 3 } := by
  have hn : img.neutralwb = ({ ref with cpp := 3 } : RawImage).neutralwb := by
    have : img.xyzToCamMat = ({ ref with cpp := 3 } : RawImage).xyzToCamMat := by
      unfold RawImage.xyzToCamMat
      rw [h.matrix]
    unfold RawImage.neutralwb
    rw [this]
  unfold balanceCoeffs
  rw [hmono, hn, show ({ ref with cpp := 3 } : RawImage).isMonochrome = false by simp [RawImage.isMonochrome], h.wb]

/-- **C91.** For given levels, balance, matrix and readings there is one colour such that every flat picture with them, of any size, crop,
pattern, orientation and build, has that colour at every pixel of every output. -/
theorem flat_field (m : Libm) (ref : RawImage) (ha : ArraysOk ref) (V : Nat → Nat) : ∃ (lin rgb : Nat → F32) (bytes : Nat → Nat),
    ∀ (img : RawImage) (b : Build) (name : Bytes) (top right bottom left cw ch : Nat) (K : Nat → Nat → Nat), SameColours img ref →
      FlatPicture img name top right bottom left cw ch K V →
      let w := if img.orientation.toFlips.1 then ch else cw
      let h := if img.orientation.toFlips.1 then cw else ch
      toLinearRgb m b img 0 0 = .ok (w, h, everyPixel (cw * ch) lin) ∧ toRgb m b img 0 0 = .ok (w, h, everyPixel (cw * ch) rgb) ∧
        toSrgb m b img 0 0 = .ok (w, h, everyPixel (cw * ch) bytes) := by
  -- the colour
  obtain ⟨mul, hmul, -⟩ := balance_total ({ ref with cpp := 3 }) ⟨ha.wb, ha.white, ha.black⟩
  let x : Nat → F32 := fun k => levelled ref mul k (F32.ofNat (V k))
  obtain ⟨lab, hlab⟩ := xyzToLab_total m (dot4 ref.camToXyzMat 0 (x 0) (x 1) (x 2) (x 3)) (dot4 ref.camToXyzMat 1 (x 0) (x 1) (x 2) (x 3)) (dot4 ref.camToXyzMat 2 (x 0) (x 1) (x 2) (x 3))
  obtain ⟨tone, htone⟩ : ∃ y, baseTone lab.1 = .ok y := by
    obtain ⟨q, -, hq⟩ := base_stage (w := 1) (h := 1) (by decide) (fun _ _ _ => lab.1)
    exact ⟨_, (hq 0 0).1⟩
  let lin : Nat → F32 := fun k => dot3 xyzToRec709Matrix k (labToXyz tone lab.2.1 lab.2.2).1 (labToXyz tone lab.2.1 lab.2.2).2.1 (labToXyz tone lab.2.1 lab.2.2).2.2
  let rgb : Nat → F32 := fun k => gammaEntry m (gammaIndex (lin k))
  refine ⟨lin, rgb, fun k => srgbByte (rgb k), ?_⟩
  intro img b name top right bottom left cw ch K hsame hflat w h
  have hcw := hflat.crops.cw_pos
  have hrows := hflat.rows
  have hai : ArraysOk img := ⟨by rw [hsame.wb]; exact ha.wb, by rw [hsame.white]; exact ha.white, by rw [hsame.black]; exact ha.black⟩
  obtain ⟨p, hdem, hp⟩ := flat_pixels b hflat
  obtain ⟨mul', hm, e1⟩ := level_ofPix (h := ch) hcw img hai p
  obtain ⟨lab', e2, hlab'⟩ := cameraToLab_pixels m img (h := ch) hcw (fun r c k => levelled img mul' k (p r c k))
  obtain ⟨t, e3, ht⟩ := base_stage (h := ch) hcw lab'
  have hmul' : mul' = mul := by
    rw [same_balance hsame (named_colour b hflat.pattern hflat.named), hmul] at hm
    injection hm with hm
    exact hm.symm
  subst hmul'
  have hmat : img.camToXyzMat = ref.camToXyzMat := by
    unfold RawImage.camToXyzMat RawImage.xyzToCamMat
    rw [hsame.matrix]
  have hx : ∀ r c, r < ch → c < cw → ∀ k, k < 4 → levelled img mul' k (p r c k) = x k := by
    intro r c hr hc k hk
    rw [hp r c hr hc k hk]
    show levelled img mul' k _ = levelled ref mul' k _
    unfold levelled
    rw [hsame.white, hsame.black]
  have hlin : ∀ r c, r < ch → c < cw → ∀ k,
      dot3 xyzToRec709Matrix k (labToXyz (t r c 0) (t r c 1) (t r c 2)).1 (labToXyz (t r c 0) (t r c 1) (t r c 2)).2.1 (labToXyz (t r c 0) (t r c 1) (t r c 2)).2.2 = lin k := by
    intro r c hr hc k
    have hl := hlab' r c
    rw [hx r c hr hc 0 (by decide), hx r c hr hc 1 (by decide), hx r c hr hc 2 (by decide), hx r c hr hc 3 (by decide), hmat, hlab] at hl
    injection hl with hl
    obtain ⟨t0, t1, t2⟩ := ht r c
    have l0 : lab.1 = lab' r c 0 := by rw [hl]
    have l1 : lab.2.1 = lab' r c 1 := by rw [hl]
    have l2 : lab.2.2 = lab' r c 2 := by rw [hl]
    rw [← l0, htone] at t0
    injection t0 with t0
    rw [← t0, t1, t2, ← l1, ← l2]
  have hprod : w * h = cw * ch := by
    show (if _ then ch else cw) * (if _ then cw else ch) = _
    split
    · exact Nat.mul_comm _ _
    · rfl
  -- the pictures
  obtain ⟨buf', f1, f2⟩ := bind_eq_ok.mp hdem
  have hdec : ∀ linear, decoder m b img 0 0 linear = .ok ⟨w, h, 3, everyPixel (cw * ch) (if linear then lin else rgb)⟩ := by
    intro linear
    unfold decoder
    simp only [ite_self]
    rw [f1, ok_bind, f2, ok_bind, e1, ok_bind, e2, ok_bind, e3, ok_bind, labToRec709_ofPix hcw, ok_bind]
    cases linear
    · rw [if_neg (by decide), gamma_ofPix m hcw (by decide), ok_bind]
      obtain ⟨q, e4, hq⟩ := finalRotate_ofPix img hcw hrows (by decide : 0 < 3) (fun r c k => gammaEntry m (gammaIndex
        (dot3 xyzToRec709Matrix k (labToXyz (t r c 0) (t r c 1) (t r c 2)).1 (labToXyz (t r c 0) (t r c 1) (t r c 2)).2.1 (labToXyz (t r c 0) (t r c 1) (t r c 2)).2.2)))
      refine e4.trans (congrArg Except.ok (ofPix_everyPixel hprod ?_))
      intro r c k hr hcc hk
      obtain ⟨r0, c0, g1, g2, g3⟩ := hq r c k hr hcc hk
      rw [g3, hlin r0 c0 g1 g2 k]
      rfl
    · rw [if_pos rfl, ok_bind]
      obtain ⟨q, e4, hq⟩ := finalRotate_ofPix img hcw hrows (by decide : 0 < 3) (fun r c k =>
        dot3 xyzToRec709Matrix k (labToXyz (t r c 0) (t r c 1) (t r c 2)).1 (labToXyz (t r c 0) (t r c 1) (t r c 2)).2.1 (labToXyz (t r c 0) (t r c 1) (t r c 2)).2.2)
      refine e4.trans (congrArg Except.ok (ofPix_everyPixel hprod ?_))
      intro r c k hr hcc hk
      obtain ⟨r0, c0, g1, g2, g3⟩ := hq r c k hr hcc hk
      rw [g3]
      exact hlin r0 c0 g1 g2 k
  refine ⟨?_, ?_, ?_⟩
  · unfold toLinearRgb
    rw [hdec true, ok_bind]
    rfl
  · unfold toRgb
    rw [hdec false, ok_bind]
    rfl
  · have e : (⟨w, h, 3, everyPixel (cw * ch) rgb⟩ : OpBuffer F32) = ofPix w h 3 (fun _ _ k => rgb k) := by
      rw [ofPix_everyPixel hprod (v := rgb) (fun _ _ _ _ _ _ => rfl)]
    have hd' : decoder m b img 0 0 false = .ok (ofPix w h 3 (fun _ _ k => rgb k)) := by rw [← e]; exact hdec false
    rw [toSrgb_map hd', ← e]
    unfold everyPixel
    rw [List.map_map]
    rfl

/-- Pictures with readings 300, 800 and 500 through an RGGB filter. -/
def flatImage (w h : Nat) (cfa : CFA) (o : Orientation) : RawImage where
  width := w
  height := h
  cpp := 1
  wbCoeffs := [.fin 2, .fin 1, .fin (3 / 2), .nan]
  whitelevels := [4000, 4000, 4000, 4000]
  blacklevels := [256, 256, 256, 256]
  xyzToCam := [[.fin 1, .zero false, .zero false], [.zero false, .fin 1, .zero false], [.zero false, .zero false, .fin 1], [.zero false, .zero false, .zero false]]
  cfa := cfa
  crops := [0, 0, 0, 0]
  orientation := o
  data := raster w h fun r c => [300, 800, 500].getD (r % 2 + c % 2) 0

/-- One colour for all of them, turned or not. -/
example (m : Libm) {cfa : CFA} (hcfa : CFA.new (b! "RGGB") = .ok cfa) : ∃ bytes : Nat → Nat, ∀ w h, 2 ≤ w → 2 ≤ h → w ≤ 2 ^ 22 → h ≤ 2 ^ 22 →
    toSrgb m .release (flatImage w h cfa .normal) 0 0 = .ok (w, h, everyPixel (w * h) bytes) ∧
    toSrgb m .release (flatImage w h cfa .rotate90) 0 0 = .ok (h, w, everyPixel (w * h) bytes) := by
  obtain ⟨lin, rgb, bytes, hall⟩ := flat_field m (flatImage 2 2 cfa .normal) ⟨rfl, rfl, rfl⟩ (fun k => [300, 800, 500].getD k 0)
  refine ⟨bytes, fun w h hw hh hw' hh' => ?_⟩
  obtain ⟨-, -, -, hsz⟩ := cfa_matches_name .release (b! "RGGB") cfa hcfa (by decide) 0 0 (by decide) (by decide)
  have hsz' : patternSize (b! "RGGB").length = some (2, 2) := by decide
  rw [hsz'] at hsz
  injection hsz with hsz
  rw [Prod.mk.injEq] at hsz
  have hpat : ∀ r c, patternColour (b! "RGGB") 2 2 (r + 0) (c + 0) = some ((fun r c => r % 2 + c % 2) r c) := by
    intro r c
    have hr : r % 2 = 0 ∨ r % 2 = 1 := by omega
    have hc : c % 2 = 0 ∨ c % 2 = 1 := by omega
    unfold patternColour
    rcases hr with hr | hr <;> rcases hc with hc | hc <;> rw [Nat.add_zero, Nat.add_zero, hr, hc] <;> simp only [hr, hc] <;> decide
  have hflat : ∀ o, FlatPicture (flatImage w h cfa o) (b! "RGGB") 0 0 0 0 w h (fun r c => r % 2 + c % 2) (fun k => [300, 800, 500].getD k 0) := fun o =>
    { crops := ⟨rfl, by show w = 0 + w + 0; omega, by show h = 0 + h + 0; omega, by omega⟩
      rows := by omega
      single := rfl
      pattern := hcfa
      named := by decide
      full := by
        show (raster w h fun r c => [300, 800, 500].getD (r % 2 + c % 2) 0).length = w * h
        exact raster_length _ _ _
      small := ⟨hw', hh'⟩
      words := by
        intro v hv
        have hv : v ∈ raster w h fun r c => [300, 800, 500].getD (r % 2 + c % 2) 0 := hv
        unfold raster at hv
        simp only [List.mem_map] at hv
        obtain ⟨i, -, rfl⟩ := hv
        have : i / w % 2 + i % w % 2 < 3 := by omega
        generalize i / w % 2 + i % w % 2 = n at this ⊢
        interval_cases n <;> decide
      colours := fun r c => by
        show patternColour (b! "RGGB") cfa.width cfa.height (r + 0) (c + 0) = _
        rw [← hsz.1, ← hsz.2]
        exact hpat r c
      flat := fun r c hr hc => by
        show (raster w h fun r c => [300, 800, 500].getD (r % 2 + c % 2) 0)[w * (r + 0) + (c + 0)]? = _
        rw [Nat.add_zero, Nat.add_zero, Nat.mul_comm]
        exact raster_getElem? _ _ _ _ _ hr hc
      covered := fun k hk => by
        rcases Nat.lt_or_ge k 3 with h3 | h3
        · exact .inl fun r c hr hc => .inr (bayer_covers (name := b! "RGGB") (top := 0) (left := 0) (i := k / 2) (j := k - k / 2) hpat hw hh
            (by interval_cases k <;> decide) hr hc)
        · exact .inr ⟨by interval_cases k; rfl, fun r c _ _ => by show r % 2 + c % 2 ≠ k; omega⟩ }
  exact ⟨(hall (flatImage w h cfa .normal) .release _ _ _ _ _ _ _ _ ⟨rfl, rfl, rfl, rfl⟩ (hflat .normal)).2.2, (hall (flatImage w h cfa .rotate90) .release _ _ _ _ _ _ _ _ ⟨rfl, rfl, rfl, rfl⟩ (hflat .rotate90)).2.2⟩

end Props

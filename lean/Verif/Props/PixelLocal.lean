import Verif.Props.FlatField
/-!
# C92: the colour of a pixel is a function of its neighbourhood
-/

namespace Props
open Model Rust Spec F32

/-- What was measured around a pixel: colour and sample at the positions up to one row and one column away, `(1, 1)` being the pixel itself;
`none` outside the picture. -/
def neighbourhood (ch cw : Nat) (K S : Nat → Nat → Nat) (r c : Nat) : Nat → Nat → Option (Nat × Nat) := fun i j =>
  if i < 3 ∧ j < 3 ∧ 1 ≤ r + i ∧ r + i - 1 < ch ∧ 1 ≤ c + j ∧ c + j - 1 < cw then some (K (r + i - 1) (c + j - 1), S (r + i - 1) (c + j - 1)) else none

/-- A picture taken through a colour filter pattern: the cropped area has `ch` by `cw` samples `S`, of colours `K`. -/
structure MosaicPicture (img : RawImage) (name : Bytes) (top right bottom left cw ch : Nat) (K S : Nat → Nat → Nat) : Prop where
  crops : CropsFit img top right bottom left cw ch
  rows : 0 < ch
  single : img.cpp = 1
  pattern : CFA.new name = .ok img.cfa
  named : name ≠ []
  full : img.data.length = img.width * img.height
  small : img.width ≤ 2 ^ 22 ∧ img.height ≤ 2 ^ 22
  words : ∀ v ∈ img.data, v < 65536
  colours : ∀ r c, patternColour name img.cfa.width img.cfa.height (r + top) (c + left) = some (K r c)
  samples : ∀ r c, r < ch → c < cw → img.data[img.width * (r + top) + (c + left)]? = some (S r c)

/-! ## The demosaiced pixel -/

/-- The positions of a neighbourhood with colour `k`. -/
def sameColour (n : Nat → Nat → Option (Nat × Nat)) (k : Nat) : Finset (ℕ × ℕ) :=
  (Finset.range 3 ×ˢ Finset.range 3).filter fun p => (n p.1 p.2).map Prod.fst = some k

/-- The value of channel `k` for a neighbourhood: the sample itself for the colour of the pixel, else the mean of the others. -/
noncomputable def channelOf (n : Nat → Nat → Option (Nat × Nat)) (k : Nat) : F32 :=
  if (n 1 1).map Prod.fst = some k then F32.ofNat ((n 1 1).getD (0, 0)).2
  else if (sameColour n k).card = 0 then F32.ofNat 0
  else F32.ofRat (meanAt (sameColour n k) fun i j => ((n i j).getD (0, 0)).2)

theorem neighbourhood_centre {ch cw : Nat} {K S : Nat → Nat → Nat} {r c : Nat} (hr : r < ch) (hc : c < cw) :
    neighbourhood ch cw K S r c 1 1 = some (K r c, S r c) := by
  unfold neighbourhood
  rw [if_pos (by omega)]
  rfl

theorem sameColour_mem {ch cw : Nat} {K S : Nat → Nat → Nat} {r c k : Nat} (p : ℕ × ℕ) :
    p ∈ sameColour (neighbourhood ch cw K S r c) k ↔
      (p.1 < 3 ∧ p.2 < 3 ∧ 1 ≤ r + p.1 ∧ r + p.1 - 1 < ch ∧ 1 ≤ c + p.2 ∧ c + p.2 - 1 < cw) ∧ K (r + p.1 - 1) (c + p.2 - 1) = k := by
  unfold sameColour neighbourhood
  simp only [Finset.mem_filter, Finset.mem_product, Finset.mem_range]
  constructor
  · rintro ⟨-, h⟩
    split at h
    · rename_i h1
      simp only [Option.map_some, Option.some.injEq] at h
      exact ⟨h1, h⟩
    · cases h
  · rintro ⟨h1, h2⟩
    rw [if_pos h1]
    exact ⟨⟨h1.1, h1.2.1⟩, by simp [h2]⟩

theorem measuring_mem {ch cw : Nat} {K : Nat → Nat → Nat} {r c k : Nat} (p : ℕ × ℕ) :
    p ∈ measuring ch cw K r c k ↔ (p.1 < ch ∧ p.2 < cw ∧ p.1 ≤ r + 1 ∧ r ≤ p.1 + 1 ∧ p.2 ≤ c + 1 ∧ c ≤ p.2 + 1) ∧ K p.1 p.2 = k := by
  unfold measuring around
  simp only [Finset.mem_filter, Finset.mem_product, Finset.mem_range]
  tauto

/-- Positions relative to the pixel. -/
theorem measuring_image {ch cw : Nat} {K S : Nat → Nat → Nat} {r c k : Nat} :
    measuring ch cw K r c k = (sameColour (neighbourhood ch cw K S r c) k).image fun p => (r + p.1 - 1, c + p.2 - 1) := by
  ext p
  rw [measuring_mem, Finset.mem_image]
  constructor
  · rintro ⟨h1, h2⟩
    refine ⟨(p.1 + 1 - r, p.2 + 1 - c), ?_, ?_⟩
    · rw [sameColour_mem]
      have e1 : r + (p.1 + 1 - r) - 1 = p.1 := by omega
      have e2 : c + (p.2 + 1 - c) - 1 = p.2 := by omega
      refine ⟨⟨?_, ?_, ?_, ?_, ?_, ?_⟩, ?_⟩
      · show p.1 + 1 - r < 3; omega
      · show p.2 + 1 - c < 3; omega
      · show 1 ≤ r + (p.1 + 1 - r); omega
      · show r + (p.1 + 1 - r) - 1 < ch; omega
      · show 1 ≤ c + (p.2 + 1 - c); omega
      · show c + (p.2 + 1 - c) - 1 < cw; omega
      · show K (r + (p.1 + 1 - r) - 1) (c + (p.2 + 1 - c) - 1) = k
        rw [e1, e2]; exact h2
    · exact Prod.ext (by show r + (p.1 + 1 - r) - 1 = p.1; omega) (by show c + (p.2 + 1 - c) - 1 = p.2; omega)
  · rintro ⟨q, hq, rfl⟩
    rw [sameColour_mem] at hq
    obtain ⟨h1, h2⟩ := hq
    refine ⟨?_, h2⟩
    dsimp only
    omega

theorem offset_injective {ch cw : Nat} {K S : Nat → Nat → Nat} {r c k : Nat} :
    Set.InjOn (fun p : ℕ × ℕ => (r + p.1 - 1, c + p.2 - 1)) (sameColour (neighbourhood ch cw K S r c) k : Set (ℕ × ℕ)) := by
  intro p hp q hq h
  rw [Finset.mem_coe, sameColour_mem] at hp hq
  simp only [Prod.mk.injEq] at h
  exact Prod.ext (by omega) (by omega)

theorem measuring_card {ch cw : Nat} {K : Nat → Nat → Nat} (S : Nat → Nat → Nat) {r c k : Nat} :
    (measuring ch cw K r c k).card = (sameColour (neighbourhood ch cw K S r c) k).card := by
  rw [measuring_image (S := S), Finset.card_image_of_injOn offset_injective]

theorem measuring_mean {ch cw : Nat} {K S : Nat → Nat → Nat} {r c k : Nat} :
    meanAt (measuring ch cw K r c k) S = meanAt (sameColour (neighbourhood ch cw K S r c) k) fun i j => ((neighbourhood ch cw K S r c i j).getD (0, 0)).2 := by
  unfold meanAt
  rw [measuring_card S]
  congr 2
  rw [measuring_image (S := S), Finset.sum_image offset_injective]
  apply Finset.sum_congr rfl
  intro p hp
  rw [sameColour_mem] at hp
  unfold neighbourhood
  dsimp only
  rw [if_pos hp.1]
  rfl

/-- The four channels of a pixel at full size. -/
theorem local_pixels (b : Build) {img : RawImage} {name : Bytes} {top right bottom left cw ch : Nat} {K S : Nat → Nat → Nat}
    (h : MosaicPicture img name top right bottom left cw ch K S) :
    ∃ p, (convert b img >>= fun buf => demosaicAndScale b img buf 0 0) = .ok (ofPix cw ch 4 p) ∧
      ∀ r c, r < ch → c < cw → ∀ k, k < 4 → p r c k = channelOf (neighbourhood ch cw K S r c) k := by
  obtain ⟨p, hdem, d6⟩ := full_size_pixels b img name top right bottom left cw ch K S h.crops h.single h.pattern h.named h.full h.small h.colours h.samples h.words
  refine ⟨p, hdem, fun r c hr hc k hk => ?_⟩
  obtain ⟨o1, o2⟩ := d6 r c hr hc
  unfold channelOf
  rw [neighbourhood_centre hr hc]
  by_cases hkk : k = K r c
  · subst hkk
    rw [if_pos (by simp), o1]
    rfl
  · rw [if_neg (by simpa using fun e : K r c = k => hkk e.symm)]
    obtain ⟨o3, o4⟩ := o2 k hk hkk
    rw [← measuring_card S, ← measuring_mean]
    split
    · rename_i h0; exact o4 h0
    · rename_i h0; exact o3 (Nat.pos_of_ne_zero h0)

/-! ## The picture -/

theorem finalRotate_place (img : RawImage) {w h k : Nat} (hw : 0 < w) (hh : 0 < h) (hk : 0 < k) (p : Nat → Nat → Nat → F32) {n : Nat}
    (hn : img.orientation = Orientation.fromU16 n) :
    ∃ q, finalRotate img (ofPix w h k p) = .ok (ofPix (if exifSwaps n then h else w) (if exifSwaps n then w else h) k q) ∧
      ∀ r c ch, r < h → c < w → ch < k → q (exifPlace n h w r c).1 (exifPlace n h w r c).2 ch = p r c ch := by
  unfold finalRotate
  split
  · rw [hn]
    exact rotateBuffer_ofPix hw hh hk (F32.zero false) p n
  · rename_i hno
    rcases orient_cases n with hc | ⟨h1, h2, -⟩
    · exfalso
      rcases hc with rfl | rfl | rfl | rfl | rfl | rfl | rfl <;> rw [hn] at hno <;> exact hno (by decide)
    · rw [h2]
      exact ⟨p, rfl, fun r c ch _ _ _ => by rw [h1]⟩

/-- **C92.** For given levels, balance and matrix there is a function that gives the colour of a pixel from the nine samples around it and
their places in the pattern. At full size every pixel of every picture has this colour, at the place where its orientation puts it. -/
theorem pixel_local (m : Libm) (ref : RawImage) (ha : ArraysOk ref) : ∃ (lin rgb : (Nat → Nat → Option (Nat × Nat)) → Nat → F32)
    (byte : (Nat → Nat → Option (Nat × Nat)) → Nat → Nat),
    ∀ (img : RawImage) (b : Build) (name : Bytes) (top right bottom left cw ch : Nat) (K S : Nat → Nat → Nat) (n : Nat), SameColours img ref →
      MosaicPicture img name top right bottom left cw ch K S → img.orientation = Orientation.fromU16 n →
      ∃ (w h : Nat) (dlin drgb : List F32) (dbyte : List Nat), w = (if exifSwaps n then ch else cw) ∧ h = (if exifSwaps n then cw else ch) ∧
        toLinearRgb m b img 0 0 = .ok (w, h, dlin) ∧ toRgb m b img 0 0 = .ok (w, h, drgb) ∧ toSrgb m b img 0 0 = .ok (w, h, dbyte) ∧
        ∀ r c k, r < ch → c < cw → k < 3 →
          let i := ((exifPlace n ch cw r c).1 * w + (exifPlace n ch cw r c).2) * 3 + k
          dlin[i]? = some (lin (neighbourhood ch cw K S r c) k) ∧ drgb[i]? = some (rgb (neighbourhood ch cw K S r c) k) ∧
            dbyte[i]? = some (byte (neighbourhood ch cw K S r c) k) := by
  -- the colour
  obtain ⟨mul, hmul, -⟩ := balance_total ({ ref with cpp := 3 }) ⟨ha.wb, ha.white, ha.black⟩
  let x : (Nat → Nat → Option (Nat × Nat)) → Nat → F32 := fun v k => levelled ref mul k (channelOf v k)
  have hcol : ∀ v, ∃ lab : F32 × F32 × F32, xyzToLab m (dot4 ref.camToXyzMat 0 (x v 0) (x v 1) (x v 2) (x v 3))
      (dot4 ref.camToXyzMat 1 (x v 0) (x v 1) (x v 2) (x v 3)) (dot4 ref.camToXyzMat 2 (x v 0) (x v 1) (x v 2) (x v 3)) = .ok lab := fun v => xyzToLab_total m _ _ _
  obtain ⟨lab, hlab⟩ := Classical.axiomOfChoice hcol
  have htot : ∀ v, ∃ y, baseTone (lab v).1 = .ok y := fun v => by
    obtain ⟨q, -, hq⟩ := base_stage (w := 1) (h := 1) (by decide) (fun _ _ _ => (lab v).1)
    exact ⟨_, (hq 0 0).1⟩
  obtain ⟨tone, htone⟩ := Classical.axiomOfChoice htot
  let lin : (Nat → Nat → Option (Nat × Nat)) → Nat → F32 := fun v k => dot3 xyzToRec709Matrix k (labToXyz (tone v) (lab v).2.1 (lab v).2.2).1
    (labToXyz (tone v) (lab v).2.1 (lab v).2.2).2.1 (labToXyz (tone v) (lab v).2.1 (lab v).2.2).2.2
  let rgb : (Nat → Nat → Option (Nat × Nat)) → Nat → F32 := fun v k => gammaEntry m (gammaIndex (lin v k))
  refine ⟨lin, rgb, fun v k => srgbByte (rgb v k), ?_⟩
  intro img b name top right bottom left cw ch K S n hsame hpic hn
  have hcw := hpic.crops.cw_pos
  have hrows := hpic.rows
  have hai : ArraysOk img := ⟨by rw [hsame.wb]; exact ha.wb, by rw [hsame.white]; exact ha.white, by rw [hsame.black]; exact ha.black⟩
  obtain ⟨p, hdem, hp⟩ := local_pixels b hpic
  obtain ⟨mul', hm, e1⟩ := level_ofPix (h := ch) hcw img hai p
  obtain ⟨lab', e2, hlab'⟩ := cameraToLab_pixels m img (h := ch) hcw (fun r c k => levelled img mul' k (p r c k))
  obtain ⟨t, e3, ht⟩ := base_stage (h := ch) hcw lab'
  have hmul' : mul' = mul := by
    rw [same_balance hsame (named_colour b hpic.pattern hpic.named), hmul] at hm
    injection hm with hm
    exact hm.symm
  subst hmul'
  have hmat : img.camToXyzMat = ref.camToXyzMat := by
    unfold RawImage.camToXyzMat RawImage.xyzToCamMat
    rw [hsame.matrix]
  have hx : ∀ r c, r < ch → c < cw → ∀ k, k < 4 → levelled img mul' k (p r c k) = x (neighbourhood ch cw K S r c) k := by
    intro r c hr hc k hk
    rw [hp r c hr hc k hk]
    show levelled img mul' k _ = levelled ref mul' k _
    unfold levelled
    rw [hsame.white, hsame.black]
  have hlin : ∀ r c, r < ch → c < cw → ∀ k,
      dot3 xyzToRec709Matrix k (labToXyz (t r c 0) (t r c 1) (t r c 2)).1 (labToXyz (t r c 0) (t r c 1) (t r c 2)).2.1 (labToXyz (t r c 0) (t r c 1) (t r c 2)).2.2
        = lin (neighbourhood ch cw K S r c) k := by
    intro r c hr hc k
    have hl := hlab' r c
    rw [hx r c hr hc 0 (by decide), hx r c hr hc 1 (by decide), hx r c hr hc 2 (by decide), hx r c hr hc 3 (by decide), hmat, hlab] at hl
    injection hl with hl
    obtain ⟨t0, t1, t2⟩ := ht r c
    have l0 : (lab (neighbourhood ch cw K S r c)).1 = lab' r c 0 := by rw [hl]
    have l1 : (lab (neighbourhood ch cw K S r c)).2.1 = lab' r c 1 := by rw [hl]
    have l2 : (lab (neighbourhood ch cw K S r c)).2.2 = lab' r c 2 := by rw [hl]
    rw [← l0, htone] at t0
    injection t0 with t0
    rw [← t0, t1, t2, ← l1, ← l2]
  -- the pictures
  obtain ⟨buf', f1, f2⟩ := bind_eq_ok.mp hdem
  have hdec : ∀ linear, ∃ q, decoder m b img 0 0 linear = .ok (ofPix (if exifSwaps n then ch else cw) (if exifSwaps n then cw else ch) 3 q) ∧
      ∀ r c k, r < ch → c < cw → k < 3 → q (exifPlace n ch cw r c).1 (exifPlace n ch cw r c).2 k = (if linear then lin else rgb) (neighbourhood ch cw K S r c) k := by
    intro linear
    unfold decoder
    simp only [ite_self]
    rw [f1, ok_bind, f2, ok_bind, e1, ok_bind, e2, ok_bind, e3, ok_bind, labToRec709_ofPix hcw, ok_bind]
    cases linear
    · rw [if_neg (by decide), gamma_ofPix m hcw (by decide), ok_bind]
      obtain ⟨q, e4, hq⟩ := finalRotate_place img hcw hrows (by decide : 0 < 3) (fun r c k => gammaEntry m (gammaIndex
        (dot3 xyzToRec709Matrix k (labToXyz (t r c 0) (t r c 1) (t r c 2)).1 (labToXyz (t r c 0) (t r c 1) (t r c 2)).2.1 (labToXyz (t r c 0) (t r c 1) (t r c 2)).2.2))) hn
      refine ⟨q, e4, fun r c k hr hc hk => ?_⟩
      rw [hq r c k hr hc hk, hlin r c hr hc k]
      rfl
    · rw [if_pos rfl, ok_bind]
      obtain ⟨q, e4, hq⟩ := finalRotate_place img hcw hrows (by decide : 0 < 3) (fun r c k =>
        dot3 xyzToRec709Matrix k (labToXyz (t r c 0) (t r c 1) (t r c 2)).1 (labToXyz (t r c 0) (t r c 1) (t r c 2)).2.1 (labToXyz (t r c 0) (t r c 1) (t r c 2)).2.2) hn
      refine ⟨q, e4, fun r c k hr hc hk => ?_⟩
      rw [hq r c k hr hc hk]
      exact hlin r c hr hc k
  obtain ⟨ql, dl, hl⟩ := hdec true
  obtain ⟨qr, dr, hr'⟩ := hdec false
  refine ⟨_, _, (ofPix (if exifSwaps n then ch else cw) (if exifSwaps n then cw else ch) 3 ql).data,
    (ofPix (if exifSwaps n then ch else cw) (if exifSwaps n then cw else ch) 3 qr).data, _, rfl, rfl, ?_, ?_, toSrgb_map dr, ?_⟩
  · unfold toLinearRgb
    rw [dl, ok_bind]
    rfl
  · unfold toRgb
    rw [dr, ok_bind]
    rfl
  · intro r c k hr hc hk
    obtain ⟨i1, i2⟩ := exifPlace_inside n ch cw r c hr hc
    have g1 := ofPix_at (k := 3) (p := ql) i1 i2 hk
    have g2 := ofPix_at (k := 3) (p := qr) i1 i2 hk
    rw [hl r c k hr hc hk] at g1
    rw [hr' r c k hr hc hk] at g2
    refine ⟨g1, g2, ?_⟩
    rw [List.getElem?_map]
    exact congrArg (Option.map srgbByte) g2

/-- A faulty sensor element spoils at most the nine pixels around it: two pictures that differ in one sample only, at `(r1, c1)`, have the same
bytes at every pixel more than one row or column away from it. -/
theorem hot_pixel (m : Libm) (b : Build) {img img' : RawImage} (ha : ArraysOk img) (hsame : SameColours img' img) {name : Bytes} {top right bottom left cw ch : Nat}
    {K S S' : Nat → Nat → Nat} (h : MosaicPicture img name top right bottom left cw ch K S) (h' : MosaicPicture img' name top right bottom left cw ch K S')
    {n : Nat} (hn : img.orientation = Orientation.fromU16 n) (hn' : img'.orientation = Orientation.fromU16 n) {r1 c1 : Nat}
    (hS : ∀ r c, r < ch → c < cw → ¬ (r = r1 ∧ c = c1) → S' r c = S r c) :
    ∃ (w ht : Nat) (d d' : List Nat), toSrgb m b img 0 0 = .ok (w, ht, d) ∧ toSrgb m b img' 0 0 = .ok (w, ht, d') ∧
      ∀ r c k, r < ch → c < cw → k < 3 → r + 1 < r1 ∨ r1 + 1 < r ∨ c + 1 < c1 ∨ c1 + 1 < c →
        let i := ((exifPlace n ch cw r c).1 * w + (exifPlace n ch cw r c).2) * 3 + k
        ∃ v, d[i]? = some v ∧ d'[i]? = some v := by
  obtain ⟨lin, rgb, byte, hall⟩ := pixel_local m img ha
  obtain ⟨w, ht, _, _, d, rfl, rfl, -, -, e1, e2⟩ := hall img b name top right bottom left cw ch K S n ⟨rfl, rfl, rfl, rfl⟩ h hn
  obtain ⟨_, _, _, _, d', rfl, rfl, -, -, f1, f2⟩ := hall img' b name top right bottom left cw ch K S' n hsame h' hn'
  refine ⟨_, _, d, d', e1, f1, fun r c k hr hc hk hfar => ?_⟩
  have hnb : neighbourhood ch cw K S' r c = neighbourhood ch cw K S r c := by
    funext i j
    unfold neighbourhood
    split
    · rename_i hij
      rw [hS _ _ hij.2.2.2.1 hij.2.2.2.2.2 (by omega)]
    · rfl
  have g := (f2 r c k hr hc hk).2.2
  rw [hnb] at g
  exact ⟨_, (e2 r c k hr hc hk).2.2, g⟩

/-- Four by four samples, of which the one in the last corner is stuck, or is not. -/
def stuckImage (v : Nat) (cfa : CFA) : RawImage where
  width := 4
  height := 4
  cpp := 1
  wbCoeffs := [.fin 2, .fin 1, .fin (3 / 2), .nan]
  whitelevels := [4000, 4000, 4000, 4000]
  blacklevels := [256, 256, 256, 256]
  xyzToCam := [[.fin 1, .zero false, .zero false], [.zero false, .fin 1, .zero false], [.zero false, .zero false, .fin 1], [.zero false, .zero false, .zero false]]
  cfa := cfa
  crops := [0, 0, 0, 0]
  orientation := .rotate90
  data := [300, 310, 320, 330, 340, 350, 360, 370, 380, 390, 400, 410, 420, 430, 440, v]

/-- The first pixel of the second row, displayed in the last column but one, is the same whatever the last sample is. -/
example (m : Libm) {cfa : CFA} (hcfa : CFA.new (b! "RGGB") = .ok cfa) (v : Nat) (hv : v < 65536) : ∃ (d d' : List Nat),
    toSrgb m .debug (stuckImage 450 cfa) 0 0 = .ok (4, 4, d) ∧ toSrgb m .debug (stuckImage v cfa) 0 0 = .ok (4, 4, d') ∧
      ∀ k, k < 3 → ∃ x, d[6 + k]? = some x ∧ d'[6 + k]? = some x := by
  obtain ⟨-, -, -, hsz⟩ := cfa_matches_name .debug (b! "RGGB") cfa hcfa (by decide) 0 0 (by decide) (by decide)
  have hsz' : patternSize (b! "RGGB").length = some (2, 2) := by decide
  rw [hsz'] at hsz
  injection hsz with hsz
  rw [Prod.mk.injEq] at hsz
  have hpat : ∀ r c, patternColour (b! "RGGB") 2 2 (r + 0) (c + 0) = some ((fun r c => r % 2 + c % 2) r c) := by
    intro r c
    have hr : r % 2 = 0 ∨ r % 2 = 1 := by omega
    have hc : c % 2 = 0 ∨ c % 2 = 1 := by omega
    unfold patternColour
    rcases hr with hr | hr <;> rcases hc with hc | hc <;> rw [Nat.add_zero, Nat.add_zero, hr, hc] <;> simp only [hr, hc] <;> decide
  have hpic : ∀ v, v < 65536 → MosaicPicture (stuckImage v cfa) (b! "RGGB") 0 0 0 0 4 4 (fun r c => r % 2 + c % 2) (fun r c => (stuckImage v cfa).data.getD (4 * r + c) 0) := fun v hv =>
    { crops := ⟨rfl, rfl, rfl, by decide⟩
      rows := by decide
      single := rfl
      pattern := hcfa
      named := by decide
      full := rfl
      small := ⟨by show 4 ≤ 2 ^ 22; decide, by show 4 ≤ 2 ^ 22; decide⟩
      words := by
        intro x hx
        have hx : x ∈ [300, 310, 320, 330, 340, 350, 360, 370, 380, 390, 400, 410, 420, 430, 440, v] := hx
        simp only [List.mem_cons, List.not_mem_nil, or_false] at hx
        omega
      colours := fun r c => by
        show patternColour (b! "RGGB") cfa.width cfa.height (r + 0) (c + 0) = _
        rw [← hsz.1, ← hsz.2]
        exact hpat r c
      samples := fun r c hr hc => by interval_cases r <;> interval_cases c <;> rfl }
  obtain ⟨w, h, d, d', e1, e2, e3⟩ := hot_pixel m .debug (img := stuckImage 450 cfa) (img' := stuckImage v cfa) (n := 6) (r1 := 3) (c1 := 3) ⟨rfl, rfl, rfl⟩ ⟨rfl, rfl, rfl, rfl⟩ (hpic 450 (by decide)) (hpic v hv) rfl rfl
    (fun r c hr hc hne => by interval_cases r <;> interval_cases c <;> first | exact absurd ⟨rfl, rfl⟩ hne | rfl)
  obtain ⟨lin, rgb, byte, hall⟩ := pixel_local m (stuckImage 450 cfa) ⟨rfl, rfl, rfl⟩
  obtain ⟨w', h', _, _, d2, g1, g2, -, -, g3, -⟩ := hall (stuckImage 450 cfa) .debug _ _ _ _ _ _ _ _ _ 6 ⟨rfl, rfl, rfl, rfl⟩ (hpic 450 (by decide)) rfl
  rw [e1] at g3
  injection g3 with g3
  simp only [Prod.mk.injEq] at g3
  have hw : w = 4 := by rw [g3.1, g1]; rfl
  have hh : h = 4 := by rw [g3.2.1, g2]; rfl
  subst hw
  subst hh
  exact ⟨d, d', e1, e2, fun k hk => e3 1 0 k (by decide) (by decide) hk (by decide)⟩

end Props

import Verif.Lemmas.Stages
import Verif.Props.Scale
import Verif.Props.Demosaic
import Verif.Props.Transform
/-!
# Properties C39 and C53 for `to_rgb`, `to_linear_rgb` and `to_srgb`
-/

namespace Props
open Rust Spec Model

/-- The images a decoder hands out: crops that leave a `cw` by `ch` area, one sample of 16 bits per component and pixel, and a
sensor pattern, no pattern (monochrome), or three components. -/
structure Usable (img : RawImage) (cw ch : Nat) : Prop where
  crops : ∃ t r b l, CropsFit img t r b l cw ch
  rows : 0 < ch
  small : img.width ≤ 2 ^ 22 ∧ img.height ≤ 2 ^ 22
  length : img.data.length = img.width * img.height * img.cpp
  words : ∀ v ∈ img.data, v < 65536
  arrays : ArraysOk img
  kind : (img.cpp = 1 ∧ img.cfa.isValid = false) ∨ (img.cpp = 1 ∧ ∃ name, name ≠ [] ∧ CFA.new name = .ok img.cfa) ∨ img.cpp = 3

theorem lt_minScale (n : Nat) : (∀ s : ℚ, s ≤ 1 → (F32.fin s).lt (minScale n) = true) ∧ (F32.zero false).lt (minScale n) = true := by
  have key : ∀ m : Nat, 2 ≤ m → m ≤ 12 → (∀ s : ℚ, s ≤ 1 → (F32.fin s).lt (F32.ofNat m) = true) ∧ (F32.zero false).lt (F32.ofNat m) = true := by
    intro m h1 h2
    rw [F32.ofNat_pos (by omega) (Nat.le_trans h2 (by decide))]
    have : (2 : ℚ) ≤ m := by exact_mod_cast h1
    refine ⟨fun s hs => ?_, ?_⟩
    · simp only [F32.lt, decide_eq_true_eq]; linarith
    · simp only [F32.lt, decide_eq_true_eq]; linarith
  unfold minScale
  split <;> exact key _ (by decide) (by decide)

/-- What the first two stages produce. -/
theorem demosaic_total (b : Build) (img : RawImage) (cw ch mw mh : Nat) (hu : Usable img cw ch) (hmw : mw < 2 ^ 64) (hmh : mh < 2 ^ 64)
    (hasp : mw = 0 ∨ mh = 0 ∨ (cw ≤ mw ∧ ch ≤ mh) ∨ (ch ≤ cw * mh ∧ cw ≤ ch * mw)) :
    ∃ nw nh p, (convert b img >>= fun buf => demosaicAndScale b img buf mw mh) = .ok (ofPix nw nh 4 p) ∧ 0 < nw ∧ 0 < nh ∧
      ((mw = 0 ∨ mh = 0 ∨ (cw ≤ mw ∧ ch ≤ mh)) → nw = cw ∧ nh = ch) ∧
      (¬ (mw = 0 ∨ mh = 0 ∨ (cw ≤ mw ∧ ch ≤ mh)) → GoodSize cw ch mw mh nw nh) := by
  obtain ⟨t, r, bt, l, hc⟩ := hu.crops
  have hcw := hc.cw_pos
  have hch := hu.rows
  have hW := hc.width
  have hH := hc.height
  obtain ⟨hsw, hsh⟩ := hu.small
  -- the float image, and its full size demosaic
  have hconv : ∃ buf, convert b img = .ok buf ∧ buf.wf ∧ buf.width = cw ∧ buf.height = ch ∧ (buf.colors = 1 ∨ buf.colors = 4) ∧
      (∃ q, fourChannels b img buf = .ok (ofPix cw ch 4 q)) ∧
      (buf.colors = 1 → ∃ cfa, img.croppedCfa b = .ok cfa ∧ ∀ r c, r < ch → c < cw → ∃ k, cfa.colorAt b r c = .ok k ∧ k < 4) := by
    have four : ∀ buf : OpBuffer F32, buf.wf → buf.width = cw → buf.height = ch → buf.colors = 4 →
        ∃ q, fourChannels b img buf = .ok (ofPix cw ch 4 q) := by
      intro buf h1 h2 h3 h4
      unfold fourChannels
      rw [if_pos h4]
      have := wf_eq_ofPix (F32.zero false) buf h1
      rw [h2, h3, h4] at this
      exact ⟨_, congrArg _ this⟩
    rcases hu.kind with ⟨hk1, hk2⟩ | ⟨hk1, name, hn, hk2⟩ | hk
    · have hlen := hu.length
      rw [hk1, Nat.mul_one] at hlen
      obtain ⟨out, h1, h2, h3, h4, h5, _⟩ := gofloat_mono b img t r bt l cw ch hc hk1 hk2 hlen
      exact ⟨out, h1, h2, h3, h4, Or.inr h5, four out h2 h3 h4 h5, fun h => by omega⟩
    · have hlen := hu.length
      rw [hk1, Nat.mul_one] at hlen
      -- colours of the cropped pattern
      have hcol : ∀ r c, ∃ k, patternColour name img.cfa.width img.cfa.height r c = some k := by
        intro r c
        obtain ⟨v, _, h2, _⟩ := cfa_matches_name b name img.cfa hk2 hn (r % img.cfa.height) (c % img.cfa.width)
          (by
            have hs : patternSize name.length = some (img.cfa.width, img.cfa.height) := by
              obtain ⟨_, _, _, h⟩ := cfa_matches_name b name img.cfa hk2 hn 0 0 (by decide) (by decide); exact h
            rcases patternSize_cases hs with ⟨h0, _⟩ | ⟨_, _, h0, _, _, _, h48⟩
            · exact absurd (List.eq_nil_of_length_eq_zero h0) hn
            · have := Nat.mod_lt r h0; omega)
          (by
            have hs : patternSize name.length = some (img.cfa.width, img.cfa.height) := by
              obtain ⟨_, _, _, h⟩ := cfa_matches_name b name img.cfa hk2 hn 0 0 (by decide) (by decide); exact h
            rcases patternSize_cases hs with ⟨h0, _⟩ | ⟨_, h0, _, _, _, h48, _⟩
            · exact absurd (List.eq_nil_of_length_eq_zero h0) hn
            · have := Nat.mod_lt c h0; omega)
        refine ⟨v, ?_⟩
        unfold patternColour at h2 ⊢
        rwa [Nat.mod_mod, Nat.mod_mod] at h2
      obtain ⟨K, hK⟩ := Classical.axiomOfChoice (fun rc : Nat × Nat => hcol (rc.1 + t) (rc.2 + l))
      have hin : ∀ r c, r < ch → c < cw → ∃ v, img.data[img.width * (r + t) + (c + l)]? = some v := by
        intro row c h1 h2
        have := crop_index_lt hc.width hc.height h1 h2
        exact ⟨_, List.getElem?_eq_getElem (by omega)⟩
      obtain ⟨full', h1, h2, h3, h4, h5, _⟩ := demosaic_full b img name t r bt l cw ch (fun r c => K (r, c))
        (fun r c => (img.data[img.width * (r + t) + (c + l)]?).getD 0) hc hk1 hk2 hn hlen (by omega) (by omega) (fun r c => hK (r, c))
        (fun r c h1 h2 => by obtain ⟨v, hv⟩ := hin r c h1 h2; rw [hv]; rfl) hu.words
      rw [bind_eq_ok] at h1
      obtain ⟨buf, c1, c2⟩ := h1
      have hvalid : img.cfa.isValid = true := by
        obtain ⟨_, _, _, hs⟩ := cfa_matches_name b name img.cfa hk2 hn 0 0 (by decide) (by decide)
        rcases patternSize_cases hs with ⟨h0, _⟩ | ⟨_, h0, h0', _⟩
        · exact absurd (List.eq_nil_of_length_eq_zero h0) hn
        · unfold CFA.isValid
          simp only [bne_iff_ne, Bool.and_eq_true, ne_eq]
          first | exact ⟨by omega, by omega⟩ | (simp; omega)
      obtain ⟨out, g1, g2, g3, g4, g5, _⟩ := gofloat_bayer b img t r bt l cw ch hc hk1 hvalid hlen
      rw [g1] at c1
      simp only [Except.ok.injEq] at c1
      subst c1
      obtain ⟨cfa, e1, e2⟩ := cropped_cfa_aligned b img.cfa (.new hk2) t r bt l (by omega) (by omega)
      refine ⟨out, g1, g2, g3, g4, Or.inl g5, ?_, fun _ => ⟨cfa, ?_, ?_⟩⟩
      · unfold fourChannels
        rw [if_neg (by omega), c2]
        have := wf_eq_ofPix (F32.zero false) full' h5
        rw [h2, h3, h4] at this
        exact ⟨_, congrArg _ this⟩
      · unfold RawImage.croppedCfa; rw [hc.crops]; exact e1
      · intro r c hr hcc
        obtain ⟨v, f1, f2, _⟩ := cfa_matches_name b name img.cfa hk2 hn (r + t) (c + l) (by omega) (by omega)
        exact ⟨v, by rw [e2 r c (by omega) (by omega)]; exact f1, patternColour_lt f2⟩
    · have hlen := hu.length
      rw [hk] at hlen
      obtain ⟨out, h1, h2, h3, h4, h5, _⟩ := gofloat_rgb_actual b img t r bt l cw ch hc hk hlen
      exact ⟨out, h1, h2, h3, h4, Or.inr h5, four out h2 h3 h4 h5, fun h => by omega⟩
  obtain ⟨buf, hb1, hwf, hbw, hbh, hbc, ⟨q, hq⟩, hcfa⟩ := hconv
  rw [hb1, ok_bind]
  unfold demosaicAndScale
  simp only
  rw [hbw, hbh]
  by_cases h0 : mw = 0 ∨ mh = 0
  · have ht : targetSize cw ch mw mh = (.zero false, cw, ch) := by unfold targetSize; rw [if_pos h0]
    rw [ht]
    simp only
    rw [if_pos (Or.inl (lt_minScale _).2), hq, ok_bind, if_neg (by decide +kernel)]
    exact ⟨cw, ch, q, rfl, hcw, hch, fun _ => ⟨rfl, rfl⟩, fun h => absurd (by tauto) h⟩
  · have hmw0 : 0 < mw := by omega
    have hmh0 : 0 < mh := by omega
    obtain ⟨s, nw, nh, ht, h1, h2⟩ := targetSize_spec hcw (by omega : cw ≤ 2 ^ 22) hch (by omega : ch ≤ 2 ^ 22) hmw0 hmw hmh0 hmh
    rw [ht]
    simp only
    have hone : F32.ofNat 1 = .fin 1 := by decide +kernel
    by_cases hs : 1 < s
    · have hfit : ¬ (mw = 0 ∨ mh = 0 ∨ (cw ≤ mw ∧ ch ≤ mh)) := by
        have := h1.mp hs; omega
      obtain ⟨hg, hp1, hp2⟩ := h2 hs
      have hnw : 0 < nw := hp1 (by have := h1.mp hs; omega)
      have hnh : 0 < nh := hp2 (by have := h1.mp hs; omega)
      split
      · rw [hq, ok_bind, if_pos (by rw [hone]; simp only [F32.lt, decide_eq_true_eq]; exact hs)]
        obtain ⟨p, hp⟩ := scaleDown_total (buf := ofPix cw ch 4 q) (ofPix_wf _ _ _ _) (show 0 < 4 by decide) (show 4 ≤ 4 by decide)
          (show cw ≤ 2 ^ 24 by omega) (show ch ≤ 2 ^ 24 by omega) (nw := nw) (nh := nh) hnw
        exact ⟨nw, nh, p, hp, hnw, hnh, fun h => absurd h hfit, fun _ => hg⟩
      · rename_i hno
        have hc1 : buf.colors = 1 := by
          by_contra hcc; exact hno (Or.inr hcc)
        obtain ⟨cfa, e1, e2⟩ := hcfa hc1
        obtain ⟨p, hp⟩ := scaled_total (b := b) (img := img) e1 hwf hc1 (by omega) (by omega)
          (fun r c hr hc => e2 r c (by omega) (by omega)) (nw := nw) (nh := nh) hnw
        exact ⟨nw, nh, p, hp, hnw, hnh, fun h => absurd h hfit, fun _ => hg⟩
    · have hfit : cw ≤ mw ∧ ch ≤ mh := by
        have : ¬ (mw < cw ∨ mh < ch) := fun hh => hs (h1.mpr hh)
        omega
      rw [if_pos (Or.inl ((lt_minScale _).1 s (not_lt.mp hs))), hq, ok_bind, if_neg (by rw [hone]; simp only [F32.lt, decide_eq_true_eq]; exact hs)]
      exact ⟨cw, ch, q, rfl, hcw, hch, fun _ => ⟨rfl, rfl⟩, fun h => absurd (Or.inr (Or.inr hfit)) h⟩

/-! ## Orientation -/

theorem orientation_code (o : Orientation) : ∃ n, n < 9 ∧ o = Orientation.fromU16 n ∧ o.toFlips.1 = exifSwaps n := by
  cases o
  · exact ⟨1, by decide, rfl, rfl⟩
  · exact ⟨2, by decide, rfl, rfl⟩
  · exact ⟨3, by decide, rfl, rfl⟩
  · exact ⟨4, by decide, rfl, rfl⟩
  · exact ⟨5, by decide, rfl, rfl⟩
  · exact ⟨6, by decide, rfl, rfl⟩
  · exact ⟨7, by decide, rfl, rfl⟩
  · exact ⟨8, by decide, rfl, rfl⟩
  · exact ⟨0, by decide, rfl, rfl⟩

/-- Every place of the displayed picture shows some stored pixel. -/
theorem exifPlace_onto (o h w r c : Nat) (hr : r < (if exifSwaps o then w else h)) (hc : c < (if exifSwaps o then h else w)) :
    ∃ r0 c0, r0 < h ∧ c0 < w ∧ exifPlace o h w r0 c0 = (r, c) := by
  rcases orient_cases o with (rfl | rfl | rfl | rfl | rfl | rfl | rfl) | ⟨h1, h2, _⟩
  · simp only [exifSwaps] at hr hc; simp at hr hc
    exact ⟨r, w - 1 - c, by omega, by omega, by simp only [exifPlace]; congr 1; omega⟩
  · simp only [exifSwaps] at hr hc; simp at hr hc
    exact ⟨h - 1 - r, w - 1 - c, by omega, by omega, by simp only [exifPlace]; congr 1 <;> omega⟩
  · simp only [exifSwaps] at hr hc; simp at hr hc
    exact ⟨h - 1 - r, c, by omega, by omega, by simp only [exifPlace]; congr 1; omega⟩
  · simp only [exifSwaps] at hr hc; simp at hr hc
    exact ⟨c, r, by omega, by omega, by simp only [exifPlace]⟩
  · simp only [exifSwaps] at hr hc; simp at hr hc
    exact ⟨h - 1 - c, r, by omega, by omega, by simp only [exifPlace]; congr 1; omega⟩
  · simp only [exifSwaps] at hr hc; simp at hr hc
    exact ⟨h - 1 - c, w - 1 - r, by omega, by omega, by simp only [exifPlace]; congr 1 <;> omega⟩
  · simp only [exifSwaps] at hr hc; simp at hr hc
    exact ⟨c, w - 1 - r, by omega, by omega, by simp only [exifPlace]; congr 1; omega⟩
  · rw [h2] at hr hc; simp at hr hc
    exact ⟨r, c, hr, hc, by rw [h1]⟩

theorem finalRotate_ofPix (img : RawImage) {w h k : Nat} (hw : 0 < w) (hh : 0 < h) (hk : 0 < k) (p : Nat → Nat → Nat → F32) :
    ∃ q, finalRotate img (ofPix w h k p) = .ok (ofPix (if img.orientation.toFlips.1 then h else w) (if img.orientation.toFlips.1 then w else h) k q) ∧
      ∀ r c ch, r < (if img.orientation.toFlips.1 then w else h) → c < (if img.orientation.toFlips.1 then h else w) → ch < k →
        ∃ r0 c0, r0 < h ∧ c0 < w ∧ q r c ch = p r0 c0 ch := by
  obtain ⟨n, hn9, hn, hs⟩ := orientation_code img.orientation
  rw [hs]
  unfold finalRotate
  split
  · rw [hn]
    obtain ⟨q, h1, h2⟩ := rotateBuffer_ofPix hw hh hk (F32.zero false) p n
    refine ⟨q, h1, ?_⟩
    intro r c ch hr hc hch
    obtain ⟨r0, c0, e1, e2, e3⟩ := exifPlace_onto n h w r c hr hc
    refine ⟨r0, c0, e1, e2, ?_⟩
    have := h2 r0 c0 ch e1 e2 hch
    rw [e3] at this
    exact this
  · rename_i hno
    have hfalse : exifSwaps n = false := by
      rw [← hs]
      by_cases e : img.orientation = .normal
      · rw [e]; rfl
      · by_cases e' : img.orientation = .unknown
        · rw [e']; rfl
        · exact absurd ⟨e, e'⟩ hno
    rw [hfalse]
    exact ⟨p, rfl, fun r c ch hr hc hch => ⟨r, c, hr, hc, rfl⟩⟩

/-! ## The whole pipeline -/

/-- The size of the picture for a source of `cw` by `ch` after cropping, with the limits as seen before rotation. -/
structure OutputSize (swap : Bool) (cw ch maxw maxh ow oh : Nat) : Prop where
  size : ∃ nw nh, ow = (if swap then nh else nw) ∧ oh = (if swap then nw else nh) ∧ 0 < nw ∧ 0 < nh ∧
    ((maxw = 0 ∨ maxh = 0 ∨ (cw ≤ (if swap then maxh else maxw) ∧ ch ≤ (if swap then maxw else maxh))) → nw = cw ∧ nh = ch) ∧
    (¬ (maxw = 0 ∨ maxh = 0 ∨ (cw ≤ (if swap then maxh else maxw) ∧ ch ≤ (if swap then maxw else maxh))) →
      GoodSize cw ch (if swap then maxh else maxw) (if swap then maxw else maxh) nw nh)

theorem decoder_total (m : Libm) (b : Build) (img : RawImage) (cw ch maxw maxh : Nat) (linear : Bool) (hu : Usable img cw ch)
    (hmw : maxw < 2 ^ 64) (hmh : maxh < 2 ^ 64)
    (hasp : maxw = 0 ∨ maxh = 0 ∨ (ch ≤ cw * (if img.orientation.toFlips.1 then maxw else maxh) ∧
      cw ≤ ch * (if img.orientation.toFlips.1 then maxh else maxw))) :
    ∃ ow oh q, decoder m b img maxw maxh linear = .ok (ofPix ow oh 3 q) ∧ OutputSize img.orientation.toFlips.1 cw ch maxw maxh ow oh ∧
      (linear = false → ∀ r c k, r < oh → c < ow → k < 3 → ∃ v, q r c k = gammaEntry m (gammaIndex v)) := by
  unfold decoder
  simp only
  generalize hsw : img.orientation.toFlips.1 = swap at *
  obtain ⟨nw, nh, p, h1, hnw, hnh, h2, h3⟩ := demosaic_total b img cw ch (if swap then maxh else maxw) (if swap then maxw else maxh) hu
    (by split <;> assumption) (by split <;> assumption) (by
      rcases hasp with h | h | h
      · cases swap <;> simp [h]
      · cases swap <;> simp [h]
      · exact Or.inr (Or.inr (Or.inr h)))
  rw [bind_eq_ok] at h1
  obtain ⟨buf, c1, c2⟩ := h1
  rw [c1, ok_bind, c2, ok_bind]
  obtain ⟨mul, _, e1⟩ := level_ofPix (h := nh) hnw img hu.arrays p
  rw [e1, ok_bind]
  obtain ⟨p2, e2⟩ := cameraToLab_total m img (h := nh) hnw (fun r c k => levelled img mul k (p r c k))
  rw [e2, ok_bind]
  obtain ⟨p3, e3⟩ := baseCurve_total (h := nh) hnw p2
  rw [e3, ok_bind, labToRec709_ofPix hnw, ok_bind]
  generalize (fun r c k => let xyz := labToXyz (p3 r c 0) (p3 r c 1) (p3 r c 2); dot3 xyzToRec709Matrix k xyz.1 xyz.2.1 xyz.2.2) = p4
  have hsize : OutputSize swap cw ch maxw maxh (if swap then nh else nw) (if swap then nw else nh) := by
    refine ⟨nw, nh, rfl, rfl, hnw, hnh, ?_, ?_⟩
    · intro h
      apply h2
      cases swap <;> simp at h ⊢ <;> tauto
    · intro h
      apply h3
      cases swap <;> simp at h ⊢ <;> tauto
  cases linear with
  | true =>
    simp only [if_true, ok_bind]
    obtain ⟨q, hq, _⟩ := finalRotate_ofPix img hnw hnh (by decide : 0 < 3) p4
    rw [hsw] at hq
    exact ⟨_, _, q, hq, hsize, fun h => by simp at h⟩
  | false =>
    simp only [Bool.false_eq_true, if_false]
    rw [gamma_ofPix m hnw (by decide), ok_bind]
    obtain ⟨q, hq, hval⟩ := finalRotate_ofPix img hnw hnh (by decide : 0 < 3) (fun r c k => gammaEntry m (gammaIndex (p4 r c k)))
    rw [hsw] at hq hval
    refine ⟨_, _, q, hq, hsize, fun _ r c k hr hc hk => ?_⟩
    obtain ⟨r0, c0, _, _, e⟩ := hval r c k hr hc hk
    exact ⟨_, e⟩

/-- **C39.** For every usable image, whatever its samples, matrix, levels and white balance are (NaN and zero included), every
orientation and every pair of limits that leaves at least one pixel: producing a picture does not panic, it has three values per
pixel and the promised size. Unscaled if a limit is zero or the rotated source fits; otherwise within both limits, never larger than
the source, equal to one of the limits and with the aspect ratio of the source to within two pixels. -/
theorem to_rgb_size (m : Libm) (b : Build) (img : RawImage) (cw ch maxw maxh : Nat) (hu : Usable img cw ch)
    (hmw : maxw < 2 ^ 64) (hmh : maxh < 2 ^ 64)
    (hasp : maxw = 0 ∨ maxh = 0 ∨ (ch ≤ cw * (if img.orientation.toFlips.1 then maxw else maxh) ∧
      cw ≤ ch * (if img.orientation.toFlips.1 then maxh else maxw))) :
    (∃ ow oh data, toRgb m b img maxw maxh = .ok (ow, oh, data) ∧ data.length = ow * oh * 3 ∧
      OutputSize img.orientation.toFlips.1 cw ch maxw maxh ow oh) ∧
    (∃ ow oh data, toLinearRgb m b img maxw maxh = .ok (ow, oh, data) ∧ data.length = ow * oh * 3 ∧
      OutputSize img.orientation.toFlips.1 cw ch maxw maxh ow oh) := by
  constructor
  · obtain ⟨ow, oh, q, h1, h2, _⟩ := decoder_total m b img cw ch maxw maxh false hu hmw hmh hasp
    unfold toRgb
    rw [h1, ok_bind]
    exact ⟨ow, oh, _, rfl, ofPix_wf ow oh 3 q, h2⟩
  · obtain ⟨ow, oh, q, h1, h2, _⟩ := decoder_total m b img cw ch maxw maxh true hu hmw hmh hasp
    unfold toLinearRgb
    rw [h1, ok_bind]
    exact ⟨ow, oh, _, rfl, ofPix_wf ow oh 3 q, h2⟩

theorem ofPix_mem {α : Type} {w h k : Nat} {p : Nat → Nat → Nat → α} {x : α} (hx : x ∈ (ofPix w h k p).data) :
    ∃ r c ch, r < h ∧ c < w ∧ ch < k ∧ x = p r c ch := by
  rw [ofPix_data] at hx
  unfold raster at hx
  obtain ⟨i, hi, rfl⟩ := List.mem_map.mp hx
  rw [List.mem_range] at hi
  have hwk : 0 < w * k := by
    rcases Nat.eq_zero_or_pos (w * k) with h0 | h0
    · rw [h0, Nat.zero_mul] at hi; omega
    · exact h0
  have hk : 0 < k := Nat.pos_of_mul_pos_left hwk
  refine ⟨i / (w * k), i % (w * k) / k, i % (w * k) % k, Nat.div_lt_of_lt_mul (by rwa [Nat.mul_comm] at hi ⊢), ?_, Nat.mod_lt _ hk, rfl⟩
  exact Nat.div_lt_of_lt_mul (Nat.lt_of_lt_of_eq (Nat.mod_lt _ hwk) (Nat.mul_comm w k))

/-- **C53.** Every value `to_rgb` returns is a number between 0 and 1. -/
theorem to_rgb_range (m : Libm) (hm : PowRange m) (b : Build) (img : RawImage) (cw ch maxw maxh : Nat) (hu : Usable img cw ch)
    (hmw : maxw < 2 ^ 64) (hmh : maxh < 2 ^ 64)
    (hasp : maxw = 0 ∨ maxh = 0 ∨ (ch ≤ cw * (if img.orientation.toFlips.1 then maxw else maxh) ∧
      cw ≤ ch * (if img.orientation.toFlips.1 then maxh else maxw)))
    (ow oh : Nat) (data : List F32) (h : toRgb m b img maxw maxh = .ok (ow, oh, data)) :
    ∀ x ∈ data, ∃ g, x.val? = some g ∧ 0 ≤ g ∧ g ≤ 1 := by
  obtain ⟨ow', oh', q, h1, _, h3⟩ := decoder_total m b img cw ch maxw maxh false hu hmw hmh hasp
  unfold toRgb at h
  rw [h1, ok_bind] at h
  simp only [Except.ok.injEq, Prod.mk.injEq] at h
  obtain ⟨_, _, rfl⟩ := h
  intro x hx
  obtain ⟨r, c, k, hr, hc, hk, rfl⟩ := ofPix_mem hx
  obtain ⟨v, hv⟩ := h3 rfl r c k hr hc hk
  rw [hv]
  exact gamma_range m hm v

/-! ## Eight bit output -/

theorem srgbByte_lt (v : F32) : srgbByte v < 256 := by
  unfold srgbByte F32.toUnsigned
  split
  · decide
  · split <;> decide
  · decide
  · split
    · decide
    · exact Nat.lt_of_le_of_lt (Nat.min_le_right _ _) (by decide)

/-- The byte of a value between 0 and 1 is 255 times the value, rounded to single precision and cut. -/
theorem srgbByte_exact (v : F32) (q : ℚ) (hv : v.val? = some q) (h0 : 0 ≤ q) (h1 : q ≤ 1) : srgbByte v = ⌊roundQ (q * 255)⌋.toNat := by
  have h255 : lit 255 = .fin 255 := by decide +kernel
  unfold srgbByte
  rw [h255, lit_zero]
  have hz : ∀ s, ((((F32.zero s).mul (.fin 255)).max (.zero false)).min (.fin 255)).toUnsigned 8 = 0 := by
    intro s; cases s <;> decide +kernel
  cases v with
  | nan => simp [F32.val?] at hv
  | inf s => simp [F32.val?] at hv
  | zero s =>
    simp only [F32.val?, Option.some.injEq] at hv
    subst hv
    rw [hz, zero_mul, roundQ_zero]; rfl
  | fin p =>
    simp only [F32.val?, Option.some.injEq] at hv
    subst hv
    have hr0 : 0 ≤ roundQ (p * 255) := roundQ_nonneg (by positivity)
    have hr1 : roundQ (p * 255) ≤ 255 := roundQ_le_of_repr (by have := repr32_nat (n := 255) (by decide); exact_mod_cast this) (by linarith)
    simp only [F32.mul, F32.round]
    by_cases hp : p * 255 = 0
    · rw [if_pos hp, hp, roundQ_zero]
      simp only [F32.max, F32.lt, F32.min]
      decide +kernel
    · rw [if_neg hp]
      by_cases hr : roundQ (p * 255) = 0
      · rw [if_pos hr, hr]
        have : ¬ p * 255 < 0 := not_lt.mpr (by positivity)
        simp only [this, decide_false]
        decide +kernel
      · have hpos : 0 < roundQ (p * 255) := lt_of_le_of_ne hr0 (Ne.symm hr)
        rw [if_neg hr, if_neg (by rw [ratAbs_eq, abs_of_nonneg hr0, F32.pow2_128]; linarith)]
        simp only [F32.max, F32.lt, decide_eq_true_eq]
        rw [if_neg (by linarith)]
        simp only [F32.min, F32.lt, decide_eq_true_eq]
        rw [if_neg (by linarith)]
        simp only [F32.toUnsigned]
        rw [if_neg (by linarith), ratFloor_eq]
        apply Nat.min_eq_left
        exact floor_toNat_le (n := 2 ^ 8 - 1) (by norm_num; linarith)

example : srgbByte (lit 1) = 255 ∧ srgbByte (lit (1 / 2)) = 127 ∧ srgbByte .nan = 0 ∧ srgbByte (.inf false) = 255 := by decide +kernel

/-- **C39, C53 for `to_srgb`.** It returns the size of `to_rgb`, three bytes per pixel, each 255 times the value `to_rgb` has
at that place, cut to an integer. -/
theorem to_srgb_bytes (m : Libm) (hm : PowRange m) (b : Build) (img : RawImage) (cw ch maxw maxh : Nat) (hu : Usable img cw ch)
    (hmw : maxw < 2 ^ 64) (hmh : maxh < 2 ^ 64)
    (hasp : maxw = 0 ∨ maxh = 0 ∨ (ch ≤ cw * (if img.orientation.toFlips.1 then maxw else maxh) ∧
      cw ≤ ch * (if img.orientation.toFlips.1 then maxh else maxw))) :
    ∃ ow oh data bytes, toRgb m b img maxw maxh = .ok (ow, oh, data) ∧ toSrgb m b img maxw maxh = .ok (ow, oh, bytes) ∧
      bytes.length = ow * oh * 3 ∧ ∀ i, i < ow * oh * 3 → ∃ v q, data[i]? = some v ∧ v.val? = some q ∧ 0 ≤ q ∧ q ≤ 1 ∧
        bytes[i]? = some ⌊roundQ (q * 255)⌋.toNat := by
  obtain ⟨ow, oh, q, h1, _, h3⟩ := decoder_total m b img cw ch maxw maxh false hu hmw hmh hasp
  have hlen : (ofPix ow oh 3 q).data.length = ow * oh * 3 := ofPix_wf ow oh 3 q
  refine ⟨ow, oh, (ofPix ow oh 3 q).data, (ofPix ow oh 3 q).data.map srgbByte, ?_, ?_, by simp [hlen], ?_⟩
  · unfold toRgb; rw [h1]; rfl
  · unfold toSrgb
    rw [h1, ok_bind]
    show (zipChunks 1 1 _ (List.replicate (ow * oh * 3) 0) (ofPix ow oh 3 q).data >>= _) = _
    generalize hd : (ofPix ow oh 3 q).data = d
    rw [hd] at hlen
    rw [zipChunks_pix (w := ow * oh * 3) (g := fun c _ => srgbByte (d.getD c (.zero false))) (by decide) (by simp), ok_bind]
    · congr 3
      unfold pixLine
      apply List.ext_getElem?
      intro i
      by_cases hi : i < ow * oh * 3
      · rw [List.getElem?_map, List.getElem?_map, List.getElem?_range (by omega), List.getElem?_eq_getElem (by omega)]
        simp [List.getD_eq_getElem?_getD, List.getElem?_eq_getElem (show i < d.length by omega)]
      · rw [List.getElem?_eq_none (by simp; omega), List.getElem?_eq_none (by simp; omega)]
    · intro c hc
      refine ⟨by omega, fun o ho => ?_⟩
      have hcd : c < d.length := by omega
      obtain ⟨x, rfl⟩ := List.length_eq_one_iff.mp ho
      rw [Nat.one_mul, List.drop_eq_getElem_cons hcd]
      simp [idx, setIdx, ok_bind, List.getD_eq_getElem?_getD, List.getElem?_eq_getElem hcd]
  · intro i hi
    have hi' : i < (ofPix ow oh 3 q).data.length := by omega
    obtain ⟨r, c, k, hr, hc, hk, e⟩ := ofPix_mem (List.getElem_mem hi')
    obtain ⟨v, hv⟩ := h3 rfl r c k hr hc hk
    obtain ⟨g, g1, g2, g3⟩ := gamma_range m hm v
    refine ⟨_, g, List.getElem?_eq_getElem hi', by rw [e, hv]; exact g1, g2, g3, ?_⟩
    rw [List.getElem?_map, List.getElem?_eq_getElem hi', Option.map_some, srgbByte_exact _ g (by rw [e, hv]; exact g1) g2 g3]

/-! ## A strip too thin for its limits -/

theorem mutateLines_zero {h k : Nat} {f : List F32 → Nat → M (List F32)} :
    (OpBuffer.new (F32.zero false) 0 h k).mutateLines f = crash := by
  unfold OpBuffer.mutateLines parChunksMut
  rw [if_pos (by show 0 * k = 0; omega)]
  rfl

/-- **The limit in C39 is needed.** Every usable picture of 1 by 100 pixels, scaled to fit 10 by 10, stops the program: its width
comes out as zero. -/
theorem to_rgb_thin_panics (m : Libm) (b : Build) (img : RawImage) (hu : Usable img 1 100) (ho : img.orientation = .normal) :
    toRgb m b img 10 10 = crash := by
  have ht : targetSize 1 100 10 10 = (.fin 10, 0, 10) := by decide +kernel
  obtain ⟨t, r, bt, l, hc⟩ := hu.crops
  have hconv : ∃ buf, convert b img = .ok buf ∧ buf.width = 1 ∧ buf.height = 100 ∧
      (demosaicAndScale b img buf 10 10 = crash) := by
    obtain ⟨_, _, _, h1, _⟩ := demosaic_total b img 1 100 0 0 hu (by decide) (by decide) (Or.inl rfl)
    have hkind : ∃ buf, convert b img = .ok buf ∧ buf.width = 1 ∧ buf.height = 100 ∧
        ((∃ cfa, img.croppedCfa b = .ok cfa) ∨ buf.colors ≠ 1) := by
      rcases hu.kind with ⟨hk1, hk2⟩ | ⟨hk1, name, hn, hk2⟩ | hk
      · have hlen := hu.length
        rw [hk1, Nat.mul_one] at hlen
        obtain ⟨out, h1, _, h3, h4, h5, _⟩ := gofloat_mono b img t r bt l 1 100 hc hk1 hk2 hlen
        exact ⟨out, h1, h3, h4, Or.inr (by omega)⟩
      · have hlen := hu.length
        rw [hk1, Nat.mul_one] at hlen
        have hvalid : img.cfa.isValid = true := by
          obtain ⟨_, _, _, hs⟩ := cfa_matches_name b name img.cfa hk2 hn 0 0 (by decide) (by decide)
          rcases patternSize_cases hs with ⟨h0, _⟩ | ⟨_, h0, h0', _⟩
          · exact absurd (List.eq_nil_of_length_eq_zero h0) hn
          · unfold CFA.isValid
            simp only [bne_iff_ne, Bool.and_eq_true, ne_eq]
            exact ⟨by omega, by omega⟩
        obtain ⟨out, g1, _, g3, g4, _⟩ := gofloat_bayer b img t r bt l 1 100 hc hk1 hvalid hlen
        obtain ⟨hsw, hsh⟩ := hu.small
        have hW := hc.width
        have hH := hc.height
        obtain ⟨cfa, e1, _⟩ := cropped_cfa_aligned b img.cfa (.new hk2) t r bt l (by omega) (by omega)
        exact ⟨out, g1, g3, g4, Or.inl ⟨cfa, by unfold RawImage.croppedCfa; rw [hc.crops]; exact e1⟩⟩
      · have hlen := hu.length
        rw [hk] at hlen
        obtain ⟨out, h1, _, h3, h4, h5, _⟩ := gofloat_rgb_actual b img t r bt l 1 100 hc hk hlen
        exact ⟨out, h1, h3, h4, Or.inr (by omega)⟩
    obtain ⟨buf, c1, c2, c3, c4⟩ := hkind
    refine ⟨buf, c1, c2, c3, ?_⟩
    have hfour : ∃ out, fourChannels b img buf = .ok out := by
      rw [c1, ok_bind] at h1
      unfold demosaicAndScale at h1
      have t0 : targetSize buf.width buf.height 0 0 = (.zero false, buf.width, buf.height) := by
        unfold targetSize; rw [if_pos (Or.inl rfl)]
      rw [t0] at h1
      simp only at h1
      rw [if_pos (Or.inl (lt_minScale _).2), bind_eq_ok] at h1
      obtain ⟨out, h1, _⟩ := h1
      exact ⟨out, h1⟩
    obtain ⟨out, hout⟩ := hfour
    unfold demosaicAndScale
    simp only
    rw [c2, c3, ht]
    simp only
    split
    · rw [hout, ok_bind, if_pos (by decide +kernel)]
      unfold scaleDown
      exact mutateLines_zero
    · rename_i hno
      obtain ⟨cfa, e⟩ : ∃ cfa, img.croppedCfa b = .ok cfa := by
        rcases c4 with h | h
        · exact h
        · exact absurd (Or.inr h) hno
      unfold scaled
      rw [e, ok_bind]
      exact mutateLines_zero
  obtain ⟨buf, c1, _, _, c2⟩ := hconv
  unfold toRgb decoder
  rw [ho]
  simp only [Orientation.toFlips]
  rw [c1, ok_bind]
  simp only [Bool.false_eq_true, if_false]
  rw [c2]
  rfl

/-! ## Concrete pictures -/

/-- A monochrome picture of `w` by `h`. -/
def grey (w h : Nat) (o : Orientation) : RawImage :=
  { width := w, height := h, cpp := 1, wbCoeffs := List.replicate 4 .nan, whitelevels := [1023, 1023, 1023, 1023], blacklevels := [16, 16, 16, 16],
    xyzToCam := [], cfa := ⟨[], 0, 0, []⟩, crops := [0, 0, 0, 0], orientation := o, data := (List.range (w * h)).map (fun i => i % 1024) }

theorem grey_usable (w h : Nat) (o : Orientation) (hw : 0 < w) (hw2 : w ≤ 2 ^ 22) (hh : 0 < h) (hh2 : h ≤ 2 ^ 22) : Usable (grey w h o) w h where
  crops := ⟨0, 0, 0, 0, rfl, by show w = 0 + w + 0; omega, by show h = 0 + h + 0; omega, hw⟩
  rows := hh
  small := ⟨hw2, hh2⟩
  length := by simp [grey]
  words := by
    intro v hv
    simp only [grey, List.mem_map, List.mem_range] at hv
    obtain ⟨i, _, rfl⟩ := hv
    omega
  arrays := ⟨rfl, rfl, rfl⟩
  kind := Or.inl ⟨rfl, rfl⟩

/-- 6000 by 4000, rotated by a quarter, into 800 by 1000: the limits apply to the rotated picture. -/
example (m : Libm) : ∃ ow oh data, toRgb m .release (grey 6000 4000 .rotate90) 800 1000 = .ok (ow, oh, data) ∧ ow ≤ 800 ∧ oh ≤ 1000 := by
  obtain ⟨⟨ow, oh, data, h1, _, ⟨nw, nh, e1, e2, _, _, _, h4⟩⟩, _⟩ := to_rgb_size m .release (grey 6000 4000 .rotate90) 6000 4000 800 1000
    (grey_usable _ _ _ (by decide) (by decide) (by decide) (by decide)) (by decide) (by decide) (Or.inr (Or.inr (by decide)))
  have hg := h4 (by decide)
  have w1 := hg.width_le
  have w2 := hg.height_le
  refine ⟨ow, oh, data, h1, ?_, ?_⟩
  · rw [e1]; exact w2
  · rw [e2]; exact w1

/-- The thin strip exists. -/
example (m : Libm) : toRgb m .release (grey 1 100 .normal) 10 10 = crash :=
  to_rgb_thin_panics m _ _ (grey_usable 1 100 _ (by decide) (by decide) (by decide) (by decide)) rfl

end Props

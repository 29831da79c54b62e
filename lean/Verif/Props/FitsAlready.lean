import Verif.Props.MonoCurve
/-!
# C97: a limit that the picture fits changes nothing
-/

namespace Props
open Model Rust Spec F32

/-- The converted picture has the size of the crop. -/
theorem convert_size (b : Build) {img : RawImage} {cw ch : Nat} (hu : Usable img cw ch) : ∃ buf, convert b img = .ok buf ∧ buf.width = cw ∧ buf.height = ch := by
  obtain ⟨t, r, bt, l, hc⟩ := hu.crops
  have hlen := hu.length
  rcases hu.kind with ⟨hk1, hk2⟩ | ⟨hk1, name, hn, hk2⟩ | hk
  · rw [hk1, Nat.mul_one] at hlen
    obtain ⟨out, h1, _, h3, h4, _⟩ := gofloat_mono b img t r bt l cw ch hc hk1 hk2 hlen
    exact ⟨out, h1, h3, h4⟩
  · rw [hk1, Nat.mul_one] at hlen
    have hvalid : img.cfa.isValid = true := by
      have := named_colour b hk2 hn
      simpa [RawImage.isMonochrome, hk1] using this
    obtain ⟨out, h1, _, h3, h4, _⟩ := gofloat_bayer b img t r bt l cw ch hc hk1 hvalid hlen
    exact ⟨out, h1, h3, h4⟩
  · rw [hk] at hlen
    obtain ⟨out, h1, _, h3, h4, _⟩ := gofloat_rgb_actual b img t r bt l cw ch hc hk hlen
    exact ⟨out, h1, h3, h4⟩

/-- A buffer that is no wider and no higher than the limits is not scaled. -/
theorem demosaic_fits (b : Build) (img : RawImage) {buf : OpBuffer F32} {mw mh : Nat} (hw0 : 0 < buf.width) (hw : buf.width ≤ 2 ^ 22) (hh0 : 0 < buf.height)
    (hh : buf.height ≤ 2 ^ 22) (hmw : mw < 2 ^ 64) (hmh : mh < 2 ^ 64) (hfit : mw = 0 ∨ mh = 0 ∨ (buf.width ≤ mw ∧ buf.height ≤ mh)) :
    demosaicAndScale b img buf mw mh = fourChannels b img buf := by
  have hid : ∀ x : M (OpBuffer F32), (x >>= fun out => .ok out) = x := fun x => by cases x <;> rfl
  unfold demosaicAndScale
  by_cases hz : mw = 0 ∨ mh = 0
  · have ht : targetSize buf.width buf.height mw mh = (.zero false, buf.width, buf.height) := by
      unfold targetSize
      exact if_pos hz
    rw [ht]
    simp only
    rw [if_pos (.inl (lt_minScale _).2)]
    simp only [if_neg (show ¬ (F32.ofNat 1).lt (zero false) = true by decide +kernel)]
    exact hid _
  · obtain ⟨s, nw, nh, ht, h1, -⟩ := targetSize_spec (w := buf.width) (h := buf.height) (mw := mw) (mh := mh) hw0 hw hh0 hh (by omega) hmw (by omega) hmh
    have hs : s ≤ 1 := by
      by_contra hlt
      have := h1.mp (not_le.mp hlt)
      omega
    rw [ht]
    simp only
    rw [if_pos (.inl ((lt_minScale _).1 s hs))]
    have hno : ¬ (F32.ofNat 1).lt (.fin s) = true := by
      rw [F32.ofNat_pos (by decide) (by decide)]
      simp only [F32.lt, decide_eq_true_eq, Nat.cast_one]
      exact not_lt.mpr hs
    simp only [if_neg hno]
    exact hid _

/-- **C97.** A picture that, turned as it is displayed, already fits the requested size comes out as if no size had been requested; so does every
picture if one of the limits is zero. -/
theorem fits_already (m : Libm) (b : Build) (img : RawImage) (cw ch mw mh n : Nat) (hu : Usable img cw ch) (hn : img.orientation = Orientation.fromU16 n)
    (hmw : mw < 2 ^ 64) (hmh : mh < 2 ^ 64)
    (hfit : mw = 0 ∨ mh = 0 ∨ ((if exifSwaps n then ch else cw) ≤ mw ∧ (if exifSwaps n then cw else ch) ≤ mh)) :
    toLinearRgb m b img mw mh = toLinearRgb m b img 0 0 ∧ toRgb m b img mw mh = toRgb m b img 0 0 ∧ toSrgb m b img mw mh = toSrgb m b img 0 0 := by
  have hsw : img.orientation.toFlips.1 = exifSwaps n := by rw [hn]; exact flips_swap n
  obtain ⟨buf, hb, hbw, hbh⟩ := convert_size b hu
  obtain ⟨t, r, bt, l, hc⟩ := hu.crops
  have hcw := hc.cw_pos
  have hch := hu.rows
  have hW := hc.width
  have hH := hc.height
  obtain ⟨hs1, hs2⟩ := hu.small
  have hd : ∀ linear, decoder m b img mw mh linear = decoder m b img 0 0 linear := by
    intro linear
    unfold decoder
    simp only [hsw, ite_self]
    rw [hb, ok_bind, ok_bind, demosaic_fits b img (by omega) (by omega) (by omega) (by omega) (by split <;> assumption) (by split <;> assumption) (by
        cases h : exifSwaps n <;> simp only [h, Bool.false_eq_true, if_false, if_true] at hfit ⊢ <;> omega),
      demosaic_fits b img (by omega) (by omega) (by omega) (by omega) (by decide) (by decide) (.inl rfl)]
  unfold toLinearRgb toRgb toSrgb
  rw [hd, hd]
  exact ⟨rfl, rfl, rfl⟩

/-! ## Cases -/

/-- 3000 by 2000 turned by a quarter fits 2000 by 3000 exactly, and 4000 by 3000 with room. -/
example (m : Libm) : toSrgb m .release (grey 3000 2000 .rotate90) 2000 3000 = toSrgb m .release (grey 3000 2000 .rotate90) 0 0 ∧
    toSrgb m .release (grey 3000 2000 .rotate90) 4000 3000 = toSrgb m .release (grey 3000 2000 .rotate90) 0 0 := by
  have hu := grey_usable 3000 2000 .rotate90 (by norm_num) (by norm_num) (by norm_num) (by norm_num)
  have ho := grey_turn 3000 2000
  generalize grey 3000 2000 .rotate90 = img at hu ho ⊢
  exact ⟨(fits_already m .release img 3000 2000 2000 3000 6 hu ho (by norm_num) (by norm_num) (.inr (.inr (by decide)))).2.2,
    (fits_already m .release img 3000 2000 4000 3000 6 hu ho (by norm_num) (by norm_num) (.inr (.inr (by decide)))).2.2⟩

end Props

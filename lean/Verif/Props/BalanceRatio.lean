import Verif.Props.FitsAlready
/-!
# C98: only the ratios of the white balance matter
-/

namespace Props
open Model Rust Spec F32

/-- `y` is `t` times `x`, both being ordinary numbers, or neither is one (`f32::is_normal`): zero, infinite, not a number or too small. -/
def Times (t : ℚ) (x y : F32) : Prop :=
  (∃ p, x = .fin p ∧ y = .fin (t * p) ∧ x.isNormal = true ∧ y.isNormal = true) ∨ (x.isNormal = false ∧ y.isNormal = false)

theorem Times.normal {t : ℚ} {x y : F32} (h : Times t x y) : x.isNormal = y.isNormal := by
  rcases h with ⟨p, -, -, h1, h2⟩ | ⟨h1, h2⟩ <;> rw [h1, h2]

theorem Times.quotient {t : ℚ} (ht : t ≠ 0) {x y u v : F32} (h : Times t x y) (hu : Times t u v) (hn : u.isNormal = true) :
    (if !x.isNormal then lit 1 else x.div u) = (if !y.isNormal then lit 1 else y.div v) := by
  rcases h with ⟨p, rfl, rfl, h1, h2⟩ | ⟨h1, h2⟩
  · rcases hu with ⟨q, rfl, rfl, -, -⟩ | ⟨h3, -⟩
    · rw [h1, h2]
      simp only [Bool.not_true, Bool.false_eq_true, if_false, F32.div]
      rw [mul_div_mul_left _ _ ht]
    · rw [hn] at h3
      cases h3
  · rw [h1, h2]
    rfl

/-- **C98.** Multiplying the coefficients of the white balance by a common factor changes no output, at any size. -/
theorem balance_ratio (m : Libm) (b : Build) (img : RawImage) (mw mh : Nat) {t : ℚ} (ht : t ≠ 0) {x0 x1 x2 x3 y0 y1 y2 y3 : F32}
    (hwb : img.wbCoeffs = [x0, x1, x2, x3]) (h0 : Times t x0 y0) (h1 : Times t x1 y1) (h2 : Times t x2 y2) (h3 : Times t x3 y3) :
    toLinearRgb m b { img with wbCoeffs := [y0, y1, y2, y3] } mw mh = toLinearRgb m b img mw mh ∧
      toRgb m b { img with wbCoeffs := [y0, y1, y2, y3] } mw mh = toRgb m b img mw mh ∧
      toSrgb m b { img with wbCoeffs := [y0, y1, y2, y3] } mw mh = toSrgb m b img mw mh := by
  have hmono : ({ img with wbCoeffs := [y0, y1, y2, y3] } : RawImage).isMonochrome = img.isMonochrome := rfl
  have hneutral : ({ img with wbCoeffs := [y0, y1, y2, y3] } : RawImage).neutralwb = img.neutralwb := rfl
  have hb : (balanceCoeffs { img with wbCoeffs := [y0, y1, y2, y3] } >>= balanceMul) = (balanceCoeffs img >>= balanceMul) := by
    unfold balanceCoeffs
    rw [hmono, hneutral, hwb]
    cases img.isMonochrome
    · simp only [Bool.false_eq_true, if_false, idx, List.getElem?_cons_zero, List.getElem?_cons_succ, ok_bind]
      rw [← h0.normal, ← h1.normal, ← h2.normal]
      by_cases hn : (!x0.isNormal || !x1.isNormal || !x2.isNormal) = true
      · rw [if_pos hn, if_pos hn]
      · rw [if_neg hn, if_neg hn, ok_bind, ok_bind]
        have hu : x1.isNormal = true := by
          cases h : x1.isNormal
          · simp [h] at hn
          · rfl
        unfold balanceMul
        simp only [idx, List.getElem?_cons_zero, List.getElem?_cons_succ, ok_bind, List.map_cons, List.map_nil]
        rw [h0.quotient ht h1 hu, h1.quotient ht h1 hu, h2.quotient ht h1 hu, h3.quotient ht h1 hu]
    · rfl
  have hl : levelAndBalance { img with wbCoeffs := [y0, y1, y2, y3] } = levelAndBalance img := by
    have hform : ∀ (i : RawImage) (buf : OpBuffer F32), levelAndBalance i buf = levelRanges i.whitelevels (i.blacklevels.map F32.ofNat) >>= fun ranges =>
        (balanceCoeffs i >>= balanceMul) >>= fun mul =>
          buf.mutateLines (fun line _ => mapChunks 4 (forRange 0 4 (levelChannel (i.blacklevels.map F32.ofNat) ranges mul)) line) := by
      intro i buf
      unfold levelAndBalance
      simp only [bind_assoc]
    funext buf
    rw [hform, hform, hb]
  have hd : ∀ linear, decoder m b { img with wbCoeffs := [y0, y1, y2, y3] } mw mh linear = decoder m b img mw mh linear := by
    intro linear
    unfold decoder
    rw [hl]
    rfl
  unfold toLinearRgb toRgb toSrgb
  rw [hd, hd]
  exact ⟨rfl, rfl, rfl⟩

/-! ## Cases -/

/-- A balance written relative to green, and the same in units of 1/256 as some cameras write it; there is no fourth coefficient. -/
example (m : Libm) (cfa : CFA) (mw mh : Nat) : toSrgb m .release { stuckImage 450 cfa with wbCoeffs := [.fin 512, .fin 256, .fin 384, .nan] } mw mh =
    toSrgb m .release (stuckImage 450 cfa) mw mh := by
  have n : ∀ q : ℚ, 1 ≤ q → (F32.fin q).isNormal = true := by
    intro q hq
    simp only [F32.isNormal, decide_eq_true_eq]
    have h1 : q.abs = q := by rw [Rat.abs_of_nonneg (by linarith)]
    rw [h1]
    exact le_trans (by decide +kernel : pow2 (-126) ≤ 1) hq
  exact (balance_ratio m .release (stuckImage 450 cfa) mw mh (t := 256) (by norm_num) (x0 := .fin 2) (x1 := .fin 1) (x2 := .fin (3 / 2)) (x3 := .nan) rfl
    (.inl ⟨2, rfl, by norm_num, n _ (by norm_num), n _ (by norm_num)⟩) (.inl ⟨1, rfl, by norm_num, n _ (by norm_num), n _ (by norm_num)⟩)
    (.inl ⟨3 / 2, rfl, by norm_num, n _ (by norm_num), n _ (by norm_num)⟩) (.inr ⟨rfl, rfl⟩)).2.2

end Props

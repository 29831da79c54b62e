import Verif.Props.BitDepth
/-!
# C100: samples above the white level of a monochrome picture
-/

namespace Props
open Model Rust Spec F32

theorem mono_mul {img : RawImage} (h1 : img.cpp = 1) (h2 : img.cfa.isValid = false) {mul : List F32} (h : (balanceCoeffs img >>= balanceMul) = .ok mul) {k : Nat}
    (hk : k < 4) : mul.getD k (.zero false) = .fin 1 := by
  have e1 : img.isMonochrome = true := by simp [RawImage.isMonochrome, h1, h2]
  have hn : (F32.fin 1).isNormal = true := by decide +kernel
  have hd : (F32.fin 1).div (.fin 1) = .fin 1 := by decide +kernel
  have hone : balanceMul (List.replicate 4 (F32.fin 1)) = .ok (List.replicate 4 (F32.fin 1)) := by
    unfold balanceMul
    simp only [List.replicate, idx, List.getElem?_cons_zero, List.getElem?_cons_succ, ok_bind, List.map_cons, List.map_nil, hn, hd, Bool.not_true,
      Bool.false_eq_true, if_false]
  unfold balanceCoeffs at h
  rw [if_pos e1, ok_bind, lit_one_fin, hone] at h
  injection h with h
  subst h
  interval_cases k <;> rfl

/-- **C100.** Cutting off the samples of a monochrome picture at the white level, or anywhere above it, changes no output at full size. -/
theorem mono_clip (m : Libm) (b : Build) {img : RawImage} {top right bottom left cw ch : Nat} {S : Nat → Nat → Nat}
    (hpic : MonoPicture img top right bottom left cw ch S) (hl : LevelsOk img) (h16 : ∀ v ∈ img.data, v < 65536) {limit : Nat}
    (hlim : ∀ k, k < 3 → img.whitelevels.getD k 0 ≤ limit) :
    toLinearRgb m b { img with data := img.data.map (min · limit) } 0 0 = toLinearRgb m b img 0 0 ∧
      toRgb m b { img with data := img.data.map (min · limit) } 0 0 = toRgb m b img 0 0 ∧
      toSrgb m b { img with data := img.data.map (min · limit) } 0 0 = toSrgb m b img 0 0 := by
  have hcw := hpic.crops.cw_pos
  generalize he : ({ img with data := img.data.map (min · limit) } : RawImage) = img'
  have hpic' : MonoPicture img' top right bottom left cw ch (fun r c => min (S r c) limit) := by
    subst he
    exact
    { crops := ⟨hpic.crops.crops, hpic.crops.width, hpic.crops.height, hpic.crops.cw_pos⟩
      rows := hpic.rows
      single := hpic.single
      plain := hpic.plain
      full := by simpa using hpic.full
      arrays := ⟨hpic.arrays.wb, hpic.arrays.white, hpic.arrays.black⟩
      samples := by
        intro r c hr hc
        have := hpic.samples r c hr hc
        show (img.data.map (min · limit))[img.width * (r + top) + (c + left)]? = _
        rw [List.getElem?_map, this]
        rfl }
  obtain ⟨p, d1, hp⟩ := mono_pixels b hpic
  obtain ⟨p', d2, hp'⟩ := mono_pixels b hpic'
  obtain ⟨mul, m1, e1⟩ := level_ofPix (h := ch) hcw img hpic.arrays p
  obtain ⟨mul', m2, e2⟩ := level_ofPix (h := ch) hcw img' hpic'.arrays p'
  have hmul : mul' = mul := by
    have : (balanceCoeffs img' >>= balanceMul) = (balanceCoeffs img >>= balanceMul) := by subst he; rfl
    rw [this, m1] at m2
    injection m2 with m2
    exact m2.symm
  subst hmul
  have hsame : ∀ k v, levelled img' mul' k v = levelled img mul' k v := by subst he; exact fun _ _ => rfl
  have hpix : ofPix cw ch 4 (fun r c k => levelled img' mul' k (p' r c k)) = ofPix cw ch 4 (fun r c k => levelled img mul' k (p r c k)) := by
    apply ofPix_congr
    intro r c k hr hc hk
    show levelled img' mul' k (p' r c k) = levelled img mul' k (p r c k)
    rw [hsame, hp r c hr hc k hk, hp' r c hr hc k hk]
    split
    · rename_i hk3
      rcases le_total (S r c) limit with hle | hle
      · rw [min_eq_left hle]
      · have hS : S r c < 65536 := h16 _ (List.mem_of_getElem? (hpic.samples r c hr hc))
        have hwhite : ∀ v, limit ≤ v → v < 65536 → levelled img mul' k (F32.ofNat v) = .fin 1 := by
          intro v h1 h2
          have hv := ofNat_is (n := v) (by omega)
          have hw : img.whitelevels.getD k 0 ≤ v := le_trans (hlim k hk3) h1
          exact levelled_white hl hk (mono_mul hpic.single hpic.plain m1 hk) (le_refl 1) ⟨hv.1, hv.2.2⟩ (by exact_mod_cast hw) (by exact_mod_cast h2.le)
        rw [min_eq_right hle, hwhite _ (le_refl _) (by omega), hwhite _ hle hS]
    · rfl
  have hd : ∀ linear, decoder m b img' 0 0 linear = decoder m b img 0 0 linear := by
    intro linear
    obtain ⟨buf, f1, f2⟩ := bind_eq_ok.mp d1
    obtain ⟨buf', g1, g2⟩ := bind_eq_ok.mp d2
    unfold decoder
    simp only [ite_self]
    rw [f1, g1, ok_bind, ok_bind, f2, g2, ok_bind, ok_bind, e1, e2, ok_bind, ok_bind, hpix]
    subst he
    rfl
  unfold toLinearRgb toRgb toSrgb
  rw [hd, hd]
  exact ⟨rfl, rfl, rfl⟩

/-! ## Cases -/

/-- Two samples above the white level 4000, and the same picture with 4000 in their place. -/
example (m : Libm) : toSrgb m .debug { monoImage [.fin 2, .fin 1, .fin (3 / 2), .nan] with data := [300, 4000, 700, 900, 4000, 2000] } 0 0 =
    toSrgb m .debug { monoImage [.fin 2, .fin 1, .fin (3 / 2), .nan] with data := [300, 5000, 700, 900, 16383, 2000] } 0 0 :=
  (mono_clip m .debug (img := { monoImage [.fin 2, .fin 1, .fin (3 / 2), .nan] with data := [300, 5000, 700, 900, 16383, 2000] })
    (S := fun r c => [300, 5000, 700, 900, 16383, 2000].getD (r * 3 + c) 0) (top := 0) (right := 0) (bottom := 0) (left := 0) (cw := 3) (ch := 2) (limit := 4000)
    ⟨⟨rfl, rfl, rfl, by decide⟩, by decide, rfl, rfl, rfl, ⟨by decide, by decide, by decide⟩, by
      intro r c hr hc
      interval_cases r <;> interval_cases c <;> rfl⟩
    (by intro k hk; interval_cases k <;> exact ⟨4000, 256, rfl, rfl, by decide, by decide⟩) (by decide)
    (by intro k hk; interval_cases k <;> decide)).2.2

end Props

import Verif.Props.FourthChannel
/-!
# C102: the three outputs are one picture
-/

namespace Props
open Model Rust Spec F32

/-- The rotation at the end takes every value from a place that does not depend on the values. -/
theorem finalRotate_source (img : RawImage) {w h k : Nat} (hw : 0 < w) (hh : 0 < h) (hk : 0 < k) :
    ∃ (w' h' : Nat) (src : Nat → Nat → Nat × Nat), 0 < w' ∧ 0 < h' ∧ ∀ p : Nat → Nat → Nat → F32,
      finalRotate img (ofPix w h k p) = .ok (ofPix w' h' k fun r c ch => p (src r c).1 (src r c).2 ch) := by
  unfold finalRotate rotateBuffer
  cases img.orientation <;>
    simp only [Orientation.toFlips, ne_eq, not_true_eq_false, false_and, and_false, if_false, reduceCtorEq, not_false_eq_true, and_self, if_true,
      flipHorizontal_ofPix hw hk, flipVertical_ofPix hw hk, transpose_ofPix hh hk, ok_bind, flipHorizontal_ofPix hh hk, flipVertical_ofPix hh hk]
  · exact ⟨w, h, fun r c => (r, c), hw, hh, fun _ => rfl⟩
  · exact ⟨w, h, fun r c => (r, w - 1 - c), hw, hh, fun _ => rfl⟩
  · exact ⟨w, h, fun r c => (h - 1 - r, w - 1 - c), hw, hh, fun _ => rfl⟩
  · exact ⟨w, h, fun r c => (h - 1 - r, c), hw, hh, fun _ => rfl⟩
  · exact ⟨h, w, fun r c => (c, r), hh, hw, fun _ => rfl⟩
  · exact ⟨h, w, fun r c => (h - 1 - c, r), hh, hw, fun _ => rfl⟩
  · exact ⟨h, w, fun r c => (h - 1 - c, w - 1 - r), hh, hw, fun _ => rfl⟩
  · exact ⟨h, w, fun r c => (c, w - 1 - r), hh, hw, fun _ => rfl⟩
  · exact ⟨w, h, fun r c => (r, c), hw, hh, fun _ => rfl⟩

theorem ofPix_map {w h k : Nat} (p : Nat → Nat → Nat → F32) (f : F32 → F32) : (ofPix w h k fun r c ch => f (p r c ch)).data = (ofPix w h k p).data.map f := by
  unfold ofPix raster
  simp [List.map_flatMap, Function.comp_def]

/-- **C102.** There is one curve such that at every requested size and orientation the picture of `to_rgb` is that of `to_linear_rgb` with
every value put through it, and that of `to_srgb` has 255 times each value of `to_rgb`, cut to a byte. -/
theorem one_picture (m : Libm) : ∃ curve : F32 → F32,
    (curve .nan = .zero false ∧ curve (.inf true) = .zero false ∧ curve (.inf false) = curve (.fin 1) ∧
      ∀ q, (F32.fin q).Valid → (q ≤ 0 → curve (.fin q) = .zero false) ∧ (1 ≤ q → curve (.fin q) = curve (.fin 1))) ∧
    ∀ (b : Build) (img : RawImage) (cw ch mw mh : Nat), Usable img cw ch → mw < 2 ^ 64 → mh < 2 ^ 64 →
      (mw = 0 ∨ mh = 0 ∨ (ch ≤ cw * (if img.orientation.toFlips.1 then mw else mh) ∧ cw ≤ ch * (if img.orientation.toFlips.1 then mh else mw))) →
      ∃ w h lin, lin.length = w * h * 3 ∧ 0 < w ∧ 0 < h ∧ toLinearRgb m b img mw mh = .ok (w, h, lin) ∧ toRgb m b img mw mh = .ok (w, h, lin.map curve) ∧
        toSrgb m b img mw mh = .ok (w, h, (lin.map curve).map fun x => (((x.mul (lit 255)).max (lit 0)).min (lit 255)).toUnsigned 8) := by
  refine ⟨fun v => gammaEntry m (gammaIndex v), ⟨?_, ?_, ?_, ?_⟩, ?_⟩
  · show gammaEntry m (gammaIndex .nan) = _
    rw [gamma_index_exact .nan trivial, entry_zero]
  · show gammaEntry m (gammaIndex (.inf true)) = _
    rw [gamma_index_exact (.inf true) trivial]
    exact entry_zero m
  · show gammaEntry m (gammaIndex (.inf false)) = gammaEntry m (gammaIndex (.fin 1))
    rw [gamma_index_exact (.inf false) trivial, gamma_index_exact (.fin 1) ⟨by norm_num, by decide +kernel, by decide +kernel⟩]
    norm_num
    rfl
  · intro q hq
    constructor
    · intro h0
      show gammaEntry m (gammaIndex (.fin q)) = _
      rw [gamma_index_exact _ hq]
      simp only
      rw [max_eq_left (le_trans (min_le_left _ _) h0), zero_mul, Int.floor_zero]
      exact entry_zero m
    · intro h1
      show gammaEntry m (gammaIndex (.fin q)) = gammaEntry m (gammaIndex (.fin 1))
      rw [gamma_index_exact _ hq, gamma_index_exact (.fin 1) ⟨by norm_num, by decide +kernel, by decide +kernel⟩]
      simp only
      rw [min_eq_right h1, min_self]
  · intro b img cw ch mw mh hu hmw hmh hasp
    have huu : Usable { img with orientation := .normal } cw ch := ⟨by
      obtain ⟨t, r, bt, l, hc⟩ := hu.crops
      exact ⟨t, r, bt, l, hc.crops, hc.width, hc.height, hc.cw_pos⟩, hu.rows, hu.small, hu.length, hu.words, ⟨hu.arrays.wb, hu.arrays.white, hu.arrays.black⟩, hu.kind⟩
    have hrot := decoder_rotates m b img mw mh
    generalize img.orientation.toFlips.1 = swap at hasp hrot
    generalize hpw : (if swap then mh else mw) = pw at hasp hrot
    generalize hph : (if swap then mw else mh) = ph at hasp hrot
    have hasp' : pw = 0 ∨ ph = 0 ∨ (ch ≤ cw * ph ∧ cw ≤ ch * pw) := by
      rcases hasp with h | h | h
      · cases swap <;> simp_all
      · cases swap <;> simp_all
      · exact .inr (.inr h)
    obtain ⟨w, h, p, h1, h2, -⟩ := decoder_total m b { img with orientation := .normal } cw ch pw ph true huu (by rw [← hpw]; split <;> assumption)
      (by rw [← hph]; split <;> assumption) hasp'
    obtain ⟨nw, nh, e1, e2, p1, p2, -⟩ := OutputSize.size (show OutputSize false cw ch pw ph w h from h2)
    have hw : 0 < w := by rw [e1]; exact p1
    have hh : 0 < h := by rw [e2]; exact p2
    obtain ⟨w', h', src, hw', hh', hsrc⟩ := finalRotate_source img hw hh (by decide : 0 < 3)
    have hl : decoder m b img mw mh true = .ok (ofPix w' h' 3 fun r c k => p (src r c).1 (src r c).2 k) := by
      rw [hrot, h1, ok_bind, hsrc]
    have hg : decoder m b img mw mh false = .ok (ofPix w' h' 3 fun r c k => gammaEntry m (gammaIndex (p (src r c).1 (src r c).2 k))) := by
      rw [hrot, decoder_gamma, h1, ok_bind, gamma_ofPix m hw (by decide), ok_bind, hsrc]
    have hmap := ofPix_map (w := w') (h := h') (k := 3) (fun r c k => p (src r c).1 (src r c).2 k) (fun v => gammaEntry m (gammaIndex v))
    refine ⟨w', h', (ofPix w' h' 3 fun r c k => p (src r c).1 (src r c).2 k).data, ofPix_wf _ _ _ _, hw', hh', ?_, ?_, ?_⟩
    · unfold toLinearRgb
      rw [hl, ok_bind]
      rfl
    · unfold toRgb
      rw [hg, ok_bind, ← hmap]
      rfl
    · rw [toSrgb_map hg, ← hmap]
      rfl

/-! ## Cases -/

/-- The turned monochrome picture of `MonoCurve.lean` at most two pixels wide and three high. -/
example (m : Libm) : ∃ (curve : F32 → F32) (w h : Nat) (lin : List F32), toLinearRgb m .debug (monoImage [.fin 2, .fin 1, .fin (3 / 2), .nan]) 2 3 = .ok (w, h, lin) ∧
    toRgb m .debug (monoImage [.fin 2, .fin 1, .fin (3 / 2), .nan]) 2 3 = .ok (w, h, lin.map curve) := by
  obtain ⟨curve, -, hall⟩ := one_picture m
  obtain ⟨w, h, lin, -, -, -, h1, h2, -⟩ := hall .debug (monoImage [.fin 2, .fin 1, .fin (3 / 2), .nan]) 3 2 2 3
    ⟨⟨0, 0, 0, 0, rfl, rfl, rfl, by decide⟩, by decide, ⟨by show 3 ≤ 2 ^ 22; decide, by show 2 ≤ 2 ^ 22; decide⟩, rfl, by decide, ⟨rfl, rfl, rfl⟩, .inl ⟨rfl, rfl⟩⟩
    (by decide) (by decide) (.inr (.inr ⟨by decide, by decide⟩))
  exact ⟨curve, w, h, lin, h1, h2⟩

end Props

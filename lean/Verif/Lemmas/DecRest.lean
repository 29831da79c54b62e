import Verif.Lemmas.DecSimple
/-!
# ARW, DNG, RAF and CR2: decoding ends, and what it leaves in the image
-/

namespace Model
open Rust

theorem ends_unwrapped {α : Type} {x : M α} (h : Ends x) : Ends (unwrapped x) := by
  unfold unwrapped
  split
  · exact ends_ok _
  · exact h
  · exact ends_crash
macro_rules | `(tactic| ends_step) => `(tactic| with_reducible refine ends_unwrapped ?_)

theorem post_unwrapped {α : Type} {x : M α} {Q : α → Prop} (h : Post x Q) : Post (unwrapped x) Q := by
  refine ⟨ends_unwrapped h.1, fun a e => h.2 a ?_⟩
  unfold unwrapped at e
  split at e
  · exact e
  · exact absurd e (by simp)
  · exact absurd e (crash_ne_ok _)

/-! ## Colour filter arrays -/

theorem ends_cfaByte (c : UInt8) : Ends (cfaByte c) := by unfold cfaByte; ends
macro_rules | `(tactic| ends_leaf) => `(tactic| with_reducible exact ends_cfaByte _)
theorem ends_cfaDims (n : Nat) : Ends (cfaDims n) := by unfold cfaDims; split <;> ends
macro_rules | `(tactic| ends_leaf) => `(tactic| with_reducible exact ends_cfaDims _)
theorem ends_cfaCopy (w : Nat) : ∀ i l p, Ends (cfaCopy w i l p)
  | _, [], _ => ends_ok _
  | _, _ :: l, _ => by unfold cfaCopy; exact ends_bind (by ends) fun _ _ => ends_bind (by ends) fun _ _ => ends_cfaCopy w _ l _
macro_rules | `(tactic| ends_leaf) => `(tactic| with_reducible exact ends_cfaCopy _ _ _ _)
theorem ends_cfaExtendCell (w h r c : Nat) (p : List (List Nat)) : Ends (cfaExtendCell w h r c p) := by unfold cfaExtendCell; ends
macro_rules | `(tactic| ends_leaf) => `(tactic| with_reducible exact ends_cfaExtendCell _ _ _ _ _)
theorem ends_cfaExtend (w h : Nat) (p : List (List Nat)) : Ends (cfaExtend w h p) := by unfold cfaExtend; ends
macro_rules | `(tactic| ends_leaf) => `(tactic| with_reducible exact ends_cfaExtend _ _ _)
theorem CFA.ends_new (l : Bytes) : Ends (CFA.new l) := by unfold CFA.new; dsimp only; ends
macro_rules | `(tactic| ends_leaf) => `(tactic| with_reducible exact CFA.ends_new _)

/-! ## Sony -/

namespace Arw

theorem ends_initPad (k : Nat) : Ends (initPad k) := by unfold initPad; ends
macro_rules | `(tactic| ends_leaf) => `(tactic| with_reducible exact Arw.ends_initPad _)
theorem ends_decryptStep (buf : Bytes) (o i : Nat) (s : List Nat × Bytes) : Ends (decryptStep buf o i s) := by unfold decryptStep; dsimp only; ends
macro_rules | `(tactic| ends_leaf) => `(tactic| with_reducible exact Arw.ends_decryptStep _ _ _ _)
theorem ends_sonyDecrypt (buf : Bytes) (o n k : Nat) : Ends (sonyDecrypt buf o n k) := by unfold sonyDecrypt; ends
macro_rules | `(tactic| ends_leaf) => `(tactic| with_reducible exact Arw.ends_sonyDecrypt _ _ _ _)
theorem ends_arw1Len (b : Build) (s : Pump) : Ends (arw1Len b s) := by unfold arw1Len; dsimp only; ends
macro_rules | `(tactic| ends_leaf) => `(tactic| with_reducible exact Arw.ends_arw1Len _ _)
theorem ends_arw1Pixel (b : Build) (x : Int) (s : Pump) : Ends (arw1Pixel b x s) := by unfold arw1Pixel; dsimp only; ends
macro_rules | `(tactic| ends_leaf) => `(tactic| with_reducible exact Arw.ends_arw1Pixel _ _ _)

theorem post_arw1Odd (b : Build) (w h c : Nat) : ∀ n row (s : List Nat × Int × Pump), row % 2 ≠ h % 2 → 0 < n → h + 2 ≤ 2 * n + row →
    Post (arw1Column b w h c n row s) (fun r => size r = size s)
  | 0, _, _, _, h0, _ => by omega
  | n + 1, row, s, hp, _, hn => by
    unfold arw1Column
    refine post_ite (fun hr => ?_) fun _ => post_ok rfl
    dsimp only
    rw [if_neg (by omega)]
    exact post_bind (post_ends (by ends)) fun p _ => post_bind (post_setIdx_size _ _ _) fun o ho =>
      post_weaken (post_arw1Odd b w h c n _ _ (by omega) (by omega) (by omega)) fun r hr => by simp_all

theorem post_arw1Even (b : Build) (w h c : Nat) : ∀ n row (s : List Nat × Int × Pump), row % 2 = 0 → h % 2 = 0 → row ≤ h → 2 * h + 4 ≤ 2 * n + row →
    Post (arw1Column b w h c n row s) (fun r => size r = size s)
  | 0, _, _, _, _, _, _ => by omega
  | n + 1, row, s, hp, hh, hle, hn => by
    unfold arw1Column
    refine post_ite (fun hr => ?_) fun _ => post_ok rfl
    dsimp only
    by_cases he : row = h
    · rw [if_pos he]
      exact post_bind (post_ends (by ends)) fun p _ => post_bind (post_setIdx_size _ _ _) fun o ho =>
        post_weaken (post_arw1Odd b w h c n _ _ (by omega) (by omega) (by omega)) fun r hr => by simp_all
    · rw [if_neg he]
      exact post_bind (post_ends (by ends)) fun p _ => post_bind (post_setIdx_size _ _ _) fun o ho =>
        post_weaken (post_arw1Even b w h c n _ _ (by omega) hh (by omega) (by omega)) fun r hr => by simp_all

theorem post_arw1Column (b : Build) (w h c : Nat) (s : List Nat × Int × Pump) :
    Post (arw1Column b w h c (h + 2) 0 s) (fun r => size r = size s) := by
  by_cases hh : h % 2 = 0
  · exact post_arw1Even b w h c _ _ s rfl hh (by omega) (by omega)
  · exact post_arw1Odd b w h c _ _ s (by omega) (by omega) (by omega)
macro_rules | `(tactic| post_leaf) => `(tactic| with_reducible exact Arw.post_arw1Column _ _ _ _ _)

theorem post_decodeArw1 (b : Build) (buf : Bytes) (w h : Nat) : Post (decodeArw1 b buf w h) (fun r => size r = w * h) := by
  unfold decodeArw1; sized
macro_rules | `(tactic| post_leaf) => `(tactic| with_reducible exact Arw.post_decodeArw1 _ _ _ _)

theorem ends_arw2Value (b : Build) (p q r s t i : Nat) (u : Pump) : Ends (arw2Value b p q r s t i u) := by unfold arw2Value; ends
macro_rules | `(tactic| ends_leaf) => `(tactic| with_reducible exact Arw.ends_arw2Value _ _ _ _ _ _ _ _)
theorem post_arw2Group (b : Build) (c : LookupTable) (j : Nat) (s : List Nat × Nat × Pump) : Post (arw2Group b c j s) (fun r => size r = size s) := by
  unfold arw2Group; dsimp only; sized
macro_rules | `(tactic| post_leaf) => `(tactic| with_reducible exact Arw.post_arw2Group _ _ _ _)
theorem post_decodeArw2 (b : Build) (buf : Bytes) (w h : Nat) (c : LookupTable) : Post (decodeArw2 b buf w h c) (fun r => size r = w * h) := by
  unfold decodeArw2
  refine post_threaded fun o i => post_bind (post_ends (by ends)) fun _ _ => post_bind (post_ends (by ends)) fun _ _ => ?_
  refine post_bind (Ljpeg.post_foldChunks_size (fun o s => ?_) (by omega) _ _) fun r hr => post_ok hr
  show Post _ (fun r : List Nat × Nat × Pump => size r = size o)
  sized
macro_rules | `(tactic| post_leaf) => `(tactic| with_reducible exact Arw.post_decodeArw2 _ _ _ _ _)

theorem ends_getCurve (b : Build) (t : TiffIFD) : Ends (getCurve b t) := by unfold getCurve; ends
macro_rules | `(tactic| ends_leaf) => `(tactic| with_reducible exact Arw.ends_getCurve _ _)
theorem ends_getWb (b : Build) (buf : Bytes) (t : TiffIFD) : Ends (getWb b buf t) := by unfold getWb; ends
macro_rules | `(tactic| ends_leaf) => `(tactic| with_reducible exact Arw.ends_getWb _ _ _)
theorem ends_a100Walk (buf : Bytes) : ∀ n pos, 0 < n → buf.length < n + pos → Ends (a100Walk buf n pos)
  | 0, _, h, _ => by omega
  | n + 1, pos, _, h => by
    unfold a100Walk
    refine ends_ite (fun hp => ?_) fun _ => ends_ok _
    exact ends_bind (by ends) fun _ _ => ends_bind (by ends) fun _ _ =>
      ends_ite (fun _ => by ends) fun _ => ends_a100Walk buf n _ (by omega) (by omega)
theorem full_a100 (b : Build) (buf : Bytes) (t : TiffIFD) (c : Camera) : Post (imageA100 b buf t c) Full := by
  unfold imageA100
  split
  · exact post_fail
  · dsimp only
    refine post_bind (post_ends (by ends)) fun _ _ => post_bind (post_ends (by ends)) fun _ _ => post_bind (post_decodeArw1 _ _ _ _) fun d hd =>
      post_bind (post_ends (by ends)) fun _ _ => post_bind (post_ends (by ends)) fun _ _ => post_bind (post_ends (by ends)) fun _ _ =>
      post_bind (post_ends (ends_a100Walk _ _ _ (by omega) (by omega))) fun _ _ => post_okImage hd
theorem full_srf (b : Build) (buf : Bytes) (t : TiffIFD) (c : Camera) : Post (imageSrf b buf t c) Full := by unfold imageSrf; sized

end Arw

theorem Arw.post_pixels (b : Build) (r : TiffIFD) (c : Camera) (src : Bytes) (w h n k m : Nat) :
    Post (Arw.pixels b r c src w h n k m) (fun r => r.2.length = w * r.1) := by
  have pair : ∀ {x : M (List Nat)} {h : Nat}, Post x (fun r => size r = w * h) →
      Post (do let l ← x; .ok (h, l)) (fun r : Nat × List Nat => r.2.length = w * r.1) := fun hx => post_bind hx fun _ hl => post_ok hl
  unfold Arw.pixels
  refine post_ite (fun _ => ?_) fun _ => post_ite (fun _ => post_ite (fun _ => pair (by post_leaf)) fun _ => ?_) fun _ => post_fail
  · dsimp only
    split <;> exact pair (by post_leaf)
  · exact post_ite (fun _ => post_bind (post_ends (by ends)) fun _ _ => pair (by post_leaf)) fun _ => post_ite (fun _ => pair (by post_leaf)) fun _ => post_fail

theorem full_arw (b : Build) (buffer : Bytes) (t : TiffIFD) (l : RawLoader) : Post (Arw.image b buffer t l) Full := by
  unfold Arw.image
  refine post_bind (post_ends (by ends)) fun cam _ => ?_
  split
  · exact post_ite (fun _ => Arw.full_a100 _ _ _ _) fun _ => Arw.full_srf _ _ _ _
  · dsimp only
    refine post_bind (post_ends (by ends)) fun _ _ => post_bind (post_ends (by ends)) fun _ _ => post_bind (post_ends (by ends)) fun _ _ =>
      post_bind (post_ends (by ends)) fun _ _ => post_bind (post_ends (by ends)) fun _ _ => ?_
    split
    · exact post_bind (post_ends (by ends)) fun _ _ => post_bind (post_ends (by ends)) fun _ _ => post_bind (Arw.post_pixels _ _ _ _ _ _ _ _ _) fun r hr =>
        post_bind (post_ends (by ends)) fun _ _ => post_okImage hr
    · exact post_bind (post_ends (by ends)) fun _ _ => post_bind (post_ends (by ends)) fun _ _ => post_bind (Arw.post_pixels _ _ _ _ _ _ _ _ _) fun r hr =>
        post_bind (post_ends (by ends)) fun _ _ => post_okImage hr

/-! ## DNG -/

namespace Dng

theorem ends_isRaw (t : TiffIFD) : Ends (isRaw t) := by unfold isRaw; ends
macro_rules | `(tactic| ends_leaf) => `(tactic| with_reducible exact Dng.ends_isRaw _)
theorem ends_getWb (t : TiffIFD) : Ends (getWb t) := by unfold getWb; dsimp only; ends
macro_rules | `(tactic| ends_leaf) => `(tactic| with_reducible exact Dng.ends_getWb _)
theorem ends_getBlacklevels (t : TiffIFD) : Ends (getBlacklevels t) := by unfold getBlacklevels; ends
macro_rules | `(tactic| ends_leaf) => `(tactic| with_reducible exact Dng.ends_getBlacklevels _)
theorem ends_getWhitelevels (t : TiffIFD) : Ends (getWhitelevels t) := by unfold getWhitelevels; ends
macro_rules | `(tactic| ends_leaf) => `(tactic| with_reducible exact Dng.ends_getWhitelevels _)
theorem ends_getCfa (t : TiffIFD) : Ends (getCfa t) := by unfold getCfa; ends
macro_rules | `(tactic| ends_leaf) => `(tactic| with_reducible exact Dng.ends_getCfa _)
theorem ends_getCrops (b : Build) (t : TiffIFD) (w h : Nat) : Ends (getCrops b t w h) := by unfold getCrops; ends
macro_rules | `(tactic| ends_leaf) => `(tactic| with_reducible exact Dng.ends_getCrops _ _ _ _)
theorem ends_getColorMatrix (t : TiffIFD) : Ends (getColorMatrix t) := by unfold getColorMatrix; dsimp only; ends
macro_rules | `(tactic| ends_leaf) => `(tactic| with_reducible exact Dng.ends_getColorMatrix _)
theorem ends_curve8 (b : Build) (e : TiffEntry) : Ends (curve8 b e) := by unfold curve8; ends
macro_rules | `(tactic| ends_leaf) => `(tactic| with_reducible exact Dng.ends_curve8 _ _)
theorem post_decodeUncompressed (b : Build) (buf : Bytes) (t r : TiffIFD) (w h : Nat) : Post (decodeUncompressed b buf t r w h) (fun r => size r = w * h) := by
  unfold decodeUncompressed; sized
theorem post_tile (b : Build) (buf : Bytes) (o : TiffEntry) (w h tw tl n r c : Nat) (s : List Nat) :
    Post (tile b buf o w h tw tl n r c s) (fun r => size r = size s) := by
  unfold tile
  exact post_bind (post_ends (by ends)) fun _ _ => post_bind (post_ends (by ends)) fun _ _ => post_bind (post_unwrapped (Ljpeg.post_newLjpeg _ _)) fun d hd =>
    post_bind (post_ends (by ends)) fun _ _ => post_bind (post_ends (by ends)) fun _ _ => post_unwrapped (Ljpeg.post_decode b hd _ _ _ _ _)
theorem post_decodeTiles (b : Build) (buf : Bytes) (o : TiffEntry) (w h tw tl : Nat) : Post (decodeTiles b buf o w h tw tl) (fun r => size r = w * h) := by
  unfold decodeTiles
  refine post_bind (post_ends (by ends)) fun _ _ => post_ite (fun _ => post_crash) fun _ => post_bind (post_ends (by ends)) fun _ _ =>
    post_ite (fun _ => post_crash) fun _ => post_ite (fun _ => post_fail) fun _ => post_multiline fun s i => ?_
  exact post_forRange_size fun j t _ => post_tile _ _ _ _ _ _ _ _ _ _ _
theorem post_decodeCompressed (b : Build) (buf : Bytes) (r : TiffIFD) (w h n : Nat) : Post (decodeCompressed b buf r w h n) (fun r => size r = w * h) := by
  unfold decodeCompressed
  split
  · refine post_ite (fun _ => post_fail) fun _ => post_bind (post_ends (by ends)) fun _ _ => post_bind (post_ends (by ends)) fun _ _ =>
      post_bind (Ljpeg.post_newLjpeg _ _) fun d hd => post_weaken (Ljpeg.post_decode b hd _ _ _ _ _) fun r hr => by rw [hr]; simp
  · split
    · exact post_bind (post_ends (by ends)) fun _ _ => post_bind (post_ends (by ends)) fun _ _ => post_decodeTiles _ _ _ _ _ _ _
    · exact post_fail
theorem post_pixels (b : Build) (buf : Bytes) (t r : TiffIFD) (w h n : Nat) : Post (pixels b buf t r w h n) (fun r => size r = w * n * h) := by
  unfold pixels
  exact post_bind (post_ends (by ends)) fun _ _ => post_ite (fun _ => post_decodeUncompressed _ _ _ _ _ _) fun _ =>
    post_ite (fun _ => post_decodeCompressed _ _ _ _ _ _) fun _ => post_fail
theorem ends_identify (t : TiffIFD) (l : RawLoader) : Ends (identify t l) := by
  unfold identify
  split
  · exact ends_ok _
  · ends
  · next x _ e =>
    intro h
    injection h with h
    subst h
    exact (show Ends (l.checkSupported t) by ends) e
macro_rules | `(tactic| ends_leaf) => `(tactic| with_reducible exact Dng.ends_identify _ _)

end Dng

theorem full_dng (b : Build) (buffer : Bytes) (t : TiffIFD) (l : RawLoader) : Post (Dng.image b buffer t l) Full := by
  unfold Dng.image
  dsimp only
  refine post_bind (post_ends (by ends)) fun _ _ => post_bind (post_ends (by ends)) fun _ _ => post_bind (post_ends (by ends)) fun _ _ =>
    post_bind (post_ends (by ends)) fun _ _ => post_bind (post_ends (by ends)) fun _ _ => post_bind (post_ends (by ends)) fun _ _ =>
    post_bind (Dng.post_pixels _ _ _ _ _ _ _) fun d hd => ?_
  refine post_bind (post_ends (by ends)) fun _ _ => post_bind (post_ends (by ends)) fun _ _ => post_bind (post_ends (by ends)) fun _ _ =>
    post_bind (post_ends (by ends)) fun _ _ => post_bind (post_ends (by ends)) fun _ _ => ?_
  split <;> (refine post_bind (post_ends (by ends)) fun _ _ => post_bind (post_ends (by ends)) fun _ _ => post_ok ?_
             unfold Full
             dsimp only
             rw [show d.length = _ from hd, Nat.mul_right_comm])

/-! ## Fuji -/

namespace Raf

theorem ends_getWb (t : TiffIFD) : Ends (getWb t) := by unfold getWb; ends
macro_rules | `(tactic| ends_leaf) => `(tactic| with_reducible exact Raf.ends_getWb _)
theorem ends_targetAlt (b : Build) (w h r c : Nat) : Ends (targetAlt b w h r c) := by unfold targetAlt; ends
theorem post_move (src : List Nat) (x y w rw cw ch : Nat) {target : Nat → Nat → M (Nat × Nat)} (ht : ∀ r c, Ends (target r c)) (out : List Nat) :
    Post (move src x y w rw cw ch target out) (fun r => size r = size out) := by
  unfold move
  refine post_forRange_size fun j t _ => post_bind (post_ends (by ends)) fun _ _ => post_forRange_size fun k t _ => ?_
  exact post_bind (post_ends (ht _ _)) fun _ _ => post_bind (post_ends (by ends)) fun _ _ => post_setIdx_size _ _ _
theorem post_mulU (b : Build) (x y : Nat) : Post (mulU 64 b x y) (fun n => n = x * y ∨ (b = .release ∧ 2 ^ 64 ≤ x * y)) := by
  unfold mulU
  split
  · exact post_ok (Or.inl rfl)
  · cases b
    · exact post_crash
    · exact post_ok (Or.inr ⟨rfl, by omega⟩)
theorem post_rotateImage (b : Build) (src : List Nat) (c : Camera) (w h : Nat) :
    Post (rotateImage b src c w h) (fun r => r.2.2.length = r.1 * r.2.1 ∨ (b = .release ∧ 2 ^ 64 ≤ r.1 * r.2.1)) := by
  unfold rotateImage
  refine post_bind (post_ends (by ends)) fun _ _ => post_bind (post_ends (by ends)) fun _ _ => post_bind (post_ends (by ends)) fun _ _ =>
    post_bind (post_ends (by ends)) fun _ _ => post_bind (post_ends (by ends)) fun _ _ => post_bind (post_ends (by ends)) fun _ _ =>
    post_bind (post_ends (by ends)) fun _ _ => post_bind (post_ends (by ends)) fun _ _ => post_ite (fun _ => ?_) fun _ => ?_
  · refine post_bind (post_ends (by ends)) fun _ _ => post_bind (post_ends (by ends)) fun _ _ => post_bind (post_mulU _ _ _) fun n hn =>
      post_bind (post_move _ _ _ _ _ _ _ (fun _ _ => ends_targetAlt _ _ _ _ _) _) fun o ho => post_ok ?_
    rw [show o.length = n by simpa using ho]
    exact hn
  · refine post_bind (post_ends (by ends)) fun _ _ => post_bind (post_ends (by ends)) fun _ _ => post_bind (post_mulU _ _ _) fun n hn =>
      post_bind (post_move _ _ _ _ _ _ _ (fun _ _ => ends_ok _) _) fun o ho => post_ok ?_
    rw [show o.length = n by simpa using ho]
    exact hn
theorem ends_dimensions (t : TiffIFD) : Ends (dimensions t) := by unfold dimensions; ends
macro_rules | `(tactic| ends_leaf) => `(tactic| with_reducible exact Raf.ends_dimensions _)
theorem post_pixels (t : TiffIFD) (c : Camera) (src : Bytes) (n w h : Nat) : Post (pixels t c src n w h) (fun r => size r = w * h) := by
  unfold pixels; sized

end Raf

theorem full_raf (b : Build) (buffer : Bytes) (t : TiffIFD) (l : RawLoader) :
    Post (Raf.image b buffer t l) (fun img => Full img ∨ (b = .release ∧ 2 ^ 64 ≤ img.width * img.height)) := by
  unfold Raf.image
  dsimp only
  refine post_bind (post_ends (by ends)) fun cam _ => post_bind (post_ends (by ends)) fun raw _ => post_bind (post_ends (by ends)) fun dim _ =>
    post_bind (post_ends (by ends)) fun o _ => ?_
  have rest : ∀ bps, Post (do
      let src ← sliceFrom buffer (o + raw.startOffset)
      let data ← Raf.pixels t cam src bps dim.1 dim.2
      if cam.findHint (b! "fuji_rotation") ∨ cam.findHint (b! "fuji_rotation_alt") then do
        let (width, height, data) ← Raf.rotateImage b data cam dim.1 dim.2
        let wb ← Raf.getWb t
        .ok {
          width := width, height := height, cpp := 1, wbCoeffs := wb, whitelevels := cam.whitelevels,
          blacklevels := cam.blacklevels, xyzToCam := cam.xyzToCam, cfa := cam.cfa, crops := [0, 0, 0, 0],
          orientation := cam.orientation, data := data, make := cam.make, model := cam.model,
          cleanMake := cam.cleanMake, cleanModel := cam.cleanModel }
      else do
        let wb ← Raf.getWb t
        okImage b cam dim.1 dim.2 wb data) (fun img => Full img ∨ (b = .release ∧ 2 ^ 64 ≤ img.width * img.height)) := by
    intro bps
    refine post_bind (post_ends (by ends)) fun _ _ => post_bind (Raf.post_pixels _ _ _ _ _ _) fun d hd => post_ite (fun _ => ?_) fun _ => ?_
    · refine post_bind (Raf.post_rotateImage _ _ _ _ _) fun r hr => post_bind (post_ends (by ends)) fun _ _ => post_ok ?_
      unfold Full
      dsimp only
      rw [Nat.mul_one]
      exact hr
    · exact post_bind (post_ends (by ends)) fun _ _ => post_weaken (post_okImage hd) fun _ h => Or.inl h
  split
  · exact post_bind (post_ends (by ends)) fun _ _ => rest _
  · exact rest _

/-! ## Canon -/

namespace Cr2

theorem ends_getWb (t : TiffIFD) (c : Camera) : Ends (getWb t c) := by unfold getWb; dsimp only; ends
macro_rules | `(tactic| ends_leaf) => `(tactic| with_reducible exact Cr2.ends_getWb _ _)
theorem post_rgbStep (b : Build) (c1 c2 c3 y : Int) (p : List Nat) : Post (rgbStep b c1 c2 c3 y p) (fun r => size r = size p) := by
  unfold rgbStep; dsimp only; sized
theorem post_convertToRgb (b : Build) (t : TiffIFD) (c : Camera) (l : List Nat) : Post (convertToRgb b t c l) (fun r => size r = size l) := by
  unfold convertToRgb
  exact post_bind (post_ends (by ends)) fun _ _ => post_bind (post_ends (by ends)) fun _ _ => post_bind (post_ends (by ends)) fun _ _ =>
    post_bind (post_ends (by ends)) fun _ _ => post_mapChunks_size (by omega) (fun o => post_rgbStep _ _ _ _ _ _) _
theorem post_linearize (b : Build) (t : TiffIFD) (l : List Nat) : Post (linearize b t l) (fun r => size r = size l) := by
  unfold linearize
  refine post_bind (post_ends (by ends)) fun _ _ => post_bind (post_ends (by ends)) fun _ _ => post_bind (post_ends (by ends)) fun _ _ =>
    post_bind (post_ends (by ends)) fun _ _ => ?_
  refine post_bind (Ljpeg.post_foldChunks_size (fun o s => ?_) (by omega) _ _) fun r hr => post_ok hr
  show Post _ (fun r : List Nat × Nat => size r = size o)
  sized
theorem post_pairStep (l : List Nat) (lw w f r c : Nat) (s : List Nat × Nat) : Post (pairStep l lw w f r c s) (fun r => size r = size s) := by
  unfold pairStep; dsimp only; sized
theorem post_copyPairs (l : List Nat) (lw w h : Nat) (f : List Nat) : Post (copyPairs l lw w h f) (fun r => size r = w * h) := by
  unfold copyPairs
  refine post_bind (post_ends (by ends)) fun _ _ => post_bind (post_forRange_size fun j s _ => post_forStep_size fun j s _ => post_forStep_size fun j s _ =>
    post_pairStep _ _ _ _ _ _ _) fun r hr => post_ok ?_
  simpa using hr
theorem post_copyField (l : List Nat) (w h f : Nat) (s : List Nat × Nat × Nat) : Post (copyField l w h f s) (fun r => size r = size s) := by
  unfold copyField; sized
theorem post_copyFields (l : List Nat) (w h cpp sh : Nat) (f : List Nat) : Post (copyFields l w h cpp sh f) (fun r => size r = w * h) := by
  unfold copyFields
  refine post_bind (post_foldlM_size (fun s a => post_ite (fun _ => post_crash) fun _ => post_copyField _ _ _ _ _) _ _) fun r hr => post_ok ?_
  simpa using hr
theorem ends_dimensions (c : Camera) (t : TiffIFD) (w h n : Nat) : Ends (dimensions c t w h n) := by unfold dimensions; ends
macro_rules | `(tactic| ends_leaf) => `(tactic| with_reducible exact Cr2.ends_dimensions _ _ _ _ _)
theorem ends_findRaw (t : TiffIFD) : Ends (findRaw t) := by unfold findRaw; ends
macro_rules | `(tactic| ends_leaf) => `(tactic| with_reducible exact Cr2.ends_findRaw _)
theorem ends_superV (d : Ljpeg.Decompressor) : Ends d.superV := by unfold Ljpeg.Decompressor.superV; ends
theorem ends_superH (d : Ljpeg.Decompressor) : Ends d.superH := by unfold Ljpeg.Decompressor.superH; ends
macro_rules | `(tactic| ends_leaf) => `(tactic| with_reducible exact Cr2.ends_superV _)
macro_rules | `(tactic| ends_leaf) => `(tactic| with_reducible exact Cr2.ends_superH _)

/-- The directory describes the vertical fields. -/
def Fields (raw : TiffIFD) : Prop := ∃ e n, raw.findEntry Tag.Cr2StripeWidths = some e ∧ e.getU32 0 = .ok n ∧ n ≠ 0

theorem post_arrange (d : Ljpeg.Decompressor) (raw : TiffIFD) (w h cpp : Nat) (l : List Nat) :
    Post (arrange d raw w h cpp l) (fun r => r.length = w * h ∨ (¬ Fields raw ∧ r.length = l.length)) := by
  unfold arrange
  split
  · next e =>
    refine post_ok (Or.inr ⟨?_, rfl⟩)
    rintro ⟨e', n, h', _⟩
    rw [e] at h'; injection h'
  · next c e =>
    refine post_bind (Q := fun n => c.getU32 0 = .ok n) ⟨by ends, fun _ h => h⟩ fun n hn => post_ite (fun h0 => post_ok (Or.inr ⟨?_, rfl⟩)) fun _ => ?_
    · rintro ⟨e', n', h', h'', h3⟩
      rw [e] at h'; injection h' with h'; subst h'
      rw [hn] at h''; injection h'' with h''; omega
    · refine post_bind (post_ends (by ends)) fun _ _ => post_bind (post_ends (by ends)) fun _ _ => post_bind (post_ends (by ends)) fun _ _ =>
        post_ite (fun _ => post_weaken (post_copyPairs _ _ _ _ _) fun _ h => Or.inl h) fun _ => post_bind (post_ends (by ends)) fun _ _ =>
          post_weaken (post_copyFields _ _ _ _ _ _) fun _ h => Or.inl h

/-- What `dimensions` leaves. -/
theorem post_dimensions (c : Camera) (t : TiffIFD) (w h n : Nat) :
    Post (dimensions c t w h n) (fun r => (n ≠ 3 ∧ c.findHint (b! "double_line") = false → r = (w, h)) ∧ (n = 3 → t.hasEntry Tag.ImageWidth = true → r.1 % 3 = 0)) := by
  unfold dimensions
  refine post_ite (fun h3 => post_ite (fun hi => ?_) fun hi => ?_) fun h3 => ?_
  · refine post_bind (post_ends (by ends)) fun _ _ => post_bind (post_ends (by ends)) fun _ _ => post_ok ⟨fun h => absurd h3 h.1, fun _ _ => ?_⟩
    subst h3; exact Nat.mul_mod_left _ _
  · exact post_ite (fun _ => post_ok ⟨fun h => absurd h3 h.1, fun _ h => absurd h hi⟩) fun _ => post_ok ⟨fun h => absurd h3 h.1, fun _ h => absurd h hi⟩
  · exact post_ite (fun hd => post_ok ⟨fun h => by rw [hd] at h; exact absurd h.2 (by decide), fun h => absurd h h3⟩) fun _ => post_ok ⟨fun _ => rfl, fun h => absurd h h3⟩

/-- What is known of the pixels. -/
def Known (raw : TiffIFD) (cam : Camera) (r : Nat × Nat × Nat × List Nat) : Prop :=
  (r.2.2.1 = 1 ∨ r.2.2.1 = 3) ∧
  (r.2.2.1 = 1 → cam.findHint (b! "double_line") = false → r.2.2.2.length = r.1 * r.2.1) ∧
  (Fields raw → r.2.2.2.length = r.1 * r.2.1) ∧
  (r.2.2.1 = 3 → raw.hasEntry Tag.ImageWidth = true → r.1 % 3 = 0)

theorem post_pixels (b : Build) (src : Bytes) (t raw : TiffIFD) (cam : Camera) : Post (pixels b src t raw cam) (Known raw cam) := by
  unfold pixels
  dsimp only
  refine post_bind (Ljpeg.post_newLjpeg _ _) fun d hd => post_bind (post_ends (by ends)) fun sh _ => post_bind (Ljpeg.post_decode b hd _ _ _ _ _) fun l hl => ?_
  have hl : l.length = d.width * d.height := by simpa using hl
  have last : ∀ cpp : Nat, (cpp = 1 ∨ cpp = 3) → ∀ l : List Nat, l.length = d.width * d.height → Post (do
      let (width, height) ← dimensions cam raw d.width d.height cpp
      let image ← arrange d raw width height cpp l
      .ok (width, height, cpp, image)) (Known raw cam) := by
    intro cpp hc l hl
    refine post_bind (post_dimensions _ _ _ _ _) fun r hr => post_bind (post_arrange _ _ _ _ _ _) fun o ho => post_ok ⟨hc, ?_, ?_, hr.2⟩
    · intro h1 h2
      have h1 : cpp = 1 := h1
      have e := hr.1 ⟨by omega, h2⟩
      rcases ho with ho | ho
      · exact ho
      · show o.length = r.1 * r.2
        rw [ho.2, hl, e]
    · intro hf
      rcases ho with ho | ho
      · exact ho
      · exact absurd hf ho.1
  have mid : ∀ l : List Nat, l.length = d.width * d.height → Post (do
      let l ← if (if sh = 2 then 3 else 1) = 3 then convertToRgb b t cam l else .ok l
      let (width, height) ← dimensions cam raw d.width d.height (if sh = 2 then 3 else 1)
      let image ← arrange d raw width height (if sh = 2 then 3 else 1) l
      .ok (width, height, (if sh = 2 then 3 else 1), image)) (Known raw cam) := by
    intro l hl
    have hc : (if sh = 2 then 3 else 1) = 1 ∨ (if sh = 2 then 3 else 1) = 3 := by split <;> simp
    generalize (if sh = 2 then 3 else 1) = cpp at hc ⊢
    dsimp only
    split
    · exact post_bind (post_convertToRgb _ _ _ _) fun o ho => last _ hc o (by simpa using ho.trans hl)
    · exact last _ hc l hl
  split
  · exact post_bind (post_linearize _ _ _) fun o ho => mid o (by simpa using ho.trans hl)
  · exact mid l hl

end Cr2

/-- CR2: decoding ends; the image is filled if it has one component and the camera has no `double_line` hint, and also if the raw
directory describes the vertical fields and has a width. -/
theorem full_cr2 (b : Build) (buffer : Bytes) (t : TiffIFD) (l : RawLoader) :
    Post (Cr2.image b buffer t l) (fun img => ∃ cam raw off, l.checkSupported t = .ok cam ∧ Cr2.findRaw t = .ok (raw, off) ∧
      (img.cpp = 1 → cam.findHint (b! "double_line") = false → Full img) ∧
      (Cr2.Fields raw → raw.hasEntry Tag.ImageWidth = true → Full img)) := by
  unfold Cr2.image
  refine post_bind (Q := fun cam => l.checkSupported t = .ok cam) ⟨by ends, fun _ h => h⟩ fun cam hcam => ?_
  refine post_bind (Q := fun p => Cr2.findRaw t = .ok p) ⟨by ends, fun _ h => h⟩ fun p hp => ?_
  refine post_bind (post_ends (by ends)) fun _ _ => post_bind (Cr2.post_pixels _ _ _ _ _) fun r hr => post_bind (post_ends (by ends)) fun _ _ =>
    post_bind (post_rawImage _ _ _ _ _ _) fun img hi => post_ok ⟨cam, p.1, p.2, hcam, hp, ?_, ?_⟩
  · intro h1 h2
    have h3 : r.2.2.1 = 1 := by
      rcases hr.1 with h | h
      · exact h
      · unfold Cr2.finish at h1
        rw [h] at h1
        simp at h1
    unfold Cr2.finish Full
    rw [h3, if_neg (by decide), hi.1, hi.2.1, hi.2.2.1, hi.2.2.2, hr.2.1 h3 h2, Nat.mul_one]
  · intro h1 h2
    have h4 := hr.2.2.1 h1
    unfold Cr2.finish Full
    rcases hr.1 with h | h
    · rw [h, if_neg (by decide), hi.1, hi.2.1, hi.2.2.1, hi.2.2.2, h4, Nat.mul_one]
    · rw [h, if_pos rfl]
      dsimp only
      rw [hi.1, hi.2.1, hi.2.2.2, h4]
      have h5 := hr.2.2.2 h h2
      have h6 : r.1 / 3 * 3 = r.1 := by omega
      rw [Nat.mul_right_comm, h6]

end Model

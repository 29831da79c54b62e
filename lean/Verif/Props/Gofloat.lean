import Verif.Lemmas.Pipeline
import Verif.Lemmas.F32Ops
import Verif.Props.Cfa
/-!
# Property C37 (and C33): the first pipeline stage is the cropped sensor area
-/

namespace Props
open Rust Spec Model

/-- The crops of an image fit, leaving `cw` by `ch` pixels. -/
structure CropsFit (img : RawImage) (top right bottom left cw ch : Nat) : Prop where
  crops : img.crops = [top, right, bottom, left]
  width : img.width = left + cw + right
  height : img.height = top + ch + bottom
  cw_pos : 0 < cw

/-- Index bound used for every cropped row. -/
theorem crop_index_lt {w h t b r l cw ch row col : Nat} (hw : w = l + cw + r) (hh : h = t + ch + b) (hrow : row < ch) (hcol : col < cw) :
    w * (row + t) + l + col < w * h := by
  have h1 : w * (row + t + 1) ≤ w * h := Nat.mul_le_mul_left w (by omega)
  rw [Nat.mul_add, Nat.mul_one] at h1
  omega

theorem convert_dims {b : Build} {img : RawImage} {t r bt l cw ch : Nat} (h : CropsFit img t r bt l cw ch) :
    convert b img = (if img.cpp == 1 && !img.cfa.isValid then
        convertLines img l t 4 1 monoPixel (OpBuffer.new (.zero false) cw ch 4)
      else if img.cpp == 3 then convertLines img l t 4 3 rgbPixel (OpBuffer.new (.zero false) cw ch 4)
      else convertLines img l t 1 1 plainPixel (OpBuffer.new (.zero false) cw ch img.cpp)) := by
  have hw := h.width
  have hh := h.height
  unfold convert
  rw [h.crops]
  simp only [idx, List.getElem?_cons_zero, List.getElem?_cons_succ, ok_bind]
  rw [subU_ok (by omega), ok_bind, subU_ok (by omega), ok_bind, subU_ok (by omega), ok_bind, subU_ok (by omega), ok_bind]
  rw [show img.width - r - l = cw by omega, show img.height - t - bt = ch by omega]

theorem drop_take_one {l : List Nat} {a c v : Nat} (h : l[a + c]? = some v) : ((l.drop a).drop (1 * c)).take 1 = [v] := by
  rw [Nat.one_mul, List.drop_drop]
  have hlt : a + c < l.length := by
    rw [List.getElem?_eq_some_iff] at h; exact h.1
  rw [List.drop_eq_getElem_cons hlt]
  rw [List.getElem?_eq_getElem hlt] at h
  simp only [Option.some.injEq] at h
  simp [h]

/-- A line converter on a cropped image. -/
theorem convertLines_eq {img : RawImage} {t r bt l cw ch ko ki : Nat} (h : CropsFit img t r bt l cw ch) (hko : 0 < ko)
    {f : List F32 → List Nat → M (List F32)} (g : Nat → Nat → Nat → F32)
    (hstart : ∀ row, row < ch → img.width * (row + t) + l ≤ img.data.length)
    (hf : ∀ row c, row < ch → c < cw → img.width * (row + t) + l + ki * c < img.data.length ∧ ∀ o, o.length = ko →
      f o (((img.data.drop (img.width * (row + t) + l)).drop (ki * c)).take ki) = .ok ((List.range ko).map (g row c))) :
    convertLines img l t ko ki f (OpBuffer.new (.zero false) cw ch ko) = .ok (ofPix cw ch ko g) := by
  unfold convertLines
  rw [new_eq_ofPix]
  apply mutateLines_ofPix h.cw_pos hko
  intro row hrow
  rw [sliceFrom_le (hstart row hrow), ok_bind]
  apply zipChunks_pix hko (pixLine_length _ _ _)
  intro c hc
  obtain ⟨h1, h2⟩ := hf row c hrow hc
  exact ⟨by rw [List.length_drop]; omega, h2⟩

/-- **C37, Bayer images.** Pixel `(row, col)` of the converted image is exactly the sensor sample at `(row + top, col + left)`. -/
theorem gofloat_bayer (b : Build) (img : RawImage) (top right bottom left cw ch : Nat)
    (hc : CropsFit img top right bottom left cw ch) (hcpp : img.cpp = 1) (hcfa : img.cfa.isValid = true)
    (hlen : img.data.length = img.width * img.height) :
    ∃ out, convert b img = .ok out ∧ out.wf ∧ out.width = cw ∧ out.height = ch ∧ out.colors = 1 ∧
      ∀ row col, row < ch → col < cw → ∃ v, img.data[img.width * (row + top) + (col + left)]? = some v ∧
        out.at? row col 0 = some (F32.ofNat v) := by
  let g : Nat → Nat → Nat → F32 := fun row c _ => F32.ofNat ((img.data[img.width * (row + top) + (c + left)]?).getD 0)
  have hin : ∀ row c, row < ch → c < cw → ∃ v, img.data[img.width * (row + top) + (c + left)]? = some v := by
    intro row c h1 h2
    have := crop_index_lt hc.width hc.height h1 h2
    exact ⟨_, List.getElem?_eq_getElem (by omega)⟩
  refine ⟨ofPix cw ch 1 g, ?_, ofPix_wf _ _ _ _, rfl, rfl, rfl, ?_⟩
  · rw [convert_dims hc, hcpp, hcfa]
    simp only [Bool.not_true, Bool.and_false, Bool.false_eq_true, if_false]
    rw [if_neg (by decide)]
    apply convertLines_eq hc (by decide)
    · intro row hrow
      have := crop_index_lt hc.width hc.height hrow hc.cw_pos
      omega
    · intro row c h1 h2
      have := crop_index_lt hc.width hc.height h1 h2
      refine ⟨by omega, fun o ho => ?_⟩
      obtain ⟨v, hv⟩ := hin row c h1 h2
      rw [drop_take_one (v := v) (by rw [← hv]; congr 1; omega)]
      obtain ⟨x, rfl⟩ := List.length_eq_one_iff.mp ho
      simp [plainPixel, idx, setIdx, g, hv, ok_bind]
  · intro row col h1 h2
    obtain ⟨v, hv⟩ := hin row col h1 h2
    refine ⟨v, hv, ?_⟩
    rw [ofPix_at h1 h2 (by decide)]
    simp only [g, hv, Option.getD_some]

/-- **C37, monochrome images.** The sample is copied to red, green and blue, the fourth channel is zero. -/
theorem gofloat_mono (b : Build) (img : RawImage) (top right bottom left cw ch : Nat)
    (hc : CropsFit img top right bottom left cw ch) (hcpp : img.cpp = 1) (hcfa : img.cfa.isValid = false)
    (hlen : img.data.length = img.width * img.height) :
    ∃ out, convert b img = .ok out ∧ out.wf ∧ out.width = cw ∧ out.height = ch ∧ out.colors = 4 ∧
      ∀ row col, row < ch → col < cw → ∃ v, img.data[img.width * (row + top) + (col + left)]? = some v ∧
        (∀ c, c < 3 → out.at? row col c = some (F32.ofNat v)) ∧ out.at? row col 3 = some (F32.ofNat 0) := by
  let g : Nat → Nat → Nat → F32 := fun row c k =>
    if k < 3 then F32.ofNat ((img.data[img.width * (row + top) + (c + left)]?).getD 0) else F32.zero false
  have hin : ∀ row c, row < ch → c < cw → ∃ v, img.data[img.width * (row + top) + (c + left)]? = some v := by
    intro row c h1 h2
    have := crop_index_lt hc.width hc.height h1 h2
    exact ⟨_, List.getElem?_eq_getElem (by omega)⟩
  refine ⟨ofPix cw ch 4 g, ?_, ofPix_wf _ _ _ _, rfl, rfl, rfl, ?_⟩
  · rw [convert_dims hc, hcpp, hcfa]
    simp only [Bool.not_false, Bool.and_true, beq_self_eq_true, if_true]
    apply convertLines_eq hc (by decide)
    · intro row hrow
      have := crop_index_lt hc.width hc.height hrow hc.cw_pos
      omega
    · intro row c h1 h2
      have := crop_index_lt hc.width hc.height h1 h2
      refine ⟨by omega, fun o ho => ?_⟩
      obtain ⟨v, hv⟩ := hin row c h1 h2
      rw [drop_take_one (v := v) (by rw [← hv]; congr 1; omega)]
      match o, ho with
      | [x0, x1, x2, x3], _ => simp [monoPixel, idx, setIdx, g, hv, ok_bind, List.range, List.range.loop]
  · intro row col h1 h2
    obtain ⟨v, hv⟩ := hin row col h1 h2
    refine ⟨v, hv, ?_, ?_⟩
    · intro c h3
      rw [ofPix_at h1 h2 (by omega)]
      simp only [g, hv, Option.getD_some, h3, if_true]
    · rw [ofPix_at h1 h2 (by omega), F32.ofNat_zero]
      rfl

theorem drop_take_three {l : List Nat} {a u v w : Nat} (h0 : l[a]? = some u) (h1 : l[a + 1]? = some v) (h2 : l[a + 2]? = some w) :
    (l.drop a).take 3 = [u, v, w] := by
  apply List.ext_getElem?
  intro i
  match i with
  | 0 => simp [h0]
  | 1 => simp [h1]
  | 2 => simp [h2]
  | n + 3 => simp

/-- **C37, RGB images, what the code does.** The starting offset of a row is not multiplied by the three components, so the
sample used for component `k` of pixel `(row, col)` is number `width*(row+top) + left + 3*col + k`. -/
theorem gofloat_rgb_actual (b : Build) (img : RawImage) (top right bottom left cw ch : Nat)
    (hc : CropsFit img top right bottom left cw ch) (hcpp : img.cpp = 3)
    (hlen : img.data.length = img.width * img.height * 3) :
    ∃ out, convert b img = .ok out ∧ out.wf ∧ out.width = cw ∧ out.height = ch ∧ out.colors = 4 ∧
      ∀ row col, row < ch → col < cw →
        (∀ k, k < 3 → ∃ v, img.data[img.width * (row + top) + left + 3 * col + k]? = some v ∧
          out.at? row col k = some (F32.ofNat v)) ∧ out.at? row col 3 = some (F32.ofNat 0) := by
  let g : Nat → Nat → Nat → F32 := fun row c k =>
    if k < 3 then F32.ofNat ((img.data[img.width * (row + top) + left + 3 * c + k]?).getD 0) else F32.zero false
  have hlt : ∀ row c, row < ch → c < cw → img.width * (row + top) + left + 3 * c + 2 < img.data.length := by
    intro row c h1 h2
    have := crop_index_lt hc.width hc.height h1 h2
    rw [hlen]
    omega
  have hin : ∀ row c k, row < ch → c < cw → k < 3 → ∃ v, img.data[img.width * (row + top) + left + 3 * c + k]? = some v := by
    intro row c k h1 h2 h3
    have := hlt row c h1 h2
    exact ⟨_, List.getElem?_eq_getElem (by omega)⟩
  refine ⟨ofPix cw ch 4 g, ?_, ofPix_wf _ _ _ _, rfl, rfl, rfl, ?_⟩
  · rw [convert_dims hc, hcpp]
    rw [if_neg (by simp), if_pos (by decide)]
    apply convertLines_eq hc (by decide)
    · intro row hrow
      have := hlt row 0 hrow hc.cw_pos
      omega
    · intro row c h1 h2
      have := hlt row c h1 h2
      refine ⟨by omega, fun o ho => ?_⟩
      obtain ⟨v0, hv0⟩ := hin row c 0 h1 h2 (by decide)
      obtain ⟨v1, hv1⟩ := hin row c 1 h1 h2 (by decide)
      obtain ⟨v2, hv2⟩ := hin row c 2 h1 h2 (by decide)
      rw [Nat.add_zero] at hv0
      rw [List.drop_drop, drop_take_three hv0 hv1 hv2]
      match o, ho with
      | [x0, x1, x2, x3], _ =>
        simp [rgbPixel, idx, setIdx, g, hv0, hv1, hv2, ok_bind, List.range, List.range.loop]
  · intro row col h1 h2
    refine ⟨fun k h3 => ?_, ?_⟩
    · obtain ⟨v, hv⟩ := hin row col k h1 h2 h3
      refine ⟨v, hv, ?_⟩
      rw [ofPix_at h1 h2 (by omega)]
      simp only [g, hv, Option.getD_some, h3, if_true]
    · rw [ofPix_at h1 h2 (by omega), F32.ofNat_zero]
      rfl

/-- **C37, RGB images, the part that holds.** The first row of an image whose crops leave the top and left alone is right. For
all other rows `gofloat_rgb_actual` shows a different sample is used; `gofloat_rgb_wrong` is a concrete case. -/
theorem gofloat_rgb_partial (b : Build) (img : RawImage) (right bottom cw ch : Nat)
    (hc : CropsFit img 0 right bottom 0 cw ch) (hcpp : img.cpp = 3)
    (hlen : img.data.length = img.width * img.height * 3) (hch : 0 < ch) :
    ∃ out, convert b img = .ok out ∧ ∀ col k, col < cw → k < 3 →
      ∃ v, img.data[(img.width * (0 + 0) + (col + 0)) * 3 + k]? = some v ∧ out.at? 0 col k = some (F32.ofNat v) := by
  obtain ⟨out, h1, _, _, _, _, h2⟩ := gofloat_rgb_actual b img 0 right bottom 0 cw ch hc hcpp hlen
  refine ⟨out, h1, fun col k hcol hk => ?_⟩
  obtain ⟨v, e1, e2⟩ := (h2 0 col hch hcol).1 k hk
  refine ⟨v, ?_, e2⟩
  rw [← e1]; congr 1; omega

/-- A 1 by 2 RGB image without crops. -/
def rgbTwoRows : RawImage where
  width := 1
  height := 2
  cpp := 3
  wbCoeffs := []
  whitelevels := []
  blacklevels := []
  xyzToCam := []
  cfa := ⟨[], 0, 0, []⟩
  crops := [0, 0, 0, 0]
  orientation := .normal
  data := [10, 20, 30, 40, 50, 60]

/-- The second pixel of the image is (40, 50, 60); the pipeline continues with (20, 30, 40). -/
theorem gofloat_rgb_wrong : convert .release rgbTwoRows = .ok ⟨1, 2, 4,
    [.fin 10, .fin 20, .fin 30, .zero false, .fin 20, .fin 30, .fin 40, .zero false]⟩ := by
  decide +kernel

/-- The conversion of a sample to `f32` is exact. -/
theorem sample_exact (v : Nat) (hv : v < 65536) : (F32.ofNat v).val? = some (v : ℚ) := by
  rcases Nat.eq_zero_or_pos v with h | h
  · subst h; rw [F32.ofNat_zero]; simp [F32.val?]
  · rw [F32.ofNat_pos h (by omega)]; rfl

/-- **C33.** Each pixel of the cropped image has, in the cropped pattern, the colour its sample has in the sensor pattern. -/
theorem cropped_pixels_keep_colour (b : Build) (img : RawImage) (hs : Reachable b img.cfa) (top right bottom left cw ch : Nat)
    (hc : CropsFit img top right bottom left cw ch) (hcpp : img.cpp = 1) (hcfa : img.cfa.isValid = true)
    (hlen : img.data.length = img.width * img.height) (ht : img.width + 96 < 2 ^ 64) (hl : img.height + 96 < 2 ^ 64) :
    ∃ out cfa, convert b img = .ok out ∧ img.croppedCfa b = .ok cfa ∧
      ∀ row col, row < ch → col < cw → cfa.colorAt b row col = img.cfa.colorAt b (row + top) (col + left) ∧
        ∃ v, img.data[img.width * (row + top) + (col + left)]? = some v ∧ out.at? row col 0 = some (F32.ofNat v) := by
  obtain ⟨out, h1, _, _, _, _, h2⟩ := gofloat_bayer b img top right bottom left cw ch hc hcpp hcfa hlen
  have hw := hc.width
  have hh := hc.height
  obtain ⟨cfa, h3, h4⟩ := cropped_cfa_aligned b img.cfa hs top right bottom left (by omega) (by omega)
  refine ⟨out, cfa, h1, ?_, fun row col hr hcol => ⟨h4 row col (by omega) (by omega), h2 row col hr hcol⟩⟩
  unfold RawImage.croppedCfa
  rw [hc.crops]; exact h3

end Props

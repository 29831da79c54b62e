import Verif.Lemmas.Demosaic
import Verif.Props.Gofloat
/-!
# Property C38: full size demosaic
-/

namespace Props
open Rust Spec Model

theorem patternColour_lt {name : Bytes} {w h r c k : Nat} (hk : patternColour name w h r c = some k) : k < 4 := by
  unfold patternColour at hk
  rw [Option.bind_eq_some_iff] at hk
  obtain ⟨x, _, hx⟩ := hk
  unfold letterColour at hx
  split at hx
  · cases hx; decide
  · split at hx
    · cases hx; decide
    · split at hx
      · cases hx; decide
      · split at hx
        · cases hx; decide
        · exact absurd hx (by simp)

/-- `full` on the image of a sensor. -/
theorem full_sensorBuf {b : Build} {img : RawImage} {cfa : CFA} {w h : Nat} {K S : Nat → Nat → Nat} (hw : 0 < w)
    (hcrop : img.croppedCfa b = .ok cfa) (hK : ∀ r c, r < h → c < w → cfa.colorAt b r c = .ok (K r c)) (hK4 : ∀ r c, K r c < 4)
    (hS : ∀ r c, r < h → c < w → S r c < 65536) :
    full b img (sensorBuf w h S) = .ok (ofPix w h 4 (filled w h K S)) := by
  unfold full
  rw [hcrop, ok_bind]
  show ((OpBuffer.new (F32.zero false) w h 4).mutateLines _ >>= _) = _
  rw [new_eq_ofPix, mutateLines_ofPix hw (by decide) (q := measured K S) (fun r hr => fullMeasured_eq hK hK4 hr hw), ok_bind]
  apply mutateLines_ofPix hw (by decide)
  intro r hr
  obtain ⟨l, h1, h2⟩ := forRange_inv (P := fun col l => l = pixLine w 4 (fun c k => if c < col then filled w h K S r c k else measured K S r c k))
    (f := fun col line => fullPixel b cfa (sensorBuf w h S) r col line) (s := pixLine w 4 (measured K S r)) (Nat.zero_le w)
    (by simp) (by
      intro col l _ hcol hl
      subst hl
      exact ⟨_, fullPixel_eq hK hK4 hS hr hcol, rfl⟩)
  show forRange 0 w _ _ = _
  rw [h1, h2]
  congr 1
  apply pixLine_congr
  intro c k hc _
  rw [if_pos hc]

/-- **C38.** For every sensor pattern, every image with samples of 16 bits and every crop that leaves at least one column: the
full size demosaic succeeds, and each pixel has the measured sample in the channel of its own colour, in every other channel the
single precision number nearest to the exact mean of the samples of that colour among its neighbours (inside the cropped area), or
zero if no neighbour measures that colour. -/
theorem demosaic_full (b : Build) (img : RawImage) (name : Bytes) (top right bottom left cw ch : Nat) (K S : Nat → Nat → Nat)
    (hc : CropsFit img top right bottom left cw ch) (hcpp : img.cpp = 1) (hcfa : CFA.new name = .ok img.cfa) (hname : name ≠ [])
    (hlen : img.data.length = img.width * img.height) (ht : img.width + 96 < 2 ^ 64) (hl : img.height + 96 < 2 ^ 64)
    (hK : ∀ r c, patternColour name img.cfa.width img.cfa.height (r + top) (c + left) = some (K r c))
    (hS : ∀ r c, r < ch → c < cw → img.data[img.width * (r + top) + (c + left)]? = some (S r c))
    (h16 : ∀ v ∈ img.data, v < 65536) :
    ∃ out, (convert b img >>= fun buf => full b img buf) = .ok out ∧ out.width = cw ∧ out.height = ch ∧ out.colors = 4 ∧ out.wf ∧
      ∀ r c, r < ch → c < cw →
        out.at? r c (K r c) = some (F32.ofNat (S r c)) ∧
        ∀ k, k < 4 → k ≠ K r c →
          (0 < (measuring ch cw K r c k).card → out.at? r c k = some (F32.ofRat (meanAt (measuring ch cw K r c k) S))) ∧
          ((measuring ch cw K r c k).card = 0 → out.at? r c k = some (F32.ofNat 0)) := by
  have hw := hc.width
  have hh := hc.height
  have hvalid : img.cfa.isValid = true := by
    obtain ⟨v, _, _, h3⟩ := cfa_matches_name b name img.cfa hcfa hname 0 0 (by decide) (by decide)
    unfold CFA.isValid
    have hp : ∀ n w h, patternSize n = some (w, h) → n ≠ 0 → w ≠ 0 ∧ h ≠ 0 := by
      intro n w h hs hn
      unfold patternSize at hs
      split at hs
      · exact absurd rfl hn
      all_goals first
        | (simp only [Option.some.injEq, Prod.mk.injEq] at hs; omega)
        | exact absurd hs (by simp)
    have := hp _ _ _ h3 (by intro h0; exact hname (List.eq_nil_of_length_eq_zero h0))
    simp [this.1, this.2]
  have hs : Reachable b img.cfa := .new hcfa
  obtain ⟨out, h1, hwf, how, hoh, hoc, h2⟩ := gofloat_bayer b img top right bottom left cw ch hc hcpp hvalid hlen
  obtain ⟨cfa, h3, h4⟩ := cropped_cfa_aligned b img.cfa hs top right bottom left (by omega) (by omega)
  have hout : out = sensorBuf cw ch S := by
    have he := wf_eq_ofPix (F32.zero false) out hwf
    rw [how, hoh, hoc] at he
    rw [he]
    apply ofPix_congr
    intro r c k hr hcc hk
    obtain ⟨v, e1, e2⟩ := h2 r c hr hcc
    have : k = 0 := by omega
    subst this
    rw [e2, Option.getD_some]
    rw [hS r c hr hcc] at e1
    cases e1; rfl
  have hKc : ∀ r c, r < ch → c < cw → cfa.colorAt b r c = .ok (K r c) := by
    intro r c hr hcc
    rw [h4 r c (by omega) (by omega)]
    obtain ⟨v, e1, e2, _⟩ := cfa_matches_name b name img.cfa hcfa hname (r + top) (c + left) (by omega) (by omega)
    rw [hK r c] at e2
    cases e2; exact e1
  have hK4 : ∀ r c, K r c < 4 := fun r c => patternColour_lt (hK r c)
  have hS16 : ∀ r c, r < ch → c < cw → S r c < 65536 := fun r c hr hcc => h16 _ (List.mem_of_getElem? (hS r c hr hcc))
  have hcrop : img.croppedCfa b = .ok cfa := by unfold RawImage.croppedCfa; rw [hc.crops]; exact h3
  refine ⟨ofPix cw ch 4 (filled cw ch K S), ?_, rfl, rfl, rfl, ofPix_wf _ _ _ _, ?_⟩
  · rw [h1, ok_bind, hout]
    exact full_sensorBuf hc.cw_pos hcrop hKc hK4 hS16
  · intro r c hr hcc
    refine ⟨?_, ?_⟩
    · rw [ofPix_at hr hcc (hK4 r c)]
      unfold filled; rw [if_pos rfl]
    · intro k hk hkc
      rw [ofPix_at hr hcc hk]
      unfold filled
      rw [if_neg hkc]
      refine ⟨fun h0 => by rw [if_pos h0], fun h0 => by rw [h0, if_neg (by decide), F32.ofNat_zero]⟩

/-- The RGGB pattern on a 2 by 2 image with samples 10, 21, 34, 40: the green value of the red pixel is the mean of 21 and 34. -/
def smallColour (r c : Nat) : Nat := if r % 2 = 0 then (if c % 2 = 0 then 0 else 1) else (if c % 2 = 0 then 1 else 2)
def smallSample (r c : Nat) : Nat := if r = 0 then (if c = 0 then 10 else 21) else (if c = 0 then 34 else 40)

example : ∀ r < 4, ∀ c < 4, patternColour rggb 2 2 r c = some (smallColour r c) := by decide
example : (measuring 2 2 smallColour 0 0 1).card = 2 ∧ (measuring 2 2 smallColour 0 0 3).card = 0 := by decide
example : F32.ofRat (meanAt (measuring 2 2 smallColour 0 0 1) smallSample) = .fin (55 / 2) := by
  have : meanAt (measuring 2 2 smallColour 0 0 1) smallSample = 55 / 2 := by
    unfold meanAt
    rw [show (measuring 2 2 smallColour 0 0 1).card = 2 by decide,
      show ∑ p ∈ measuring 2 2 smallColour 0 0 1, smallSample p.1 p.2 = 55 by decide]
    norm_num
  rw [this]
  decide +kernel

/-- What "nearest" means for the conversion used above: no number with 24 significant bits is nearer to the exact value. -/
theorem ofRat_nearest (q : ℚ) (r : ℚ) (h : F32.ofRat q = .fin r) : Repr32 r ∧ ∀ v, Repr32 v → |r - q| ≤ |v - q| := by
  unfold F32.ofRat F32.round at h
  split at h
  · cases h
  · split at h
    · cases h
    · split at h
      · cases h
      · cases h
        exact ⟨roundQ_repr q, fun v hv => roundQ_nearest q v hv⟩

end Props

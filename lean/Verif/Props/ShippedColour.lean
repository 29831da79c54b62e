import Verif.Props.ShippedCameras
import Verif.Lemmas.Level
/-!
# C88: the colours of the cameras in the database that comes with the program
-/

namespace Props
open Model Rust Spec Shipped TomlText

/-- The picture has the matrix of a camera with elements `m`. -/
def HasMatrix (img : RawImage) (m : Nat → Nat → ℚ) : Prop :=
  ∀ i j, i < 4 → j < 3 → ∃ row x, img.xyzToCam[i]? = some row ∧ row[j]? = some x ∧ x.val? = some (m i j)

theorem shipped_accurate {db : Toml} (h : IsShipped db) {s : RawLoader} (hs : RawLoader.new db = .ok s) {make model mode : Bytes} {cam : Camera}
    (hl : s.checkSupportedWithEverything make model mode = .ok cam) {img : RawImage} (hi : img.xyzToCam = cam.xyzToCam) :
    ∃ c : List Int, Fast.accurate c = true ∧ HasMatrix img (Fast.camera c) ∧ ∀ i j, i < 4 → j < 3 → img.xyzToCamMat i j = F32.ofRat ((c.getD (3 * i + j) 0 : Int) : ℚ) := by
  obtain ⟨t, v, hc, hv, hk, hd⟩ := shipped_variant h hs hl
  have hg := hc.matrices v hv
  unfold goodEntries at hg
  simp only [Bool.and_eq_true, List.all_eq_true] at hg
  have hget : ∀ i j, i < 4 → j < 3 → (entries v).getD (3 * i + j) 0 = intOf (v.item (b! "color_matrix") (3 * i + j)) := by
    intro i j hi hj
    unfold entries
    rw [List.getD_eq_getElem?_getD, List.getElem?_map, List.getElem?_range (by omega)]
    rfl
  refine ⟨entries v, hg.2, fun i j hi' hj => ?_, fun i j hi' hj => ?_⟩
  · have hx := hd.xyzToCam i j hi' hj
    obtain ⟨row, h1, h2⟩ := Option.bind_eq_some_iff.mp hx
    refine ⟨row, _, by rw [hi]; exact h1, h2, ?_⟩
    rw [Fast.camera, hget i j hi' hj]
    exact exact_value (hg.1.1 _ (List.mem_map.mpr ⟨3 * i + j, List.mem_range.mpr (by omega), rfl⟩))
  · have hx := hd.xyzToCam i j hi' hj
    obtain ⟨row, h1, h2⟩ := Option.bind_eq_some_iff.mp hx
    rw [hget i j hi' hj, RawImage.xyzToCamMat, List.getD_eq_getElem?_getD, List.getD_eq_getElem?_getD, hi, h1, Option.getD_some, h2, Option.getD_some]

/-- **C88**. The matrix computed in single precision for a camera in the database is finite, and multiplied with the balanced readings of
any colour it gives the colour relative to the reference white: in each coordinate within two millionths of the largest coordinate. -/
theorem shipped_colours {db : Toml} (h : IsShipped db) {s : RawLoader} (hs : RawLoader.new db = .ok s) {make model mode : Bytes} {cam : Camera}
    (hl : s.checkSupportedWithEverything make model mode = .ok cam) {img : RawImage} (hi : img.xyzToCam = cam.xyzToCam) :
    ∃ c m : Nat → Nat → ℚ, HasMatrix img c ∧ (∀ r i, r < 3 → i < 4 → (img.camToXyzMat r i).val? = some (m r i)) ∧
      ∀ (x : Nat → ℚ) (bound : ℚ), (∀ k, k < 3 → |x k| ≤ bound) → ∀ r, r < 3 →
        |m r 0 * reading c x 0 + m r 1 * reading c x 1 + m r 2 * reading c x 2 + m r 3 * reading c x 3 - x r / referenceWhite r| ≤ 2 / 1000000 * bound := by
  obtain ⟨c, h1, h2, h3⟩ := shipped_accurate h hs hl hi
  obtain ⟨⟨m, h4, -, h5⟩, -⟩ := Fast.accurate_ok h1 h3
  exact ⟨_, m, h2, h4, h5⟩

/-- **C88**. The neutral balance of a camera in the database: every channel answers to white, or the camera does not have it; and the factor
for every channel it has brings its answer to that of the second channel, within one millionth. -/
theorem shipped_neutral {db : Toml} (h : IsShipped db) {s : RawLoader} (hs : RawLoader.new db = .ok s) {make model mode : Bytes} {cam : Camera}
    (hl : s.checkSupportedWithEverything make model mode = .ok cam) {img : RawImage} (hi : img.xyzToCam = cam.xyzToCam) :
    ∃ c : Nat → Nat → ℚ, HasMatrix img c ∧ ∀ i, i < 4 → (∀ k, k < 3 → c i k = 0) ∨ 0 < response c whiteXyz i ∧ ∃ f w,
      img.neutralwb[i]? = some f ∧ f.val? = some w ∧ |w * response c whiteXyz i - response c whiteXyz 1| ≤ 1 / 1000000 * response c whiteXyz 1 := by
  obtain ⟨c, h1, h2, h3⟩ := shipped_accurate h hs hl hi
  obtain ⟨-, h4⟩ := Fast.accurate_ok h1 h3
  refine ⟨_, h2, fun i hi => ?_⟩
  rcases h4 i hi with h4 | ⟨h4, w, h5, h6⟩
  · exact .inl h4
  · refine .inr ⟨h4, _, w, ?_, h5, h6⟩
    unfold RawImage.neutralwb
    interval_cases i <;> rfl

/-- The matrix has small elements, and zeros for a channel the camera does not have. -/
theorem shipped_inverse {db : Toml} (h : IsShipped db) {s : RawLoader} (hs : RawLoader.new db = .ok s) {make model mode : Bytes} {cam : Camera}
    (hl : s.checkSupportedWithEverything make model mode = .ok cam) {img : RawImage} (hi : img.xyzToCam = cam.xyzToCam) :
    ∃ c m : Nat → Nat → ℚ, HasMatrix img c ∧ (∀ r i, r < 3 → i < 4 → (img.camToXyzMat r i).val? = some (m r i)) ∧
      (∀ r i, r < 3 → i < 4 → |m r i| ≤ 3 ∧ ((∀ k, k < 3 → c i k = 0) → m r i = 0)) ∧
      (∀ (x : Nat → ℚ) (bound : ℚ), (∀ k, k < 3 → |x k| ≤ bound) → ∀ r, r < 3 →
        |m r 0 * reading c x 0 + m r 1 * reading c x 1 + m r 2 * reading c x 2 + m r 3 * reading c x 3 - x r / referenceWhite r| ≤ 2 / 1000000 * bound) ∧
      ∀ one : Nat → ℚ, (∀ i, i < 4 → (∀ k, k < 3 → c i k = 0) → one i = 0) → (∀ i, i < 4 → ¬ (∀ k, k < 3 → c i k = 0) → one i = 1) → ∀ r, r < 3 →
        |m r 0 * one 0 + m r 1 * one 1 + m r 2 * one 2 + m r 3 * one 3 - whiteXyz r / referenceWhite r| ≤ 22 / 10000000 := by
  obtain ⟨c, h1, h2, h3⟩ := shipped_accurate h hs hl hi
  obtain ⟨⟨m, h4, h7, h5⟩, h6⟩ := Fast.accurate_ok h1 h3
  refine ⟨_, m, h2, h4, h7, h5, fun one hz ho r hr => ?_⟩
  have hone : ∀ i, i < 4 → one i = reading (Fast.camera c) whiteXyz i := by
    intro i hi
    rcases h6 i hi with h6 | ⟨h6, -⟩
    · rw [hz i hi h6, reading, response, h6 0 (by decide), h6 1 (by decide), h6 2 (by decide)]
      simp
    · rw [ho i hi, reading, div_self (ne_of_gt h6)]
      intro h0
      rw [response, h0 0 (by decide), h0 1 (by decide), h0 2 (by decide)] at h6
      simp at h6
  rw [hone 0 (by decide), hone 1 (by decide), hone 2 (by decide), hone 3 (by decide)]
  refine le_trans (h5 whiteXyz (11 / 10) (fun k hk => ?_) r hr) (by norm_num)
  interval_cases k <;> norm_num [whiteXyz, abs_of_pos]

/-- **C88**. White: readings all 1 in the channels the camera has give the white of sRGB relative to the reference white. -/
theorem shipped_white {db : Toml} (h : IsShipped db) {s : RawLoader} (hs : RawLoader.new db = .ok s) {make model mode : Bytes} {cam : Camera}
    (hl : s.checkSupportedWithEverything make model mode = .ok cam) {img : RawImage} (hi : img.xyzToCam = cam.xyzToCam) :
    ∃ c m : Nat → Nat → ℚ, HasMatrix img c ∧ (∀ r i, r < 3 → i < 4 → (img.camToXyzMat r i).val? = some (m r i)) ∧
      ∀ one : Nat → ℚ, (∀ i, i < 4 → (∀ k, k < 3 → c i k = 0) → one i = 0) → (∀ i, i < 4 → ¬ (∀ k, k < 3 → c i k = 0) → one i = 1) → ∀ r, r < 3 →
        |m r 0 * one 0 + m r 1 * one 1 + m r 2 * one 2 + m r 3 * one 3 - whiteXyz r / referenceWhite r| ≤ 22 / 10000000 := by
  obtain ⟨c, m, h1, h2, -, -, h3⟩ := shipped_inverse h hs hl hi
  exact ⟨c, m, h1, h2, h3⟩

/-- **C88**. The product as the program computes it, in single precision too: for any pixel with values from -1 to 1 that lie within `δ` of the balanced
readings of a colour, in the channels the camera has. A channel it does not have may hold anything. -/
theorem shipped_pixel {db : Toml} (h : IsShipped db) {s : RawLoader} (hs : RawLoader.new db = .ok s) {make model mode : Bytes} {cam : Camera}
    (hl : s.checkSupportedWithEverything make model mode = .ok cam) {img : RawImage} (hi : img.xyzToCam = cam.xyzToCam) :
    ∃ c : Nat → Nat → ℚ, HasMatrix img c ∧ ∀ (x p : Nat → ℚ) (bound δ : ℚ) (v0 v1 v2 v3 : F32), (∀ k, k < 3 → |x k| ≤ bound) →
      v0.val? = some (p 0) → v1.val? = some (p 1) → v2.val? = some (p 2) → v3.val? = some (p 3) →
      (∀ i, i < 4 → ¬ (∀ k, k < 3 → c i k = 0) → |p i| ≤ 1 ∧ |p i - reading c x i| ≤ δ) → ∀ r, r < 3 →
      ∃ v, (dot4 img.camToXyzMat r v0 v1 v2 v3).val? = some v ∧ |v - x r / referenceWhite r| ≤ 2 / 1000000 * bound + 12 * δ + 24 / 10000000 := by
  obtain ⟨c, m, h1, h2, h3, h4, -⟩ := shipped_inverse h hs hl hi
  refine ⟨c, h1, fun x p bound δ v0 v1 v2 v3 hx e0 e1 e2 e3 hp r hr => ?_⟩
  obtain ⟨v, hv, he⟩ := dot4_error (M := img.camToXyzMat) (i := r) (m := m r) (p := p) (fun k hk => h2 r k hr hk) e0 e1 e2 e3 (fun k hk => by
    obtain ⟨u1, u2⟩ := h3 r k hr hk
    by_cases hz : ∀ j, j < 3 → c k j = 0
    · rw [u2 hz, mul_zero, abs_zero]; norm_num
    · rw [abs_mul]
      have := (hp k hk hz).1
      nlinarith [abs_nonneg (p k), abs_nonneg (m r k)])
  refine ⟨v, hv.1, ?_⟩
  have hδ : ∀ k, k < 4 → |m r k * p k - m r k * reading c x k| ≤ 3 * max δ 0 := by
    intro k hk
    obtain ⟨u1, u2⟩ := h3 r k hr hk
    by_cases hz : ∀ j, j < 3 → c k j = 0
    · rw [u2 hz, zero_mul, zero_mul, sub_zero, abs_zero]; positivity
    · rw [← mul_sub, abs_mul]
      exact mul_le_mul u1 (le_trans (hp k hk hz).2 (le_max_left _ _)) (abs_nonneg _) (by norm_num)
  have hmax : max δ 0 = δ := by
    apply max_eq_left
    by_contra hneg
    -- some channel is there, otherwise the matrix would be zero and white lost
    have hall : ∀ k, k < 4 → ∀ j, j < 3 → c k j = 0 := by
      intro k hk
      by_contra hz
      have := (hp k hk hz).2
      linarith [abs_nonneg (p k - reading c x k), not_le.mp hneg]
    have := h4 (fun _ => 1) 1 (fun _ _ => by norm_num) 1 (by decide)
    rw [(h3 1 0 (by decide) (by decide)).2 (hall 0 (by decide)), (h3 1 1 (by decide) (by decide)).2 (hall 1 (by decide)),
      (h3 1 2 (by decide) (by decide)).2 (hall 2 (by decide)), (h3 1 3 (by decide) (by decide)).2 (hall 3 (by decide))] at this
    norm_num [referenceWhite] at this
  rw [hmax] at hδ
  have d0 := abs_le.mp (hδ 0 (by decide))
  have d1 := abs_le.mp (hδ 1 (by decide))
  have d2 := abs_le.mp (hδ 2 (by decide))
  have d3 := abs_le.mp (hδ 3 (by decide))
  have f := abs_le.mp (h4 x bound hx r hr)
  have g := abs_le.mp he
  exact abs_le.mpr ⟨by linarith, by linarith⟩

/-- The pictures of the theorems on whole files have the matrix of their camera. -/
example (cam : Camera) (o : Orientation) (w h : Nat) (wb : List F32) (blacks data : List Nat) : (pictureOf cam o w h wb blacks data).xyzToCam = cam.xyzToCam := rfl

/-- The Arri Alexa is found, and a grey of 18 percent comes out as 18 percent. -/
example {db : Toml} (h : IsShipped db) {s : RawLoader} (hs : RawLoader.new db = .ok s) :
    ∃ cam, s.checkSupportedWithEverything (b! "ARRI") (b! "ALEXA") [] = .ok cam ∧ ∀ img : RawImage, img.xyzToCam = cam.xyzToCam →
      ∃ c m : Nat → Nat → ℚ, HasMatrix img c ∧ (∀ i, i < 4 → (img.camToXyzMat 1 i).val? = some (m 1 i)) ∧
        |m 1 0 * reading c (fun k => 18 / 100 * whiteXyz k) 0 + m 1 1 * reading c (fun k => 18 / 100 * whiteXyz k) 1 +
          m 1 2 * reading c (fun k => 18 / 100 * whiteXyz k) 2 + m 1 3 * reading c (fun k => 18 / 100 * whiteXyz k) 3 - 18 / 100| ≤ 4 / 10000000 := by
  have hf : Model.Shipped.arri[0] ∈ Model.Shipped.files := by
    have := List.getElem_mem (l := Model.Shipped.arri) (n := 0) (by decide)
    unfold Model.Shipped.files
    simp only [List.mem_append]
    tauto
  have hc : (readFile Model.Shipped.arri[0]).map (fun t => (variantsIn t).map Variant.key) = some [(b! "ARRI", b! "ALEXA", [])] := by decide +kernel
  obtain ⟨t, ht, hc⟩ := Option.map_eq_some_iff.mp hc
  have : (b! "ARRI", b! "ALEXA", []) ∈ (variantsIn t).map Variant.key := by rw [hc]; simp
  obtain ⟨v, hv, e⟩ := List.mem_map.mp this
  obtain ⟨cam, h1, -⟩ := shipped_found h hs hf ht hv
  unfold Variant.key at e
  rw [Prod.mk.injEq, Prod.mk.injEq] at e
  rw [e.1, e.2.1, e.2.2] at h1
  refine ⟨cam, h1, fun img hi => ?_⟩
  obtain ⟨c, m, h2, h3, h4⟩ := shipped_colours h hs h1 hi
  refine ⟨c, m, h2, fun i hi => h3 1 i (by decide) hi, ?_⟩
  have := h4 (fun k => 18 / 100 * whiteXyz k) (2 / 10) (fun k hk => ?_) 1 (by decide)
  · rw [show (fun k => 18 / 100 * whiteXyz k) 1 / referenceWhite 1 = (18 : ℚ) / 100 by norm_num [whiteXyz, referenceWhite]] at this
    exact le_trans this (by norm_num)
  · interval_cases k <;> norm_num [whiteXyz, abs_of_pos]

end Props

import Verif.Props.MonoClip
/-!
# C101: the fourth channel of cameras with three colours
-/

namespace Props
open Model Rust Spec F32

/-! ## Zeros of either sign -/

/-- The same, or zeros of different sign. -/
def SameButZero (x y : F32) : Prop := x = y ∨ ∃ s t, x = .zero s ∧ y = .zero t

theorem add_zeros (x : F32) (s t : Bool) : SameButZero (x.add (.zero s)) (x.add (.zero t)) := by
  cases x with
  | nan => exact .inl rfl
  | inf u => exact .inl rfl
  | zero u => exact .inr ⟨_, _, rfl, rfl⟩
  | fin q => exact .inl rfl

/-- A channel with a zero column of the matrix does not count, if it is a number. -/
theorem dot4_dead {M : Mat F32} {i : Nat} (hM : (M i 3).val? = some 0) {e e' : F32} {u u' : ℚ} (he : e.val? = some u) (he' : e'.val? = some u') (r g b : F32) :
    SameButZero (dot4 M i r g b e) (dot4 M i r g b e') := by
  obtain ⟨s, h1⟩ := zero_mul_number he hM (mul_zero u)
  obtain ⟨t, h2⟩ := zero_mul_number he' hM (mul_zero u')
  unfold dot4
  rw [h1, h2]
  exact add_zeros _ _ _

theorem xyzToLab_zeros (m : Libm) {x x' y y' z z' : F32} (hx : SameButZero x x') (hy : SameButZero y y') (hz : SameButZero z z') :
    xyzToLab m x y z = xyzToLab m x' y' z' := by
  have key : ∀ {v v' w : F32}, (∀ s, (F32.zero s).div w = .zero s) → SameButZero v v' → labf m (v.div w) = labf m (v'.div w) := by
    intro v v' w hw h
    rcases h with rfl | ⟨s, t, rfl, rfl⟩
    · rfl
    · rw [hw, hw, labf_zero, labf_zero]
  unfold xyzToLab
  dsimp only
  rw [key (fun s => by cases s <;> decide +kernel) hy, key (fun s => by cases s <;> decide +kernel) hx, key (fun s => by cases s <;> decide +kernel) hz]

/-! ## The picture -/

/-- The picture with another coefficient and other levels for the fourth channel. -/
def otherFourth (img : RawImage) (coeff : F32) (white black : Nat) : RawImage :=
  { img with
    wbCoeffs := img.wbCoeffs.set 3 coeff
    whitelevels := img.whitelevels.set 3 white
    blacklevels := img.blacklevels.set 3 black }

theorem fourth_mul {img : RawImage} {coeff : F32} {white black : Nat} (ha : ArraysOk img) {mul mul' : List F32} (h : (balanceCoeffs img >>= balanceMul) = .ok mul)
    (h' : (balanceCoeffs (otherFourth img coeff white black) >>= balanceMul) = .ok mul') {k : Nat} (hk : k < 3) :
    mul'.getD k (.zero false) = mul.getD k (.zero false) := by
  obtain ⟨a, b, c, d, hw⟩ := list4 ha.wb
  have hw' : (otherFourth img coeff white black).wbCoeffs = [a, b, c, coeff] := by
    show img.wbCoeffs.set 3 coeff = _
    rw [hw]
    rfl
  have hmono : (otherFourth img coeff white black).isMonochrome = img.isMonochrome := rfl
  have hneutral : (otherFourth img coeff white black).neutralwb = img.neutralwb := rfl
  unfold balanceCoeffs at h h'
  rw [hmono, hneutral, hw'] at h'
  rw [hw] at h
  simp only [idx, List.getElem?_cons_zero, List.getElem?_cons_succ, ok_bind] at h h'
  split at h
  · rename_i hm
    rw [if_pos hm, h] at h'
    injection h' with h'
    rw [h']
  · rename_i hm
    rw [if_neg hm] at h'
    split at h
    · rename_i hn
      rw [if_pos hn, h] at h'
      injection h' with h'
      rw [h']
    · rename_i hn
      rw [if_neg hn] at h'
      rw [ok_bind] at h h'
      unfold balanceMul at h h'
      simp only [idx, List.getElem?_cons_zero, List.getElem?_cons_succ, ok_bind, List.map_cons, List.map_nil] at h h'
      injection h with h
      injection h' with h'
      rw [← h, ← h']
      interval_cases k <;> rfl

/-- **C101.** For a camera of the database with three colours, the fourth balance coefficient and the fourth levels change no output at full size. -/
theorem fourth_ignored {db : Toml} (h : IsShipped db) {s : RawLoader} (hs : RawLoader.new db = .ok s) {make model mode : Bytes} {cam : Camera}
    (hl : s.checkSupportedWithEverything make model mode = .ok cam) {img : RawImage} (hi : img.xyzToCam = cam.xyzToCam) (h3 : ¬ Measures img 3)
    (m : Libm) (b : Build) {name : Bytes} {top right bottom left cw ch : Nat} {K S : Nat → Nat → Nat} (hpic : MosaicPicture img name top right bottom left cw ch K S)
    (ha : ArraysOk img) {coeff : F32} {white black : Nat} (hlev : LevelsOk img) (hlev' : LevelsOk (otherFourth img coeff white black))
    (hwb : SaneBalance img) (hwb' : SaneBalance (otherFourth img coeff white black)) :
    toLinearRgb m b (otherFourth img coeff white black) 0 0 = toLinearRgb m b img 0 0 ∧
      toRgb m b (otherFourth img coeff white black) 0 0 = toRgb m b img 0 0 ∧
      toSrgb m b (otherFourth img coeff white black) 0 0 = toSrgb m b img 0 0 := by
  have hcw := hpic.crops.cw_pos
  have ha' : ArraysOk (otherFourth img coeff white black) :=
    ⟨by simp [otherFourth, ha.wb], by simp [otherFourth, ha.white], by simp [otherFourth, ha.black]⟩
  obtain ⟨p, d1, hp⟩ := full_size_pixels b img name top right bottom left cw ch K S hpic.crops hpic.single hpic.pattern hpic.named hpic.full hpic.small
    hpic.colours hpic.samples hpic.words
  have d2 : (convert b (otherFourth img coeff white black) >>= fun buf => demosaicAndScale b (otherFourth img coeff white black) buf 0 0) = .ok (ofPix cw ch 4 p) := d1
  -- the values of the fourth channel are numbers
  have hS16 : ∀ r c, r < ch → c < cw → S r c < 65536 := fun r c hr hc => hpic.words _ (List.mem_of_getElem? (hpic.samples r c hr hc))
  have hval : ∀ r c, r < ch → c < cw → ∃ q, Val (p r c 3) q ∧ 0 ≤ q ∧ q ≤ 65536 := by
    intro r c hr hc
    obtain ⟨a1, a2⟩ := hp r c hr hc
    have hnat : ∀ n : Nat, n < 65536 → ∃ q, Val (F32.ofNat n) q ∧ 0 ≤ q ∧ q ≤ 65536 := by
      intro n hn
      have hv := ofNat_is (n := n) (by omega)
      exact ⟨n, ⟨hv.1, hv.2.2⟩, Nat.cast_nonneg _, by exact_mod_cast hn.le⟩
    by_cases hk : 3 = K r c
    · rw [hk, a1]
      exact hnat _ (hS16 r c hr hc)
    · rcases Nat.eq_zero_or_pos (measuring ch cw K r c 3).card with h0 | h0
      · rw [(a2 3 (by decide) hk).2 h0]
        exact hnat 0 (by decide)
      · rw [(a2 3 (by decide) hk).1 h0]
        obtain ⟨m1, m2⟩ := meanAt_between (lo := 0) (hi := 65536) h0 (f := S) (fun _ _ => Nat.zero_le _) (fun q hq => by
          have hq' := (Finset.mem_filter.mp (Finset.mem_filter.mp hq).1).1
          rw [Finset.mem_product, Finset.mem_range, Finset.mem_range] at hq'
          exact (hS16 _ _ hq'.1 hq'.2).le)
        obtain ⟨u, hu, u1, u2⟩ := ofRat_number (w := 0) (by decide) m1 (by exact_mod_cast m2)
        exact ⟨u, hu, by simpa using u1, u2⟩
  obtain ⟨mul, m1, e1⟩ := level_ofPix (h := ch) hcw img ha p
  obtain ⟨mul', m2, e2⟩ := level_ofPix (h := ch) hcw (otherFourth img coeff white black) ha' p
  obtain ⟨cm, M, w1, w2, w3, -⟩ := shipped_inverse h hs hl hi
  have hdead : ∀ i, i < 3 → (img.camToXyzMat i 3).val? = some 0 := by
    intro i hi3
    rw [w2 i 3 hi3 (by decide), (w3 i 3 hi3 (by decide)).2]
    by_contra hne
    exact h3 (measures_of w1 (by decide) hne)
  obtain ⟨lab, f1, hlab⟩ := cameraToLab_pixels m img (h := ch) hcw (fun r c k => levelled img mul k (p r c k))
  obtain ⟨lab', f2, hlab'⟩ := cameraToLab_pixels m (otherFourth img coeff white black) (h := ch) hcw
    (fun r c k => levelled (otherFourth img coeff white black) mul' k (p r c k))
  have hmat : (otherFourth img coeff white black).camToXyzMat = img.camToXyzMat := rfl
  have hsame : ∀ k, k < 3 → ∀ v, levelled (otherFourth img coeff white black) mul' k v = levelled img mul k v := by
    intro k hk v
    have hset : ∀ (l : List Nat) (x : Nat), (l.set 3 x).getD k 0 = l.getD k 0 := by
      intro l x
      rw [List.getD_eq_getElem?_getD, List.getD_eq_getElem?_getD, List.getElem?_set_ne (by omega)]
    unfold levelled
    rw [fourth_mul ha m1 m2 hk]
    show ((((v.sub (F32.ofNat ((img.blacklevels.set 3 black).getD k 0))).div
      ((F32.ofNat ((img.whitelevels.set 3 white).getD k 0)).sub (F32.ofNat ((img.blacklevels.set 3 black).getD k 0)))).mul _).min _) = _
    rw [hset, hset]
  have hpix : ofPix cw ch 3 lab' = ofPix cw ch 3 lab := by
    apply ofPix_congr
    intro r c k hr hc hk
    obtain ⟨q, v1, v2, v3⟩ := hval r c hr hc
    obtain ⟨μ, n1, n2, n3⟩ := balance_sane hwb m1 3 (by decide)
    obtain ⟨μ', n1', n2', n3'⟩ := balance_sane hwb' m2 3 (by decide)
    obtain ⟨u, hu⟩ := levelled_number hlev (by decide : 3 < 4) n1 n2 n3 v1 v2 v3
    obtain ⟨u', hu'⟩ := levelled_number hlev' (by decide : 3 < 4) n1' n2' n3' v1 v2 v3
    have g := hlab r c
    have g' := hlab' r c
    rw [hmat, hsame 0 (by decide), hsame 1 (by decide), hsame 2 (by decide),
      xyzToLab_zeros m (dot4_dead (hdead 0 (by decide)) hu' hu _ _ _) (dot4_dead (hdead 1 (by decide)) hu' hu _ _ _)
        (dot4_dead (hdead 2 (by decide)) hu' hu _ _ _), g] at g'
    injection g' with g'
    simp only [Prod.mk.injEq] at g'
    interval_cases k
    · exact g'.1.symm
    · exact g'.2.1.symm
    · exact g'.2.2.symm
  have hd : ∀ linear, decoder m b (otherFourth img coeff white black) 0 0 linear = decoder m b img 0 0 linear := by
    intro linear
    obtain ⟨buf, i1, i2⟩ := bind_eq_ok.mp d1
    obtain ⟨buf', j1, j2⟩ := bind_eq_ok.mp d2
    unfold decoder
    simp only [ite_self]
    rw [i1, j1, ok_bind, ok_bind, i2, j2, ok_bind, ok_bind, e1, e2, ok_bind, ok_bind, f1, f2, ok_bind, ok_bind, hpix]
    rfl
  unfold toLinearRgb toRgb toSrgb
  rw [hd, hd]
  exact ⟨rfl, rfl, rfl⟩

/-! ## Cases -/

open Shipped TomlText in
/-- The Arri Alexa is in the database and has three colours. -/
theorem alexa_three {db : Toml} (h : IsShipped db) {s : RawLoader} (hs : RawLoader.new db = .ok s) :
    ∃ cam, s.checkSupportedWithEverything (b! "ARRI") (b! "ALEXA") [] = .ok cam ∧ ∀ img : RawImage, img.xyzToCam = cam.xyzToCam → ¬ Measures img 3 := by
  have hf : Model.Shipped.arri[0] ∈ Model.Shipped.files := by
    have := List.getElem_mem (l := Model.Shipped.arri) (n := 0) (by decide)
    unfold Model.Shipped.files
    simp only [List.mem_append]
    tauto
  have hc : (readFile Model.Shipped.arri[0]).map (fun t => (variantsIn t).map fun v => (v.key, (List.range 3).map fun j => intOf (v.item (b! "color_matrix") (3 * 3 + j)))) =
      some [((b! "ARRI", b! "ALEXA", []), [0, 0, 0])] := by decide +kernel
  obtain ⟨t, ht, hc⟩ := Option.map_eq_some_iff.mp hc
  have : ((b! "ARRI", b! "ALEXA", []), [0, 0, 0]) ∈
      (variantsIn t).map fun v => (v.key, (List.range 3).map fun j => intOf (v.item (b! "color_matrix") (3 * 3 + j))) := by rw [hc]; simp
  obtain ⟨v, hv, e⟩ := List.mem_map.mp this
  rw [Prod.mk.injEq] at e
  obtain ⟨cam, h1, h2⟩ := shipped_found h hs hf ht hv
  have h2 := h2 (by rw [e.1]; decide)
  have e1 := e.1
  unfold Variant.key at e1
  rw [Prod.mk.injEq, Prod.mk.injEq] at e1
  rw [e1.1, e1.2.1, e1.2.2] at h1
  refine ⟨cam, h1, fun img hi => ?_⟩
  rintro ⟨j, row, x, hj, r1, r2, r3⟩
  have hx := h2.xyzToCam 3 j (by decide) hj
  rw [hi] at r1
  rw [r1] at hx
  have hx : row[j]? = _ := hx
  rw [r2] at hx
  injection hx with hx
  have hz : intOf (v.item (b! "color_matrix") (3 * 3 + j)) = 0 := by
    have e2 := e.2
    simp only [List.range, List.range.loop, List.map_cons, List.map_nil, List.cons.injEq] at e2
    interval_cases j
    · exact e2.1
    · exact e2.2.1
    · exact e2.2.2.1
  rw [hx, hz] at r3
  exact r3 (by decide +kernel)

/-- A picture from the Arri Alexa, which has three colours: without a fourth coefficient and with one, and with other levels for the channel. -/
example {db : Toml} (h : IsShipped db) {s : RawLoader} (hs : RawLoader.new db = .ok s) (m : Libm) {cfa : CFA} (hcfa : CFA.new (b! "RGGB") = .ok cfa) :
    ∃ cam, s.checkSupportedWithEverything (b! "ARRI") (b! "ALEXA") [] = .ok cam ∧
      toSrgb m .debug { stuckImage 450 cfa with
        xyzToCam := cam.xyzToCam, wbCoeffs := [.fin 2, .fin 1, .fin (3 / 2), .fin 7], whitelevels := [4000, 4000, 4000, 900], blacklevels := [256, 256, 256, 0] } 0 0 =
      toSrgb m .debug { stuckImage 450 cfa with xyzToCam := cam.xyzToCam } 0 0 := by
  obtain ⟨cam, h1, hthree⟩ := alexa_three h hs
  refine ⟨cam, h1, ?_⟩
  obtain ⟨-, -, -, hsz⟩ := cfa_matches_name .debug (b! "RGGB") cfa hcfa (by decide) 0 0 (by decide) (by decide)
  have hsz' : patternSize (b! "RGGB").length = some (2, 2) := by decide
  rw [hsz'] at hsz
  have hsz := Prod.mk.inj (Option.some.inj hsz)
  have hvalid : cfa.isValid = true := by
    unfold CFA.isValid
    rw [← hsz.1, ← hsz.2]
    decide
  have hpat : ∀ r c, patternColour (b! "RGGB") 2 2 (r + 0) (c + 0) = some ((fun r c => r % 2 + c % 2) r c) := by
    intro r c
    have hr : r % 2 = 0 ∨ r % 2 = 1 := by omega
    have hc : c % 2 = 0 ∨ c % 2 = 1 := by omega
    unfold patternColour
    rcases hr with hr | hr <;> rcases hc with hc | hc <;> rw [Nat.add_zero, Nat.add_zero, hr, hc] <;> simp only [hr, hc] <;> decide
  have hpic : MosaicPicture { stuckImage 450 cfa with xyzToCam := cam.xyzToCam } (b! "RGGB") 0 0 0 0 4 4 (fun r c => r % 2 + c % 2)
      (fun r c => (stuckImage 450 cfa).data.getD (4 * r + c) 0) :=
    { crops := ⟨rfl, rfl, rfl, by decide⟩
      rows := by decide
      single := rfl
      pattern := hcfa
      named := by decide
      full := rfl
      small := ⟨by show 4 ≤ 2 ^ 22; decide, by show 4 ≤ 2 ^ 22; decide⟩
      words := by
        intro x hx
        have hx : x ∈ [300, 310, 320, 330, 340, 350, 360, 370, 380, 390, 400, 410, 420, 430, 440, 450] := hx
        simp only [List.mem_cons, List.not_mem_nil, or_false] at hx
        omega
      colours := fun r c => by
        show patternColour (b! "RGGB") cfa.width cfa.height (r + 0) (c + 0) = _
        rw [← hsz.1, ← hsz.2]
        exact hpat r c
      samples := fun r c hr hc => by interval_cases r <;> interval_cases c <;> rfl }
  refine (fourth_ignored h hs h1 (img := { stuckImage 450 cfa with xyzToCam := cam.xyzToCam }) rfl (hthree _ rfl) m .debug hpic ⟨rfl, rfl, rfl⟩
    (coeff := .fin 7) (white := 900) (black := 0) ?_ ?_ ?_ ?_).2.2
  · intro k hk
    interval_cases k <;> exact ⟨4000, 256, rfl, rfl, by decide, by decide⟩
  · intro k hk
    interval_cases k
    · exact ⟨4000, 256, rfl, rfl, by decide, by decide⟩
    · exact ⟨4000, 256, rfl, rfl, by decide, by decide⟩
    · exact ⟨4000, 256, rfl, rfl, by decide, by decide⟩
    · exact ⟨900, 0, rfl, rfl, by decide, by decide⟩
  · exact ⟨by simp [RawImage.isMonochrome, stuckImage, hvalid], 1, rfl, by norm_num, fun k hk => by
      interval_cases k
      · exact ⟨.fin 2, rfl, fun _ => by decide +kernel, fun _ => ⟨2, rfl, by norm_num, by norm_num⟩⟩
      · exact ⟨.fin 1, rfl, fun _ => by decide +kernel, fun _ => ⟨1, rfl, by norm_num, by norm_num⟩⟩
      · exact ⟨.fin (3 / 2), rfl, fun _ => by decide +kernel, fun _ => ⟨3 / 2, rfl, by norm_num, by norm_num⟩⟩
      · exact ⟨.nan, rfl, fun h => absurd h (by decide), fun h => by simp [F32.isNormal] at h⟩⟩
  · exact ⟨by simp [RawImage.isMonochrome, stuckImage, otherFourth, hvalid], 1, rfl, by norm_num, fun k hk => by
      interval_cases k
      · exact ⟨.fin 2, rfl, fun _ => by decide +kernel, fun _ => ⟨2, rfl, by norm_num, by norm_num⟩⟩
      · exact ⟨.fin 1, rfl, fun _ => by decide +kernel, fun _ => ⟨1, rfl, by norm_num, by norm_num⟩⟩
      · exact ⟨.fin (3 / 2), rfl, fun _ => by decide +kernel, fun _ => ⟨3 / 2, rfl, by norm_num, by norm_num⟩⟩
      · exact ⟨.fin 7, rfl, fun h => absurd h (by decide), fun _ => ⟨7, rfl, by norm_num, by norm_num⟩⟩⟩

end Props

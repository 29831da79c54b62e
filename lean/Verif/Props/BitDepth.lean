import Verif.Props.BalanceRatio
/-!
# C99: samples of more bits for the same light
-/

namespace Props
open Model Rust Spec F32

/-! ## Numbers scaled by a power of two -/

/-- `y` is `c` times `x`, with the same sign. -/
def Enlarged (c : ℚ) (x y : F32) : Prop := (∃ s, x = .zero s ∧ y = .zero s) ∨ ∃ q, q ≠ 0 ∧ x = .fin q ∧ y = .fin (q * c)

/-- The quotient does not see a common factor. -/
theorem enlarged_div {c : ℚ} (hc : 0 < c) {x y u v : F32} (h : Enlarged c x y) (h' : Enlarged c u v) : x.div u = y.div v := by
  have hsign : ∀ q : ℚ, (F32.fin q).signBit = (F32.fin (q * c)).signBit := by
    intro q
    simp only [F32.signBit, decide_eq_decide]
    exact ⟨fun h => mul_neg_of_neg_of_pos h hc, fun h => by by_contra h'; exact absurd h (not_lt.mpr (mul_nonneg (not_lt.mp h') (le_of_lt hc)))⟩
  rcases h with ⟨s, rfl, rfl⟩ | ⟨p, hp, rfl, rfl⟩ <;> rcases h' with ⟨t, rfl, rfl⟩ | ⟨q, hq, rfl, rfl⟩
  · rfl
  · simp only [F32.div]
    rw [hsign q]
  · simp only [F32.div]
    rw [hsign p]
  · simp only [F32.div]
    rw [mul_div_mul_right _ _ (ne_of_gt hc)]

/-- Differences of representable numbers are rounded alike at both scales. -/
theorem difference_scale {p q : ℚ} (hp : Repr32 p) (hq : Repr32 q) (k : Nat) : roundQ ((p - q) * pow2 k) = roundQ (p - q) * pow2 k := by
  by_cases hbig : pow2 (-126) ≤ |p - q|
  · rcases le_total 0 (p - q) with h0 | h0
    · rw [abs_of_nonneg h0] at hbig
      exact roundQ_scale hbig
    · rw [abs_of_nonpos h0] at hbig
      have := roundQ_scale (k := k) hbig
      rw [neg_mul, roundQ_neg, roundQ_neg, neg_mul] at this
      exact neg_injective this
  · have hmul : ∀ x : ℚ, Repr32 x → ∃ z : Int, x = z * pow2 (-149) := by
      rintro x ⟨m, e, hx, -, he⟩
      obtain ⟨z, hz⟩ := pow2_int (k := e + 149) (by omega)
      refine ⟨m * z, ?_⟩
      rw [hx, show e = (e + 149) + (-149) by ring, pow2_add, hz]
      push_cast
      ring
    obtain ⟨a, ha⟩ := hmul p hp
    obtain ⟨b, hb⟩ := hmul q hq
    have hd : p - q = ((a - b : Int) : ℚ) * pow2 (-149) := by rw [ha, hb]; push_cast; ring
    have hsmall : |a - b| ≤ 2 ^ 24 := by
      by_contra hlt
      apply hbig
      rw [hd, abs_mul, abs_of_pos (pow2_pos _)]
      have h1 : (2 ^ 23 : ℚ) ≤ |((a - b : Int) : ℚ)| := by
        rw [← Int.cast_abs]
        have : (2 ^ 23 : Int) ≤ |a - b| := by omega
        exact_mod_cast this
      have h2 : pow2 (-126) = 2 ^ 23 * pow2 (-149) := by
        rw [show (-126 : Int) = 23 + (-149) by norm_num, pow2_add, show (23 : Int) = ((23 : Nat) : Int) by norm_num, pow2_ofNat]
        norm_num
      rw [h2]
      exact mul_le_mul_of_nonneg_right h1 (le_of_lt (pow2_pos _))
    have r1 : Repr32 (p - q) := ⟨a - b, -149, hd, hsmall, le_refl _⟩
    have r2 : Repr32 ((p - q) * pow2 k) := ⟨a - b, -149 + k, by rw [hd, pow2_add, mul_assoc], hsmall, by omega⟩
    rw [roundQ_of_repr r1, roundQ_of_repr r2]

theorem enlarged_round {d : ℚ} {k : Nat} (hk : k ≤ 16) (hs : roundQ (d * pow2 k) = roundQ d * pow2 k) (hb : |d| ≤ pow2 17) :
    Enlarged (pow2 k) (F32.round false d) (F32.round false (d * pow2 k)) := by
  have hk0 := pow2_pos (k : Int)
  have hneg : (d * pow2 k < 0) ↔ d < 0 := 
    ⟨fun h => by by_contra h'; exact absurd h (not_lt.mpr (mul_nonneg (not_lt.mp h') (le_of_lt hk0))), fun h => mul_neg_of_neg_of_pos h hk0⟩
  unfold F32.round
  by_cases hz : d = 0
  · rw [if_pos hz, if_pos (by rw [hz, zero_mul])]
    exact .inl ⟨_, rfl, rfl⟩
  rw [if_neg hz, if_neg (mul_ne_zero hz (ne_of_gt hk0)), hs]
  by_cases hr : roundQ d = 0
  · rw [if_pos hr, if_pos (by rw [hr, zero_mul])]
    exact .inl ⟨_, rfl, by rw [decide_eq_decide.mpr hneg]⟩
  rw [if_neg hr, if_neg (mul_ne_zero hr (ne_of_gt hk0)), ratAbs_eq, ratAbs_eq]
  have hle : |roundQ d| ≤ pow2 17 := by
    have h1 := roundQ_le_of_repr (repr32_pow2 (by norm_num : (-149 : Int) ≤ 17)) (abs_le.mp hb).2
    have h2 := roundQ_le_of_repr (q := -d) (repr32_pow2 (by norm_num : (-149 : Int) ≤ 17)) (by linarith [(abs_le.mp hb).1])
    rw [roundQ_neg] at h2
    exact abs_le.mpr ⟨by linarith, h1⟩
  have h33 : |roundQ d * pow2 k| ≤ pow2 33 := by
    rw [abs_mul, abs_of_pos hk0, show (33 : Int) = 17 + 16 by norm_num, pow2_add]
    exact mul_le_mul hle (pow2_le (by omega)) (le_of_lt hk0) (le_of_lt (pow2_pos _))
  rw [if_neg (not_le.mpr (lt_of_le_of_lt hle (pow2_lt (by norm_num)))), if_neg (not_le.mpr (lt_of_le_of_lt h33 (pow2_lt (by norm_num))))]
  exact .inr ⟨_, hr, rfl, rfl⟩

/-- A sample or a level, or a mean of samples, at both scales. -/
structure Reading (k : Nat) (x y : F32) : Prop where
  enlarged : (x = .zero false ∧ y = .zero false) ∨ ∃ q, 0 < q ∧ q ≤ 65536 ∧ Repr32 q ∧ Repr32 (q * pow2 k) ∧ x = .fin q ∧ y = .fin (q * pow2 k)

theorem reading_sub {k : Nat} (hk : k ≤ 16) {x y u v : F32} (h : Reading k x y) (h' : Reading k u v) : Enlarged (pow2 k) (x.sub u) (y.sub v) := by
  have hk0 := pow2_pos (k : Int)
  have h17 : (131072 : ℚ) = pow2 17 := by decide +kernel
  rcases h.enlarged with ⟨rfl, rfl⟩ | ⟨p, p0, p1, p2, -, rfl, rfl⟩ <;> rcases h'.enlarged with ⟨rfl, rfl⟩ | ⟨q, q0, q1, q2, -, rfl, rfl⟩
  · exact .inl ⟨false, rfl, rfl⟩
  · exact .inr ⟨-q, neg_ne_zero.mpr (ne_of_gt q0), rfl, by simp [F32.sub, F32.add, F32.neg]⟩
  · exact .inr ⟨p, ne_of_gt p0, rfl, rfl⟩
  · have := enlarged_round hk (difference_scale p2 q2 k) (by rw [← h17]; exact abs_le.mpr ⟨by linarith, by linarith⟩)
    simp only [F32.sub, F32.add, F32.neg]
    rw [← sub_eq_add_neg, ← sub_eq_add_neg, ← sub_mul]
    exact this

theorem reading_nat {k v : Nat} (h : v * 2 ^ k < 65536) : Reading k (F32.ofNat v) (F32.ofNat (v * 2 ^ k)) := by
  rcases Nat.eq_zero_or_pos v with rfl | hv
  · rw [Nat.zero_mul]
    exact ⟨.inl ⟨rfl, rfl⟩⟩
  · have hle : v ≤ v * 2 ^ k := Nat.le_mul_of_pos_right _ (Nat.pow_pos (by decide))
    have hcast : ((v * 2 ^ k : Nat) : ℚ) = (v : ℚ) * pow2 k := by rw [pow2_ofNat]; push_cast; ring
    refine ⟨.inr ⟨v, by exact_mod_cast hv, by exact_mod_cast (by omega : v ≤ 65536), repr32_nat (by omega), ?_, F32.ofNat_pos hv (by omega), ?_⟩⟩
    · rw [← hcast]
      exact repr32_nat (by omega)
    · rw [F32.ofNat_pos (by omega) (by omega), hcast]

theorem reading_mean {k : Nat} {s : Finset (ℕ × ℕ)} (h0 : 0 < s.card) (h9 : s.card ≤ 9) {S : Nat → Nat → Nat} (hS : ∀ q ∈ s, S q.1 q.2 * 2 ^ k < 65536) :
    Reading k (F32.ofRat (meanAt s S)) (F32.ofRat (meanAt s fun r c => S r c * 2 ^ k)) := by
  have hk0 := pow2_pos (k : Int)
  have hk1 : (1 : ℚ) ≤ pow2 k := by rw [← pow2_zero]; exact pow2_le (by omega)
  have hcard : (0 : ℚ) < s.card := by exact_mod_cast h0
  have hmean : meanAt s (fun r c => S r c * 2 ^ k) = meanAt s S * pow2 k := by
    unfold meanAt
    rw [← Finset.sum_mul, pow2_ofNat]
    push_cast
    ring
  rw [hmean]
  generalize hq : meanAt s S = q
  have hsum : (∑ p ∈ s, S p.1 p.2) * 2 ^ k ≤ s.card * 65535 := by
    rw [Finset.sum_mul]
    calc ∑ p ∈ s, S p.1 p.2 * 2 ^ k ≤ ∑ _p ∈ s, 65535 := Finset.sum_le_sum fun p hp => by have := hS p hp; omega
      _ = s.card * 65535 := by rw [Finset.sum_const, smul_eq_mul]
  have hle : q * pow2 k ≤ 65535 := by
    rw [← hq]
    unfold meanAt
    rw [div_mul_eq_mul_div, div_le_iff₀ hcard, pow2_ofNat]
    have : ((∑ p ∈ s, S p.1 p.2 : ℕ) : ℚ) * ((2 ^ k : Nat) : ℚ) ≤ (s.card : ℚ) * 65535 := by exact_mod_cast hsum
    linarith
  rcases Nat.eq_zero_or_pos (∑ p ∈ s, S p.1 p.2) with hz | hpos
  · have hq0 : q = 0 := by rw [← hq]; unfold meanAt; rw [hz]; simp
    rw [hq0, zero_mul]
    exact ⟨.inl ⟨rfl, rfl⟩⟩
  · have hlow : 1 / 9 ≤ q := by
      rw [← hq]
      unfold meanAt
      rw [div_le_div_iff₀ (by norm_num) hcard]
      have h1 : (1 : ℚ) ≤ ((∑ p ∈ s, S p.1 p.2 : ℕ) : ℚ) := by exact_mod_cast hpos
      have h2 : (s.card : ℚ) ≤ 9 := by exact_mod_cast h9
      linarith
    have h126 : pow2 (-126) ≤ 1 / 16 := by decide +kernel
    have hscale : roundQ (q * pow2 k) = roundQ q * pow2 k := roundQ_scale (by linarith)
    have h16 : Repr32 (1 / 16) := ⟨1, -4, by decide +kernel, by norm_num, by norm_num⟩
    have hr0 : 0 < roundQ q := by
      have := roundQ_mono (p := 1 / 16) (q := q) (by linarith)
      rw [roundQ_of_repr h16] at this
      linarith
    have hr1 : roundQ (q * pow2 k) ≤ 65536 := by
      have := roundQ_le_of_repr (repr32_nat (n := 65536) (by norm_num)) (q := q * pow2 k) (by push_cast; linarith)
      simpa using this
    have hr2 : roundQ q ≤ 65536 := by
      rw [hscale] at hr1
      exact le_trans (le_mul_of_one_le_right (le_of_lt hr0) hk1) hr1
    have h128 : (65536 : ℚ) < pow2 128 := by decide +kernel
    refine ⟨.inr ⟨roundQ q, hr0, hr2, roundQ_repr q, by rw [← hscale]; exact roundQ_repr _, F32.ofRat_pos hr0 (by linarith), ?_⟩⟩
    rw [← hscale]
    exact F32.ofRat_pos (by rw [hscale]; exact mul_pos hr0 hk0) (by linarith)

/-! ## The picture -/

/-- The picture with samples and levels of `s` more bits. -/
def moreBits (s : Nat) (img : RawImage) : RawImage :=
  { img with
    data := img.data.map (· * 2 ^ s)
    whitelevels := img.whitelevels.map (· * 2 ^ s)
    blacklevels := img.blacklevels.map (· * 2 ^ s) }

/-- The samples and the levels still are sixteen bit numbers. -/
structure RoomFor (s : Nat) (img : RawImage) : Prop where
  data : ∀ v ∈ img.data, v * 2 ^ s < 65536
  white : ∀ v ∈ img.whitelevels, v * 2 ^ s < 65536
  black : ∀ v ∈ img.blacklevels, v * 2 ^ s < 65536

theorem scaled_getD (l : List Nat) (s c : Nat) : (l.map (· * 2 ^ s)).getD c 0 = l.getD c 0 * 2 ^ s := by
  simp only [List.getD_eq_getElem?_getD, List.getElem?_map]
  cases l[c]? <;> simp

theorem reading_level {s : Nat} {l : List Nat} (h : ∀ v ∈ l, v * 2 ^ s < 65536) (c : Nat) :
    Reading s (F32.ofNat (l.getD c 0)) (F32.ofNat ((l.map (· * 2 ^ s)).getD c 0)) := by
  rw [scaled_getD]
  apply reading_nat
  rw [List.getD_eq_getElem?_getD]
  cases hc : l[c]? with
  | none => simp
  | some v => exact h v (List.mem_of_getElem? hc)

/-- Pictures whose demosaiced values correspond are developed alike. -/
theorem more_bits_decoder (m : Libm) (b : Build) {img : RawImage} {s cw ch : Nat} (hs : s ≤ 16) (ha : ArraysOk img) (hroom : RoomFor s img) (hcw : 0 < cw)
    {p p' : Nat → Nat → Nat → F32} (h1 : (convert b img >>= fun buf => demosaicAndScale b img buf 0 0) = .ok (ofPix cw ch 4 p))
    (h2 : (convert b (moreBits s img) >>= fun buf => demosaicAndScale b (moreBits s img) buf 0 0) = .ok (ofPix cw ch 4 p'))
    (h : ∀ r c k, r < ch → c < cw → k < 4 → Reading s (p r c k) (p' r c k)) (linear : Bool) :
    decoder m b (moreBits s img) 0 0 linear = decoder m b img 0 0 linear := by
  have ha' : ArraysOk (moreBits s img) := ⟨ha.wb, by simp [moreBits, ha.white], by simp [moreBits, ha.black]⟩
  obtain ⟨mul, m1, e1⟩ := level_ofPix (h := ch) hcw img ha p
  obtain ⟨mul', m2, e2⟩ := level_ofPix (h := ch) hcw (moreBits s img) ha' p'
  have hmul : mul' = mul := by
    have : (balanceCoeffs (moreBits s img) >>= balanceMul) = (balanceCoeffs img >>= balanceMul) := rfl
    rw [this, m1] at m2
    injection m2 with m2
    exact m2.symm
  subst hmul
  have hpix : ofPix cw ch 4 (fun r c k => levelled (moreBits s img) mul' k (p' r c k)) = ofPix cw ch 4 (fun r c k => levelled img mul' k (p r c k)) := by
    apply ofPix_congr
    intro r c k hr hc hk
    have hb := reading_level hroom.black k
    have hw := reading_level hroom.white k
    unfold levelled
    rw [enlarged_div (pow2_pos (s : Int)) (reading_sub hs (h r c k hr hc hk) hb) (reading_sub hs hw hb)]
    rfl
  obtain ⟨buf, f1, f2⟩ := bind_eq_ok.mp h1
  obtain ⟨buf', g1, g2⟩ := bind_eq_ok.mp h2
  unfold decoder
  simp only [ite_self]
  rw [f1, g1, ok_bind, ok_bind, f2, g2, ok_bind, ok_bind, e1, e2, ok_bind, ok_bind, hpix]
  rfl

theorem more_bits_mosaic {img : RawImage} {name : Bytes} {top right bottom left cw ch : Nat} {K S : Nat → Nat → Nat} {s : Nat}
    (h : MosaicPicture img name top right bottom left cw ch K S) (hroom : RoomFor s img) :
    MosaicPicture (moreBits s img) name top right bottom left cw ch K (fun r c => S r c * 2 ^ s) where
  crops := ⟨h.crops.crops, h.crops.width, h.crops.height, h.crops.cw_pos⟩
  rows := h.rows
  single := h.single
  pattern := h.pattern
  named := h.named
  full := by simpa [moreBits] using h.full
  small := h.small
  words := by
    intro v hv
    obtain ⟨x, hx, rfl⟩ := List.mem_map.mp hv
    exact hroom.data x hx
  colours := h.colours
  samples := by
    intro r c hr hc
    have := h.samples r c hr hc
    show (img.data.map (· * 2 ^ s))[img.width * (r + top) + (c + left)]? = _
    rw [List.getElem?_map, this]
    rfl

/-- **C99.** Multiplying all samples and levels of a picture with a colour pattern by a power of two, as long as they fit sixteen bits, changes
no output at full size. -/
theorem more_bits (m : Libm) (b : Build) {img : RawImage} {name : Bytes} {top right bottom left cw ch : Nat} {K S : Nat → Nat → Nat} {s : Nat} (hs : s ≤ 16)
    (hpic : MosaicPicture img name top right bottom left cw ch K S) (ha : ArraysOk img) (hroom : RoomFor s img) :
    toLinearRgb m b (moreBits s img) 0 0 = toLinearRgb m b img 0 0 ∧ toRgb m b (moreBits s img) 0 0 = toRgb m b img 0 0 ∧
      toSrgb m b (moreBits s img) 0 0 = toSrgb m b img 0 0 := by
  have hpic' := more_bits_mosaic hpic hroom
  obtain ⟨p, d1, hp⟩ := full_size_pixels b img name top right bottom left cw ch K S hpic.crops hpic.single hpic.pattern hpic.named hpic.full hpic.small
    hpic.colours hpic.samples hpic.words
  obtain ⟨p', d2, hp'⟩ := full_size_pixels b (moreBits s img) name top right bottom left cw ch K _ hpic'.crops hpic'.single hpic'.pattern hpic'.named
    hpic'.full hpic'.small hpic'.colours hpic'.samples hpic'.words
  have hS : ∀ r c, r < ch → c < cw → S r c * 2 ^ s < 65536 := fun r c hr hc => hroom.data _ (List.mem_of_getElem? (hpic.samples r c hr hc))
  have hd := more_bits_decoder m b hs ha hroom hpic.crops.cw_pos d1 d2 (by
    intro r c k hr hc hk
    obtain ⟨a1, a2⟩ := hp r c hr hc
    obtain ⟨b1, b2⟩ := hp' r c hr hc
    by_cases hkk : k = K r c
    · subst hkk
      rw [a1, b1]
      exact reading_nat (hS r c hr hc)
    · rcases Nat.eq_zero_or_pos (measuring ch cw K r c k).card with h0 | h0
      · rw [(a2 k hk hkk).2 h0, (b2 k hk hkk).2 h0]
        exact ⟨.inl ⟨rfl, rfl⟩⟩
      · rw [(a2 k hk hkk).1 h0, (b2 k hk hkk).1 h0]
        refine reading_mean h0 (measuring_card_le hr hc) ?_
        intro q hq
        have hq' := (Finset.mem_filter.mp (Finset.mem_filter.mp hq).1).1
        rw [Finset.mem_product, Finset.mem_range, Finset.mem_range] at hq'
        exact hS _ _ hq'.1 hq'.2)
  unfold toLinearRgb toRgb toSrgb
  rw [hd, hd]
  exact ⟨rfl, rfl, rfl⟩

/-- **C99**, for a picture without a pattern. -/
theorem more_bits_mono (m : Libm) (b : Build) {img : RawImage} {top right bottom left cw ch : Nat} {S : Nat → Nat → Nat} {s : Nat} (hs : s ≤ 16)
    (hpic : MonoPicture img top right bottom left cw ch S) (hroom : RoomFor s img) :
    toLinearRgb m b (moreBits s img) 0 0 = toLinearRgb m b img 0 0 ∧ toRgb m b (moreBits s img) 0 0 = toRgb m b img 0 0 ∧
      toSrgb m b (moreBits s img) 0 0 = toSrgb m b img 0 0 := by
  have hpic' : MonoPicture (moreBits s img) top right bottom left cw ch (fun r c => S r c * 2 ^ s) :=
    { crops := ⟨hpic.crops.crops, hpic.crops.width, hpic.crops.height, hpic.crops.cw_pos⟩
      rows := hpic.rows
      single := hpic.single
      plain := hpic.plain
      full := by simpa [moreBits] using hpic.full
      arrays := ⟨hpic.arrays.wb, by simp [moreBits, hpic.arrays.white], by simp [moreBits, hpic.arrays.black]⟩
      samples := by
        intro r c hr hc
        have := hpic.samples r c hr hc
        show (img.data.map (· * 2 ^ s))[img.width * (r + top) + (c + left)]? = _
        rw [List.getElem?_map, this]
        rfl }
  obtain ⟨p, d1, hp⟩ := mono_pixels b hpic
  obtain ⟨p', d2, hp'⟩ := mono_pixels b hpic'
  have hd := more_bits_decoder m b hs hpic.arrays hroom hpic.crops.cw_pos d1 d2 (by
    intro r c k hr hc hk
    rw [hp r c hr hc k hk, hp' r c hr hc k hk]
    split
    · exact reading_nat (hroom.data _ (List.mem_of_getElem? (hpic.samples r c hr hc)))
    · exact ⟨.inl ⟨rfl, rfl⟩⟩)
  unfold toLinearRgb toRgb toSrgb
  rw [hd, hd]
  exact ⟨rfl, rfl, rfl⟩

/-! ## Cases -/

/-- The twelve bit picture of `PixelLocal.lean`, and the same with sixteen bits. -/
example (m : Libm) {cfa : CFA} (hcfa : CFA.new (b! "RGGB") = .ok cfa) :
    (moreBits 4 (stuckImage 450 cfa)).data = [4800, 4960, 5120, 5280, 5440, 5600, 5760, 5920, 6080, 6240, 6400, 6560, 6720, 6880, 7040, 7200] ∧
      (moreBits 4 (stuckImage 450 cfa)).whitelevels = [64000, 64000, 64000, 64000] ∧
      (moreBits 4 (stuckImage 450 cfa)).blacklevels = [4096, 4096, 4096, 4096] ∧
      toSrgb m .debug (moreBits 4 (stuckImage 450 cfa)) 0 0 = toSrgb m .debug (stuckImage 450 cfa) 0 0 := by
  obtain ⟨-, -, -, hsz⟩ := cfa_matches_name .debug (b! "RGGB") cfa hcfa (by decide) 0 0 (by decide) (by decide)
  have hsz' : patternSize (b! "RGGB").length = some (2, 2) := by decide
  rw [hsz'] at hsz
  injection hsz with hsz
  rw [Prod.mk.injEq] at hsz
  have hpat : ∀ r c, patternColour (b! "RGGB") 2 2 (r + 0) (c + 0) = some ((fun r c => r % 2 + c % 2) r c) := by
    intro r c
    have hr : r % 2 = 0 ∨ r % 2 = 1 := by omega
    have hc : c % 2 = 0 ∨ c % 2 = 1 := by omega
    unfold patternColour
    rcases hr with hr | hr <;> rcases hc with hc | hc <;> rw [Nat.add_zero, Nat.add_zero, hr, hc] <;> simp only [hr, hc] <;> decide
  have hpic : MosaicPicture (stuckImage 450 cfa) (b! "RGGB") 0 0 0 0 4 4 (fun r c => r % 2 + c % 2) (fun r c => (stuckImage 450 cfa).data.getD (4 * r + c) 0) :=
    { crops := ⟨rfl, rfl, rfl, by decide⟩
      rows := by decide
      single := rfl
      pattern := hcfa
      named := by decide
      full := rfl
      small := ⟨by show 4 ≤ 2 ^ 22; decide, by show 4 ≤ 2 ^ 22; decide⟩
      words := by
        intro x hx
        have hx : x ∈ [300, 310, 320, 330, 340, 350, 360, 370, 380, 390, 400, 410, 420, 430, 440, 450] := hx
        simp only [List.mem_cons, List.not_mem_nil, or_false] at hx
        omega
      colours := fun r c => by
        show patternColour (b! "RGGB") cfa.width cfa.height (r + 0) (c + 0) = _
        rw [← hsz.1, ← hsz.2]
        exact hpat r c
      samples := fun r c hr hc => by interval_cases r <;> interval_cases c <;> rfl }
  refine ⟨rfl, rfl, rfl, (more_bits m .debug (s := 4) (by decide) hpic ⟨rfl, rfl, rfl⟩ ⟨?_, ?_, ?_⟩).2.2⟩
  · show ∀ x ∈ [300, 310, 320, 330, 340, 350, 360, 370, 380, 390, 400, 410, 420, 430, 440, 450], x * 2 ^ 4 < 65536
    decide
  · show ∀ x ∈ [4000, 4000, 4000, 4000], x * 2 ^ 4 < 65536
    decide
  · show ∀ x ∈ [256, 256, 256, 256], x * 2 ^ 4 < 65536
    decide

/-- The monochrome picture of `MonoCurve.lean` with fifteen bits. -/
example (m : Libm) : toRgb m .release (moreBits 3 (monoImage [.fin 2, .fin 1, .fin (3 / 2), .nan])) 0 0 =
    toRgb m .release (monoImage [.fin 2, .fin 1, .fin (3 / 2), .nan]) 0 0 :=
  (more_bits_mono m .release (s := 3) (S := fun r c => [300, 2000, 700, 900, 1100, 2000].getD (r * 3 + c) 0) (top := 0) (right := 0) (bottom := 0) (left := 0)
    (cw := 3) (ch := 2) (by decide) ⟨⟨rfl, rfl, rfl, by decide⟩, by decide, rfl, rfl, rfl, ⟨by decide, by decide, by decide⟩, by
      intro r c hr hc
      interval_cases r <;> interval_cases c <;> rfl⟩ ⟨by decide, by decide, by decide⟩).2.1

end Props

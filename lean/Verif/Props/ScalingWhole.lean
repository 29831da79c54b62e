import Verif.Props.Scaling
import Verif.Model.Text
/-!
# Property C75 for `demosaic_and_scale`, and a column that is always black
-/

namespace Props
open Rust Spec Model F32

/-- Two images of the same size with samples from 0 to `2^k`, the first nowhere above the second. -/
structure Pair (k w h n : Nat) (a b : OpBuffer F32) : Prop where
  wfa : a.wf
  wfb : b.wf
  width : a.width = w ∧ b.width = w
  height : a.height = h ∧ b.height = h
  colors : a.colors = n ∧ b.colors = n
  samples : ∀ r c ch, r < h → c < w → ch < n → ∃ u v p q, a.at? r c ch = some u ∧ b.at? r c ch = some v ∧ u.Valid ∧ v.Valid ∧
    u.val? = some p ∧ v.val? = some q ∧ 0 ≤ p ∧ p ≤ q ∧ q ≤ (2 : ℚ) ^ k

theorem mem_at {a : OpBuffer F32} (hwf : a.wf) {v : F32} (hv : v ∈ a.data) :
    ∃ r c ch, r < a.height ∧ c < a.width ∧ ch < a.colors ∧ a.at? r c ch = some v := by
  obtain ⟨i, hi, e⟩ := List.getElem_of_mem hv
  have hl := hwf
  unfold OpBuffer.wf at hl
  have hk : 0 < a.colors := by
    rcases Nat.eq_zero_or_pos a.colors with h | h
    · rw [h, Nat.mul_zero] at hl; omega
    · exact h
  have hw : 0 < a.width := by
    rcases Nat.eq_zero_or_pos a.width with h | h
    · rw [h, Nat.zero_mul, Nat.zero_mul] at hl; omega
    · exact h
  have h1 : i / a.colors < a.width * a.height := Nat.div_lt_of_lt_mul (by rw [Nat.mul_comm]; omega)
  refine ⟨i / a.colors / a.width, i / a.colors % a.width, i % a.colors, Nat.div_lt_of_lt_mul h1, Nat.mod_lt _ hw, Nat.mod_lt _ hk, ?_⟩
  unfold OpBuffer.at?
  rw [Nat.div_add_mod', Nat.div_add_mod', List.getElem?_eq_getElem hi, e]

theorem Pair.samplesOf {k w h n : Nat} {a b : OpBuffer F32} (hp : Pair k w h n a b) : (∀ v ∈ a.data, Sample k v) ∧ ∀ v ∈ b.data, Sample k v := by
  constructor
  · intro v hv
    obtain ⟨r, c, ch, h1, h2, h3, h4⟩ := mem_at hp.wfa hv
    obtain ⟨u, _, p, q, e, _, v1, _, p1, _, p2, p3, p4⟩ := hp.samples r c ch (hp.height.1 ▸ h1) (hp.width.1 ▸ h2) (hp.colors.1 ▸ h3)
    rw [h4, Option.some.injEq] at e
    subst e
    exact ⟨v1, p, p1, p2, le_trans p3 p4⟩
  · intro v hv
    obtain ⟨r, c, ch, h1, h2, h3, h4⟩ := mem_at hp.wfb hv
    obtain ⟨_, u, p, q, _, e, _, v1, _, p1, p2, p3, p4⟩ := hp.samples r c ch (hp.height.2 ▸ h1) (hp.width.2 ▸ h2) (hp.colors.2 ▸ h3)
    rw [h4, Option.some.injEq] at e
    subst e
    exact ⟨v1, q, p1, le_trans p2 p3, p4⟩

theorem Pair.below {k w h n : Nat} {a b : OpBuffer F32} (hp : Pair k w h n a b) {r c ch : Nat} (hr : r < h) (hc : c < w) (hch : ch < n) :
    Below (a.at? r c ch) (b.at? r c ch) := by
  intro x y p q ex ey hx hy
  obtain ⟨u, v, p', q', e1, e2, _, _, p1, q1, _, pq, _⟩ := hp.samples r c ch hr hc hch
  rw [e1, Option.some.injEq] at ex
  rw [e2, Option.some.injEq] at ey
  subst ex; subst ey
  rw [p1] at hx; rw [q1] at hy
  cases hx; cases hy
  exact pq

/-- The order and the range of two results. -/
structure Ordered (k w h : Nat) (a b : OpBuffer F32) : Prop where
  wfa : a.wf
  wfb : b.wf
  width : a.width = w ∧ b.width = w
  height : a.height = h ∧ b.height = h
  colors : a.colors = 4 ∧ b.colors = 4
  samples : ∀ r c ch, r < h → c < w → ch < 4 → ∃ u v p q, a.at? r c ch = some u ∧ b.at? r c ch = some v ∧
    u.val? = some p ∧ v.val? = some q ∧ 0 ≤ p ∧ p ≤ q ∧ q ≤ (2 : ℚ) ^ k

theorem Pair.ordered {k w h : Nat} {a b : OpBuffer F32} (hp : Pair k w h 4 a b) : Ordered k w h a b :=
  ⟨hp.wfa, hp.wfb, hp.width, hp.height, hp.colors, fun r c ch h1 h2 h3 => by
    obtain ⟨u, v, p, q, e1, e2, _, _, rest⟩ := hp.samples r c ch h1 h2 h3
    exact ⟨u, v, p, q, e1, e2, rest⟩⟩

theorem ordered_of_scaled {k nw nh : Nat} {a b : OpBuffer F32} (wa : a.wf) (wb : b.wf) (w1 : a.width = nw) (w2 : b.width = nw) (h1 : a.height = nh)
    (h2 : b.height = nh) (c1 : a.colors = 4) (c2 : b.colors = 4) {P Q : Nat → Nat → Nat → Prop} (hP : ∀ r c ch, ch < 4 → P r c ch)
    (hs : ∀ r c ch, r < nh → c < nw → ch < 4 → Scaled k (P r c ch) (Q r c ch) (a.at? r c ch) (b.at? r c ch)) : Ordered k nw nh a b :=
  ⟨wa, wb, ⟨w1, w2⟩, ⟨h1, h2⟩, ⟨c1, c2⟩, fun r c ch hr hc hch => by
    have := hs r c ch hr hc hch
    obtain ⟨u, p, e1, e2, e3, e4⟩ := this.range _ (Or.inl rfl)
    obtain ⟨v, q, f1, f2, f3, f4⟩ := this.range _ (Or.inr rfl)
    exact ⟨u, v, p, q, e1, f1, e2, f2, e3, this.order (hP r c ch hch) u v p q e1 f1 e2 f2, f4⟩⟩

theorem ofNat_valid {v : Nat} (h : v ≤ 2 ^ 24) : (F32.ofNat v).Valid := by
  rcases Nat.eq_zero_or_pos v with h0 | h0
  · subst h0; rw [ofNat_zero]; trivial
  · rw [ofNat_pos h0 h]
    refine ⟨by exact_mod_cast Nat.pos_iff_ne_zero.mp h0, roundQ_of_repr (repr32_nat h), ?_⟩
    rw [ratAbs_eq]; exact nat_lt_128 h

theorem ofRat_valid {q : ℚ} (h0 : 0 ≤ q) (hlt : roundQ q < pow2 128) : (F32.ofRat q).Valid := by
  unfold F32.ofRat F32.round
  by_cases hz : q = 0
  · rw [if_pos hz]; trivial
  · rw [if_neg hz]
    by_cases hr : roundQ q = 0
    · rw [if_pos hr]; trivial
    · rw [if_neg hr, ratAbs_eq, abs_of_nonneg (roundQ_nonneg h0), if_neg (not_le.mpr hlt)]
      exact ⟨hr, roundQ_of_repr (roundQ_repr q), by rw [ratAbs_eq, abs_of_nonneg (roundQ_nonneg h0)]; exact hlt⟩

/-- Two integer samples in order. -/
theorem nat_pair {m n : Nat} (h : m ≤ n) (hn : n < 65536) : ∃ u v p q, some (F32.ofNat m) = some u ∧ some (F32.ofNat n) = some v ∧ u.Valid ∧ v.Valid ∧
    u.val? = some p ∧ v.val? = some q ∧ 0 ≤ p ∧ p ≤ q ∧ q ≤ (2 : ℚ) ^ 16 := by
  have hq : (n : ℚ) ≤ 65536 := by exact_mod_cast Nat.le_of_lt hn
  exact ⟨_, _, _, _, rfl, rfl, ofNat_valid (by omega), ofNat_valid (by omega), (ofNat_is (by omega)).1, (ofNat_is (by omega)).1, Nat.cast_nonneg _,
    by exact_mod_cast h, by norm_num; linarith⟩

/-- The float images of two sensors, and their demosaics at full size. -/
theorem float_pair (b : Build) (img : RawImage) (data' : List Nat) (cw ch : Nat) (hu : Usable img cw ch) (hu' : Usable { img with data := data' } cw ch)
    (hle : ∀ (i u v : Nat), img.data[i]? = some u → data'[i]? = some v → u ≤ v) :
    ∃ n buf buf' four four', convert b img = .ok buf ∧ convert b { img with data := data' } = .ok buf' ∧ Pair 16 cw ch n buf buf' ∧
      (n = 1 ∨ n = 4) ∧ fourChannels b img buf = .ok four ∧ fourChannels b { img with data := data' } buf' = .ok four' ∧ Pair 16 cw ch 4 four four' ∧
      (n = 1 → ∃ cfa, ∃ K : Nat → Nat → Nat, img.croppedCfa b = .ok cfa ∧ ∀ r c, r < ch → c < cw → cfa.colorAt b r c = .ok (K r c) ∧ K r c < 4) := by
  obtain ⟨t, r, bt, l, hc⟩ := hu.crops
  have hc' : CropsFit { img with data := data' } t r bt l cw ch := ⟨hc.crops, hc.width, hc.height, hc.cw_pos⟩
  have hcw := hc.cw_pos
  have hch := hu.rows
  have hW := hc.width
  have hH := hc.height
  obtain ⟨hsw, hsh⟩ := hu.small
  have four : ∀ (img : RawImage) (buf buf' : OpBuffer F32), Pair 16 cw ch 4 buf buf' →
      fourChannels b img buf = .ok buf ∧ fourChannels b img buf' = .ok buf' := by
    intro img buf buf' hp
    unfold fourChannels
    rw [if_pos hp.colors.1, if_pos hp.colors.2]
    exact ⟨rfl, rfl⟩
  have hlt : ∀ {i v}, data'[i]? = some v → v < 65536 := fun h => hu'.words _ (List.mem_of_getElem? h)
  rcases hu.kind with ⟨hk1, hk2⟩ | ⟨hk1, name, hn, hk2⟩ | hk
  · have hlen := hu.length
    have hlen' := hu'.length
    simp only [hk1, Nat.mul_one] at hlen hlen'
    obtain ⟨o, h1, h2, h3, h4, h5, h6⟩ := gofloat_mono b img t r bt l cw ch hc hk1 hk2 hlen
    obtain ⟨o', g1, g2, g3, g4, g5, g6⟩ := gofloat_mono b { img with data := data' } t r bt l cw ch hc' hk1 hk2 hlen'
    have hp : Pair 16 cw ch 4 o o' := by
      refine ⟨h2, g2, ⟨h3, g3⟩, ⟨h4, g4⟩, ⟨h5, g5⟩, fun r c k hr hcc hk => ?_⟩
      obtain ⟨u, u1, u2, u3⟩ := h6 r c hr hcc
      obtain ⟨v, v1, v2, v3⟩ := g6 r c hr hcc
      by_cases h : k < 3
      · rw [u2 k h, v2 k h]; exact nat_pair (hle _ u v u1 v1) (hlt v1)
      · have : k = 3 := by omega
        subst this
        rw [u3, v3]; exact nat_pair (Nat.le_refl 0) (by decide)
    exact ⟨4, o, o', o, o', h1, g1, hp, Or.inr rfl, (four _ o o' hp).1, (four _ o o' hp).2, hp, fun h => by omega⟩
  · have hlen := hu.length
    have hlen' := hu'.length
    simp only [hk1, Nat.mul_one] at hlen hlen'
    have hsize : patternSize name.length = some (img.cfa.width, img.cfa.height) := by
      obtain ⟨_, _, _, h⟩ := cfa_matches_name b name img.cfa hk2 hn 0 0 (by decide) (by decide); exact h
    have hcol : ∀ r c, ∃ k, patternColour name img.cfa.width img.cfa.height r c = some k := by
      intro r c
      obtain ⟨v, _, h2, _⟩ := cfa_matches_name b name img.cfa hk2 hn (r % img.cfa.height) (c % img.cfa.width)
        (by
          rcases patternSize_cases hsize with ⟨h0, _⟩ | ⟨_, _, h0, _, _, _, h48⟩
          · exact absurd (List.eq_nil_of_length_eq_zero h0) hn
          · have := Nat.mod_lt r h0; omega)
        (by
          rcases patternSize_cases hsize with ⟨h0, _⟩ | ⟨_, h0, _, _, _, h48, _⟩
          · exact absurd (List.eq_nil_of_length_eq_zero h0) hn
          · have := Nat.mod_lt c h0; omega)
      refine ⟨v, ?_⟩
      unfold patternColour at h2 ⊢
      rwa [Nat.mod_mod, Nat.mod_mod] at h2
    obtain ⟨K, hK⟩ := Classical.axiomOfChoice (fun rc : Nat × Nat => hcol (rc.1 + t) (rc.2 + l))
    have hvalid : img.cfa.isValid = true := by
      rcases patternSize_cases hsize with ⟨h0, _⟩ | ⟨_, h0, h0', _⟩
      · exact absurd (List.eq_nil_of_length_eq_zero h0) hn
      · unfold CFA.isValid
        simp only [bne_iff_ne, Bool.and_eq_true, ne_eq]
        exact ⟨by omega, by omega⟩
    obtain ⟨o, h1, h2, h3, h4, h5, h6⟩ := gofloat_bayer b img t r bt l cw ch hc hk1 hvalid hlen
    obtain ⟨o', g1, g2, g3, g4, g5, g6⟩ := gofloat_bayer b { img with data := data' } t r bt l cw ch hc' hk1 hvalid hlen'
    let S := fun r c => (img.data[img.width * (r + t) + (c + l)]?).getD 0
    let S' := fun r c => (data'[img.width * (r + t) + (c + l)]?).getD 0
    have hS : ∀ r c, r < ch → c < cw → img.data[img.width * (r + t) + (c + l)]? = some (S r c) ∧ data'[img.width * (r + t) + (c + l)]? = some (S' r c) := by
      intro row c h1 h2
      have := crop_index_lt hc.width hc.height h1 h2
      refine ⟨?_, ?_⟩
      · show _ = some ((img.data[_]?).getD 0)
        rw [List.getElem?_eq_getElem (by omega), Option.getD_some]
      · show _ = some ((data'[_]?).getD 0)
        rw [List.getElem?_eq_getElem (by omega), Option.getD_some]
    have hSS : ∀ r c, r < ch → c < cw → S r c ≤ S' r c ∧ S' r c < 65536 := fun r c h1 h2 =>
      ⟨hle _ _ _ (hS r c h1 h2).1 (hS r c h1 h2).2, hlt (hS r c h1 h2).2⟩
    obtain ⟨f, f1, f2, f3, f4, f5, f6⟩ := demosaic_full b img name t r bt l cw ch (fun r c => K (r, c)) S hc hk1 hk2 hn hlen (by omega) (by omega)
      (fun r c => hK (r, c)) (fun r c h1 h2 => (hS r c h1 h2).1) hu.words
    obtain ⟨f', f1', f2', f3', f4', f5', f6'⟩ := demosaic_full b { img with data := data' } name t r bt l cw ch (fun r c => K (r, c)) S' hc' hk1 hk2 hn
      hlen' (by simp only; omega) (by simp only; omega) (fun r c => hK (r, c)) (fun r c h1 h2 => (hS r c h1 h2).2) hu'.words
    rw [h1, ok_bind] at f1
    rw [g1, ok_bind] at f1'
    obtain ⟨cfa, e1, e2⟩ := cropped_cfa_aligned b img.cfa (.new hk2) t r bt l (by omega) (by omega)
    refine ⟨1, o, o', f, f', h1, g1, ?_, Or.inl rfl, ?_, ?_, ?_, fun _ => ⟨cfa, fun r c => K (r, c), ?_, ?_⟩⟩
    · refine ⟨h2, g2, ⟨h3, g3⟩, ⟨h4, g4⟩, ⟨h5, g5⟩, fun r c k hr hcc hk => ?_⟩
      obtain ⟨u, u1, u2⟩ := h6 r c hr hcc
      obtain ⟨v, v1, v2⟩ := g6 r c hr hcc
      have : k = 0 := by omega
      subst this
      rw [u2, v2]; exact nat_pair (hle _ u v u1 v1) (hlt v1)
    · unfold fourChannels; rw [if_neg (by omega)]; exact f1
    · unfold fourChannels; rw [if_neg (by omega)]; exact f1'
    · refine ⟨f5, f5', ⟨f2, f2'⟩, ⟨f3, f3'⟩, ⟨f4, f4'⟩, fun r c k hr hcc hk => ?_⟩
      obtain ⟨x1, x2⟩ := f6 r c hr hcc
      obtain ⟨y1, y2⟩ := f6' r c hr hcc
      by_cases hkc : k = K (r, c)
      · rw [hkc, x1, y1]; exact nat_pair (hSS r c hr hcc).1 (hSS r c hr hcc).2
      · obtain ⟨x3, x4⟩ := x2 k hk hkc
        obtain ⟨y3, y4⟩ := y2 k hk hkc
        rcases Nat.eq_zero_or_pos (measuring ch cw (fun r c => K (r, c)) r c k).card with h0 | h0
        · rw [x4 h0, y4 h0]; exact nat_pair (Nat.le_refl 0) (by decide)
        · rw [x3 h0, y3 h0]
          have hin : ∀ p ∈ measuring ch cw (fun r c => K (r, c)) r c k, S p.1 p.2 ≤ S' p.1 p.2 ∧ S' p.1 p.2 ≤ 65535 := by
            intro p hp
            simp only [measuring, around, Finset.mem_filter, Finset.mem_product, Finset.mem_range] at hp
            have := hSS p.1 p.2 (by omega) (by omega)
            omega
          generalize measuring ch cw (fun r c => K (r, c)) r c k = s at h0 hin ⊢
          have c0 : (0 : ℚ) < s.card := by exact_mod_cast h0
          have m0 : 0 ≤ meanAt s S := div_nonneg (Nat.cast_nonneg _) (le_of_lt c0)
          have m1 : meanAt s S ≤ meanAt s S' := by
            unfold meanAt
            apply div_le_div_of_nonneg_right _ (le_of_lt c0)
            exact_mod_cast Finset.sum_le_sum (fun p hp => (hin p hp).1)
          have m2 : meanAt s S' ≤ 65536 := by
            unfold meanAt
            rw [div_le_iff₀ c0]
            have h3 : ∑ p ∈ s, S' p.1 p.2 ≤ s.card * 65535 := by
              have := Finset.sum_le_card_nsmul s (fun p => S' p.1 p.2) 65535 (fun p hp => (hin p hp).2)
              simpa using this
            have h4 : ((∑ p ∈ s, S' p.1 p.2 : ℕ) : ℚ) ≤ ((s.card * 65535 : ℕ) : ℚ) := by exact_mod_cast h3
            push_cast at h4 ⊢
            linarith
          have r16 : Repr32 (65536 : ℚ) := by have := repr32_nat (n := 65536) (by decide); simpa using this
          have q2 := roundQ_le_of_repr r16 m2
          have q1 := roundQ_mono m1
          have big : (65536 : ℚ) < pow2 128 := by rw [pow2_128]; norm_num
          refine ⟨_, _, _, _, rfl, rfl, ofRat_valid m0 (by linarith), ofRat_valid (le_trans m0 m1) (by linarith),
            ofRat_val m0 (by linarith), ofRat_val (le_trans m0 m1) (by linarith), roundQ_nonneg m0, q1, by norm_num; linarith⟩
    · unfold RawImage.croppedCfa; rw [hc.crops]; exact e1
    · intro r c hr hcc
      obtain ⟨v, x1, x2, _⟩ := cfa_matches_name b name img.cfa hk2 hn (r + t) (c + l) (by omega) (by omega)
      rw [hK (r, c), Option.some.injEq] at x2
      subst x2
      exact ⟨by rw [e2 r c (by omega) (by omega)]; exact x1, patternColour_lt (hK (r, c))⟩
  · have hlen := hu.length
    have hlen' := hu'.length
    simp only [hk] at hlen hlen'
    obtain ⟨o, h1, h2, h3, h4, h5, h6⟩ := gofloat_rgb_actual b img t r bt l cw ch hc hk hlen
    obtain ⟨o', g1, g2, g3, g4, g5, g6⟩ := gofloat_rgb_actual b { img with data := data' } t r bt l cw ch hc' hk hlen'
    have hp : Pair 16 cw ch 4 o o' := by
      refine ⟨h2, g2, ⟨h3, g3⟩, ⟨h4, g4⟩, ⟨h5, g5⟩, fun r c k hr hcc hk => ?_⟩
      obtain ⟨u2, u3⟩ := h6 r c hr hcc
      obtain ⟨v2, v3⟩ := g6 r c hr hcc
      by_cases h : k < 3
      · obtain ⟨u, e1, e2⟩ := u2 k h
        obtain ⟨v, e3, e4⟩ := v2 k h
        rw [e2, e4]; exact nat_pair (hle _ u v e1 e3) (hlt e3)
      · have : k = 3 := by omega
        subst this
        rw [u3, v3]; exact nat_pair (Nat.le_refl 0) (by decide)
    exact ⟨4, o, o', o, o', h1, g1, hp, Or.inr rfl, (four _ o o' hp).1, (four _ o o' hp).2, hp, fun h => by omega⟩

/-- **C75, the first two stages.** Two images that differ only in their samples, the first nowhere brighter than the second, any
requested size that leaves a pixel: the demosaiced and scaled pictures have the same size, every sample lies from 0 to 65536, and the
first picture is nowhere brighter than the second. -/
theorem demosaic_order (b : Build) (img : RawImage) (data' : List Nat) (cw ch mw mh : Nat) (hu : Usable img cw ch)
    (hu' : Usable { img with data := data' } cw ch) (hw20 : cw ≤ 2 ^ 20) (hh20 : ch ≤ 2 ^ 20) (hmw : mw < 2 ^ 64) (hmh : mh < 2 ^ 64)
    (hasp : mw = 0 ∨ mh = 0 ∨ (cw ≤ mw ∧ ch ≤ mh) ∨ (ch ≤ cw * mh ∧ cw ≤ ch * mw))
    (hle : ∀ (i u v : Nat), img.data[i]? = some u → data'[i]? = some v → u ≤ v) :
    ∃ nw nh p p', (convert b img >>= fun buf => demosaicAndScale b img buf mw mh) = .ok p ∧
      (convert b { img with data := data' } >>= fun buf => demosaicAndScale b { img with data := data' } buf mw mh) = .ok p' ∧
      Ordered 16 nw nh p p' := by
  obtain ⟨t, r, bt, l, hc⟩ := hu.crops
  have hcw := hc.cw_pos
  have hch := hu.rows
  obtain ⟨n, buf, buf', four, four', e1, e2, hp, hn, e3, e4, hp4, hcfa⟩ := float_pair b img data' cw ch hu hu' hle
  rw [e1, ok_bind, e2, ok_bind]
  unfold demosaicAndScale
  simp only
  rw [hp.width.1, hp.height.1, hp.width.2, hp.height.2, hp.colors.1, hp.colors.2, e3, e4, ok_bind, ok_bind]
  by_cases h0 : mw = 0 ∨ mh = 0
  · have ht : targetSize cw ch mw mh = (.zero false, cw, ch) := by unfold targetSize; rw [if_pos h0]
    rw [ht]
    simp only
    rw [if_pos (Or.inl (lt_minScale _).2), if_neg (by decide +kernel), if_pos (Or.inl (lt_minScale _).2), if_neg (by decide +kernel)]
    exact ⟨cw, ch, four, four', rfl, rfl, hp4.ordered⟩
  · have hmw0 : 0 < mw := by omega
    have hmh0 : 0 < mh := by omega
    obtain ⟨s, nw, nh, ht, h1, h2⟩ := targetSize_spec hcw (by omega : cw ≤ 2 ^ 22) hch (by omega : ch ≤ 2 ^ 22) hmw0 hmw hmh0 hmh
    rw [ht]
    simp only
    have hone : F32.ofNat 1 = .fin 1 := by decide +kernel
    by_cases hs : 1 < s
    · obtain ⟨hg, hp1, hp2⟩ := h2 hs
      have hnw : 0 < nw := hp1 (by have := h1.mp hs; omega)
      have hnh : 0 < nh := hp2 (by have := h1.mp hs; omega)
      have nw20 : nw ≤ 2 ^ 20 := Nat.le_trans hg.width_src hw20
      have nh20 : nh ≤ 2 ^ 20 := Nat.le_trans hg.height_src hh20
      have hlt : (F32.ofNat 1).lt (.fin s) = true := by rw [hone]; simp only [F32.lt, decide_eq_true_eq]; exact hs
      by_cases hsmall : (F32.fin s).lt (minScale img.cfa.width) = true ∨ n ≠ 1
      · rw [if_pos hsmall, if_pos hlt, if_pos hsmall, if_pos hlt]
        obtain ⟨sa, sb⟩ := hp4.samplesOf
        obtain ⟨q, q', f1, f2, f3, f4, f5, f6, f7, f8, f9, f10, f11⟩ := scale_down_partial four four' 16 nw nh (by decide) hp4.wfa hp4.wfb
          (hp4.width.1.trans hp4.width.2.symm) (hp4.height.1.trans hp4.height.2.symm) (hp4.colors.1.trans hp4.colors.2.symm)
          (by rw [hp4.colors.1]; decide) (by rw [hp4.colors.1]) (by rw [hp4.width.1]; exact hcw) (by rw [hp4.width.1]; exact hw20)
          (by rw [hp4.height.1]; exact hch) (by rw [hp4.height.1]; exact hh20) hnw nw20 hnh nh20 sa sb
        rw [hp4.colors.1] at f9 f10 f11
        exact ⟨nw, nh, q, q', f1, f2, ordered_of_scaled f3 f4 f5 f6 f7 f8 f9 f10 (fun r c k hk y x hy hx _ _ =>
          hp4.below (hp4.height.1 ▸ hy) (hp4.width.1 ▸ hx) hk) f11⟩
      · rw [if_neg hsmall, if_neg hsmall]
        have hc1 : n = 1 := by
          by_contra hcc; exact hsmall (Or.inr hcc)
        subst hc1
        obtain ⟨cfa, K, k1, k2⟩ := hcfa rfl
        obtain ⟨sa, sb⟩ := hp.samplesOf
        obtain ⟨q, q', f1, f2, f3, f4, f5, f6, f7, f8, f9, f10, f11⟩ := scaled_partial b img cfa K buf buf' 16 nw nh (by decide) k1
          (fun y x hy hx => (k2 y x (hp.height.1 ▸ hy) (hp.width.1 ▸ hx)).1) (fun y x hy hx => (k2 y x (hp.height.1 ▸ hy) (hp.width.1 ▸ hx)).2)
          hp.wfa hp.wfb (hp.width.1.trans hp.width.2.symm) (hp.height.1.trans hp.height.2.symm) hp.colors.1 hp.colors.2
          (by rw [hp.width.1]; exact hcw) (by rw [hp.width.1]; exact hw20)
          (by rw [hp.height.1]; exact hch) (by rw [hp.height.1]; exact hh20) hnw nw20 hnh nh20 sa sb
        exact ⟨nw, nh, q, q', f1, f2, ordered_of_scaled f3 f4 f5 f6 f7 f8 f9 f10 (fun r c k hk y x hy hx _ _ _ =>
          hp.below (hp.height.1 ▸ hy) (hp.width.1 ▸ hx) (by decide)) f11⟩
    · have hno : ¬ (F32.ofNat 1).lt (.fin s) = true := by rw [hone]; simp only [F32.lt, decide_eq_true_eq]; exact hs
      have hmin := (lt_minScale img.cfa.width).1 s (not_lt.mp hs)
      rw [if_pos (Or.inl hmin), if_neg hno, if_pos (Or.inl hmin), if_neg hno]
      exact ⟨cw, ch, four, four', rfl, rfl, hp4.ordered⟩

/-! ## A column that is always black -/

/-- The sums of one output pixel of `scaled` are computed, and are zero if its columns are outside the source. -/
theorem scaled_sums {bd : Build} {cfa : CFA} {buf : OpBuffer F32} (hwf : buf.wf) (hk : buf.colors = 1) (hw : buf.width ≤ 2 ^ 24)
    (hh : buf.height ≤ 2 ^ 24) (hcfa : ∀ r c, r < buf.height → c < buf.width → ∃ k, cfa.colorAt bd r c = .ok k ∧ k < 4) (rs cs : F32) (row col : Nat) :
    ∃ s, forRange (calcSkips row buf.height rs).1 (calcSkips row buf.height rs).2.1 (fun y s =>
        forRange (calcSkips col buf.width cs).1 (calcSkips col buf.width cs).2.1 (fun x s =>
          scaledSource bd cfa buf (calcSkips row buf.height rs) (calcSkips col buf.width cs) y x s) s)
        (List.replicate 4 (F32.zero false), List.replicate 4 (F32.zero false)) = .ok s ∧ Four s ∧
      ((calcSkips col buf.width cs).2.1 ≤ (calcSkips col buf.width cs).1 →
        s = (List.replicate 4 (F32.zero false), List.replicate 4 (F32.zero false))) := by
  have hr := calcSkips_le row buf.height rs hh
  have hc := calcSkips_le col buf.width cs hw
  by_cases he : (calcSkips col buf.width cs).2.1 ≤ (calcSkips col buf.width cs).1
  · obtain ⟨s, h1, h2⟩ := forRange_total (fun s => s = (List.replicate 4 (F32.zero false), List.replicate 4 (F32.zero false)))
      (lo := (calcSkips row buf.height rs).1) (hi := (calcSkips row buf.height rs).2.1) rfl
      (f := fun y s => forRange (calcSkips col buf.width cs).1 (calcSkips col buf.width cs).2.1 (fun x s =>
        scaledSource bd cfa buf (calcSkips row buf.height rs) (calcSkips col buf.width cs) y x s) s)
      (fun y s _ _ hs => by rw [forRange_nil he]; exact ⟨s, rfl, hs⟩)
    exact ⟨s, h1, h2 ▸ four_zero, fun _ => h2⟩
  · obtain ⟨s, h1, h2⟩ := forRange_total Four (lo := (calcSkips row buf.height rs).1) (hi := (calcSkips row buf.height rs).2.1) four_zero
      (f := fun y s => forRange (calcSkips col buf.width cs).1 (calcSkips col buf.width cs).2.1 (fun x s =>
        scaledSource bd cfa buf (calcSkips row buf.height rs) (calcSkips col buf.width cs) y x s) s)
      (fun y s _ hy hs => forRange_total Four hs (fun x s _ hx hs => by
        unfold scaledSource
        obtain ⟨k, hk1, hk2⟩ := hcfa y x (by omega) (by omega)
        have := data_lt hwf (y := y) (x := x) (c := 0) (by omega) (by omega) (by omega)
        rw [hk] at this
        simp only
        rw [hk1, ok_bind, idx_lt (by omega), ok_bind]
        exact four_add hs hk2 _ _))
    exact ⟨s, h1, h2, fun h => absurd h he⟩

theorem meanOf_zero (c : Nat) : meanOf (List.replicate 4 (F32.zero false), List.replicate 4 (F32.zero false)) c = .zero false := by
  unfold meanOf
  by_cases hc : c < 4
  · simp only [List.getElem?_replicate_of_lt hc, Option.getD_some]; rfl
  · simp only [List.getElem?_eq_none (show (List.replicate 4 (F32.zero false)).length ≤ c by rw [List.length_replicate]; omega), Option.getD_none]; rfl

/-- The size of a picture of 18 megapixels that is made to fit 1000 by 1000, and the first source column of its last column. -/
theorem fit_thousand : targetSize 5184 3456 1000 1000 = (F32.ofRat (5184 / 1000), 1000, 666) ∧
    (calcSkips 999 5184 ((F32.ofNat 3456).div (F32.ofNat 666))).2.1 ≤ (calcSkips 999 5184 ((F32.ofNat 3456).div (F32.ofNat 666))).1 ∧
    (F32.ofRat (5184 / 1000)).lt (F32.ofNat 2) = false := by decide +kernel

/-- **C75, what a user would not expect.** The columns are spaced by the vertical scale, which is larger than the horizontal one by
the rounding of the height. A picture of 5184 by 3456 pixels made to fit 1000 by 1000 becomes 1000 by 666, and its last column is
black whatever the sensor measured, all white included. -/
theorem scale_last_column_black (b : Build) (img : RawImage) (name : Bytes) (hu : Usable img 5184 3456) (h1 : img.cpp = 1) (hn : name ≠ [])
    (hcfa : CFA.new name = .ok img.cfa) (h2 : img.cfa.width = 2) :
    ∃ out, (convert b img >>= fun buf => demosaicAndScale b img buf 1000 1000) = .ok out ∧ out.width = 1000 ∧ out.height = 666 ∧ out.colors = 4 ∧
      ∀ r ch, r < 666 → ch < 4 → out.at? r 999 ch = some (.zero false) := by
  obtain ⟨t, r, bt, l, hc⟩ := hu.crops
  have hvalid : img.cfa.isValid = true := by
    obtain ⟨_, _, _, hs⟩ := cfa_matches_name b name img.cfa hcfa hn 0 0 (by decide) (by decide)
    rcases patternSize_cases hs with ⟨h0, _⟩ | ⟨_, h0, h0', _⟩
    · exact absurd (List.eq_nil_of_length_eq_zero h0) hn
    · unfold CFA.isValid
      simp only [bne_iff_ne, Bool.and_eq_true, ne_eq]
      exact ⟨by omega, by omega⟩
  have hlen := hu.length
  rw [h1, Nat.mul_one] at hlen
  have hW := hc.width
  have hH := hc.height
  obtain ⟨hsw, hsh⟩ := hu.small
  obtain ⟨buf, g1, g2, g3, g4, g5, _⟩ := gofloat_bayer b img t r bt l 5184 3456 hc h1 hvalid hlen
  obtain ⟨cfa, e1, e2⟩ := cropped_cfa_aligned b img.cfa (.new hcfa) t r bt l (by omega) (by omega)
  have hcrop : img.croppedCfa b = .ok cfa := by unfold RawImage.croppedCfa; rw [hc.crops]; exact e1
  have hcol : ∀ r c, r < buf.height → c < buf.width → ∃ k, cfa.colorAt b r c = .ok k ∧ k < 4 := by
    intro r c hr hcc
    obtain ⟨v, f1, f2, _⟩ := cfa_matches_name b name img.cfa hcfa hn (r + t) (c + l) (by omega) (by omega)
    exact ⟨v, by rw [e2 r c (by omega) (by omega)]; exact f1, patternColour_lt f2⟩
  obtain ⟨t1, t2, t3⟩ := fit_thousand
  rw [g1, ok_bind]
  unfold demosaicAndScale
  simp only
  rw [g3, g4, g5, t1]
  simp only
  have hm : minScale img.cfa.width = F32.ofNat 2 := by rw [h2]; rfl
  rw [hm, t3, if_neg (by simp)]
  obtain ⟨S, hS⟩ := Classical.axiomOfChoice (fun rc : Nat × Nat =>
    scaled_sums (bd := b) g2 g5 (by omega) (by omega) hcol ((F32.ofNat 5184).div (F32.ofNat 1000)) ((F32.ofNat 3456).div (F32.ofNat 666)) rc.1 rc.2)
  have hi := means_image (nw := 1000) (nh := 666) (k := 4) (by decide) (by decide) (by decide) _ (fun r c => S (r, c))
    (fun r c _ _ => ⟨(hS (r, c)).1, (hS (r, c)).2.1⟩)
  refine ⟨ofPix 1000 666 4 (fun r c ch => meanOf (S (r, c)) ch), ?_, rfl, rfl, rfl, ?_⟩
  · rw [← hi]
    unfold scaled
    rw [hcrop, ok_bind, g3, g4]
    simp only [scaledPixel, g3, g4]
  · intro r ch hr hch
    rw [ofPix_at hr (by decide) hch]
    have hz := (hS (r, 999)).2.2 (by rw [g3]; exact t2)
    rw [hz, meanOf_zero]

/-! ## Examples -/

/-- The pattern RGGB exists. -/
theorem rggb_cfa : ∃ cfa, CFA.new (b! "RGGB") = .ok cfa ∧ cfa.width = 2 := by
  obtain ⟨cfa, h⟩ := (cfa_accepts (b! "RGGB")).1.mpr ⟨by decide, by decide⟩
  obtain ⟨_, _, _, hs⟩ := cfa_matches_name .debug (b! "RGGB") cfa h (by decide) 0 0 (by decide) (by decide)
  have : some (2, 2) = some (cfa.width, cfa.height) := hs
  simp only [Option.some.injEq, Prod.mk.injEq] at this
  exact ⟨cfa, h, this.1.symm⟩

/-- A sensor with the same value everywhere. -/
def flatSensor (w h v : Nat) (cfa : CFA) : RawImage := { grey w h .normal with cfa, data := List.replicate (w * h) v }

theorem flat_usable (w h v : Nat) (cfa : CFA) (hcfa : CFA.new (b! "RGGB") = .ok cfa) (hv : v < 65536) (hw : 0 < w) (hw2 : w ≤ 2 ^ 22) (hh : 0 < h)
    (hh2 : h ≤ 2 ^ 22) : Usable (flatSensor w h v cfa) w h where
  crops := ⟨0, 0, 0, 0, rfl, by show w = 0 + w + 0; omega, by show h = 0 + h + 0; omega, hw⟩
  rows := hh
  small := ⟨hw2, hh2⟩
  length := by show (List.replicate (w * h) v).length = w * h * 1; rw [List.length_replicate, Nat.mul_one]
  words := fun x hx => by rw [List.eq_of_mem_replicate hx]; exact hv
  arrays := ⟨rfl, rfl, rfl⟩
  kind := Or.inr (Or.inl ⟨rfl, b! "RGGB", by decide, hcfa⟩)

theorem flat_black (w h v : Nat) (cfa : CFA) (hcfa : CFA.new (b! "RGGB") = .ok cfa) (h2 : cfa.width = 2) (ew : w = 5184) (eh : h = 3456) (hv : v < 65536) :
    ∃ out, (convert .release (flatSensor w h v cfa) >>= fun buf => demosaicAndScale .release (flatSensor w h v cfa) buf 1000 1000) = .ok out ∧
    ∀ r ch, r < 666 → ch < 4 → out.at? r 999 ch = some (.zero false) := by
  have hu := flat_usable w h v cfa hcfa hv (by omega) (by omega) (by omega) (by omega)
  have hu' : Usable (flatSensor w h v cfa) 5184 3456 := by
    generalize flatSensor w h v cfa = img at hu
    rw [← ew, ← eh]; exact hu
  obtain ⟨out, h1, _, _, _, h2⟩ := scale_last_column_black .release (flatSensor w h v cfa) (b! "RGGB") hu' rfl (by decide) hcfa h2
  exact ⟨out, h1, h2⟩

/-- All white, and still a black column. -/
example : ∃ cfa out, CFA.new (b! "RGGB") = .ok cfa ∧ (convert .release (flatSensor 5184 3456 65535 cfa) >>= fun buf =>
      demosaicAndScale .release (flatSensor 5184 3456 65535 cfa) buf 1000 1000) = .ok out ∧
    ∀ r ch, r < 666 → ch < 4 → out.at? r 999 ch = some (.zero false) := by
  obtain ⟨cfa, h1, h2⟩ := rggb_cfa
  obtain ⟨out, h3, h4⟩ := flat_black 5184 3456 65535 cfa h1 h2 rfl rfl (by decide)
  exact ⟨cfa, out, h1, h3, h4⟩

/-- A darker and a brighter sensor keep their order at every place of the scaled picture. -/
example : ∃ nw nh p p', (convert .debug (grey 120 80 .normal) >>= fun buf => demosaicAndScale .debug (grey 120 80 .normal) buf 70 50) = .ok p ∧
    (convert .debug { grey 120 80 .normal with data := (List.range (120 * 80)).map (fun i => i % 1024 + i % 7) } >>= fun buf =>
      demosaicAndScale .debug { grey 120 80 .normal with data := (List.range (120 * 80)).map (fun i => i % 1024 + i % 7) } buf 70 50) = .ok p' ∧
    Ordered 16 nw nh p p' :=
  demosaic_order .debug (grey 120 80 .normal) ((List.range (120 * 80)).map (fun i => i % 1024 + i % 7)) 120 80 70 50
    (grey_usable 120 80 .normal (by decide) (by decide) (by decide) (by decide))
    { crops := ⟨0, 0, 0, 0, rfl, rfl, rfl, by decide⟩
      rows := by decide
      small := by show 120 ≤ 2 ^ 22 ∧ 80 ≤ 2 ^ 22; decide
      length := by simp only [List.length_map, List.length_range]; rfl
      words := by
        intro v hv
        simp only [List.mem_map, List.mem_range] at hv
        obtain ⟨i, _, rfl⟩ := hv
        omega
      arrays := ⟨rfl, rfl, rfl⟩
      kind := Or.inl ⟨rfl, rfl⟩ }
    (by decide) (by decide) (by decide) (by decide) (Or.inr (Or.inr (Or.inr (by decide)))) (fun i u v hu hv => by
      simp only [grey, List.getElem?_map, Option.map_eq_some_iff] at hu hv
      obtain ⟨j, j1, rfl⟩ := hu
      obtain ⟨j', j2, rfl⟩ := hv
      rw [j1] at j2
      cases j2
      omega)

/-- Three columns into two: the left one is the mean of two samples, the right one counts the middle sample by half. -/
example : scaleDown (ofPix 3 3 1 (fun _ c _ => F32.ofNat (12 * c))) 2 2 =
    .ok (ofPix 2 2 1 (fun _ c _ => if c = 0 then F32.ofNat 6 else F32.ofNat 20)) := by decide +kernel

/-- A flat source whose value is a power of two stays flat, whatever the weights. -/
example : scaleDown (ofPix 5 5 1 (fun _ _ _ => F32.ofNat 1024)) 3 3 = .ok (ofPix 3 3 1 (fun _ _ _ => F32.ofNat 1024)) := by decide +kernel

/-- Column 1 of 3 of a source of 5 pixels: pixel 2 has its centre inside, pixel 1 is near, pixel 4 is not. -/
example : CentreIn 5 3 1 2 ∧ NearTo 5 3 1 1 ∧ ¬ NearTo 5 3 1 4 ∧ ¬ CentreIn 5 3 1 1 := by decide

end Props

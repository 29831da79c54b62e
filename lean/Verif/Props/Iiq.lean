import Verif.Spec.Iiq
import Verif.Model.Dec.Iiq
import Verif.Lemmas.Cursor
import Verif.Lemmas.TiffEntry
import Verif.Lemmas.OpenFile
import Verif.Lemmas.FileExample
/-!
# C73: Phase One's files
-/

namespace Props
open Rust Spec Model Model.Ljpeg Model.HuffTable

variable {limit : Option Nat} {st : Nat → Nat} {at_ : Pump → Nat → Nat → Prop} {e : Nat}

/-! ## Numbers of bits -/

private theorem zeros_ok {b : Build} (hR : Reads (pumpMSB32 b) (fieldMSB st) limit at_) {rest : List Nat} : ∀ (m n j : Nat) (p : Pump), n + j = 5 → j + m ≤ 5 →
    Before st limit at_ e (List.replicate m 0 ++ ((if j + m < 5 then [1] else []) ++ rest)) p →
    ∃ p', Iiq.zeros b n j p = .ok (j + m, p') ∧ Before st limit at_ e rest p'
  | 0, n, j, p, hn, hm, hs => by
    rw [List.replicate_zero, List.nil_append, Nat.add_zero] at hs
    cases n with
    | zero =>
      rw [if_neg (by omega)] at hs
      exact ⟨p, rfl, hs⟩
    | succ n =>
      rw [if_pos (by omega)] at hs
      obtain ⟨p', g1, g2⟩ := Before.bits hR (n := 1) (v := 1) hs (by omega) (by omega)
      refine ⟨p', ?_, g2⟩
      unfold Iiq.zeros
      rw [g1]
      rfl
  | m + 1, n, j, p, hn, hm, hs => by
    obtain ⟨n, rfl⟩ : ∃ k, n = k + 1 := ⟨n - 1, by omega⟩
    rw [List.replicate_succ, List.cons_append] at hs
    obtain ⟨p', g1, g2⟩ := Before.bits hR (n := 1) (v := 0) hs (by omega) (by omega)
    obtain ⟨p'', g3, g4⟩ := zeros_ok hR m n (j + 1) p' (by omega) (by omega) (by rw [show j + 1 + m = j + (m + 1) by omega]; exact g2)
    refine ⟨p'', ?_, g4⟩
    unfold Iiq.zeros
    rw [g1, ok_bind]
    dsimp only
    rw [if_pos rfl, g3, show j + 1 + m = j + (m + 1) by omega]

private theorem newLen_ok {b : Build} (hR : Reads (pumpMSB32 b) (fieldMSB st) limit at_) {cg : Option Nat} {i : Nat} {len rest : List Nat} {p : Pump} (hi : i < len.length) (hk : ∀ k, cg = some k → k < 10)
    (hs : Before st limit at_ e (iiqChoiceBits cg ++ rest) p) :
    ∃ p', Iiq.newLen b i (len, p) = .ok ((match cg with | some k => len.set i (iiqLens.getD k 0) | none => len), p') ∧ Before st limit at_ e rest p' := by
  unfold Iiq.newLen
  cases cg with
  | none =>
    obtain ⟨p', g1, g2⟩ := zeros_ok hR 0 5 0 p (by omega) (by omega) hs
    refine ⟨p', ?_, g2⟩
    rw [g1]
    rfl
  | some k =>
    have hk := hk k rfl
    unfold iiqChoiceBits at hs
    simp only [List.append_assoc] at hs
    obtain ⟨p', g1, g2⟩ := zeros_ok hR (k / 2 + 1) 5 0 p (by omega) (by omega) (by rw [Nat.zero_add]; exact hs)
    obtain ⟨p'', g3, g4⟩ := Before.bits hR (n := 1) (v := k % 2) (by
      have : bitsOf 1 (k % 2) = [k % 2] := by
        rcases Nat.mod_two_eq_zero_or_one k with h | h <;> rw [h] <;> rfl
      rw [this]; exact g2) (by omega) (by omega)
    refine ⟨p'', ?_, g4⟩
    rw [g1, ok_bind]
    dsimp only
    rw [if_pos (by omega), g3, ok_bind]
    dsimp only
    have hidx : idx Iiq.lens ((0 + (k / 2 + 1) - 1) * 2 + k % 2) = .ok (iiqLens.getD k 0) := by
      rw [show (0 + (k / 2 + 1) - 1) * 2 + k % 2 = k by omega]
      exact (by decide : ∀ k, k < 10 → idx Iiq.lens k = .ok (iiqLens.getD k 0)) k hk
    rw [hidx, ok_bind, setIdx_lt hi]
    rfl

private theorem len_le {ch : Nat → Nat → Option Nat} {n i : Nat} (hi : i < 2) (hc : ∀ g, g < n → ∀ i, i < 2 → ∀ k, ch g i = some k → k < 10) : ∀ g, g ≤ n → iiqLen ch g i ≤ 14
  | 0, _ => Nat.zero_le _
  | g + 1, hg => by
    rw [iiqLen]
    cases h : ch g i with
    | none => exact len_le hi hc g (by omega)
    | some k => exact (by decide : ∀ k, k < 10 → iiqLens.getD k 0 ≤ 14) k (hc g (by omega) i hi k h)

/-! ## Samples -/

/-- The last samples of both parities. -/
private def preds (pic : Nat → Nat → Nat) (r c : Nat) : List Nat := [iiqPrev pic r (c + c % 2), iiqPrev pic r (c + (c + 1) % 2)]

private theorem preds_get (pic : Nat → Nat → Nat) (r c : Nat) : (preds pic r c)[c % 2]? = some (iiqPrev pic r c) := by
  unfold preds
  rcases Nat.mod_two_eq_zero_or_one c with h | h
  · rw [h]; rfl
  · rw [h, show (c + 1) % 2 = 0 by omega]; rfl

private theorem preds_set (pic : Nat → Nat → Nat) (r c : Nat) : setIdx (preds pic r c) (c % 2) (pic r c) = .ok (preds pic r (c + 1)) := by
  have : iiqPrev pic r (c + 2) = pic r c := by
    unfold iiqPrev
    rw [if_neg (by omega), Nat.add_sub_cancel]
  unfold preds
  rcases Nat.mod_two_eq_zero_or_one c with h | h
  · rw [h, show (c + 1) % 2 = 1 by omega, show c + 1 + 1 = c + 2 by omega, show (c + 2) % 2 = 0 by omega, this, Nat.add_zero]; rfl
  · rw [h, show (c + 1) % 2 = 0 by omega, show c + 1 + 1 = c + 2 by omega, show (c + 2) % 2 = 1 by omega, show c + 1 + 1 = c + 2 by omega, this, Nat.add_zero]; rfl

private theorem sample_ok {b : Build} (hR : Reads (pumpMSB32 b) (fieldMSB st) limit at_) {w r c : Nat} {pic : Nat → Nat → Nat} {ch : Nat → Nat → Option Nat} {len rest : List Nat} {p : Pump} (hc : c < w)
    (hp : ∀ c, c < w → pic r c < 65536) (hL : IiqLegal w pic ch r) (hlen : len[c % 2]? = some (iiqUsed w ch c)) (hs : Before st limit at_ e (iiqSampleBits w pic ch r c ++ rest) p) :
    ∃ p', (do
      let i ← idx len (c % 2)
      let (v, p) ← if i = 14 then (pumpMSB32 b).getBits p 16
        else do
          let q ← idx (preds pic r c) (c % 2)
          let (v, p) ← (pumpMSB32 b).getBits p i
          let q ← addU 32 b q v
          let q ← addU 32 b q 1
          let k ← subU 32 b i 1
          let k ← shlU 32 b 1 k
          let q ← subU 32 b q k
          .ok (q, p)
      let pred ← setIdx (preds pic r c) (c % 2) v
      let out ← setIdx (filled w w (fun _ c => pic r c) c) c (v % 65536)
      .ok (out, (⟨pred, len, p⟩ : Iiq.RowState))) = (.ok (filled w w (fun _ c => pic r c) (c + 1), ⟨preds pic r (c + 1), len, p'⟩) : M (List Nat × Iiq.RowState)) ∧
      Before st limit at_ e rest p' := by
  have fin : ∀ p', (do
      let pred ← setIdx (preds pic r c) (c % 2) (pic r c)
      let out ← setIdx (filled w w (fun _ c => pic r c) c) c (pic r c % 65536)
      .ok (out, (⟨pred, len, p'⟩ : Iiq.RowState))) = (.ok (filled w w (fun _ c => pic r c) (c + 1), ⟨preds pic r (c + 1), len, p'⟩) : M (List Nat × Iiq.RowState)) := by
    intro p'
    have hset := filled_set (w := w) (n := w) (r := 0) (c := c) (pix := fun _ c => pic r c) hc (by omega)
    rw [show 0 * w + c = c by omega] at hset
    rw [preds_set, ok_bind, Nat.mod_eq_of_lt (hp c hc), hset]
    rfl
  obtain ⟨l1, l2⟩ := hL.2 c hc
  have hle : iiqUsed w ch c ≤ 14 := by
    unfold iiqUsed
    split
    · exact len_le (by omega) hL.1 _ (by omega)
    · omega
  rw [idx_eq_ok.mpr hlen, ok_bind]
  unfold iiqSampleBits at hs
  dsimp only at hs
  by_cases h14 : iiqUsed w ch c = 14
  · rw [if_pos h14] at hs ⊢
    obtain ⟨p', g1, g2⟩ := hs.bits hR (by omega) (hp c hc)
    refine ⟨p', ?_, g2⟩
    rw [g1, ok_bind]
    exact fin p'
  · rw [if_neg h14] at hs ⊢
    have l2 := l2 h14
    have hprev : iiqPrev pic r c < 65536 := by
      unfold iiqPrev
      split
      · omega
      · exact hp _ (by omega)
    generalize hn : iiqUsed w ch c = n at *
    obtain ⟨m, rfl⟩ : ∃ m, n = m + 1 := ⟨n - 1, by omega⟩
    rw [Nat.add_sub_cancel] at *
    have hpow : 2 ^ m ≤ 2 ^ 13 := Nat.pow_le_pow_right (by omega) (by omega)
    have hv : pic r c + 2 ^ m - 1 - iiqPrev pic r c < 2 ^ (m + 1) := by
      rw [Nat.pow_succ]; omega
    have hpos := Nat.two_pow_pos m
    obtain ⟨p', g1, g2⟩ := hs.bits hR (by omega) hv
    refine ⟨p', ?_, g2⟩
    have hshl : shlU 32 b 1 m = .ok (2 ^ m) := by
      unfold shlU
      rw [if_pos (by omega), Nat.shiftLeft_eq, Nat.one_mul, Nat.mod_eq_of_lt (by omega)]
    rw [idx_eq_ok.mpr (preds_get pic r c), ok_bind, g1, ok_bind]
    dsimp only
    have hb := hp c hc
    rw [addU_ok (by omega), ok_bind, addU_ok (by omega), ok_bind, subU_ok (by omega), ok_bind, Nat.add_sub_cancel, hshl, ok_bind, subU_ok (by omega), ok_bind,
      show iiqPrev pic r c + (pic r c + 2 ^ m - 1 - iiqPrev pic r c) + 1 - 2 ^ m = pic r c by omega]
    exact fin p'

private theorem pixel_ok {b : Build} (hR : Reads (pumpMSB32 b) (fieldMSB st) limit at_) {w r c : Nat} {pic : Nat → Nat → Nat} {ch : Nat → Nat → Option Nat} {len rest : List Nat} {p : Pump} (hc : c < w)
    (hp : ∀ c, c < w → pic r c < 65536) (hL : IiqLegal w pic ch r) (hl2 : len.length = 2) (hlen : c ≤ w / 8 * 8 → len = [iiqLen ch ((c + 7) / 8) 0, iiqLen ch ((c + 7) / 8) 1])
    (hs : Before st limit at_ e (((if c < w / 8 * 8 ∧ c % 8 = 0 then iiqChoiceBits (ch (c / 8) 0) ++ iiqChoiceBits (ch (c / 8) 1) else []) ++ iiqSampleBits w pic ch r c) ++ rest) p) :
    ∃ len' p', Iiq.pixel b w c (filled w w (fun _ c => pic r c) c, ⟨preds pic r c, len, p⟩) = .ok (filled w w (fun _ c => pic r c) (c + 1), ⟨preds pic r (c + 1), len', p'⟩) ∧
      len'.length = 2 ∧ (c + 1 ≤ w / 8 * 8 → len' = [iiqLen ch ((c + 1 + 7) / 8) 0, iiqLen ch ((c + 1 + 7) / 8) 1]) ∧ Before st limit at_ e rest p' := by
  unfold Iiq.pixel
  dsimp only
  by_cases h1 : w / 8 * 8 ≤ c
  · rw [if_neg (by omega), List.nil_append] at hs
    have hlast : [14, 14][c % 2]? = some (iiqUsed w ch c) := by
      unfold iiqUsed
      rw [if_neg (by omega)]
      rcases Nat.mod_two_eq_zero_or_one c with h | h <;> rw [h] <;> rfl
    obtain ⟨p', g1, g2⟩ := sample_ok hR hc hp hL hlast hs
    refine ⟨[14, 14], p', ?_, rfl, fun h => absurd h (by omega), g2⟩
    obtain ⟨x, y, rfl⟩ : ∃ x y, len = [x, y] := by
      match len, hl2 with
      | [x, y], _ => exact ⟨x, y, rfl⟩
    rw [if_pos h1]
    exact g1
  · rw [if_neg h1]
    have hused : [iiqLen ch (c / 8 + 1) 0, iiqLen ch (c / 8 + 1) 1][c % 2]? = some (iiqUsed w ch c) := by
      unfold iiqUsed
      rw [if_pos (by omega)]
      rcases Nat.mod_two_eq_zero_or_one c with h | h <;> rw [h] <;> rfl
    by_cases h8 : c % 8 = 0
    · rw [if_pos ⟨by omega, h8⟩] at hs
      rw [if_pos h8]
      simp only [List.append_assoc] at hs
      have hlen := hlen (by omega)
      rw [show (c + 7) / 8 = c / 8 by omega] at hlen
      subst hlen
      obtain ⟨p1, a1, hs⟩ := newLen_ok hR (i := 0) (len := [iiqLen ch (c / 8) 0, iiqLen ch (c / 8) 1]) (by show 0 < 2; omega) (hL.1 _ (by omega) 0 (by omega)) hs
      have e1 : (match ch (c / 8) 0 with | some k => [iiqLen ch (c / 8) 0, iiqLen ch (c / 8) 1].set 0 (iiqLens.getD k 0) | none => [iiqLen ch (c / 8) 0, iiqLen ch (c / 8) 1]) =
          [iiqLen ch (c / 8 + 1) 0, iiqLen ch (c / 8) 1] := by
        rw [iiqLen]
        cases ch (c / 8) 0 <;> rfl
      rw [e1] at a1
      obtain ⟨p2, a2, hs⟩ := newLen_ok hR (i := 1) (len := [iiqLen ch (c / 8 + 1) 0, iiqLen ch (c / 8) 1]) (by show 1 < 2; omega) (hL.1 _ (by omega) 1 (by omega)) hs
      have e2 : (match ch (c / 8) 1 with | some k => [iiqLen ch (c / 8 + 1) 0, iiqLen ch (c / 8) 1].set 1 (iiqLens.getD k 0) | none => [iiqLen ch (c / 8 + 1) 0, iiqLen ch (c / 8) 1]) =
          [iiqLen ch (c / 8 + 1) 0, iiqLen ch (c / 8 + 1) 1] := by
        conv => rhs; rw [show iiqLen ch (c / 8 + 1) 1 = (match ch (c / 8) 1 with | some k => iiqLens.getD k 0 | none => iiqLen ch (c / 8) 1) from rfl]
        cases ch (c / 8) 1 <;> rfl
      rw [e2] at a2
      obtain ⟨p', g1, g2⟩ := sample_ok hR hc hp hL hused hs
      refine ⟨_, p', ?_, rfl, fun _ => by rw [show (c + 1 + 7) / 8 = c / 8 + 1 by omega], g2⟩
      have hloop : forRange 0 2 (Iiq.newLen b) ([iiqLen ch (c / 8) 0, iiqLen ch (c / 8) 1], p) = .ok ([iiqLen ch (c / 8 + 1) 0, iiqLen ch (c / 8 + 1) 1], p2) := by
        show (Iiq.newLen b 0 _ >>= fun s => Iiq.newLen b 1 s >>= fun s => .ok s) = _
        rw [a1, ok_bind, a2]
        rfl
      rw [hloop, ok_bind]
      exact g1
    · rw [if_neg (by omega), List.nil_append] at hs
      rw [if_neg h8]
      have hlen := hlen (by omega)
      rw [show (c + 7) / 8 = c / 8 + 1 by omega] at hlen
      subst hlen
      obtain ⟨p', g1, g2⟩ := sample_ok hR hc hp hL hused hs
      exact ⟨_, p', g1, rfl, fun _ => by rw [show (c + 1 + 7) / 8 = c / 8 + 1 by omega], g2⟩

private theorem line_ok (b : Build) {w r : Nat} {pic : Nat → Nat → Nat} {ch : Nat → Nat → Option Nat} {src : Bytes} (hp : ∀ c, c < w → pic r c < 65536) (hL : IiqLegal w pic ch r)
    (hf : Follows (swap32 (bytesOf src)) 0 (iiqLine w pic ch r)) (hl : (iiqLine w pic ch r).length ≤ 32 * (src.length / 4)) :
    ∃ s, forRange 0 (List.replicate w 0).length (Iiq.pixel b w) (List.replicate w 0, ⟨[0, 0], [0, 0], Pump.new src⟩) = .ok s ∧ s.1 = (List.range w).map (pic r) := by
  rw [List.length_replicate]
  obtain ⟨s, k1, k2, -⟩ := forRange_inv (fun c (s : List Nat × Iiq.RowState) => s.1 = filled w w (fun _ c => pic r c) c ∧ s.2.pred = preds pic r c ∧ s.2.len.length = 2 ∧
      (c ≤ w / 8 * 8 → s.2.len = [iiqLen ch ((c + 7) / 8) 0, iiqLen ch ((c + 7) / 8) 1]) ∧
      Before (swap32 (bytesOf src)) (some (32 * (src.length / 4))) (AtMSB src (swap32 (bytesOf src))) (iiqLine w pic ch r).length
        (((List.range w).drop c).flatMap (fun c =>
          (if c < w / 8 * 8 ∧ c % 8 = 0 then iiqChoiceBits (ch (c / 8) 0) ++ iiqChoiceBits (ch (c / 8) 1) else []) ++ iiqSampleBits w pic ch r c) ++ []) s.2.pump) (Nat.zero_le w)
    (f := Iiq.pixel b w) (s := (List.replicate w 0, ⟨[0, 0], [0, 0], Pump.new src⟩)) (by
      refine ⟨(filled_zero _ _ _).symm, rfl, rfl, fun _ => rfl, 0, 0, atMSB_new _ _, by rw [List.append_nil]; exact hf, by rw [List.append_nil, Nat.zero_add]; rfl, hl⟩) (by
      rintro c ⟨out, pred, len, p⟩ _ hc ⟨rfl, rfl, h2, h3, hs⟩
      rw [drop_range_flatMap hc, List.append_assoc] at hs
      obtain ⟨len', p', k1, k2, k3, k4⟩ := pixel_ok (readsMSB32 b src) hc hp hL h2 h3 hs
      exact ⟨_, k1, rfl, rfl, k2, k3, k4⟩)
  refine ⟨s, k1, ?_⟩
  rw [k2]
  unfold filled
  rw [Nat.sub_self, List.replicate_zero, List.append_nil]
  apply List.map_congr_left
  intro c hc
  show pic r (c % w) = pic r c
  rw [Nat.mod_eq_of_lt (List.mem_range.mp hc)]

/-- **Lossless** (C73): lines anywhere in the file. -/
theorem iiq_roundtrip (b : Build) (buffer : Bytes) (data strips w h : Nat) (pic : Nat → Nat → Nat) (ch : Nat → Nat → Nat → Option Nat) (hw : 0 < w)
    (hp : ∀ r c, r < h → c < w → pic r c < 65536) (hL : ∀ r, r < h → IiqLegal w pic (ch r) r)
    (ho : ∀ r, r < h → strips + r * 4 + 4 ≤ buffer.length ∧ data + wordAt buffer (strips + r * 4) ≤ buffer.length)
    (hf : ∀ r, r < h → Follows (swap32 (bytesOf (buffer.drop (data + wordAt buffer (strips + r * 4))))) 0 (iiqLine w pic (ch r) r))
    (hl : ∀ r, r < h → (iiqLine w pic (ch r) r).length ≤ 32 * ((buffer.drop (data + wordAt buffer (strips + r * 4))).length / 4)) :
    Iiq.decodeCompressed b buffer data strips w h = .ok (raster w h pic) := by
  unfold Iiq.decodeCompressed
  apply decodeThreaded_eq hw
  intro r hr
  obtain ⟨o1, o2⟩ := ho r hr
  obtain ⟨s, k1, k2⟩ := line_ok b (hp r · hr) (hL r hr) (hf r hr) (hl r hr)
  rw [show LEu32 buffer (strips + r * 4) = .ok (wordAt buffer (strips + r * 4)) from ru32_number (e := LITTLE_ENDIAN) o1, ok_bind, sliceFrom_le o2, ok_bind, k1, ok_bind, k2]

/-- Every picture can be stored. -/
theorem iiq_plain (w : Nat) (pic : Nat → Nat → Nat) (r : Nat) : IiqLegal w pic iiqPlain r := by
  have hused : ∀ c, iiqUsed w iiqPlain c = 14 := by
    intro c
    unfold iiqUsed
    split
    · rfl
    · rfl
  refine ⟨fun g _ i _ k hk => ?_, fun c _ => ⟨by rw [hused]; omega, fun h => absurd (hused c) h⟩⟩
  unfold iiqPlain at hk
  injection hk with hk
  omega

/-! ## Whole files -/

private theorem word_at {buffer : Bytes} {pos : Nat} (h : pos + 4 ≤ buffer.length) : LEu32 buffer pos = .ok (wordAt buffer pos) := ru32_number (e := LITTLE_ENDIAN) h

private theorem word_pad {contents pad : Bytes} {pos : Nat} (h : pos + 4 ≤ contents.length) : LEu32 (contents ++ pad) pos = .ok (wordAt contents pos) := by
  rw [word_at (by rw [List.length_append]; omega)]
  unfold wordAt
  rw [bytesAt_append h]

/-- The values found in the table. -/
private theorem entries_ok {contents pad : Bytes} {wb w h data strips black : Nat} (hlen : iiqTable contents + 8 + 16 * iiqCount contents ≤ contents.length)
    (h1 : IiqSays contents 0x107 wb) (h2 : IiqSays contents 0x108 w) (h3 : IiqSays contents 0x109 h) (h4 : IiqSays contents 0x10f data) (h5 : IiqSays contents 0x21c strips)
    (h6 : IiqSays contents 0x21d black) :
    forRange 0 (iiqCount contents) (Iiq.entry (contents ++ pad) (iiqTable contents)) {} = .ok ⟨wb + 8, w, h, data + 8, strips + 8, black / 4 % 65536⟩ := by
  obtain ⟨k1, a1, b1, c1, d1⟩ := h1
  obtain ⟨k2, a2, b2, c2, d2⟩ := h2
  obtain ⟨k3, a3, b3, c3, d3⟩ := h3
  obtain ⟨k4, a4, b4, c4, d4⟩ := h4
  obtain ⟨k5, a5, b5, c5, d5⟩ := h5
  obtain ⟨k6, a6, b6, c6, d6⟩ := h6
  obtain ⟨s, r1, r2, r3, r4, r5, r6, r7⟩ := forRange_inv (fun j (s : Iiq.Info) => (k1 < j → s.wbOffset = wb + 8) ∧ (k2 < j → s.width = w) ∧ (k3 < j → s.height = h) ∧
      (k4 < j → s.dataOffset = data + 8) ∧ (k5 < j → s.stripOffset = strips + 8) ∧ (k6 < j → s.black = black / 4 % 65536)) (Nat.zero_le (iiqCount contents))
    (f := Iiq.entry (contents ++ pad) (iiqTable contents)) (s := {}) (by refine ⟨?_, ?_, ?_, ?_, ?_, ?_⟩ <;> intro h <;> exact absurd h (Nat.not_lt_zero _)) (by
      rintro j s _ hj ⟨p1, p2, p3, p4, p5, p6⟩
      unfold Iiq.entry
      dsimp only
      rw [show iiqTable contents + (8 + j * 16) = iiqTable contents + 8 + 16 * j by omega, word_pad (by omega), ok_bind,
        show iiqTable contents + 8 + 16 * j + 12 = iiqTable contents + 20 + 16 * j by omega, word_pad (by omega), ok_bind]
      rw [show wordAt contents (iiqTable contents + 8 + 16 * j) = iiqTag contents j from rfl, show wordAt contents (iiqTable contents + 20 + 16 * j) = iiqData contents j from rfl]
      refine ⟨_, rfl, ?_⟩
      have step : ∀ {k tag v}, iiqTag contents k = tag → (∀ j, k < j → j < iiqCount contents → iiqTag contents j ≠ tag) → iiqData contents k = v → k < j + 1 →
          iiqTag contents j = tag ∧ iiqData contents j = v ∨ iiqTag contents j ≠ tag ∧ k < j := by
        intro k tag v e1 e2 e3 hk
        by_cases h : k < j
        · exact Or.inr ⟨e2 j h hj, h⟩
        · rw [show j = k by omega]
          exact Or.inl ⟨e1, e3⟩
      have hshift : ∀ x : Nat, x >>> 2 = x / 4 := fun x => Nat.shiftRight_eq_div_pow x 2
      refine ⟨fun hk => ?_, fun hk => ?_, fun hk => ?_, fun hk => ?_, fun hk => ?_, fun hk => ?_⟩
      · rcases step b1 d1 c1 hk with ⟨e1, e2⟩ | ⟨e1, e2⟩
        · rw [if_pos e1, e2]
        · rw [if_neg e1]
          repeat' split
          all_goals exact p1 e2
      · rcases step b2 d2 c2 hk with ⟨e1, e2⟩ | ⟨e1, e2⟩
        · rw [if_neg (by omega), if_pos e1, e2]
        · repeat' split
          all_goals first | exact p2 e2 | contradiction
      · rcases step b3 d3 c3 hk with ⟨e1, e2⟩ | ⟨e1, e2⟩
        · rw [if_neg (by omega), if_neg (by omega), if_pos e1, e2]
        · repeat' split
          all_goals first | exact p3 e2 | contradiction
      · rcases step b4 d4 c4 hk with ⟨e1, e2⟩ | ⟨e1, e2⟩
        · rw [if_neg (by omega), if_neg (by omega), if_neg (by omega), if_pos e1, e2]
        · repeat' split
          all_goals first | exact p4 e2 | contradiction
      · rcases step b5 d5 c5 hk with ⟨e1, e2⟩ | ⟨e1, e2⟩
        · rw [if_neg (by omega), if_neg (by omega), if_neg (by omega), if_neg (by omega), if_pos e1, e2]
        · repeat' split
          all_goals first | exact p5 e2 | contradiction
      · rcases step b6 d6 c6 hk with ⟨e1, e2⟩ | ⟨e1, e2⟩
        · rw [if_neg (by omega), if_neg (by omega), if_neg (by omega), if_neg (by omega), if_neg (by omega), if_pos e1, e2, hshift]
        · repeat' split
          all_goals first | exact p6 e2 | contradiction)
  rw [r1, ← r2 a1, ← r3 a2, ← r4 a3, ← r5 a4, ← r6 a5, ← r7 a6]

private theorem iiq_line_le (w : Nat) (pic : Nat → Nat → Nat) (ch : Nat → Nat → Option Nat) (r : Nat) : ∀ v ∈ iiqLine w pic ch r, v ≤ 1 := by
  have hch : ∀ c, ∀ v ∈ iiqChoiceBits c, v ≤ 1 := by
    intro c v hv
    unfold iiqChoiceBits at hv
    split at hv
    · rw [List.mem_singleton] at hv; omega
    · simp only [List.mem_append, List.mem_singleton] at hv
      rcases hv with (hv | hv) | hv
      · have := List.eq_of_mem_replicate hv; omega
      · split at hv
        · rw [List.mem_singleton] at hv; omega
        · cases hv
      · omega
  intro v hv
  unfold iiqLine iiqSampleBits at hv
  simp only [List.mem_flatMap, List.mem_append] at hv
  obtain ⟨c, _, hv | hv⟩ := hv
  · split at hv
    · rw [List.mem_append] at hv
      rcases hv with hv | hv <;> exact hch _ v hv
    · cases hv
  · split at hv <;> exact bitsOf_le _ _ v hv

/-- **C73**, whole files: the picture at the places the table names, with its black level and white balance. -/
theorem iiq_file (s : RawLoader) (env : Platform) (b : Build) {contents : Bytes} {big : Bool} {dirs : List Dir} {make model : Bytes} {o : Option Nat}
    (h : CameraFile contents big dirs make model o) (hmake : make ∈ [b! "Leaf", b! "Phase One A/S"]) (h560 : model ≠ b! "DCS560C")
    {cam : Camera} (hcam : Map.get s.cameras (make, model, []) = some cam)
    (hhead : 20 ≤ contents.length) (hlen : iiqTable contents + 8 + 16 * iiqCount contents ≤ contents.length) {wb w ht data strips black : Nat}
    (h1 : IiqSays contents 0x107 wb) (h2 : IiqSays contents 0x108 w) (h3 : IiqSays contents 0x109 ht) (h4 : IiqSays contents 0x10f data) (h5 : IiqSays contents 0x21c strips)
    (h6 : IiqSays contents 0x21d black) (hw : 0 < w) (hht : 0 < ht) (pic : Nat → Nat → Nat) (hp : ∀ r c, r < ht → c < w → pic r c < 65536)
    (ch : Nat → Nat → Nat → Option Nat) (hL : ∀ r, r < ht → IiqLegal w pic (ch r) r) {blacks : List Nat} (hb : BlacksOf cam w ht pic blacks)
    (hstrips : strips + 8 + 4 * ht ≤ contents.length) (hwb : wb + 20 ≤ contents.length) (pad rest : Nat → Bytes)
    (hpad : ∀ r, r < ht → ((packBits (iiqLine w pic (ch r) r)).length + (pad r).length) % 4 = 0)
    (hdata : ∀ r, r < ht → data + 8 + wordAt contents (strips + 8 + 4 * r) ≤ contents.length ∧
      contents.drop (data + 8 + wordAt contents (strips + 8 + 4 * r)) = swapWords (packBits (iiqLine w pic (ch r) r) ++ pad r) ++ rest r) :
    s.decodeSafe env b (.ok contents) = .ok (pictureOf cam (orientationOf o) w ht
      [F32.ofBits (wordAt contents (wb + 8)), F32.ofBits (wordAt contents (wb + 12)), F32.ofBits (wordAt contents (wb + 16)), .nan] (List.replicate 4 (black / 4 % 65536)) (raster w ht pic)) := by
  obtain ⟨root, hh, hc, hd⟩ := camera_decodes s env b h (k := .iiq) (by
    simp only [List.mem_cons, List.not_mem_nil, or_false] at hmake
    rcases hmake with rfl | rfl <;> decide) h560
  apply hd
  intro d hk ht'
  cases d <;> cases hk
  injection ht' with ht'; subst ht'
  show Iiq.image b (contents ++ List.replicate 16 0) _ s = _
  unfold Iiq.image RawLoader.checkSupported
  have hdec : Iiq.decodeCompressed b (contents ++ List.replicate 16 0) (data + 8) (strips + 8) w ht = .ok (raster w ht pic) := by
    have hword : ∀ r, r < ht → wordAt (contents ++ List.replicate 16 0) (strips + 8 + r * 4) = wordAt contents (strips + 8 + 4 * r) := by
      intro r hr
      unfold wordAt
      rw [Nat.mul_comm, bytesAt_append (by omega)]
    have hdrop : ∀ r, r < ht → (contents ++ List.replicate 16 0).drop (data + 8 + wordAt contents (strips + 8 + 4 * r)) =
        swapWords (packBits (iiqLine w pic (ch r) r) ++ pad r) ++ (rest r ++ List.replicate 16 0) := by
      intro r hr
      rw [List.drop_append_of_le_length (hdata r hr).1, (hdata r hr).2, List.append_assoc]
    refine iiq_roundtrip b _ _ _ w ht pic ch hw hp hL ?_ ?_ ?_
    · intro r hr
      have := (hdata r hr).1
      rw [hword r hr, List.length_append]
      omega
    · intro r hr
      rw [hword r hr, hdrop r hr]
      exact (follows_swapped (iiq_line_le w pic (ch r) r) (hpad r hr) _).1
    · intro r hr
      rw [hword r hr, hdrop r hr]
      exact (follows_swapped (iiq_line_le w pic (ch r) r) (hpad r hr) _).2
  rw [hc [] cam hcam, ok_bind, word_pad (by omega), ok_bind]
  dsimp only
  rw [show wordAt contents 16 + 8 = iiqTable contents from rfl, word_pad (by omega), ok_bind,
    show wordAt contents (iiqTable contents) = iiqCount contents from rfl, entries_ok hlen h1 h2 h3 h4 h5 h6, ok_bind]
  dsimp only
  rw [if_neg (by omega), hdec, ok_bind]
  unfold LEf32
  rw [word_pad (by omega), ok_bind, ok_bind, word_pad (by omega), ok_bind, ok_bind, word_pad (by omega), ok_bind, ok_bind]
  unfold okImageWithBlacklevels
  rw [image_new b o hb]
  rfl

/-! ## Example -/

section Example

/-- Two lines of ten samples: differences of 11 bits in the first, samples of 16 bits and differences of 12 bits in the second. -/
private def iiqPicture (r c : Nat) : Nat := 1000 + 3 * c + 20 * r

private def iiqChoice (r _g i : Nat) : Option Nat := if r = 0 then some 4 else if i = 0 then some 8 else some 7

private def iiqFile : Bytes :=
  [73, 73, 42, 0, 24, 0, 0, 0] ++
  [73, 73, 73, 73, 0, 0, 0, 0, 65, 0, 0, 0, 0, 0, 0, 0] ++
  [2, 0] ++
  [15, 1, 2, 0, 14, 0, 0, 0, 54, 0, 0, 0] ++
  [16, 1, 2, 0, 5, 0, 0, 0, 68, 0, 0, 0] ++
  [0, 0, 0, 0] ++
  [80, 104, 97, 115, 101, 32, 79, 110, 101, 32, 65, 47, 83, 0] ++
  [80, 32, 52, 53, 0] ++
  [6, 0, 0, 0, 0, 0, 0, 0] ++
  [8, 1, 0, 0, 4, 0, 0, 0, 4, 0, 0, 0, 10, 0, 0, 0] ++
  [9, 1, 0, 0, 4, 0, 0, 0, 4, 0, 0, 0, 2, 0, 0, 0] ++
  [15, 1, 0, 0, 4, 0, 0, 0, 4, 0, 0, 0, 177, 0, 0, 0] ++
  [28, 2, 0, 0, 4, 0, 0, 0, 4, 0, 0, 0, 169, 0, 0, 0] ++
  [29, 2, 0, 0, 4, 0, 0, 0, 4, 0, 0, 0, 6, 4, 0, 0] ++
  [7, 1, 0, 0, 4, 0, 0, 0, 4, 0, 0, 0, 217, 0, 0, 0] ++
  [0, 0, 0, 0, 20, 0, 0, 0] ++
  swapWords (packBits (iiqLine 10 iiqPicture (iiqChoice 0) 0) ++ [0, 0, 0]) ++
  swapWords (packBits (iiqLine 10 iiqPicture (iiqChoice 1) 1)) ++
  [0, 0, 192, 63, 0, 0, 128, 63, 0, 0, 0, 64]

private def iiqDir : Dir := .mk false [.plain ⟨0x10f, 2, [80, 104, 97, 115, 101, 32, 79, 110, 101, 32, 65, 47, 83, 0]⟩, .plain ⟨0x110, 2, [80, 32, 52, 53, 0]⟩]

private theorem iiq_stored : TiffFile 11 false iiqFile [iiqDir] := by
  refine ⟨by decide +kernel, by decide +kernel, 24, by decide, by decide +kernel, rfl, ?_⟩
  refine ⟨by decide, by decide +kernel, by decide, by decide +kernel, by decide +kernel, ?_⟩
  intro i it hi
  match i with
  | 0 => injection hi with hi; subst hi; stored_outside 54
  | 1 => injection hi with hi; subst hi; stored_outside 68
  | i + 2 => cases hi

private theorem iiq_camera : CameraFile iiqFile false [iiqDir] (b! "Phase One A/S") (b! "P 45") none where
  tiff := iiq_stored
  few := by decide
  notCiff := by decide +kernel
  notDng := lacks_one rfl rfl
  make := ⟨⟨by decide, by decide, by decide⟩, false, _, first_one rfl, rfl, 0, 0, [0], Or.inr rfl, rfl⟩
  model := ⟨⟨by decide, by decide, by decide⟩, false, _, first_one rfl, rfl, 0, 0, [0], Or.inr rfl, rfl⟩
  orientation := lacks_one rfl rfl

example (env : Platform) (b : Build) (cam : Camera) (hb : NoBlackAreas cam) :
    (loaderOf (b! "Phase One A/S") (b! "P 45") [] cam).decodeSafe env b (.ok iiqFile) =
    .ok (pictureOf cam .unknown 10 2 [F32.ofBits 0x3fc00000, F32.ofBits 0x3f800000, F32.ofBits 0x40000000, .nan] [257, 257, 257, 257]
      [1000, 1003, 1006, 1009, 1012, 1015, 1018, 1021, 1024, 1027, 1020, 1023, 1026, 1029, 1032, 1035, 1038, 1041, 1044, 1047]) := by
  have hs : ∀ k, k < 6 → IiqSays iiqFile (iiqTag iiqFile k) (iiqData iiqFile k) := by
    intro k hk
    exact ⟨k, (by decide +kernel : ∀ k, k < 6 → k < iiqCount iiqFile) k hk, rfl, rfl,
      (by decide +kernel : ∀ k, k < 6 → ∀ j, j < iiqCount iiqFile → k < j → iiqTag iiqFile j ≠ iiqTag iiqFile k) k hk |> fun h j h1 h2 => h j h2 h1⟩
  have e : ∀ k t d, k < 6 → iiqTag iiqFile k = t → iiqData iiqFile k = d → IiqSays iiqFile t d := fun k t d hk h1 h2 => h1 ▸ h2 ▸ hs k hk
  have := iiq_file (loaderOf (b! "Phase One A/S") (b! "P 45") [] cam) env b iiq_camera (by decide) (by decide) rfl (by decide +kernel) (by decide +kernel)
    (e 5 0x107 217 (by decide) (by decide +kernel) (by decide +kernel)) (e 0 0x108 10 (by decide) (by decide +kernel) (by decide +kernel))
    (e 1 0x109 2 (by decide) (by decide +kernel) (by decide +kernel)) (e 2 0x10f 177 (by decide) (by decide +kernel) (by decide +kernel))
    (e 3 0x21c 169 (by decide) (by decide +kernel) (by decide +kernel)) (e 4 0x21d 1030 (by decide) (by decide +kernel) (by decide +kernel)) (by decide) (by decide)
    iiqPicture (fun r c hr hc => (by decide : ∀ r, r < 2 → ∀ c, c < 10 → iiqPicture r c < 65536) r hr c hc) iiqChoice (by decide +kernel) (hb.blacks _ _ _)
    (by decide +kernel) (by decide +kernel) (fun r => if r = 0 then [0, 0, 0] else [])
    (fun r => iiqFile.drop (185 + 20 * (r + 1))) (by decide +kernel) (by decide +kernel)
  rw [show wordAt iiqFile (217 + 8) = 0x3fc00000 by decide +kernel, show wordAt iiqFile (217 + 12) = 0x3f800000 by decide +kernel,
    show wordAt iiqFile (217 + 16) = 0x40000000 by decide +kernel,
    show raster 10 2 iiqPicture = [1000, 1003, 1006, 1009, 1012, 1015, 1018, 1021, 1024, 1027, 1020, 1023, 1026, 1029, 1032, 1035, 1038, 1041, 1044, 1047] by decide +kernel] at this
  exact this

end Example

end Props

import Verif.Lemmas.Codes
import Verif.Props.LeafStrips
/-!
# C58: Hasselblad's pairs of samples
-/

namespace Props
open Rust Spec Model Model.HuffTable Model.Ljpeg

private theorem swap_swap {l : List UInt8} (h4 : l.length % 4 = 0) (tail : Bytes) (i : Nat) (hi : i < l.length) : swap32 (bytesOf (swapWords l ++ tail)) i = bytesOf l i := by
  unfold swap32
  have h1 : i / 4 * 4 + (3 - i % 4) < l.length := by omega
  unfold bytesOf swapWords
  rw [List.getElem?_append_left (by simpa using h1), List.getElem?_map, List.getElem?_range h1, Option.map_some]
  dsimp only
  rw [show (i / 4 * 4 + (3 - i % 4)) / 4 * 4 + (3 - (i / 4 * 4 + (3 - i % 4)) % 4) = i by omega]
  rw [List.getElem?_eq_getElem hi, List.getD_eq_getElem?_getD, List.getElem?_eq_getElem hi]
  rfl

private theorem follows_of_eq {st st' : Nat → Nat} {n : Nat} (h : ∀ i, i < n → st i = st' i) {l : List Nat} (hl : l.length ≤ 8 * n) (hf : Follows st' 0 l) : Follows st 0 l := by
  intro i hi
  rw [← hf i hi]
  unfold bitMSB
  rw [Nat.zero_add, h (i / 8) (by omega)]

private theorem pairs_le (t : TableSpec) (w h : Nat) (img : Nat → Nat → Nat → Nat) : ∀ x ∈ encodePairs t w h img, x ≤ 1 := by
  intro x hx
  unfold encodePairs encodePair encodeSymbol extraBits at hx
  simp only [List.mem_flatMap, List.mem_append] at hx
  obtain ⟨_, _, _, _, ((hx | hx) | hx) | hx⟩ := hx <;> exact bitsOf_le _ _ x hx

/-- One pair. -/
private theorem pair_ok {σ : Type} {P : PumpOps σ} {st : Nat → Nat} {limit : Option Nat} {at_ : σ → Nat → Nat → Prop} {b : Build} {t : TableSpec} {precision : Nat} {dngBug : Bool}
    (h : UsableTable t precision dngBug) {T : HuffTable} (hT : HuffTable.new b (0 :: t.counts) (padded t) precision dngBug = .ok T) (hR : Reads P (fieldMSB st) limit at_)
    {img : Nat → Nat → Nat → Nat} (himg : ∀ r p k, img r p k < 65536) {r p : Nat} (hcat : ∀ k, k < 2 → category (pairResidual img r p k) ∈ t.vals)
    {p1 p2 : Int} (hp1 : p1 % 65536 = ((if p = 0 then 0x8000 else img r (p - 1) 0 : Nat) : Int)) (hp2 : p2 % 65536 = ((if p = 0 then 0x8000 else img r (p - 1) 1 : Nat) : Int))
    (hb1 : -32768 * (p : Int) - 32768 ≤ p1 ∧ p1 ≤ 32768 * (p : Int) + 32768) (hb2 : -32768 * (p : Int) - 32768 ≤ p2 ∧ p2 ≤ 32768 * (p : Int) + 32768) (hp : p < 65534)
    {s : σ} {c a : Nat} {rest : List Nat} (hs : at_ s c a) (hf : Follows st c (encodePair t img r p ++ rest)) (hw : within limit (c + (encodePair t img r p ++ rest).length + 7)) :
    ∃ q1 q2 s' c' a', hasselbladPair b P T (List.replicate 2 0) (p1, p2, s) = .ok ([img r p 0, img r p 1], q1, q2, s') ∧ at_ s' c' a' ∧ Follows st c' rest ∧ within limit (c' + rest.length + 7) ∧
      q1 % 65536 = (img r p 0 : Int) ∧ q2 % 65536 = (img r p 1 : Int) ∧
      (-32768 * ((p + 1 : Nat) : Int) - 32768 ≤ q1 ∧ q1 ≤ 32768 * ((p + 1 : Nat) : Int) + 32768) ∧ (-32768 * ((p + 1 : Nat) : Int) - 32768 ≤ q2 ∧ q2 ≤ 32768 * ((p + 1 : Nat) : Int) + 32768) := by
  unfold encodePair at hf hw
  simp only [List.append_assoc] at hf hw
  obtain ⟨_, _, e1, _, e3⟩ := h.built hT
  have h16 : ∀ d, category d ∈ t.vals → category d = 16 → T.dngBug = false := by
    intro d hm hc
    obtain ⟨hlt, hval⟩ := h.symbol hm
    rw [h.length] at hlt
    rw [e3]
    refine (h.cat16 (t.vals.idxOf (category d)) hlt ?_).2
    rw [← padded_lt hlt, hval, hc]
  have d1 := diff16_range (img r p 0) (if p = 0 then 0x8000 else img r (p - 1) 0)
  have d2 := diff16_range (img r p 1) (if p = 0 then 0x8000 else img r (p - 1) 1)
  obtain ⟨s1, c1, a1, g1, h1, f1, w1⟩ := h.len_ok hT hR (hcat 0 (by omega)) hs hf hw
  obtain ⟨s2, c2, a2, g2, h2, f2, w2⟩ := h.len_ok hT hR (hcat 1 (by omega)) h1 f1 w1
  obtain ⟨s3, c3, a3, g3, h3, f3, w3⟩ := diff_ok (b := b) (T := T) (d := pairResidual img r p 0) hR d1.1 d1.2 (h16 _ (hcat 0 (by omega))) h2 f2 w2
  obtain ⟨s4, c4, a4, g4, h4, f4, w4⟩ := diff_ok (b := b) (T := T) (d := pairResidual img r p 1) hR d2.1 d2.2 (h16 _ (hcat 1 (by omega))) h3 f3 w3
  have m : ∀ (y : Int) (q v : Nat), v < 65536 → y % 65536 = q → (y + diff16 v q) % 65536 = v := by
    intro y q v hv hy
    unfold diff16
    have := Int.bmod_emod (x := (v : Int) - q) (m := 65536)
    push_cast at this
    omega
  have m1 := m p1 _ _ (himg r p 0) hp1
  have m2 := m p2 _ _ (himg r p 1) hp2
  change (p1 + pairResidual img r p 0) % 65536 = _ at m1
  change (p2 + pairResidual img r p 1) % 65536 = _ at m2
  change -32768 ≤ pairResidual img r p 0 ∧ pairResidual img r p 0 ≤ 32767 at d1
  change -32768 ≤ pairResidual img r p 1 ∧ pairResidual img r p 1 ≤ 32767 at d2
  have u : ∀ (y : Int) (v : Nat), y % 65536 = v → toU16 y = v := by
    intro y v hy
    unfold toU16
    rw [hy]; rfl
  refine ⟨p1 + pairResidual img r p 0, p2 + pairResidual img r p 1, s4, c4, a4, ?_, h4, f4, w4, m1, m2, ?_, ?_⟩
  · unfold hasselbladPair
    dsimp only
    rw [g1, ok_bind]; dsimp only
    rw [g2, ok_bind]; dsimp only
    rw [g3, ok_bind]; dsimp only
    rw [i32_small (by omega) (by omega), ok_bind, g4, ok_bind]; dsimp only
    rw [i32_small (by omega) (by omega), ok_bind, u _ _ m1, u _ _ m2]
    rfl
  · push_cast; omega
  · push_cast; omega

/-- C58: an image of `h` rows of `w` pairs of samples comes back from Hasselblad's format: the codes of both categories first, then both differences; every row starts from 0x8000; 32-bit words
with the lowest byte first. The data must fill whole words and have at least one byte more than the bits (the reader looks eight bits ahead). -/
theorem hasselblad_round_trip (b : Build) (dngBug : Bool) (precision pt fh fw n : Nat) (id sub : Nat → Nat) (tab : Nat → TableSpec) (w h : Nat) (img : Nat → Nat → Nat → Nat) (pad tail : Bytes)
    (hp : 12 ≤ precision) (hp' : precision ≤ 16) (hpt : pt < precision) (hpt' : pt < 16) (hfh : fh < 65536) (hfw0 : fw ≠ 0) (hfw : fw < 65536) (hn1 : 1 ≤ n) (hn4 : n ≤ 4)
    (hid : ∀ i, i < n → id i < 256) (hinj : ∀ i j, i < n → j < n → id i = id j → i = j) (hsub : ∀ i, i < n → sub i < 256) (hsub0 : sub 0 / 16 ≠ 2)
    (ht : ∀ i, i < n → UsableTable (tab i) precision dngBug) (himg : ∀ r p k, img r p k < 65536) (hw0 : 0 < w) (hw : w < 65535)
    (hcat : ∀ r p k, r < h → p < w → k < 2 → category (pairResidual img r p k) ∈ (tab 0).vals)
    (hpad : 1 ≤ pad.length) (hpad4 : ((packBits (encodePairs (tab 0) w h img)).length + pad.length) % 4 = 0) (x stripwidth height : Nat) :
    ∃ d, newFull b (encodeHasselblad precision pt fh fw n id sub tab w h img pad ++ tail) dngBug false = .ok d ∧
      d.decode b (List.replicate (2 * w * h) 0) x stripwidth (2 * w) height = .ok (raster (2 * w) h fun r c => img r (c / 2) (c % 2)) := by
  generalize hbits : encodePairs (tab 0) w h img = bits at *
  have hbits1 : ∀ x ∈ bits, x ≤ 1 := by rw [← hbits]; exact pairs_le _ _ _ _
  generalize hdata : swapWords (packBits bits ++ pad) ++ tail = data
  obtain ⟨d, T, hnew, hO⟩ := open_file b dngBug false precision pt fh fw n id id sub 8 tab data hp hp' hpt hpt' hfh hfw0 hfw hn1 hn4 hid hid (fun _ _ => rfl) hinj hsub (by decide) ht
  refine ⟨d, ?_, ?_⟩
  · rw [← hnew, ← hdata, ← hbits]
    unfold encodeHasselblad
    rw [List.append_assoc]
  have hcomp0 : idx d.sof.components 0 = .ok ⟨id 0, 0, 0, sub 0 >>> 4, sub 0 &&& 0xf⟩ := by
    rw [hO.sof]
    unfold compsAfter
    rw [idx_eq_ok.mpr (range_map_getElem? _ hn1), if_pos (show 0 < n from hn1)]
  unfold Decompressor.decode
  rw [hcomp0, ok_bind]
  dsimp only
  rw [Nat.shiftRight_eq_div_pow, if_neg (fun h => hsub0 h.1), if_neg (fun h => hsub0 h.1), if_neg (by rw [hO.predictor]; decide), if_pos hO.predictor]
  unfold decodeHasselblad
  rw [hO.tables 0 hn1, ok_bind, if_neg (by omega), hO.buffer]
  have hlenbits : bits.length ≤ 8 * (packBits bits).length := by unfold packBits; rw [List.length_map, List.length_range]; omega
  have hlenl : (packBits bits ++ pad).length = (packBits bits).length + pad.length := List.length_append
  have hlend : (packBits bits).length + pad.length ≤ data.length := by
    rw [← hdata, List.length_append]; unfold swapWords; rw [List.length_map, List.length_range, hlenl]; omega
  have hR := readsMSB32 b data
  have hf0 : Follows (swap32 (bytesOf data)) 0 bits := by
    refine follows_of_eq (st' := bytesOf (packBits bits)) (n := (packBits bits).length) ?_ hlenbits (follows_packBits hbits1)
    intro i hi
    rw [← hdata, swap_swap (by rw [hlenl]; exact hpad4) tail i (by omega)]
    unfold bytesOf
    rw [List.getElem?_append_left hi]
  have hw0' : within (some (32 * (data.length / 4))) (0 + bits.length + 7) := by
    show 0 + bits.length + 7 ≤ 32 * (data.length / 4)
    omega
  have hs0 := atMSB_new data (swap32 (bytesOf data))
  rw [← hbits] at hf0 hw0'
  unfold encodePairs at hf0 hw0'
  obtain ⟨hc1, hc2⟩ := chunks_replicate (n := 2 * w) (k := h) (by omega)
  obtain ⟨sf, k1, _⟩ := foldChunks_ok (f := fun line st => do
      let (line, _, _, st) ← foldChunks (hasselbladPair b (pumpMSB32 b) (T 0)) (chunks 2 line) (0x8000, 0x8000, st)
      .ok (line, st))
    (fun r (s : Pump) => ∃ c a, AtMSB data (swap32 (bytesOf data)) s c a ∧
      Follows (swap32 (bytesOf data)) c (((List.range h).drop r).flatMap fun r => (List.range w).flatMap (encodePair (tab 0) img r)) ∧
      within (some (32 * (data.length / 4))) (c + (((List.range h).drop r).flatMap fun r => (List.range w).flatMap (encodePair (tab 0) img r)).length + 7))
    (fun r => (List.range (2 * w)).map fun c => img r (c / 2) (c % 2)) (chunks (2 * w) (List.replicate (2 * w * h) 0)) 0 (Pump.new data) ⟨0, 0, hs0, by rw [List.drop_zero]; exact hf0, by rw [List.drop_zero]; exact hw0'⟩ (by
      intro r s hj hI
      rw [hc2 r hj]
      rw [hc1] at hj
      obtain ⟨c, a, i1, i2, i3⟩ := hI
      rw [Nat.zero_add] at i2 i3 ⊢
      rw [drop_range_flatMap hj] at i2 i3
      generalize hrest : (((List.range h).drop (r + 1)).flatMap fun r => (List.range w).flatMap (encodePair (tab 0) img r)) = rest at *
      obtain ⟨hd1, hd2⟩ := chunks_replicate (n := 2) (k := w) (by omega)
      obtain ⟨⟨q1, q2, s'⟩, l1, l2⟩ := foldChunks_ok (f := hasselbladPair b (pumpMSB32 b) (T 0))
        (fun p (s : Int × Int × Pump) => (∃ c a, AtMSB data (swap32 (bytesOf data)) s.2.2 c a ∧
          Follows (swap32 (bytesOf data)) c (((List.range w).drop p).flatMap (encodePair (tab 0) img r) ++ rest) ∧
          within (some (32 * (data.length / 4))) (c + (((List.range w).drop p).flatMap (encodePair (tab 0) img r) ++ rest).length + 7)) ∧
          s.1 % 65536 = ((if p = 0 then 0x8000 else img r (p - 1) 0 : Nat) : Int) ∧ s.2.1 % 65536 = ((if p = 0 then 0x8000 else img r (p - 1) 1 : Nat) : Int) ∧
          (-32768 * (p : Int) - 32768 ≤ s.1 ∧ s.1 ≤ 32768 * (p : Int) + 32768) ∧ (-32768 * (p : Int) - 32768 ≤ s.2.1 ∧ s.2.1 ≤ 32768 * (p : Int) + 32768))
        (fun p => [img r p 0, img r p 1]) (chunks 2 (List.replicate (2 * w) 0)) 0 (0x8000, 0x8000, s)
        ⟨⟨c, a, i1, by rw [List.drop_zero]; exact i2, by rw [List.drop_zero]; exact i3⟩, rfl, rfl, by dsimp only; omega, by dsimp only; omega⟩ (by
          rintro p ⟨p1, p2, s⟩ hj' ⟨⟨c, a, j1, j2, j3⟩, j4, j5, j6, j7⟩
          rw [hd2 p hj']
          rw [hd1] at hj'
          rw [Nat.zero_add] at *
          rw [drop_range_flatMap hj', List.append_assoc] at j2 j3
          obtain ⟨q1, q2, s', c', a', g1, g2, g3, g4, g5, g6, g7, g8⟩ := pair_ok (ht 0 hn1) (hO.codes 0 hn1).1 hR himg (hcat r p · hj hj') j4 j5 j6 j7 (by omega) j1 j2 j3
          refine ⟨(q1, q2, s'), g1, ⟨c', a', g2, g3, g4⟩, ?_, ?_, g7, g8⟩
          · rw [if_neg (by omega), Nat.add_sub_cancel]; exact g5
          · rw [if_neg (by omega), Nat.add_sub_cancel]; exact g6)
      obtain ⟨⟨c', a', m1, m2, m3⟩, _⟩ := l2
      rw [Nat.zero_add, hd1, List.drop_eq_nil_of_le (by simp), List.flatMap_nil, List.nil_append] at m2 m3
      refine ⟨s', ?_, c', a', m1, m2, m3⟩
      rw [l1, ok_bind]
      dsimp only
      rw [hd1, ← List.range_eq_range']
      congr 2
      have := raster_eq_flatMap 2 w (fun p k => img r p k)
      unfold raster at this
      rw [this]
      rfl)
  rw [k1, ok_bind]
  dsimp only
  rw [hc1, ← List.range_eq_range', ← raster_eq_flatMap]

/-- Two rows of one pair. -/
private def samplePairs (r p k : Nat) : Nat := (32700 + 11 * r + 30 * p + 100 * k) % 65536

example : (do let d ← newFull .release (encodeHasselblad 16 0 2 2 1 id (fun _ => 0x11) (fun _ => tableK3) 1 2 samplePairs [1, 2, 3, 4, 5, 6]) true false
              d.decode .release [0, 0, 0, 0] 0 2 2 2) = .ok [32700, 32800, 32711, 32811] := by decide +kernel

private theorem tableK3_usable16 : UsableTable tableK3 16 true :=
  ⟨⟨rfl, by decide⟩, ⟨by decide, by decide⟩, by decide, ⟨by decide, by decide, by decide⟩, Or.inr (Or.inl (by decide)), by decide, by decide⟩

example (b : Build) : ∃ d, newFull b (encodeHasselblad 16 0 2 2 1 id (fun _ => 0x11) (fun _ => tableK3) 1 2 samplePairs [1, 2, 3, 4, 5, 6] ++ [9]) true false = .ok d ∧
    d.decode b (List.replicate (2 * 1 * 2) 0) 0 2 (2 * 1) 2 = .ok (raster (2 * 1) 2 fun r c => samplePairs r (c / 2) (c % 2)) :=
  hasselblad_round_trip b true 16 0 2 2 1 id (fun _ => 0x11) (fun _ => tableK3) 1 2 samplePairs [1, 2, 3, 4, 5, 6] [9] (by decide) (by decide) (by decide) (by decide) (by decide) (by decide) (by decide) (by decide) (by decide)
    (fun i hi => by simp only [id]; omega) (fun i j _ _ h => h) (fun _ _ => by decide) (by decide) (fun _ _ => tableK3_usable16) (fun r p k => Nat.mod_lt _ (by decide)) (by decide) (by decide)
    (fun r p k hr hp hk => (show ∀ r, r < 2 → ∀ p, p < 1 → ∀ k, k < 2 → category (pairResidual samplePairs r p k) ∈ tableK3.vals by decide +kernel) r hr p hp k hk) (by decide) (by decide +kernel) 0 2 2

end Props

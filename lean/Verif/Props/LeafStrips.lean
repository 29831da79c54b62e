import Verif.Props.Ljpeg
import Verif.Props.Markers
import Verif.Lemmas.Strips
/-!
# C57: Leaf's compressed strips
-/

namespace Props
open Rust Spec Model Model.HuffTable Model.Ljpeg

theorem eq_raster {w h : Nat} {l : List Nat} {pix : Nat → Nat → Nat} (hlen : l.length = w * h) (hl : ∀ r c, r < h → c < w → l[r * w + c]? = some (pix r c)) : l = raster w h pix := by
  apply List.ext_getElem?
  intro i
  by_cases hi : i < w * h
  · have hw : 0 < w := Nat.pos_of_ne_zero fun h0 => by subst h0; simp at hi
    have e : i = i / w * w + i % w := by rw [Nat.mul_comm]; exact (Nat.div_add_mod i w).symm
    have h1 : i / w < h := by rw [Nat.div_lt_iff_lt_mul hw, Nat.mul_comm]; exact hi
    have h2 : i % w < w := Nat.mod_lt _ hw
    rw [e, hl _ _ h1 h2, raster_getElem? _ _ _ _ _ h1 h2]
  · rw [List.getElem?_eq_none (by omega), List.getElem?_eq_none (by rw [raster_length]; omega)]

/-! ## Finding the strips -/

/-- In stuffed data every 0xff is followed by zero. -/
theorem stuff_ff : ∀ (l : List UInt8) (i : Nat), i < (stuff l).length → bytesOf (stuff l) i = 0xff → i + 1 < (stuff l).length ∧ bytesOf (stuff l) (i + 1) = 0 := by
  intro l
  induction l with
  | nil => intro i hi; simp [stuff] at hi
  | cons x l ih =>
    intro i hi hb
    unfold stuff at hi hb ⊢
    by_cases hx : x = 0xff
    · rw [if_pos hx] at hi hb ⊢
      match i with
      | 0 => simp [bytesOf]
      | 1 => simp [bytesOf] at hb
      | i + 2 =>
        have := ih i (by simpa using hi) (by simpa [bytesOf] using hb)
        refine ⟨by have := this.1; simp; omega, ?_⟩
        have := this.2
        simpa [bytesOf] using this
    · rw [if_neg hx] at hi hb ⊢
      match i with
      | 0 =>
        exfalso; apply hx
        simp [bytesOf] at hb
        exact UInt8.toNat_inj.mp (by simpa using hb)
      | i + 1 =>
        have := ih i (by simpa using hi) (by simpa [bytesOf] using hb)
        simpa [bytesOf] using this

/-- Where strip `q` starts. -/
private def starts (chunk : Nat → Bytes) (q : Nat) : Nat := ((List.range q).flatMap chunk).length

private theorem starts_succ (chunk : Nat → Bytes) (q : Nat) : starts chunk (q + 1) = starts chunk q + (chunk q).length := by
  unfold starts
  rw [List.range_succ, List.flatMap_append, List.length_append]
  simp

private theorem drop_starts {chunk : Nat → Bytes} {n q : Nat} (hq : q < n) (tail : Bytes) :
    ((List.range n).flatMap chunk ++ tail).drop (starts chunk q) = chunk q ++ (((List.range n).drop (q + 1)).flatMap chunk ++ tail) := by
  have h1 : (List.range n).flatMap chunk = (List.range q).flatMap chunk ++ (chunk q ++ ((List.range n).drop (q + 1)).flatMap chunk) := by
    conv => lhs; rw [← List.take_append_drop q (List.range n)]
    rw [List.flatMap_append, List.take_range, Nat.min_eq_left (Nat.le_of_lt hq)]
    congr 1
    rw [List.drop_eq_getElem_cons (by simpa using hq), List.flatMap_cons]
    simp
  rw [h1, List.append_assoc]
  unfold starts
  rw [List.drop_left, List.append_assoc]

/-- The marker at the end of a strip is the next one to be found. -/
private theorem next_marker {data : Bytes} {pos : Nat} {l : List UInt8} {m : UInt8} {rest : Bytes} (hd : data.drop pos = stuff l ++ 0xff :: m :: rest) (h0 : m ≠ 0) (hff : m ≠ 0xff) :
    getNextMarker ⟨data, pos, BIG_ENDIAN⟩ true = .ok (m.toNat, ⟨data, pos + (stuff l).length + 2, BIG_ENDIAN⟩) := by
  have hlen : data.length - pos = (stuff l).length + (rest.length + 2) := by
    have := congrArg List.length hd
    simpa using this
  have hb : ∀ i, bytesOf data (pos + i) = bytesOf (stuff l ++ 0xff :: m :: rest) i := by
    intro i
    rw [← hd]
    unfold bytesOf
    rw [List.getElem?_drop]
  have hin : ∀ i, i < (stuff l).length → bytesOf data (pos + i) = bytesOf (stuff l) i := by
    intro i hi
    rw [hb]
    unfold bytesOf
    rw [List.getElem?_append_left hi]
  have hend : ∀ i, bytesOf data (pos + (stuff l).length + i) = bytesOf (0xff :: m :: rest) i := by
    intro i
    rw [Nat.add_assoc, hb]
    unfold bytesOf
    rw [List.getElem?_append_right (by omega), Nat.add_sub_cancel_left]
  have hq0 : bytesOf data (pos + (stuff l).length) = 0xff := by have := hend 0; rw [Nat.add_zero] at this; rw [this]; rfl
  have hq1 : bytesOf data (pos + (stuff l).length + 1) = m.toNat := by rw [hend 1]; rfl
  have hm0 : m.toNat ≠ 0 := fun h => h0 (UInt8.toNat_inj.mp (by simpa using h))
  have hmff : m.toNat ≠ 0xff := fun h => hff (UInt8.toNat_inj.mp (by simpa using h))
  have := marker_search_first ⟨data, pos, BIG_ENDIAN⟩ (pos + (stuff l).length) (by dsimp only; omega) (by dsimp only; omega) (by
      unfold MarkerAt
      dsimp only
      rw [hq0, hq1]
      exact ⟨rfl, hm0, hmff⟩) (by
      intro i h1 h2 hma
      dsimp only at h1 h2 hma
      obtain ⟨k, rfl⟩ : ∃ k, i = pos + k := ⟨i - pos, by omega⟩
      unfold MarkerAt at hma
      rw [hin k (by omega)] at hma
      obtain ⟨g1, g2⟩ := stuff_ff l k (by omega) hma.1
      rw [Nat.add_assoc, hin (k + 1) g1] at hma
      exact hma.2.1 g2)
  unfold getNextMarker
  rw [if_neg (by decide), this, ok_bind]
  dsimp only
  unfold ByteStream.getU8 ByteStream.peekU8
  dsimp only
  rw [byteAt_lt (by omega), hq1]
  rfl

private theorem offsets_ok {chunk : Nat → Bytes} {enc : Nat → List UInt8} {mark : Nat → UInt8} {n : Nat} {tail data : Bytes} (hn : 0 < n)
    (hchunk : ∀ q, chunk q = stuff (enc q) ++ [0xff, if q + 1 < n then mark q else 0xd9]) (hm : ∀ q, mark q ≠ 0 ∧ mark q ≠ 0xff ∧ mark q ≠ 0xd9)
    (hdata : data = (List.range n).flatMap chunk ++ tail) : ∀ (k q fuel : Nat) (acc : List Nat), q + k + 1 = n → k < fuel →
      leafOffsets fuel ⟨data, starts chunk q, BIG_ENDIAN⟩ acc = .ok (acc ++ (List.range' (q + 1) k).map (starts chunk)) := by
  have hmk : ∀ q, q < n → getNextMarker ⟨data, starts chunk q, BIG_ENDIAN⟩ true = .ok ((if q + 1 < n then mark q else 0xd9).toNat, ⟨data, starts chunk (q + 1), BIG_ENDIAN⟩) := by
    intro q hq
    have hd := drop_starts (chunk := chunk) hq tail
    rw [← hdata, hchunk q, List.append_assoc] at hd
    have := next_marker (l := enc q) (m := if q + 1 < n then mark q else 0xd9) hd (by split <;> [exact (hm q).1; decide]) (by split <;> [exact (hm q).2.1; decide])
    rw [this, starts_succ, hchunk q, List.length_append]
    rfl
  intro k
  induction k with
  | zero =>
    intro q fuel acc hk hf
    obtain ⟨fuel, rfl⟩ : ∃ f, fuel = f + 1 := ⟨fuel - 1, by omega⟩
    rw [leafOffsets, hmk q (by omega), if_neg (by omega)]
    simp
  | succ k ih =>
    intro q fuel acc hk hf
    obtain ⟨fuel, rfl⟩ : ∃ f, fuel = f + 1 := ⟨fuel - 1, by omega⟩
    rw [leafOffsets, hmk q (by omega), if_pos (by omega)]
    dsimp only
    rw [if_neg (fun h => (hm q).2.2 (UInt8.toNat_inj.mp (by simpa using h))), ih (q + 1) fuel _ (by omega) (by omega), List.range'_succ, List.map_cons, List.append_assoc]
    rfl

/-- C57: an image of `h` rows of `w` pairs of samples, cut into strips of eight rows that are encoded independently, comes back. The parser runs with the two options the MOS decoder uses. -/
theorem leaf_strips_round_trip (b : Build) (precision pt fh fw h w : Nat) (sel sub : Nat → Nat) (pred : Nat) (tab : Nat → TableSpec) (img : Nat → Nat → Nat → Nat) (mark : Nat → UInt8) (tail : Bytes)
    (hp : 12 ≤ precision) (hp' : precision ≤ 16) (hpt : pt < precision) (hpt' : pt < 16) (hfh : fh < 65536) (hfw0 : fw ≠ 0) (hfw : fw < 65536) (hh : 0 < h) (hw : 0 < w)
    (hsel : ∀ i, i < 2 → sel i < 256) (hsub : ∀ i, i < 2 → sub i < 256) (hpred : pred < 256) (ht : ∀ i, i < 2 → UsableTable (tab i) precision true)
    (himg : ∀ r p k, img r p k < 65536) (hmark : ∀ q, mark q ≠ 0 ∧ mark q ≠ 0xff ∧ mark q ≠ 0xd9)
    (hcat : ∀ q r p k, r < min 8 (h - q * 8) → p < w → k < 2 → category (residual (2 ^ (precision - pt - 1)) (fun r => img (q * 8 + r)) r p k) ∈ (tab k).vals)
    (htail : 2 ≤ tail.length) :
    ∃ d, newFull b (encodeLeaf precision pt fh fw h w sel sub pred tab img mark ++ tail) true true = .ok d ∧
      d.decodeLeaf b (w * 2) h = .ok (raster (w * 2) h fun r c => img r (c / 2) (c % 2)) := by
  generalize hchunk : leafChunk w h (fun k => encodeDiff (tab k).lens (tab k).vals) (2 ^ (precision - pt - 1)) img mark = chunk
  generalize hn : (h + 7) / 8 = n
  generalize hdata : (List.range n).flatMap chunk ++ tail = data
  obtain ⟨d, T, hnew, hO⟩ := open_file b true true precision pt fh fw 2 (fun i => i) sel sub pred tab data hp hp' hpt hpt' hfh hfw0 hfw (by omega) (by omega)
    (fun i hi => by omega) hsel (fun i _ => by rw [if_pos rfl]) (fun i j _ _ h => h) hsub hpred ht
  refine ⟨d, ?_, ?_⟩
  · rw [← hnew, ← hdata, ← hchunk, ← hn]
    unfold encodeLeaf leafData
    rw [List.append_assoc]
  have hchunkq : ∀ q, chunk q = stuff (packBits (encodeScan 2 w (min 8 (h - q * 8)) (fun k => encodeDiff (tab k).lens (tab k).vals) (2 ^ (precision - pt - 1)) fun r => img (q * 8 + r))) ++
      [0xff, if q + 1 < n then mark q else 0xd9] := by
    intro q; rw [← hchunk, ← hn]; rfl
  have hbase16 := hO.base16
  have hbaseP := hO.base
  generalize 2 ^ (precision - pt - 1) = base at *
  have hoff := offsets_ok (data := data) (tail := tail) (n := n) (by omega) hchunkq hmark hdata.symm (n - 1) 0 (data.length + 1) [0] (by omega) (by
    have h1 : ∀ q, q ≤ starts chunk q := by
      intro q
      induction q with
      | zero => omega
      | succ q ih => rw [starts_succ, hchunkq q, List.length_append, List.length_cons]; omega
    have := h1 n
    have h2 : starts chunk n ≤ data.length := by rw [← hdata, List.length_append]; unfold starts; omega
    omega)
  have hoffs : [0] ++ (List.range' (0 + 1) (n - 1)).map (starts chunk) = (List.range n).map (starts chunk) := by
    rw [List.range_eq_range', show n = (n - 1) + 1 by omega, List.range'_succ, List.map_cons]
    rfl
  rw [hoffs] at hoff
  unfold Decompressor.decodeLeaf
  rw [hO.buffer]
  have hoff' : leafOffsets (data.length + 1) (ByteStream.new data BIG_ENDIAN) [0] = .ok ((List.range n).map (starts chunk)) := hoff
  rw [hoff', ok_bind, subU_ok (by omega), ok_bind]
  dsimp only
  rw [if_neg (by rw [List.length_map, List.length_range]; omega), hO.tables 0 (by omega), ok_bind, hO.tables 1 (by omega), ok_bind, hbaseP, ok_bind]
  refine decodeThreadedMultiline_eq (by omega) (by omega) _ _ ?_
  intro q hq
  have hqn : q < n := by omega
  generalize hrows : min 8 (h - q * 8) = rows at *
  have hrows0 : 0 < rows := by omega
  unfold leafStrip
  rw [Nat.mul_div_cancel _ (by omega), idx_eq_ok.mpr (range_map_getElem? _ hqn), ok_bind]
  have hd := drop_starts (chunk := chunk) hqn tail
  rw [hdata] at hd
  have hle : starts chunk q ≤ data.length := by
    have := congrArg List.length hd
    rw [hchunkq q] at this
    simp at this
    omega
  rw [hO.buffer, sliceFrom_le hle, ok_bind]
  generalize hsrc : data.drop (starts chunk q) = src at *
  rw [hchunkq q, List.append_assoc, hrows] at hd
  generalize hbits : encodeScan 2 w rows (fun k => encodeDiff (tab k).lens (tab k).vals) base (fun r => img (q * 8 + r)) = bits at *
  have hbits1 : ∀ x ∈ bits, x ≤ 1 := by rw [← hbits]; exact encodeScan_le (fun k d => encodeDiff_le _ _ _) _ _
  obtain ⟨hun, hend⟩ := unstuff_stuff (m := if q + 1 < n then mark q else 0xd9) (by split <;> [exact (hmark q).1; decide]) (((List.range n).drop (q + 1)).flatMap chunk ++ tail) (packBits bits)
  have hd' : src = stuff (packBits bits) ++ 0xff :: (if q + 1 < n then mark q else 0xd9) :: (((List.range n).drop (q + 1)).flatMap chunk ++ tail) := hd
  rw [← hd'] at hun hend
  have hlen4 : 4 ≤ src.length := by rw [hd']; simp; omega
  have hR := readsJPEG b src hlen4
  rw [hun] at hR
  have hlenrep : (List.replicate (w * 2 * rows) 0).length / (w * 2) = rows := by
    rw [List.length_replicate, Nat.mul_comm, Nat.mul_div_cancel _ (by omega)]
  have hs := strip_ok (b := b) (P := pumpJPEG b) (st := bytesOf (packBits bits)) (at_ := AtJ src) (ts := [T 0, T 1]) (enc := fun k => encodeDiff (tab k).lens (tab k).vals) (base := base)
    (img := fun r => img (q * 8 + r)) (w := w) (h := rows) (h' := rows) (by
      intro r p k hk hr hpw
      have hk2 : k < 2 := hk
      have hTk : [T 0, T 1][k] = T k := by
        rcases (by omega : k = 0 ∨ k = 1) with rfl | rfl <;> rfl
      rw [hTk]
      exact (hO.codes k hk2).2 _ _ _ hR _ (diff16_range _ _).1 (diff16_range _ _).2 (hcat q r p k (by omega) hpw hk2))
    hbase16 (fun r => himg _) (out0 := List.replicate (w * 2 * rows) 0) (x := 0) (sw := w * 2) (w' := w) hrows0 (Nat.le_refl _) hw (Nat.le_refl _) (Nat.le_refl _) (by
      rw [List.length_replicate, show [T 0, T 1].length = 2 from rfl]
      have : (rows - 1) * (w * 2) + w * 2 = w * 2 * rows := by rw [← Nat.succ_mul, Nat.mul_comm]; congr 1; omega
      omega) (Nat.succ_pos 1)
    (s := JPump.new src) (c := 0) (a := 0) (atJ_new src hend) (by
      rw [show [T 0, T 1].length = 2 from rfl, hbits]
      exact follows_packBits hbits1)
  obtain ⟨o1, s1, out, s', k1, k2, k3⟩ := hs
  rw [Nat.sub_self, show [T 0, T 1].length = 2 from rfl] at k2
  unfold decodeLeafStrip
  rw [hlenrep, k1, ok_bind, k2, ok_bind]
  dsimp only
  congr 1
  refine eq_raster (by rw [k3.len, List.length_replicate]) ?_
  intro r c hr hc
  have := k3.done r (c / 2) (c % 2) (by omega) (Nat.mod_lt _ (by decide)) (Or.inl hr)
  rw [show [T 0, T 1].length = 2 from rfl] at this
  rw [show r * (w * 2) + c = r * (w * 2) + 0 + c / 2 * 2 + c % 2 by omega, this]

/-- Nine rows of one pair: two strips. -/
private def sampleLeaf (r p k : Nat) : Nat := (8000 + 11 * r + 30 * p + 100 * k) % 65536

example : (do let d ← newFull .release (encodeLeaf 14 0 9 2 9 1 (fun _ => 7) (fun _ => 0x11) 1 (fun _ => tableK3) sampleLeaf (fun _ => 0xd0) ++ [0, 0]) true true
              d.decodeLeaf .release 2 9) =
    .ok [8000, 8100, 8011, 8111, 8022, 8122, 8033, 8133, 8044, 8144, 8055, 8155, 8066, 8166, 8077, 8177, 8088, 8188] := by decide +kernel

example (b : Build) : ∃ d, newFull b (encodeLeaf 14 0 9 2 9 1 (fun _ => 7) (fun _ => 0x11) 1 (fun _ => tableK3) sampleLeaf (fun _ => 0xd0) ++ [0, 0]) true true = .ok d ∧
    d.decodeLeaf b (1 * 2) 9 = .ok (raster (1 * 2) 9 fun r c => sampleLeaf r (c / 2) (c % 2)) :=
  leaf_strips_round_trip b 14 0 9 2 9 1 (fun _ => 7) (fun _ => 0x11) 1 (fun _ => tableK3) sampleLeaf (fun _ => 0xd0) [0, 0] (by decide) (by decide) (by decide) (by decide) (by decide) (by decide) (by decide)
    (by decide) (by decide) (fun _ _ => by decide) (fun _ _ => by decide) (by decide) (fun _ _ => tableK3_usable) (fun r p k => Nat.mod_lt _ (by decide)) (fun _ => by decide)
    (fun q r p k hr hp hk => (show ∀ q, q < 2 → ∀ r, r < 8 → ∀ p, p < 1 → ∀ k, k < 2 → category (residual (2 ^ (14 - 0 - 1)) (fun r => sampleLeaf (q * 8 + r)) r p k) ∈ tableK3.vals by decide +kernel)
      q (by omega) r (by omega) p hp k hk) (by decide)

end Props

import Verif.Lemmas.Subsampled
import Verif.Props.Ljpeg
/-!
# C56: Canon's subsampled images
-/

namespace Props
open Rust Spec Model Model.HuffTable Model.Ljpeg

/-- The image is in the output: pixel (`row`, `col`) has its own luma sample and the chroma samples of its block. -/
structure PlacedSubsampled (Y C : Nat → Nat → Nat → Nat) (v wb hb : Nat) (out : List Nat) : Prop where
  len : out.length = v * hb * (2 * wb * 3)
  luma : ∀ row col, row < v * hb → col < 2 * wb → out[(row * (2 * wb) + col) * 3]? = some (Y (row / v) (col / 2) (2 * (row % v) + col % 2))
  chroma : ∀ row col k, row < v * hb → col < 2 * wb → k < 2 → out[(row * (2 * wb) + col) * 3 + 1 + k]? = some (C (row / v) (col / 2) k)

private theorem placed {len v wb hb : Nat} {Y C : Nat → Nat → Nat → Nat} {out : List Nat} (hv : v = 1 ∨ v = 2) (hlen : len = v * hb * (2 * wb * 3)) (h : Blocks len Y C v wb hb 0 out) :
    PlacedSubsampled Y C v wb hb out := by
  have hrow : ∀ row, v * (row / v) + row % v = row := fun row => Nat.div_add_mod row v
  have hpos : 0 < v := by omega
  have hix : ∀ row col k, (row * (2 * wb) + col) * 3 + k = row * (6 * wb) + 6 * (col / 2) + (3 * (col % 2) + k) := by
    intro row col k
    have e : row * (2 * wb) * 3 = row * (6 * wb) := by rw [Nat.mul_assoc]; congr 1; omega
    rw [Nat.add_mul, e]
    omega
  refine ⟨by rw [h.len, hlen], ?_, ?_⟩
  · intro row col hr hc
    have := h.done (row / v) (row % v) (col / 2) (3 * (col % 2)) (Nat.mod_lt _ hpos) (by omega) (by omega) (Or.inl (by
      rw [Nat.div_lt_iff_lt_mul hpos, Nat.mul_comm]; exact hr))
    rw [hrow] at this
    have e := hix row col 0
    rw [Nat.add_zero, Nat.add_zero] at e
    rw [e, this]
    unfold blockSample
    rw [if_pos (by omega), show 3 * (col % 2) / 3 = col % 2 by omega]
  · intro row col k hr hc hk
    have := h.done (row / v) (row % v) (col / 2) (3 * (col % 2) + (1 + k)) (Nat.mod_lt _ hpos) (by omega) (by omega) (Or.inl (by
      rw [Nat.div_lt_iff_lt_mul hpos, Nat.mul_comm]; exact hr))
    rw [hrow] at this
    rw [Nat.add_assoc, hix row col (1 + k), this]
    unfold blockSample
    rw [if_neg (by omega), show (3 * (col % 2) + (1 + k)) % 3 - 1 = k by omega]

private theorem bits_le {m wb hb : Nat} {enc : Nat → Int → List Nat} (he : ∀ k d, ∀ x ∈ enc k d, x ≤ 1) (base : Nat) (Y C : Nat → Nat → Nat → Nat) :
    ∀ x ∈ encodeBlocks m wb hb enc base Y C, x ≤ 1 := by
  intro x hx
  unfold encodeBlocks encodeBlock at hx
  simp only [List.mem_flatMap, List.mem_append] at hx
  obtain ⟨_, _, _, _, ⟨_, _, hx⟩ | ⟨_, _, hx⟩⟩ := hx
  · exact he _ _ x hx
  · exact he _ _ x hx

/-- The bits from block `p` of row `r` on. -/
private def restBits (m wb hb : Nat) (enc : Nat → Int → List Nat) (base : Nat) (Y C : Nat → Nat → Nat → Nat) (r p : Nat) : List Nat :=
  (if r < hb then ((List.range wb).drop p).flatMap (encodeBlock m enc base Y C r) else []) ++
    ((List.range hb).drop (r + 1)).flatMap fun r => (List.range wb).flatMap (encodeBlock m enc base Y C r)

private theorem restBits_step {m wb hb : Nat} {enc : Nat → Int → List Nat} {base : Nat} {Y C : Nat → Nat → Nat → Nat} {r p : Nat} (hr : r < hb) (hp : p < wb) :
    restBits m wb hb enc base Y C r p = encodeBlock m enc base Y C r p ++ restBits m wb hb enc base Y C r (p + 1) := by
  unfold restBits
  rw [if_pos hr, if_pos hr, drop_range_flatMap hp, List.append_assoc]

private theorem restBits_row {m wb hb : Nat} {enc : Nat → Int → List Nat} {base : Nat} {Y C : Nat → Nat → Nat → Nat} {r : Nat} (hr : r < hb) :
    restBits m wb hb enc base Y C r wb = restBits m wb hb enc base Y C (r + 1) 0 := by
  unfold restBits
  rw [if_pos hr, List.drop_eq_nil_of_le (as := List.range wb) (by simp), List.flatMap_nil, List.nil_append, List.drop_zero]
  by_cases h : r + 1 < hb
  · rw [if_pos h, drop_range_flatMap h]
  · rw [if_neg h, List.nil_append, List.drop_eq_nil_of_le (by simp; omega), List.drop_eq_nil_of_le (by simp; omega)]

private theorem restBits_all {m wb hb : Nat} {enc : Nat → Int → List Nat} {base : Nat} {Y C : Nat → Nat → Nat → Nat} (hh : 0 < hb) :
    encodeBlocks m wb hb enc base Y C = restBits m wb hb enc base Y C 0 0 := by
  unfold restBits encodeBlocks
  rw [if_pos hh, List.drop_zero]
  conv => lhs; rw [← List.drop_zero (l := List.range hb), drop_range_flatMap hh]

private theorem chromaPred_lt {base : Nat} {C : Nat → Nat → Nat → Nat} (hb : base < 65536) (hC : ∀ r p j, C r p j < 65536) (r p k : Nat) : predict base C r p k < 65536 := by
  unfold predict; split
  · split <;> [exact hb; exact hC _ _ _]
  · exact hC _ _ _

private theorem lumaPred_lt {m base : Nat} {Y : Nat → Nat → Nat → Nat} (hb : base < 65536) (hY : ∀ r p j, Y r p j < 65536) (r p j : Nat) : lumaPredict m base Y r p j < 65536 := by
  unfold lumaPredict; split
  · split
    · split <;> [exact hb; exact hY _ _ _]
    · exact hY _ _ _
  · exact hY _ _ _

private theorem forStep_six {S : Type} {wb j0 : Nat} (f : Nat → S → M S) (s : S) : forStep (6 * j0) (6 * wb) 6 f s = loopN (fun j => f (6 * (j0 + j))) (wb - j0) 0 s := by
  unfold forStep
  rw [show (6 * wb - 6 * j0 + 6 - 1) / 6 = wb - j0 by omega]
  congr 1
  funext j
  congr 1
  omega

private theorem forStep_two {S : Type} {hb : Nat} (f : Nat → S → M S) (s : S) : forStep 0 (2 * hb) 2 f s = loopN (fun j => f (2 * j)) hb 0 s := by
  unfold forStep
  rw [show (2 * hb - 0 + 2 - 1) / 2 = hb by omega]
  congr 1
  funext j
  congr 1
  omega

/-- C56: an image in which two neighbouring pixels, or the four pixels of a square, share their chroma samples comes back from its file. Both kinds of file, all sizes with at least one block. -/
theorem canon_subsampled_round_trip (b : Build) (dngBug : Bool) (precision pt v wb hb : Nat) (id : Nat → Nat) (pred : Nat) (tab : Nat → TableSpec) (Y C : Nat → Nat → Nat → Nat) (tail : Bytes)
    (hv : v = 1 ∨ v = 2) (hp : 12 ≤ precision) (hp' : precision ≤ 16) (hpt : pt < precision) (hpt' : pt < 16) (hh0 : 0 < hb) (hh : v * hb < 65536) (hw0 : 0 < wb) (hw : 2 * wb < 65536)
    (hid : ∀ i, i < 3 → id i < 256) (hinj : ∀ i j, i < 3 → j < 3 → id i = id j → i = j) (hpred : pred < 256) (ht : ∀ i, i < 3 → UsableTable (tab i) precision dngBug)
    (hY : ∀ r p j, Y r p j < 65536) (hC : ∀ r p k, C r p k < 65536)
    (hcatY : ∀ r p j, r < hb → p < wb → j < 2 * v → category (diff16 (Y r p j) (lumaPredict (2 * v) (2 ^ (precision - pt - 1)) Y r p j)) ∈ (tab 0).vals)
    (hcatC : ∀ r p k, r < hb → p < wb → k < 2 → category (residual (2 ^ (precision - pt - 1)) C r p k) ∈ (tab (k + 1)).vals)
    (hlong : 2 ≤ (packBits (encodeBlocks (2 * v) wb hb (fun k => encodeDiff (tab k).lens (tab k).vals) (2 ^ (precision - pt - 1)) Y C)).length + tail.length)
    (out0 : List Nat) (x stripwidth : Nat) (hout : out0.length = v * hb * (2 * wb * 3)) :
    ∃ d out, newFull b (encodeSubsampled precision pt v wb hb id pred tab Y C ++ tail) dngBug false = .ok d ∧ d.superH = .ok 2 ∧ d.superV = .ok v ∧
      d.decode b out0 x stripwidth (2 * wb * 3) (v * hb) = .ok out ∧ PlacedSubsampled Y C v wb hb out := by
  generalize hbits : encodeBlocks (2 * v) wb hb (fun k => encodeDiff (tab k).lens (tab k).vals) (2 ^ (precision - pt - 1)) Y C = bits at *
  have hbits1 : ∀ x ∈ bits, x ≤ 1 := by rw [← hbits]; exact bits_le (fun k d => encodeDiff_le _ _ _) _ _ _
  generalize hdata : stuff (packBits bits) ++ 0xff :: 0xd9 :: tail = data
  obtain ⟨hun, hend⟩ := unstuff_stuff (m := 0xd9) (by decide) tail (packBits bits)
  have hlen4 : 4 ≤ data.length := by
    rw [← hdata, List.length_append, List.length_cons, List.length_cons]
    have := stuff_length (packBits bits)
    omega
  rw [hdata] at hun hend
  obtain ⟨d, T, hnew, hO⟩ := open_file b dngBug false precision pt (v * hb) (2 * wb) 3 id id (fun i => if i = 0 then 0x20 + v else 0x11) pred tab data hp hp' hpt hpt' hh (by omega) hw (by omega) (by omega) hid hid (fun _ _ => rfl) hinj
    (fun i _ => by split <;> omega) hpred ht
  rw [show fileHeader precision pt (v * hb) (2 * wb) 3 id id (fun i => if i = 0 then 0x20 + v else 0x11) pred tab ++ data = encodeSubsampled precision pt v wb hb id pred tab Y C ++ tail by
      rw [← hdata, ← hbits]
      unfold encodeSubsampled
      simp only [List.append_assoc, List.cons_append, List.nil_append]] at hnew
  have hbase16 := hO.base16
  have hbaseP := hO.base
  generalize hbase : 2 ^ (precision - pt - 1) = base at *
  have hR := readsJPEG b data hlen4
  rw [hun] at hR
  have hcodes : BlockCodes b (pumpJPEG b) (bytesOf (packBits bits)) (AtJ data) T (fun k => encodeDiff (tab k).lens (tab k).vals) base (2 * v) Y C wb hb := by
    intro r p hr hpw
    refine ⟨fun j hj => ?_, fun k hk => ?_⟩
    · exact (hO.codes 0 (by omega)).2 _ _ _ hR _ (diff16_range _ _).1 (diff16_range _ _).2 (hcatY r p j hr hpw hj)
    · exact (hO.codes (k + 1) (by omega)).2 _ _ _ hR _ (diff16_range _ _).1 (diff16_range _ _).2 (hcatC r p k hr hpw hk)
  have hf0 : Follows (bytesOf (packBits bits)) 0 (restBits (2 * v) wb hb (fun k => encodeDiff (tab k).lens (tab k).vals) base Y C 0 0) := by
    rw [← restBits_all hh0, hbits]
    exact follows_packBits hbits1
  have hs0 := atJ_new data hend
  have hcomp0 : idx d.sof.components 0 = .ok ⟨id 0, 0, 0, 2, v⟩ := by
    rw [hO.sof]
    rcases hv with rfl | rfl <;> rfl
  have hB0 : Blocks (v * hb * (2 * wb * 3)) Y C v wb 0 0 out0 := ⟨hout, fun _ _ _ _ _ _ _ h => by omega⟩
  have hwid : 2 * wb * 3 = 6 * wb := by omega
  rw [hwid] at hB0 ⊢
  suffices hmain : ∃ out, d.decode b out0 x stripwidth (6 * wb) (v * hb) = .ok out ∧ Blocks (v * hb * (6 * wb)) Y C v wb hb 0 out by
    obtain ⟨out, e1, e2⟩ := hmain
    refine ⟨d, out, hnew, ?_, ?_, e1, placed hv (by rw [hwid]) e2⟩
    · unfold Decompressor.superH; rw [hcomp0]; rfl
    · unfold Decompressor.superV; rw [hcomp0]; rfl
  have e1 : d.sof.width = 2 * wb := by rw [hO.sof]
  have e2 : d.sof.height = v * hb := by rw [hO.sof]
  unfold Decompressor.decode
  rw [hcomp0, ok_bind]
  simp only
  rcases hv with rfl | rfl
  · -- 4:2:2
    rw [if_neg (by decide), if_pos ⟨trivial, rfl⟩]
    unfold decode422
    rw [if_neg (by rw [e1, e2]; omega), hO.tables 0 (by omega), ok_bind, hO.tables 1 (by omega), ok_bind, hO.tables 2 (by omega), ok_bind, hbaseP, ok_bind, hO.buffer]
    rw [restBits_step hh0 hw0] at hf0
    obtain ⟨o1, s1, c1, a1, g1, g2, g3, g4⟩ := block422_ok hcodes hY hC hh0 hw0 (by rw [Nat.one_mul]) hB0 (py := base) (pcb := base) (pcr := base) rfl rfl rfl hbase16 hbase16 hbase16 hs0 hf0
    rw [Nat.mul_zero] at g1
    rw [g1, ok_bind]
    obtain ⟨⟨o, s⟩, l1, c, a, l2, l3, l4⟩ := cells_ok (wb := wb) (hb := hb) (fun r p => step422 b (pumpJPEG b) (T 0) (T 1) (T 2) (6 * wb) r (6 * p))
      (fun r p (q : List Nat × JPump) => ∃ c a, AtJ data q.2 c a ∧ Follows (bytesOf (packBits bits)) c (restBits (2 * 1) wb hb (fun k => encodeDiff (tab k).lens (tab k).vals) base Y C r p) ∧
        Blocks (1 * hb * (6 * wb)) Y C 1 wb r p q.1)
      (by rintro r ⟨o, s⟩ hr ⟨c, a, i1, i2, i3⟩; exact ⟨c, a, i1, restBits_row hr ▸ i2, i3.row⟩)
      (by
        rintro r p ⟨o, s⟩ hr hpw h0 ⟨c, a, i1, i2, i3⟩
        rw [restBits_step hr hpw] at i2
        have hpos : ∃ pos, predPos422 b (6 * wb) r (6 * p) = .ok pos ∧ o[pos]? = some (lumaPredict (2 * 1) base Y r p 0) ∧ ∀ k, k < 2 → o[pos + 1 + k]? = some (predict base C r p k) := by
          unfold predPos422
          by_cases hp0 : p = 0
          · subst hp0
            rw [if_pos rfl, subU_ok (by omega), ok_bind]
            have hd := fun q (hq : q < 6) => i3.done (r - 1) 0 0 q (by omega) hw0 hq (by omega)
            simp only [Nat.one_mul, Nat.add_zero, Nat.mul_zero] at hd
            refine ⟨_, rfl, ?_, ?_⟩
            · have := hd 0 (by omega)
              rw [Nat.add_zero] at this
              rw [this]
              unfold blockSample lumaPredict
              rw [if_pos rfl, if_pos rfl, if_pos rfl, if_neg (by omega)]
            · intro k hk
              rw [Nat.add_assoc, hd (1 + k) (by omega)]
              unfold blockSample predict
              rw [if_neg (by omega), if_pos rfl, if_neg (by omega), show (1 + k) % 3 - 1 = k by omega]
          · rw [if_neg (by omega), subU_ok (by omega)]
            have hd := fun q (hq : q < 6) => i3.done r 0 (p - 1) q (by omega) (by omega) hq (by omega)
            simp only [Nat.one_mul, Nat.add_zero] at hd
            refine ⟨_, rfl, ?_, ?_⟩
            · have := hd 3 (by omega)
              rw [show r * (6 * wb) + 6 * p - 3 = r * (6 * wb) + 6 * (p - 1) + 3 by omega, this]
              unfold blockSample lumaPredict
              rw [if_pos rfl, if_pos rfl, if_neg hp0]
            · intro k hk
              rw [show r * (6 * wb) + 6 * p - 3 + 1 + k = r * (6 * wb) + 6 * (p - 1) + (4 + k) by omega, hd (4 + k) (by omega)]
              unfold blockSample predict
              rw [if_neg (by omega), if_neg hp0, show (4 + k) % 3 - 1 = k by omega]
        obtain ⟨pos, p1, p2, p3⟩ := hpos
        obtain ⟨o', s', c', a', k1, k2, k3, k4⟩ := block422_ok hcodes hY hC hr hpw (by rw [Nat.one_mul]) i3 rfl rfl rfl (lumaPred_lt hbase16 hY _ _ _) (chromaPred_lt hbase16 hC _ _ _)
          (chromaPred_lt hbase16 hC _ _ _) i1 i2
        refine ⟨(o', s'), ?_, c', a', k2, k3, k4⟩
        unfold step422
        rw [p1, ok_bind, idx_eq_ok.mpr p2, ok_bind, idx_eq_ok.mpr (p3 0 (by omega)), ok_bind, idx_eq_ok.mpr (p3 1 (by omega)), ok_bind]
        exact k1) hw0 hh0 (s := (o1, s1)) ⟨c1, a1, g2, g3, g4⟩
    have hloop : forRange 0 (1 * hb) (fun row s => forStep (if row = 0 then 6 else 0) (6 * wb) 6 (step422 b (pumpJPEG b) (T 0) (T 1) (T 2) (6 * wb) row) s) (o1, s1) = .ok (o, s) := by
      rw [← l1]
      unfold forRange
      rw [Nat.one_mul, Nat.sub_zero]
      congr 1
      funext r s
      rw [← forStep_six]
      congr 1
      split <;> rfl
    rw [hloop, ok_bind]
    exact ⟨o, rfl, l4⟩
  · -- 4:2:0
    rw [if_pos ⟨trivial, rfl⟩]
    unfold decode420
    rw [if_neg (by rw [e1, e2]; omega), hO.tables 0 (by omega), ok_bind, hO.tables 1 (by omega), ok_bind, hO.tables 2 (by omega), ok_bind, hbaseP, ok_bind, hO.buffer]
    rw [restBits_step hh0 hw0] at hf0
    obtain ⟨o1, s1, c1, a1, g1, g2, g3, g4⟩ := block420_ok hcodes hY hC hh0 hw0 rfl hB0 (py := base) (pcb := base) (pcr := base) rfl rfl rfl hbase16 hbase16 hbase16 hs0 hf0
    simp only [Nat.mul_zero] at g1
    rw [g1, ok_bind]
    obtain ⟨⟨o, s⟩, l1, c, a, l2, l3, l4⟩ := cells_ok (wb := wb) (hb := hb) (fun r p => step420 b (pumpJPEG b) (T 0) (T 1) (T 2) (6 * wb) (2 * r) (6 * p))
      (fun r p (q : List Nat × JPump) => ∃ c a, AtJ data q.2 c a ∧ Follows (bytesOf (packBits bits)) c (restBits (2 * 2) wb hb (fun k => encodeDiff (tab k).lens (tab k).vals) base Y C r p) ∧
        Blocks (2 * hb * (6 * wb)) Y C 2 wb r p q.1)
      (by rintro r ⟨o, s⟩ hr ⟨c, a, i1, i2, i3⟩; exact ⟨c, a, i1, restBits_row hr ▸ i2, i3.row⟩)
      (by
        rintro r p ⟨o, s⟩ hr hpw h0 ⟨c, a, i1, i2, i3⟩
        rw [restBits_step hr hpw] at i2
        have hpos : ∃ pos, predPos420 b (6 * wb) (2 * r) (6 * p) = .ok pos ∧ o[pos]? = some (lumaPredict (2 * 2) base Y r p 0) ∧ ∀ k, k < 2 → o[pos + 1 + k]? = some (predict base C r p k) := by
          unfold predPos420
          by_cases hp0 : p = 0
          · subst hp0
            rw [if_pos rfl, subU_ok (by omega), ok_bind]
            have hd := fun q (hq : q < 6) => i3.done (r - 1) 0 0 q (by omega) hw0 hq (by omega)
            simp only [Nat.add_zero, Nat.mul_zero] at hd
            rw [show 2 * r - 2 = 2 * (r - 1) by omega]
            refine ⟨_, rfl, ?_, ?_⟩
            · have := hd 0 (by omega)
              rw [Nat.add_zero] at this
              rw [this]
              unfold blockSample lumaPredict
              rw [if_pos rfl, if_pos rfl, if_pos rfl, if_neg (by omega)]
            · intro k hk
              rw [Nat.add_assoc, hd (1 + k) (by omega)]
              unfold blockSample predict
              rw [if_neg (by omega), if_pos rfl, if_neg (by omega), show (1 + k) % 3 - 1 = k by omega]
          · rw [if_neg (by omega), subU_ok (by omega)]
            have hd := fun q (hq : q < 6) => i3.done r 1 (p - 1) q (by omega) (by omega) hq (by omega)
            refine ⟨_, rfl, ?_, ?_⟩
            · have := hd 3 (by omega)
              rw [show (2 * r + 1) * (6 * wb) + 6 * p - 3 = (2 * r + 1) * (6 * wb) + 6 * (p - 1) + 3 by omega, this]
              unfold blockSample lumaPredict
              rw [if_pos rfl, if_pos rfl, if_neg hp0]
            · intro k hk
              rw [show (2 * r + 1) * (6 * wb) + 6 * p - 3 + 1 + k = (2 * r + 1) * (6 * wb) + 6 * (p - 1) + (4 + k) by omega, hd (4 + k) (by omega)]
              unfold blockSample predict
              rw [if_neg (by omega), if_neg hp0, show (4 + k) % 3 - 1 = k by omega]
        obtain ⟨pos, p1, p2, p3⟩ := hpos
        obtain ⟨o', s', c', a', k1, k2, k3, k4⟩ := block420_ok hcodes hY hC hr hpw rfl i3 rfl rfl rfl (lumaPred_lt hbase16 hY _ _ _) (chromaPred_lt hbase16 hC _ _ _)
          (chromaPred_lt hbase16 hC _ _ _) i1 i2
        refine ⟨(o', s'), ?_, c', a', k2, k3, k4⟩
        unfold step420
        rw [p1, ok_bind, idx_eq_ok.mpr p2, ok_bind, idx_eq_ok.mpr (p3 0 (by omega)), ok_bind, idx_eq_ok.mpr (p3 1 (by omega)), ok_bind]
        exact k1) hw0 hh0 (s := (o1, s1)) ⟨c1, a1, g2, g3, g4⟩
    have hloop : forStep 0 (2 * hb) 2 (fun row s => forStep (if row = 0 then 6 else 0) (6 * wb) 6 (step420 b (pumpJPEG b) (T 0) (T 1) (T 2) (6 * wb) row) s) (o1, s1) = .ok (o, s) := by
      rw [← l1]
      rw [forStep_two]
      congr 1
      funext r s
      rw [← forStep_six]
      congr 1
      by_cases h : r = 0
      · rw [if_pos h, if_pos (by omega)]
      · rw [if_neg h, if_neg (by omega)]
    rw [hloop, ok_bind]
    exact ⟨o, rfl, l4⟩

/-- A small image of each kind. -/
private def sampleY (r p j : Nat) : Nat := (8100 + 40 * r + 9 * p * p + 25 * j) % 65536
private def sampleC (r p k : Nat) : Nat := (8000 + 3 * r + 70 * p + 300 * k) % 65536

/-- The 4:2:0 file of 2 by 2 blocks decodes to 16 pixels. -/
example (b : Build) : ∃ d out, newFull b (encodeSubsampled 14 0 2 2 2 id 1 (fun _ => tableK3) sampleY sampleC ++ []) true false = .ok d ∧ d.superH = .ok 2 ∧ d.superV = .ok 2 ∧
    d.decode b (List.replicate 48 0) 0 12 (2 * 2 * 3) (2 * 2) = .ok out ∧ PlacedSubsampled sampleY sampleC 2 2 2 out :=
  canon_subsampled_round_trip b true 14 0 2 2 2 id 1 (fun _ => tableK3) sampleY sampleC [] (Or.inr rfl) (by decide) (by decide) (by decide) (by decide) (by decide) (by decide) (by decide) (by decide)
    (fun i hi => by simp only [id]; omega) (fun i j _ _ h => h) (by decide) (fun _ _ => tableK3_usable) (fun r p k => Nat.mod_lt _ (by decide)) (fun r p k => Nat.mod_lt _ (by decide))
    (fun r p j hr hp hj => (show ∀ r, r < 2 → ∀ p, p < 2 → ∀ j, j < 4 → category (diff16 (sampleY r p j) (lumaPredict (2 * 2) (2 ^ (14 - 0 - 1)) sampleY r p j)) ∈ tableK3.vals by decide +kernel) r hr p hp j hj)
    (fun r p k hr hp hk => (show ∀ r, r < 2 → ∀ p, p < 2 → ∀ k, k < 2 → category (residual (2 ^ (14 - 0 - 1)) sampleC r p k) ∈ tableK3.vals by decide +kernel) r hr p hp k hk) (by decide +kernel)
    (List.replicate 48 0) 0 12 rfl

/-- Run on the 4:2:2 file of one row of 2 blocks. -/
example : (do let d ← newFull .release (encodeSubsampled 14 0 1 2 1 id 1 (fun _ => tableK3) sampleY sampleC) false false
              d.decode .release (List.replicate 12 0) 0 12 12 1) =
    .ok [8100, 8000, 8300, 8125, 8000, 8300, 8109, 8070, 8370, 8134, 8070, 8370] := by decide +kernel

end Props

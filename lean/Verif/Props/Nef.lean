import Verif.Lemmas.NefCurve
import Verif.Props.Pef
import Verif.Props.Dither
/-!
# C61: Nikon's compressed images
-/

namespace Props
open Rust Spec Model Model.HuffTable Model.Ljpeg

theorem mwcAfter_succ (r : Nat) (n : Nat) : mwcAfter r (n + 1) = mwc (mwcAfter r n) := by
  induction n generalizing r with
  | zero => rfl
  | succ n ih => rw [mwcAfter, ih, mwcAfter]

theorem mwcAfter_lt {r : Nat} (h : r < 2 ^ 32) (n : Nat) : mwcAfter r n < 2 ^ 32 := by
  induction n generalizing r with
  | zero => exact h
  | succ n ih => exact ih (mwc_lt h)

theorem clampbits15 {v : Nat} (h : v < 32768) : toU16 (clampbits (v : Int) 15) = v := by
  have := (clampbits_partial (v : Int) 15 (by decide) (by decide) (by omega)).1 (by omega)
  rw [this]
  unfold saturate toU16
  omega

/-- Sample `k` of pair `p` in row `r` of the decoded image: the curve at the encoded value, dithered. The generator starts at `seed` and makes one step per sample. -/
def nefPixel (curve : List Nat) (seed w : Nat) (img : Nat → Nat → Nat → Nat) (r p k : Nat) : Nat :=
  dithered (curve[img r p k]?.getD 0) (above curve (img r p k) - below curve (img r p k)) (mwcAfter seed (2 * w * r + 2 * p + k))

/-- Two samples are looked up and written. -/
private theorem pair_ok {b : Build} {T : HuffTable} {curve : List Nat} {tbl : LookupTable} {seed : Nat} (hseed : seed < 2 ^ 32) (hcurve : curve.length ≤ 32768)
    (hd : ∀ i rand, i < curve.length → rand < 2 ^ 32 → tbl.dither b i rand = .ok (dithered (curve[i]?.getD 0) (above curve i - below curve i) rand, mwc rand))
    {out0 out : List Nat} {img : Nat → Nat → Nat → Nat} {w r p : Nat} (hF : Filled out0 (nefPixel curve seed w img) 0 (2 * w) w 2 r p out) (hp : p < w) (hlen : r * (2 * w) + 2 * w ≤ out0.length)
    (himg : ∀ k, k < 2 → img r p k < curve.length) {q1 q2 : Int} {s s' : Pump}
    (hread : (if p * 2 > 0 then Nef.twoDiffs b T (q1, q2, s) else .ok (q1, q2, s)) = .ok ((img r p 0 : Int), (img r p 1 : Int), s')) :
    ∃ out', Nef.pair b T tbl (2 * w) r (p * 2) (out, mwcAfter seed (2 * w * r + 2 * p), q1, q2, s) =
        .ok (out', mwcAfter seed (2 * w * r + 2 * (p + 1)), (img r p 0 : Int), (img r p 1 : Int), s') ∧ Filled out0 (nefPixel curve seed w img) 0 (2 * w) w 2 r (p + 1) out' := by
  have hl := hF.len
  have i0 := himg 0 (by omega)
  have i1 := himg 1 (by omega)
  unfold Nef.pair
  dsimp only
  by_cases hp0 : p * 2 > 0
  all_goals
    first | rw [if_pos hp0] at hread ⊢ | rw [if_neg hp0] at hread ⊢
    rw [hread, ok_bind]
    dsimp only
    rw [clampbits15 (by omega), hd _ _ i0 (mwcAfter_lt hseed _), ok_bind]
    dsimp only
    rw [setIdx_lt (by omega), ok_bind, clampbits15 (by omega), ← mwcAfter_succ, hd _ _ i1 (mwcAfter_lt hseed _), ok_bind]
    dsimp only
    rw [setIdx_lt (by rw [List.length_set]; omega), ok_bind, ← mwcAfter_succ]
    refine ⟨_, rfl, hF.step hp (by omega) (by simp) ?_⟩
    intro i
    rw [List.getElem?_set, List.getElem?_set]
    simp only [List.length_set]
    by_cases h1 : r * (2 * w) + p * 2 + 1 = i
    · rw [if_pos h1, if_pos (by omega), if_pos (by omega), show i - (r * (2 * w) + 0 + p * 2) = 1 by omega]
      rfl
    · rw [if_neg h1]
      by_cases h0 : r * (2 * w) + p * 2 = i
      · rw [if_pos h0, if_pos (by omega), if_pos (by omega), show i - (r * (2 * w) + 0 + p * 2) = 0 by omega]
        rfl
      · rw [if_neg h0, if_neg (by omega)]

/-- One row of `nef.rs`. -/
private theorem row_ok {b : Build} {t : TableSpec} {precision : Nat} {dngBug : Bool} (ht : UsableTable t precision dngBug) {T : HuffTable}
    (hT : HuffTable.new b (0 :: t.counts) (padded t) precision dngBug = .ok T) {st : Nat → Nat} {limit : Option Nat} {at_ : Pump → Nat → Nat → Prop} (hR : Reads (pumpMSB b) (fieldMSB st) limit at_)
    {curve : List Nat} {tbl : LookupTable} {seed : Nat} (hseed : seed < 2 ^ 32) (hcurve : curve.length ≤ 32768)
    (hd : ∀ i rand, i < curve.length → rand < 2 ^ 32 → tbl.dither b i rand = .ok (dithered (curve[i]?.getD 0) (above curve i - below curve i) rand, mwc rand))
    {init : Nat → Nat → Nat} {img : Nat → Nat → Nat → Nat} {w r : Nat} (hw0 : 0 < w) (himg : ∀ p k, p < w → k < 2 → img r p k < curve.length)
    (hres : ∀ p k, p < w → k < 2 → -32768 ≤ upResidual init img r p k ∧ upResidual init img r p k ≤ 32767 ∧ category (upResidual init img r p k) ∈ t.vals)
    {out0 out : List Nat} (hlen : r * (2 * w) + 2 * w ≤ out0.length) (hF : Filled out0 (nefPixel curve seed w img) 0 (2 * w) w 2 r 0 out) {up1 up2 : List Int}
    (h1 : Above init img 0 r up1) (h2 : Above init img 1 r up2) {select bps split : Nat} {T0 : HuffTable}
    (htab : (if split > 0 ∧ r = split then Nef.createHufftable b (select + 1) bps else .ok T0) = .ok T)
    {s : Pump} {c a : Nat} {rest : List Nat} (hs : at_ s c a) (hf : Follows st c ((List.range w).flatMap (encodeUpPair t init img r) ++ rest))
    (hw : within limit (c + ((List.range w).flatMap (encodeUpPair t init img r) ++ rest).length + 12)) :
    ∃ out' up1' up2' s' c' a', Nef.row b tbl select bps split (2 * w) r ⟨out, up1, up2, mwcAfter seed (2 * w * r), T0, s⟩ = .ok ⟨out', up1', up2', mwcAfter seed (2 * w * (r + 1)), T, s'⟩ ∧
      Filled out0 (nefPixel curve seed w img) 0 (2 * w) w 2 (r + 1) 0 out' ∧ Above init img 0 (r + 1) up1' ∧
      Above init img 1 (r + 1) up2' ∧ at_ s' c' a' ∧ Follows st c' rest ∧ within limit (c' + rest.length + 12) := by
  have himg' : ∀ p k, p < w → k < 2 → img r p k < 65536 := fun p k hp hk => by have := himg p k hp hk; omega
  have hdr := drop_range_flatMap hw0 (encodeUpPair t init img r)
  rw [List.drop_zero] at hdr
  rw [hdr, List.append_assoc] at hf hw
  obtain ⟨s1, c1, a1, g1, i1, i2, i3⟩ := twoDiffs_ok ht hT hR (himg' 0 · hw0) (hres 0 · hw0) hs hf hw
  obtain ⟨⟨out2, rand2, q1, q2, s2⟩, l1, l2, lr, l3, l4, c2, a2, l5, l6, l7⟩ := loopN_inv
    (fun j (s : List Nat × Nat × Int × Int × Pump) => Filled out0 (nefPixel curve seed w img) 0 (2 * w) w 2 r j s.1 ∧ s.2.1 = mwcAfter seed (2 * w * r + 2 * j) ∧
      s.2.2.1 = (img r (j - 1) 0 : Int) ∧ s.2.2.2.1 = (img r (j - 1) 1 : Int) ∧
      ∃ c a, at_ s.2.2.2.2 c a ∧ Follows st c (((List.range w).drop (max 1 j)).flatMap (encodeUpPair t init img r) ++ rest) ∧
        within limit (c + (((List.range w).drop (max 1 j)).flatMap (encodeUpPair t init img r) ++ rest).length + 12))
    (fun j => Nef.pair b T tbl (2 * w) r (0 + j * 2)) w 0 (out, mwcAfter seed (2 * w * r), (img r 0 0 : Int), (img r 0 1 : Int), s1) ⟨hF, rfl, rfl, rfl, c1, a1, i1, i2, i3⟩ (by
      rintro j ⟨out, rand, q1, q2, s⟩ _ hj ⟨m1, mr, m2, m3, c, a, m4, m5, m6⟩
      have hj : j < w := by omega
      dsimp only at m1 mr m2 m3 m4 m5 m6
      subst m2 m3 mr
      have key : ∃ s' c' a', (if j * 2 > 0 then Nef.twoDiffs b T ((img r (j - 1) 0 : Int), (img r (j - 1) 1 : Int), s) else .ok ((img r (j - 1) 0 : Int), (img r (j - 1) 1 : Int), s)) =
          .ok ((img r j 0 : Int), (img r j 1 : Int), s') ∧ at_ s' c' a' ∧ Follows st c' (((List.range w).drop (max 1 (j + 1))).flatMap (encodeUpPair t init img r) ++ rest) ∧
          within limit (c' + (((List.range w).drop (max 1 (j + 1))).flatMap (encodeUpPair t init img r) ++ rest).length + 12) := by
        by_cases h0 : j = 0
        · subst h0
          exact ⟨s, c, a, rfl, m4, m5, m6⟩
        · rw [show max 1 j = j by omega, drop_range_flatMap hj, List.append_assoc] at m5 m6
          obtain ⟨s', c', a', n1, n2, n3, n4⟩ := twoDiffs_ok ht hT hR (himg' j · hj) (hres j · hj) m4 m5 m6
          have e : ∀ k, upPredict init img r j k = img r (j - 1) k := by
            intro k
            unfold upPredict
            rw [if_neg h0]
          rw [e, e] at n1
          rw [show max 1 (j + 1) = j + 1 by omega]
          exact ⟨s', c', a', by rw [if_pos (by omega), n1], n2, n3, n4⟩
      obtain ⟨s', c', a', n1, n2, n3, n4⟩ := key
      obtain ⟨out', o1, o2⟩ := pair_ok hseed hcurve hd m1 hj hlen (himg j · hj) n1
      rw [Nat.zero_add]
      exact ⟨_, o1, o2, rfl, rfl, rfl, c', a', n2, n3, n4⟩)
  rw [Nat.zero_add] at l2 lr
  rw [Nat.zero_add, show max 1 w = w by omega, List.drop_eq_nil_of_le (by simp), List.flatMap_nil, List.nil_append] at l6 l7
  refine ⟨out2, _, _, s2, c2, a2, ?_, l2.row, h1.next, h2.next, l5, l6, l7⟩
  unfold Nef.row
  dsimp only
  by_cases hsp : split > 0 ∧ r = split
  all_goals
    first | rw [if_pos hsp] at htab ⊢ | rw [if_neg hsp] at htab ⊢
    rw [htab, ok_bind, idx_eq_ok.mpr (h1.2 r (by omega) (by omega)), ok_bind, idx_eq_ok.mpr (h2.2 r (by omega) (by omega)), ok_bind, g1, ok_bind]
    dsimp only
    rw [setIdx_lt (by rw [h1.1]; omega), ok_bind, setIdx_lt (by rw [h2.1]; omega), ok_bind]
    unfold forStep
    rw [show (2 * w - 0 + 2 - 1) / 2 = w by omega, l1, ok_bind]
    dsimp only at lr ⊢
    rw [lr, Nat.mul_succ]

theorem nefTable_usable {num bps : Nat} (h : num < 6) (hb : bps = 12 ∨ bps = 14) : UsableTable (nefTable num) bps false := by
  rcases hb with rfl | rfl <;>
  (have : num = 0 ∨ num = 1 ∨ num = 2 ∨ num = 3 ∨ num = 4 ∨ num = 5 := by omega
   rcases this with rfl | rfl | rfl | rfl | rfl | rfl <;>
   exact ⟨⟨rfl, by decide⟩, ⟨by decide, by decide⟩, by decide, ⟨by decide, by decide, by decide⟩, Or.inr (Or.inl (by decide)), by decide, by decide⟩)

theorem createHufftable_eq (b : Build) {num : Nat} (h : num < 6) (bps : Nat) :
    Nef.createHufftable b num bps = HuffTable.new b (0 :: (nefTable num).counts) (padded (nefTable num)) bps false := by
  have key : (do
      let t ← idx Nef.tree num
      let s ← forRange 0 16 (fun i (s : List Nat × Nat) => do
        let v ← idx t i
        let bits ← setIdx s.1 (i + 1) v
        .ok (bits, s.2 + v)) (List.replicate 17 0, 0)
      let bits ← setIdx s.1 0 0
      let huffval ← forRange 0 s.2 (fun i h => do
        let v ← idx t (i + 16)
        setIdx h i v) (List.replicate 256 0)
      .ok (bits, huffval) : M (List Nat × List Nat)) = .ok (0 :: (nefTable num).counts, padded (nefTable num)) := by
    have : num = 0 ∨ num = 1 ∨ num = 2 ∨ num = 3 ∨ num = 4 ∨ num = 5 := by omega
    rcases this with rfl | rfl | rfl | rfl | rfl | rfl <;> decide +kernel
  obtain ⟨t, h1, key⟩ := bind_eq_ok.mp key
  obtain ⟨s, h2, key⟩ := bind_eq_ok.mp key
  obtain ⟨bits, h3, key⟩ := bind_eq_ok.mp key
  obtain ⟨huffval, h4, key⟩ := bind_eq_ok.mp key
  injection key with key
  injection key with k1 k2
  unfold Nef.createHufftable
  rw [h1, ok_bind, h2, ok_bind, h3, ok_bind, h4, ok_bind, k1, k2]
  rfl

theorem select_lt (m : NefMeta) (bps : Nat) : m.select bps < 6 := by
  unfold NefMeta.select
  split <;> split <;> decide

theorem select_split {m : NefMeta} {big : Bool} {bps : Nat} (h : 0 < m.split big bps) : m.select bps + 1 < 6 := by
  unfold NefMeta.split at h
  split at h
  · rename_i hi
    unfold NefMeta.select
    rw [if_neg (by have := hi.1; omega)]
    split <;> decide
  · omega

/-- The table in use before row `r`. -/
private def tableBefore (m : NefMeta) (big : Bool) (bps r : Nat) : Nat := if 0 < m.split big bps ∧ m.split big bps < r then m.select bps + 1 else m.select bps

private theorem tableBefore_lt (m : NefMeta) (big : Bool) (bps r : Nat) : tableBefore m big bps r < 6 := by
  unfold tableBefore
  split
  · exact select_split (by assumption : _ ∧ _).1
  · exact select_lt m bps

private theorem table_eq (m : NefMeta) (big : Bool) (bps r : Nat) : m.table big bps r = nefTable (tableBefore m big bps (r + 1)) := by
  unfold NefMeta.table tableBefore
  by_cases h : 0 < m.split big bps ∧ m.split big bps ≤ r
  · rw [if_pos h, if_pos (by omega)]
  · rw [if_neg h, if_neg (by omega)]

/-- The table of the next row. -/
private theorem next_table {b : Build} {m : NefMeta} {big : Bool} {bps : Nat} (hb : bps = 12 ∨ bps = 14) {r : Nat} {T0 : HuffTable}
    (h0 : Nef.createHufftable b (tableBefore m big bps r) bps = .ok T0) :
    ∃ T, (if m.split big bps > 0 ∧ r = m.split big bps then Nef.createHufftable b (m.select bps + 1) bps else .ok T0) = .ok T ∧ Nef.createHufftable b (tableBefore m big bps (r + 1)) bps = .ok T := by
  by_cases h : m.split big bps > 0 ∧ r = m.split big bps
  · have hl := select_split h.1
    obtain ⟨T, hT, _⟩ := (nefTable_usable hl hb).codes (b := b)
    refine ⟨T, ?_, ?_⟩
    · rw [if_pos h, createHufftable_eq b hl, hT]
    · unfold tableBefore
      rw [if_pos (by omega), createHufftable_eq b hl, hT]
  · refine ⟨T0, if_neg h, ?_⟩
    rw [← h0]
    unfold tableBefore
    by_cases h' : 0 < m.split big bps ∧ m.split big bps < r
    · rw [if_pos h', if_pos (by omega)]
    · rw [if_neg h', if_neg (by omega)]

/-- No table has symbols from 15 to 17. -/
private theorem small_category {m : NefMeta} {big : Bool} {bps r : Nat} {d : Int} (h1 : -65536 < d) (h2 : d < 65536) (hc : category d ∈ (m.table big bps r).vals) : -32768 ≤ d ∧ d ≤ 32767 := by
  have hno : ∀ n, n < 6 → ∀ c ∈ (nefTable n).vals, c < 15 ∨ 17 < c := by decide
  rw [table_eq] at hc
  have hc := hno _ (tableBefore_lt _ _ _ _) _ hc
  unfold category at hc
  by_cases h0 : d.natAbs = 0
  · omega
  · rw [if_neg h0] at hc
    have h16 : Nat.log2 d.natAbs < 16 := (Nat.log2_lt h0).mpr (by omega)
    have h14 : Nat.log2 d.natAbs < 14 := by omega
    have := (Nat.log2_lt h0).mp h14
    omega

/-- The rows, from the first one. -/
private theorem rows_ok {b : Build} {m : NefMeta} {big : Bool} {bps : Nat} (hm : m.Ok big bps) {T0 : HuffTable} (hT0 : Nef.createHufftable b (m.select bps) bps = .ok T0)
    {curve : List Nat} {tbl : LookupTable} (hcurve : curve.length ≤ 32768)
    (hd : ∀ i rand, i < curve.length → rand < 2 ^ 32 → tbl.dither b i rand = .ok (dithered (curve[i]?.getD 0) (above curve i - below curve i) rand, mwc rand))
    {img : Nat → Nat → Nat → Nat} {w h : Nat} (hw0 : 0 < w) (himg : ∀ r p k, r < h → p < w → k < 2 → img r p k < curve.length)
    (hres : ∀ r p k, r < h → p < w → k < 2 → -32768 ≤ upResidual m.init img r p k ∧ upResidual m.init img r p k ≤ 32767 ∧ category (upResidual m.init img r p k) ∈ (m.table big bps r).vals)
    (tail : Bytes) (htail : (encodeUp (m.table big bps) m.init w h img).length + 12 ≤ 32 * ((packBits (encodeUp (m.table big bps) m.init w h img) ++ tail).length / 4)) :
    ∃ random p s, (pumpMSB b).peek (Pump.new (packBits (encodeUp (m.table big bps) m.init w h img) ++ tail)) 24 = .ok (random, p) ∧
      random = fieldMSB (bytesOf (packBits (encodeUp (m.table big bps) m.init w h img) ++ tail)) 0 24 ∧
      forRange 0 h (Nef.row b tbl (m.select bps) bps (m.split big bps) (2 * w))
        ⟨List.replicate (2 * w * h) 0, [(m.init 0 0 : Int), (m.init 1 0 : Int)], [(m.init 0 1 : Int), (m.init 1 1 : Int)], random, T0, p⟩ = .ok s ∧
      s.out = raster (2 * w) h fun r c => nefPixel curve random w img r (c / 2) (c % 2) := by
  generalize hbits : encodeUp (m.table big bps) m.init w h img = bits at *
  have hbits1 : ∀ x ∈ bits, x ≤ 1 := by rw [← hbits]; exact encodeUp_le _ _ _ _ _
  generalize hdata : packBits bits ++ tail = data at *
  have hlenbits : bits.length ≤ 8 * (packBits bits).length := by unfold packBits; rw [List.length_map, List.length_range]; omega
  have hf0 : Follows (bytesOf data) 0 bits := by
    intro i hi
    rw [← follows_packBits hbits1 i hi]
    unfold bitMSB bytesOf
    rw [← hdata, List.getElem?_append_left (by omega)]
  obtain ⟨s0, a0, p1, p2, _, _⟩ := (readsMSB b data).peek _ _ _ 24 (atMSB_new _ _) (by decide) (show 0 + 24 ≤ _ by omega)
  have hseed : fieldMSB (bytesOf data) 0 24 < 2 ^ 32 := Nat.lt_of_lt_of_le (fieldMSB_lt _ _ _) (by decide)
  generalize fieldMSB (bytesOf data) 0 24 = seed at *
  obtain ⟨⟨out, up1, up2, rand, T, p⟩, k1, k2, _⟩ := forRange_inv
    (fun r (s : Nef.State) => Filled (List.replicate (2 * w * h) 0) (nefPixel curve seed w img) 0 (2 * w) w 2 r 0 s.out ∧ Above m.init img 0 r s.up1 ∧ Above m.init img 1 r s.up2 ∧
      s.random = mwcAfter seed (2 * w * r) ∧ Nef.createHufftable b (tableBefore m big bps r) bps = .ok s.table ∧
      ∃ c a, AtMSB data (bytesOf data) s.pump c a ∧ Follows (bytesOf data) c (((List.range h).drop r).flatMap fun r => (List.range w).flatMap (encodeUpPair (m.table big bps r) m.init img r)) ∧
        within (some (32 * (data.length / 4))) (c + (((List.range h).drop r).flatMap fun r => (List.range w).flatMap (encodeUpPair (m.table big bps r) m.init img r)).length + 12))
    (f := Nef.row b tbl (m.select bps) bps (m.split big bps) (2 * w)) (lo := 0) (hi := h)
    (s := ⟨List.replicate (2 * w * h) 0, [(m.init 0 0 : Int), (m.init 1 0 : Int)], [(m.init 0 1 : Int), (m.init 1 1 : Int)], seed, T0, s0⟩) (Nat.zero_le _)
    ⟨⟨rfl, by intro r' p k _ _ h; omega, fun _ _ => rfl⟩,
      ⟨rfl, by intro R _ h; have : R = 0 ∨ R = 1 := by omega
               rcases this with rfl | rfl <;> rfl⟩,
      ⟨rfl, by intro R _ h; have : R = 0 ∨ R = 1 := by omega
               rcases this with rfl | rfl <;> rfl⟩, rfl, by unfold tableBefore; rw [if_neg (by omega)]; exact hT0, 0, a0, p2, by rw [List.drop_zero]; unfold encodeUp at hbits; rw [hbits]; exact hf0,
      by rw [List.drop_zero]; unfold encodeUp at hbits; rw [hbits]; show 0 + bits.length + 12 ≤ _; omega⟩ (by
      rintro r ⟨out, up1, up2, rand, T, s⟩ _ hr ⟨m1, m2, m3, mr, mt, c, a, m4, m5, m6⟩
      dsimp only at m1 m2 m3 mr mt m4 m5 m6
      subst mr
      rw [drop_range_flatMap hr] at m5 m6
      obtain ⟨T', t1, t2⟩ := next_table hm.bps mt
      have hu : UsableTable (m.table big bps r) bps false := by rw [table_eq]; exact nefTable_usable (tableBefore_lt _ _ _ _) hm.bps
      have hT : HuffTable.new b (0 :: (m.table big bps r).counts) (padded (m.table big bps r)) bps false = .ok T' := by
        rw [table_eq, ← createHufftable_eq b (tableBefore_lt _ _ _ _), t2]
      obtain ⟨out', u1, u2, s', c', a', n1, n2, n3, n4, n5, n6, n7⟩ := row_ok hu hT (readsMSB b data) hseed hcurve hd hw0 (fun p k => himg r p k hr) (fun p k => hres r p k hr)
        (by
          rw [List.length_replicate]
          have : (r + 1) * (2 * w) ≤ h * (2 * w) := Nat.mul_le_mul_right _ hr
          rw [Nat.succ_mul] at this
          rw [Nat.mul_comm (2 * w) h]
          exact this) m1 m2 m3 t1 m4 m5 m6
      exact ⟨_, n1, n2, n3, n4, rfl, t2, c', a', n5, n6, n7⟩)
  refine ⟨seed, s0, _, p1, rfl, k1, ?_⟩
  dsimp only
  rw [← eq_raster (l := out)]
  · have := k2.len
    rw [List.length_replicate] at this
    exact this
  · intro r c hr hc
    have := k2.done r (c / 2) (c % 2) (by omega) (by omega) (Or.inl hr)
    rw [← this]
    congr 1; omega

/-- C61, partly: an image of `h` rows of `w` pairs of columns, encoded with the tables of the version in the maker note, comes back through the curve of the maker note, dithered. The seed of the
dithering is the first 24 bits of the data. The curve must be one that can be dithered (C44), and the values must lie on it. The data must have twelve bits more than the codes, in whole
words.

Missing: behind the split row of lossy images, symbols of 16 and more (sizes with bits left out, see `nikonDiff`). They are not decoded (`nef_split_panics`); here every difference must be
encoded with a symbol below 16 (`hres` with the table of its row). -/
theorem nef_round_trip_partial (b : Build) (tiff metaifd : TiffIFD) (tag : TiffEntry) (m : NefMeta) (bps : Nat) (hifd : tiff.fetchIfd Tag.NefMeta1 = .ok metaifd)
    (htag : metaifd.findEntry Tag.NefMeta2 = some tag ∨ metaifd.findEntry Tag.NefMeta2 = none ∧ metaifd.findEntry Tag.NefMeta1 = some tag)
    (hdata : tag.data = m.bytes metaifd.endian.big) (hm : m.Ok metaifd.endian.big bps) (hg : ∀ i, i < (m.curve bps).length → gentle (m.curve bps) i)
    (img : Nat → Nat → Nat → Nat) (w h : Nat) (hw0 : 0 < w) (himg : ∀ r p k, r < h → p < w → k < 2 → img r p k < (m.curve bps).length)
    (hres : ∀ r p k, r < h → p < w → k < 2 → category (upResidual m.init img r p k) ∈ (m.table metaifd.endian.big bps r).vals)
    (tail : Bytes) (htail : (encodeUp (m.table metaifd.endian.big bps) m.init w h img).length + 12 ≤
      32 * ((packBits (encodeUp (m.table metaifd.endian.big bps) m.init w h img) ++ tail).length / 4)) :
    Nef.decodeCompressed b tiff (packBits (encodeUp (m.table metaifd.endian.big bps) m.init w h img) ++ tail) (2 * w) h bps =
      .ok (raster (2 * w) h fun r c =>
        nefPixel (m.curve bps) (fieldMSB (bytesOf (packBits (encodeUp (m.table metaifd.endian.big bps) m.init w h img) ++ tail)) 0 24) w img r (c / 2) (c % 2)) := by
  have hlen : (m.curve bps).length ≤ 16385 := by
    have hpow : 2 ^ bps ≤ 16384 := by rcases hm.bps with h | h <;> subst h <;> decide
    unfold NefMeta.curve
    split
    · rw [List.length_map, List.length_range]; omega
    · split
      · rename_i hs
        rw [hm.count (Or.inr hs)]
        exact hs.2
      · rw [List.length_range]; omega
  have hres' : ∀ r p k, r < h → p < w → k < 2 → -32768 ≤ upResidual m.init img r p k ∧ upResidual m.init img r p k ≤ 32767 ∧
      category (upResidual m.init img r p k) ∈ (m.table metaifd.endian.big bps r).vals := by
    intro r p k hr hp hk
    have hc := hres r p k hr hp hk
    have h1 := himg r p k hr hp hk
    have h2 : upPredict m.init img r p k < 65536 := by
      unfold upPredict
      split
      · split
        · exact hm.init _ _
        · have := himg (r - 2) 0 k (by omega) hw0 hk
          omega
      · have := himg r (p - 1) k hr (by omega) hk
        omega
    have h3 := small_category (m := m) (big := metaifd.endian.big) (bps := bps) (r := r) (d := upResidual m.init img r p k) (by unfold upResidual; omega) (by unfold upResidual; omega) hc
    exact ⟨h3.1, h3.2, hc⟩
  obtain ⟨T0, hT0, _⟩ := (nefTable_usable (select_lt m bps) hm.bps).codes (b := b)
  rw [← createHufftable_eq b (select_lt m bps)] at hT0
  obtain ⟨tbl, ht, hd⟩ := dither_exact b (m.curve bps) hg
  obtain ⟨random, p, s, k1, k2, k3, k4⟩ := rows_ok hm hT0 (by omega) hd hw0 himg hres' tail htail
  have hA := ahead_new tag.data metaifd.endian
  rw [hdata] at hA
  have hA' : Ahead tag.data metaifd.endian (ByteStream.new tag.data metaifd.endian) (m.bytes metaifd.endian.big) := by rw [hdata]; exact hA
  unfold NefMeta.bytes at hA'
  obtain ⟨s1, g1, h1⟩ := Ahead.u8 hm.version.1 hA'
  obtain ⟨s2, g2, h2⟩ := Ahead.u8 hm.version.2 h1
  have h3 : Ahead tag.data metaifd.endian (if m.v0 = 73 ∨ m.v1 = 88 then s2.consumeBytes 2110 else s2)
      (storeWord metaifd.endian.big (m.init 0 0) ++ (storeWord metaifd.endian.big (m.init 1 0) ++ (storeWord metaifd.endian.big (m.init 0 1) ++ (storeWord metaifd.endian.big (m.init 1 1) ++
        (storeWord metaifd.endian.big m.csize ++ (m.values.flatMap (storeWord metaifd.endian.big) ++ m.rest)))))) := by
    have hsk := hm.skip
    by_cases hv : m.v0 = 73 ∨ m.v1 = 88
    · rw [if_pos hv] at hsk ⊢
      rw [← hsk]
      exact Ahead.skip h2
    · rw [if_neg hv] at hsk ⊢
      rw [List.eq_nil_of_length_eq_zero hsk] at h2
      exact h2
  obtain ⟨s3, g3, h4⟩ := Ahead.word (hm.init 0 0) h3
  obtain ⟨s4, g4, h5⟩ := Ahead.word (hm.init 1 0) h4
  obtain ⟨s5, g5, h6⟩ := Ahead.word (hm.init 0 1) h5
  obtain ⟨s6, g6, h7⟩ := Ahead.word (hm.init 1 1) h6
  have hcp := curvePoints_ok b hm hdata h7
  have key : (do
      let stream := ByteStream.new tag.data metaifd.endian
      let (v0, stream) ← stream.getU8
      let (v1, stream) ← stream.getU8
      let stream := if v0 = 73 ∨ v1 = 88 then stream.consumeBytes 2110 else stream
      let select := (if v0 = 70 then 2 else 0) + (if bps = 14 then 3 else 0)
      let table ← Nef.createHufftable b select bps
      let (a0, stream) ← stream.getU16
      let (a1, stream) ← stream.getU16
      let (b0, stream) ← stream.getU16
      let (b1, stream) ← stream.getU16
      let (points, split) ← Nef.curvePoints b v0 v1 bps tag metaifd.endian stream
      let curve ← LookupTable.new b points
      let (random, p) ← (pumpMSB b).peek (Pump.new (packBits (encodeUp (m.table metaifd.endian.big bps) m.init w h img) ++ tail)) 24
      let s ← forRange 0 h (Nef.row b curve select bps split (2 * w))
        ⟨List.replicate (2 * w * h) 0, [(a0 : Int), (a1 : Int)], [(b0 : Int), (b1 : Int)], random, table, p⟩
      .ok s.out : M (List Nat)) = .ok (raster (2 * w) h fun r c =>
        nefPixel (m.curve bps) (fieldMSB (bytesOf (packBits (encodeUp (m.table metaifd.endian.big bps) m.init w h img) ++ tail)) 0 24) w img r (c / 2) (c % 2)) := by
    dsimp only
    rw [g1, ok_bind]; dsimp only
    rw [g2, ok_bind]; dsimp only
    rw [show (if m.v0 = 70 then 2 else 0) + (if bps = 14 then 3 else 0) = m.select bps from rfl, hT0, ok_bind, g3, ok_bind]; dsimp only
    rw [g4, ok_bind]; dsimp only
    rw [g5, ok_bind]; dsimp only
    rw [g6, ok_bind]; dsimp only
    rw [hcp, ok_bind]; dsimp only
    rw [ht, ok_bind, k1, ok_bind]; dsimp only
    rw [k3, ok_bind, k4, k2]
  unfold Nef.decodeCompressed
  rw [hifd, ok_bind]
  rcases htag with h | ⟨h, h'⟩
  · rw [h]
    exact key
  · rw [h]
    dsimp only
    unfold TiffIFD.fetchTag
    rw [h']
    exact key

/-- The data behind a split row that starts with the symbol 57 (code 00: nine bits, of which three are left out) and six zeros: a difference of -508, and the same again. The split row panics in the
checked build. -/
theorem nef_split_panics (curve : LookupTable) (split width : Nat) (hs : 0 < split) (out : List Nat) (random : Nat) (t : HuffTable) :
    Nef.row .debug curve 0 12 split width split ⟨out, [500, 500], [500, 500], random, t, Pump.new (packBits (bitsOf 2 0 ++ bitsOf 6 0 ++ bitsOf 2 0 ++ bitsOf 6 0) ++ List.replicate 14 0)⟩ = crash ∧
      (nefTable 1).vals[0]? = some 57 ∧ nikonDiff 57 0 = -508 := by
  refine ⟨?_, rfl, by decide⟩
  have h : (do
      let t ← Nef.createHufftable .debug 1 12
      Nef.twoDiffs .debug t (500, 500, Pump.new (packBits (bitsOf 2 0 ++ bitsOf 6 0 ++ bitsOf 2 0 ++ bitsOf 6 0) ++ List.replicate 14 0))) = crash := by decide +kernel
  obtain ⟨T, hT, _⟩ := (nefTable_usable (num := 1) (by decide) (Or.inl rfl)).codes (b := .debug)
  rw [← createHufftable_eq .debug (by decide)] at hT
  rw [hT, ok_bind] at h
  unfold Nef.row
  dsimp only
  rw [if_pos ⟨hs, rfl⟩, hT, ok_bind]
  have : split % 2 = 0 ∨ split % 2 = 1 := by omega
  rcases this with e | e
  · rw [e, show idx [(500 : Int), 500] 0 = .ok 500 from rfl, ok_bind, ok_bind, h]; rfl
  · rw [e, show idx [(500 : Int), 500] 1 = .ok 500 from rfl, ok_bind, ok_bind, h]; rfl

/-- In the other build the split row goes on with a wrong difference. -/
theorem nef_split_wrong : ∃ t p, Nef.createHufftable .release 1 12 = .ok t ∧ t.huffDecode .release (pumpMSB .release) (Pump.new (packBits (bitsOf 2 0 ++ bitsOf 6 0) ++ List.replicate 15 0)) = .ok (-33554431, p) := by
  obtain ⟨T, hT, _⟩ := (nefTable_usable (num := 1) (by decide) (Or.inl rfl)).codes (b := .release)
  rw [← createHufftable_eq .release (by decide)] at hT
  have h : (do
      let t ← Nef.createHufftable .release 1 12
      let (d, _) ← t.huffDecode .release (pumpMSB .release) (Pump.new (packBits (bitsOf 2 0 ++ bitsOf 6 0) ++ List.replicate 15 0))
      .ok d) = .ok (-33554431) := by decide +kernel
  rw [hT, ok_bind] at h
  obtain ⟨⟨d, p⟩, h1, h2⟩ := bind_eq_ok.mp h
  injection h2 with h2
  subst h2
  exact ⟨T, p, hT, h1⟩

/-- The identity can be dithered. -/
theorem gentle_range {n : Nat} (h : n ≤ 32768) (i : Nat) (hi : i < (List.range n).length) : gentle (List.range n) i := by
  rw [List.length_range] at hi
  have e : ∀ j, j < n → (List.range n)[j]?.getD 0 = j := fun j hj => by rw [List.getElem?_range hj]; rfl
  unfold gentle
  have ha : above (List.range n) i = if i + 1 < n then i + 1 else i := by
    unfold above
    rw [List.length_range, e i hi]
    split
    · rw [e _ (by assumption)]
    · rfl
  have hb : below (List.range n) i = i - 1 := by
    unfold below
    split
    · subst i; rw [e _ hi]
    · rw [e _ (by omega)]
  rw [ha, hb, e i hi]
  split <;> omega

/-- Nikon's table for lossless 12-bit images, no curve, two rows of two pairs. -/
private def nefSample (r p k : Nat) : Nat := 300 * r + 25 * p * p + 100 * k + 50

private def nefSampleMeta : NefMeta := ⟨70, 48, [], fun _ k => if k = 0 then 0 else 100, 0, [], []⟩

private def nefSampleTag : TiffEntry := ⟨Tag.NefMeta2, 7, 12, 0, 0, nefSampleMeta.bytes true, BIG_ENDIAN⟩

private def nefSampleDir : TiffIFD := .mk [(Tag.NefMeta1, nefSampleTag), (Tag.NefMeta2, nefSampleTag)] [] 0 0 BIG_ENDIAN

example : nefSampleMeta.bytes true = [70, 48, 0, 0, 0, 0, 0, 100, 0, 100, 0, 0] := by decide

example (b : Build) : Nef.decodeCompressed b nefSampleDir [121, 60, 140, 153, 237, 123, 181, 227, 38, 126, 150, 62, 150, 12, 153, 0, 0, 0, 0, 0] 4 3 12 =
    .ok [49, 149, 74, 174, 349, 449, 374, 475, 649, 749, 674, 775] := by
  have hc : nefSampleMeta.curve 12 = List.range 4096 := by unfold NefMeta.curve; rw [if_neg (by decide), if_neg (by decide)]
  have h := nef_round_trip_partial b nefSampleDir nefSampleDir nefSampleTag nefSampleMeta 12 rfl (Or.inl rfl) rfl
    ⟨by decide, rfl, fun r k => by unfold nefSampleMeta; dsimp only; split <;> decide, by decide, fun h => rfl, by decide, by decide, Or.inl rfl⟩ (by rw [hc]; exact gentle_range (by decide)) nefSample 2 3 (by decide)
    (fun r p k hr hp hk => by rw [hc, List.length_range]; exact (show ∀ r, r < 3 → ∀ p, p < 2 → ∀ k, k < 2 → nefSample r p k < 4096 by decide) r hr p hp k hk)
    (fun r p k hr hp hk => (show ∀ r, r < 3 → ∀ p, p < 2 → ∀ k, k < 2 → category (upResidual nefSampleMeta.init nefSample r p k) ∈ (nefSampleMeta.table true 12 r).vals by decide +kernel) r hr p hp k hk)
    [0, 0, 0, 0, 0] (by decide +kernel)
  rw [show packBits (encodeUp (nefSampleMeta.table nefSampleDir.endian.big 12) nefSampleMeta.init 2 3 nefSample) = [121, 60, 140, 153, 237, 123, 181, 227, 38, 126, 150, 62, 150, 12, 153] by decide +kernel] at h
  refine h.trans (congrArg Except.ok ?_)
  decide +kernel

end Props

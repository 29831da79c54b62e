import Verif.Lemmas.PefTable
import Verif.Props.LeafStrips
import Verif.Lemmas.DecNikon
/-!
# C60: Pentax's compressed images
-/

namespace Props
open Rust Spec Model Model.HuffTable Model.Ljpeg

theorem toU16_nat {v : Nat} (h : v < 65536) : toU16 (v : Int) = v := by
  unfold toU16
  omega

/-- Two samples are written. -/
theorem put_ok {out0 out : List Nat} {img : Nat → Nat → Nat → Nat} {w r p : Nat} (hF : Filled out0 img 0 (2 * w) w 2 r p out) (hp : p < w) (hlen : r * (2 * w) + 2 * w ≤ out0.length)
    (himg : ∀ k, k < 2 → img r p k < 65536) :
    ∃ out', Pef.put (2 * w) r (2 * p) out (img r p 0) (img r p 1) = .ok out' ∧ Filled out0 img 0 (2 * w) w 2 r (p + 1) out' := by
  unfold Pef.put
  have hl := hF.len
  rw [toU16_nat (himg 0 (by omega)), toU16_nat (himg 1 (by omega)), setIdx_lt (by omega), ok_bind, setIdx_lt (by rw [List.length_set]; omega)]
  refine ⟨_, rfl, hF.step hp (by omega) (by simp) ?_⟩
  intro i
  rw [List.getElem?_set, List.getElem?_set]
  simp only [List.length_set]
  by_cases h1 : r * (2 * w) + 2 * p + 1 = i
  · rw [if_pos h1, if_pos (by omega), if_pos (by omega)]
    congr 2; omega
  · rw [if_neg h1]
    by_cases h0 : r * (2 * w) + 2 * p = i
    · rw [if_pos h0, if_pos (by omega), if_pos (by omega)]
      congr 2; omega
    · rw [if_neg h0, if_neg (by omega)]

/-- The values above, for the next two rows. -/
def Above (init : Nat → Nat → Nat) (img : Nat → Nat → Nat → Nat) (k r : Nat) (up : List Int) : Prop :=
  up.length = 2 ∧ ∀ R, r ≤ R → R < r + 2 → up[R % 2]? = some (upPredict init img R 0 k : Int)

theorem Above.next {init : Nat → Nat → Nat} {img : Nat → Nat → Nat → Nat} {k r : Nat} {up : List Int} (h : Above init img k r up) :
    Above init img k (r + 1) (up.set (r % 2) (img r 0 k : Int)) := by
  refine ⟨by rw [List.length_set, h.1], ?_⟩
  intro R h1 h2
  rw [List.getElem?_set, h.1]
  by_cases hR : R = r + 2
  · subst hR
    rw [if_pos (by omega), if_pos (by omega)]
    unfold upPredict
    rw [if_pos rfl, if_neg (by omega), Nat.add_sub_cancel]
  · rw [if_neg (by omega)]
    exact h.2 R (by omega) (by omega)

/-- One row of `pef.rs`. -/
theorem pef_row_ok {b : Build} {t : TableSpec} {precision : Nat} {dngBug : Bool} (ht : UsableTable t precision dngBug) {T : HuffTable}
    (hT : HuffTable.new b (0 :: t.counts) (padded t) precision dngBug = .ok T) {st : Nat → Nat} {limit : Option Nat} {at_ : Pump → Nat → Nat → Prop} (hR : Reads (pumpMSB b) (fieldMSB st) limit at_)
    {init : Nat → Nat → Nat} {img : Nat → Nat → Nat → Nat} {w r : Nat} (hw0 : 0 < w) (himg : ∀ p k, p < w → k < 2 → img r p k < 65536)
    (hres : ∀ p k, p < w → k < 2 → -32768 ≤ upResidual init img r p k ∧ upResidual init img r p k ≤ 32767 ∧ category (upResidual init img r p k) ∈ t.vals)
    {out0 out : List Nat} (hlen : r * (2 * w) + 2 * w ≤ out0.length) (hF : Filled out0 img 0 (2 * w) w 2 r 0 out) {up1 up2 : List Int} (h1 : Above init img 0 r up1) (h2 : Above init img 1 r up2)
    {s : Pump} {c a : Nat} {rest : List Nat} (hs : at_ s c a) (hf : Follows st c ((List.range w).flatMap (encodeUpPair t init img r) ++ rest))
    (hw : within limit (c + ((List.range w).flatMap (encodeUpPair t init img r) ++ rest).length + 12)) :
    ∃ out' up1' up2' s' c' a', Pef.row b T (2 * w) r (out, up1, up2, s) = .ok (out', up1', up2', s') ∧ Filled out0 img 0 (2 * w) w 2 (r + 1) 0 out' ∧ Above init img 0 (r + 1) up1' ∧
      Above init img 1 (r + 1) up2' ∧ at_ s' c' a' ∧ Follows st c' rest ∧ within limit (c' + rest.length + 12) := by
  have hd := drop_range_flatMap hw0 (encodeUpPair t init img r)
  rw [List.drop_zero] at hd
  rw [hd, List.append_assoc] at hf hw
  obtain ⟨s1, c1, a1, g1, i1, i2, i3⟩ := twoDiffs_ok ht hT hR (himg 0 · hw0) (hres 0 · hw0) hs hf hw
  obtain ⟨out1, p1, p2⟩ := put_ok hF hw0 hlen (himg 0 · hw0)
  obtain ⟨⟨out2, q1, q2, s2⟩, l1, l2, l3, l4, c2, a2, l5, l6, l7⟩ := loopN_inv
    (fun j (s : List Nat × Int × Int × Pump) => Filled out0 img 0 (2 * w) w 2 r (j + 1) s.1 ∧ s.2.1 = (img r j 0 : Int) ∧ s.2.2.1 = (img r j 1 : Int) ∧
      ∃ c a, at_ s.2.2.2 c a ∧ Follows st c (((List.range w).drop (j + 1)).flatMap (encodeUpPair t init img r) ++ rest) ∧
        within limit (c + (((List.range w).drop (j + 1)).flatMap (encodeUpPair t init img r) ++ rest).length + 12))
    (fun j => (fun col (s : List Nat × Int × Int × Pump) => do
      let (p1, p2, p) ← Nef.twoDiffs b T s.2
      let out ← Pef.put (2 * w) r col s.1 p1 p2
      .ok (out, p1, p2, p)) (2 + j * 2)) (w - 1) 0 (out1, (img r 0 0 : Int), (img r 0 1 : Int), s1) ⟨p2, rfl, rfl, c1, a1, i1, i2, i3⟩ (by
      rintro j ⟨out, q1, q2, s⟩ _ hj ⟨m1, m2, m3, c, a, m4, m5, m6⟩
      have hj : j + 1 < w := by omega
      dsimp only at m1 m2 m3 m4 m5 m6
      subst m2 m3
      rw [drop_range_flatMap hj, List.append_assoc] at m5 m6
      obtain ⟨s', c', a', n1, n2, n3, n4⟩ := twoDiffs_ok ht hT hR (himg (j + 1) · hj) (hres (j + 1) · hj) m4 m5 m6
      obtain ⟨out', o1, o2⟩ := put_ok m1 hj hlen (himg (j + 1) · hj)
      have e : ∀ k, upPredict init img r (j + 1) k = img r j k := by
        intro k
        unfold upPredict
        rw [if_neg (by omega), Nat.add_sub_cancel]
      rw [e, e] at n1
      refine ⟨(out', (img r (j + 1) 0 : Int), (img r (j + 1) 1 : Int), s'), ?_, o2, rfl, rfl, c', a', n2, n3, n4⟩
      dsimp only
      rw [n1, ok_bind]
      dsimp only
      rw [show 2 + j * 2 = 2 * (j + 1) by omega, o1, ok_bind])
  rw [Nat.zero_add, show w - 1 + 1 = w by omega] at l2
  rw [Nat.zero_add, show w - 1 + 1 = w by omega, List.drop_eq_nil_of_le (by simp), List.flatMap_nil, List.nil_append] at l6 l7
  refine ⟨out2, _, _, s2, c2, a2, ?_, l2.row, h1.next, h2.next, l5, l6, l7⟩
  unfold Pef.row
  dsimp only
  rw [idx_eq_ok.mpr (h1.2 r (by omega) (by omega)), ok_bind, idx_eq_ok.mpr (h2.2 r (by omega) (by omega)), ok_bind, g1, ok_bind]
  dsimp only
  rw [setIdx_lt (by rw [h1.1]; omega), ok_bind, setIdx_lt (by rw [h2.1]; omega), ok_bind, show (0 : Nat) = 2 * 0 from rfl, p1, ok_bind]
  unfold forStep
  rw [show (2 * w - 2 + 2 - 1) / 2 = w - 1 by omega, l1, ok_bind]

/-- The rows, from a fresh reader. -/
theorem pef_rows {b : Build} {t : TableSpec} {precision : Nat} {dngBug : Bool} (ht : UsableTable t precision dngBug) {T : HuffTable}
    (hT : HuffTable.new b (0 :: t.counts) (padded t) precision dngBug = .ok T) {img : Nat → Nat → Nat → Nat} {w h : Nat} (hw0 : 0 < w)
    (himg : ∀ r p k, r < h → p < w → k < 2 → img r p k < 65536)
    (hres : ∀ r p k, r < h → p < w → k < 2 → -32768 ≤ upResidual (fun _ _ => 0) img r p k ∧ upResidual (fun _ _ => 0) img r p k ≤ 32767 ∧ category (upResidual (fun _ _ => 0) img r p k) ∈ t.vals)
    (tail : Bytes) (htail : (encodeUp (fun _ => t) (fun _ _ => 0) w h img).length + 12 ≤ 32 * ((packBits (encodeUp (fun _ => t) (fun _ _ => 0) w h img) ++ tail).length / 4)) :
    ∃ up1 up2 p, forRange 0 h (Pef.row b T (2 * w)) (List.replicate (2 * w * h) 0, [0, 0], [0, 0], Pump.new (packBits (encodeUp (fun _ => t) (fun _ _ => 0) w h img) ++ tail)) =
      .ok (raster (2 * w) h fun r c => img r (c / 2) (c % 2), up1, up2, p) := by
  generalize hbits : encodeUp (fun _ => t) (fun _ _ => 0) w h img = bits at *
  have hbits1 : ∀ x ∈ bits, x ≤ 1 := by rw [← hbits]; exact encodeUp_le _ _ _ _ _
  generalize hdata : packBits bits ++ tail = data at *
  have hlenbits : bits.length ≤ 8 * (packBits bits).length := by unfold packBits; rw [List.length_map, List.length_range]; omega
  have hf0 : Follows (bytesOf data) 0 bits := by
    intro i hi
    rw [← follows_packBits hbits1 i hi]
    unfold bitMSB bytesOf
    rw [← hdata, List.getElem?_append_left (by omega)]
  obtain ⟨⟨out, up1, up2, p⟩, k1, k2, _⟩ := forRange_inv
    (fun r (s : List Nat × List Int × List Int × Pump) => Filled (List.replicate (2 * w * h) 0) img 0 (2 * w) w 2 r 0 s.1 ∧ Above (fun _ _ => 0) img 0 r s.2.1 ∧ Above (fun _ _ => 0) img 1 r s.2.2.1 ∧
      ∃ c a, AtMSB data (bytesOf data) s.2.2.2 c a ∧ Follows (bytesOf data) c (((List.range h).drop r).flatMap fun r => (List.range w).flatMap (encodeUpPair t (fun _ _ => 0) img r)) ∧
        within (some (32 * (data.length / 4))) (c + (((List.range h).drop r).flatMap fun r => (List.range w).flatMap (encodeUpPair t (fun _ _ => 0) img r)).length + 12))
    (f := Pef.row b T (2 * w)) (lo := 0) (hi := h) (s := (List.replicate (2 * w * h) 0, [0, 0], [0, 0], Pump.new data)) (Nat.zero_le _)
    ⟨⟨rfl, by intro r' p k _ _ h; omega, fun _ _ => rfl⟩,
      ⟨rfl, by intro R _ h; have : R = 0 ∨ R = 1 := by omega
               rcases this with rfl | rfl <;> rfl⟩,
      ⟨rfl, by intro R _ h; have : R = 0 ∨ R = 1 := by omega
               rcases this with rfl | rfl <;> rfl⟩, 0, 0, atMSB_new _ _, by rw [List.drop_zero]; unfold encodeUp at hbits; rw [hbits]; exact hf0,
      by rw [List.drop_zero]; unfold encodeUp at hbits; rw [hbits]; show 0 + bits.length + 12 ≤ _; omega⟩ (by
      rintro r ⟨out, up1, up2, s⟩ _ hr ⟨m1, m2, m3, c, a, m4, m5, m6⟩
      dsimp only at m1 m2 m3 m4 m5 m6
      rw [drop_range_flatMap hr] at m5 m6
      obtain ⟨out', u1, u2, s', c', a', n1, n2, n3, n4, n5, n6, n7⟩ := pef_row_ok ht hT (readsMSB b data) hw0 (fun p k => himg r p k hr) (fun p k => hres r p k hr)
        (by
          rw [List.length_replicate]
          have : (r + 1) * (2 * w) ≤ h * (2 * w) := Nat.mul_le_mul_right _ hr
          rw [Nat.succ_mul] at this
          rw [Nat.mul_comm (2 * w) h]
          exact this) m1 m2 m3 m4 m5 m6
      exact ⟨_, n1, n2, n3, n4, c', a', n5, n6, n7⟩)
  refine ⟨up1, up2, p, ?_⟩
  rw [k1, ← eq_raster (l := out)]
  · have := k2.len
    rw [List.length_replicate] at this
    exact this
  · intro r c hr hc
    have := k2.done r (c / 2) (c % 2) (by omega) (by omega) (Or.inl hr)
    rw [← this]
    congr 1; omega

/-- The table of cameras that do not store one (`pef.rs:104-105`). -/
def pefDefault : TableSpec := ⟨[0, 2, 3, 1, 1, 1, 1, 1, 1, 2, 0, 0, 0, 0, 0, 0], [3, 4, 2, 5, 1, 6, 0, 7, 8, 9, 10, 11, 12]⟩

theorem pefDefault_usable : UsableTable pefDefault 16 false :=
  ⟨⟨rfl, by decide⟩, ⟨by decide, by decide⟩, by decide, ⟨by decide, by decide, by decide⟩, Or.inr (Or.inl (by decide)), by decide, by decide⟩

/-- The table a file is decoded with. -/
def PefStored (tiff : TiffIFD) (t : TableSpec) : Prop :=
  (tiff.findEntry Tag.PefHuffman = none ∧ t = pefDefault) ∨
  ∃ huff d unused tail, tiff.findEntry Tag.PefHuffman = some huff ∧ huff.data = pefTable tiff.endian.big d unused t ++ tail ∧ d < 65536 ∧ (d + 12) % 16 = t.vals.length ∧ unused.length = 12 ∧ PefTable t

/-- C60: an image of `h` rows of `w` pairs of columns, encoded with the table in the maker note (or the default one if there is none), comes back. The data must have twelve bits more
than the codes, in whole words (the reader looks thirteen bits ahead). -/
theorem pef_round_trip (b : Build) (tiff : TiffIFD) (t : TableSpec) (hst : PefStored tiff t) (img : Nat → Nat → Nat → Nat) (w h : Nat) (hw0 : 0 < w)
    (himg : ∀ r p k, r < h → p < w → k < 2 → img r p k < 65536)
    (hres : ∀ r p k, r < h → p < w → k < 2 → -32768 ≤ upResidual (fun _ _ => 0) img r p k ∧ upResidual (fun _ _ => 0) img r p k ≤ 32767 ∧ category (upResidual (fun _ _ => 0) img r p k) ∈ t.vals)
    (tail : Bytes) (htail : (encodeUp (fun _ => t) (fun _ _ => 0) w h img).length + 12 ≤ 32 * ((packBits (encodeUp (fun _ => t) (fun _ _ => 0) w h img) ++ tail).length / 4)) :
    Pef.decodeCompressed b tiff (packBits (encodeUp (fun _ => t) (fun _ _ => 0) w h img) ++ tail) (2 * w) h = .ok (raster (2 * w) h fun r c => img r (c / 2) (c % 2)) := by
  have hu : UsableTable t 16 false := by
    rcases hst with ⟨_, rfl⟩ | ⟨_, _, _, _, _, _, _, _, _, h⟩
    · exact pefDefault_usable
    · exact h.usable
  obtain ⟨T, hT, _⟩ := hu.codes (b := b)
  obtain ⟨up1, up2, p, hrows⟩ := pef_rows hu hT hw0 himg hres tail htail
  have hnew : HuffTable.init b { HuffTable.empty 16 with bits := 0 :: t.counts, huffval := padded t } true = .ok T := hT
  unfold Pef.decodeCompressed
  rcases hst with ⟨hn, rfl⟩ | ⟨huff, d, unused, tl, hs, hd, h1, h2, h3, h4⟩
  · rw [hn]
    dsimp only
    rw [show Pef.legacyTable = .ok (0 :: pefDefault.counts, padded pefDefault) by decide +kernel, ok_bind]
    dsimp only
    rw [hnew, ok_bind, hrows, ok_bind]
  · rw [hs]
    dsimp only
    rw [hd, readTable_ok b h4 tiff.endian d h1 h2 unused tl h3, ok_bind]
    dsimp only
    rw [hnew, ok_bind, hrows, ok_bind]

private theorem odd_rows (b : Build) (src : Bytes) (width h : Nat) (hw : width % 2 = 1) (hh : 0 < h) (out : List Nat) (bits huffval : List Nat) (h17 : bits.length = 17) :
    (do
      let t ← HuffTable.init b { HuffTable.empty 16 with bits := bits, huffval := huffval } true
      let s ← forRange 0 h (Pef.row b t width) (List.replicate (width * h) 0, [0, 0], [0, 0], Pump.new src)
      .ok s.1) ≠ .ok out := by
  intro hok
  obtain ⟨T, hT, hok⟩ := bind_eq_ok.mp hok
  obtain ⟨sf, hrows, _⟩ := bind_eq_ok.mp hok
  have hB := (HuffTable.post_init b huffval 16 false true h17).2 T hT
  rw [show h = h - 1 + 1 by omega, forRange_snoc _ (by omega)] at hrows
  obtain ⟨⟨o, u1, u2, p⟩, h1, h2⟩ := bind_eq_ok.mp hrows
  have hsize : o.length = width * (h - 1 + 1) := by
    have := (post_forRange_size (lo := 0) (hi := h - 1) (s := (List.replicate (width * (h - 1 + 1)) 0, [0, 0], [0, 0], Pump.new src)) fun j s _ => Pef.post_row b hB width j s).2 _ h1
    simpa [Size.size] using this
  have hmul : width * (h - 1 + 1) = (h - 1) * width + width := by rw [Nat.mul_comm, Nat.succ_mul]
  unfold Pef.row at h2
  dsimp only at h2
  obtain ⟨_, _, h2⟩ := bind_eq_ok.mp h2
  obtain ⟨_, _, h2⟩ := bind_eq_ok.mp h2
  obtain ⟨⟨_, _, _⟩, _, h2⟩ := bind_eq_ok.mp h2
  obtain ⟨_, _, h2⟩ := bind_eq_ok.mp h2
  obtain ⟨_, _, h2⟩ := bind_eq_ok.mp h2
  obtain ⟨o1, hput, h2⟩ := bind_eq_ok.mp h2
  obtain ⟨_, hloop, _⟩ := bind_eq_ok.mp h2
  have ho1 : o1.length = o.length := (Pef.post_put _ _ _ _ _ _).2 _ hput
  by_cases h1w : width = 1
  · unfold Pef.put at hput
    obtain ⟨o2, hs1, hs2⟩ := bind_eq_ok.mp hput
    rw [setIdx_eq_ok] at hs1 hs2
    have := hs2.1
    rw [hs1.2, List.length_set] at this
    omega
  · unfold forStep at hloop
    rw [show (width - 2 + 2 - 1) / 2 = (width - 3) / 2 + 1 by omega, loopN_add] at hloop
    obtain ⟨⟨o3, q1, q2, p3⟩, l1, l2⟩ := bind_eq_ok.mp hloop
    have ho3 : o3.length = o1.length := by
      refine loopN_ok (fun _ (s : List Nat × Int × Int × Pump) => s.1.length = o1.length) _ _ _ _ _ rfl ?_ l1
      intro j s s' _ _ hs hstep
      obtain ⟨⟨_, _, _⟩, _, hstep⟩ := bind_eq_ok.mp hstep
      obtain ⟨o4, hp4, hstep⟩ := bind_eq_ok.mp hstep
      injection hstep with hstep
      rw [← hstep, ← hs]
      exact (Pef.post_put _ _ _ _ _ _).2 _ hp4
    rw [loopN] at l2
    obtain ⟨_, l2, _⟩ := bind_eq_ok.mp l2
    dsimp only at l2
    obtain ⟨⟨_, _, _⟩, _, l2⟩ := bind_eq_ok.mp l2
    obtain ⟨o4, hp4, _⟩ := bind_eq_ok.mp l2
    unfold Pef.put at hp4
    obtain ⟨o5, hs1, hs2⟩ := bind_eq_ok.mp hp4
    rw [setIdx_eq_ok] at hs1 hs2
    have := hs2.1
    rw [hs1.2, List.length_set] at this
    omega

/-- An image with an odd width is never decoded: the last pair of the last row does not fit. -/
theorem pef_odd_width (b : Build) (tiff : TiffIFD) (src : Bytes) (width h : Nat) (hw : width % 2 = 1) (hh : 0 < h) (out : List Nat) :
    Pef.decodeCompressed b tiff src width h ≠ .ok out := by
  intro hok
  unfold Pef.decodeCompressed at hok
  dsimp only at hok
  split at hok
  · obtain ⟨⟨bits, huffval⟩, ht, hok⟩ := bind_eq_ok.mp hok
    exact odd_rows b src width h hw hh out bits huffval ((Pef.post_readTable b _ _).2 _ ht) hok
  · obtain ⟨⟨bits, huffval⟩, ht, hok⟩ := bind_eq_ok.mp hok
    exact odd_rows b src width h hw hh out bits huffval (Pef.post_legacyTable.2 _ ht) hok

/-- Three rows of two pairs, without a table in the file. -/
private def pefSample (r p k : Nat) : Nat := 100 * r + 7 * p * p + 30 * k

example (b : Build) : Pef.decodeCompressed b (.mk [] [] 0 0 BIG_ENDIAN) (packBits (encodeUp (fun _ => pefDefault) (fun _ _ => 0) 2 3 pefSample) ++ [0, 0, 0, 0, 0]) 4 3 =
    .ok [0, 30, 7, 37, 100, 130, 107, 137, 200, 230, 207, 237] :=
  pef_round_trip b _ pefDefault (Or.inl ⟨rfl, rfl⟩) pefSample 2 3 (by decide)
    (fun r p k hr hp hk => (show ∀ r, r < 3 → ∀ p, p < 2 → ∀ k, k < 2 → pefSample r p k < 65536 by decide) r hr p hp k hk)
    (fun r p k hr hp hk => (show ∀ r, r < 3 → ∀ p, p < 2 → ∀ k, k < 2 → -32768 ≤ upResidual (fun _ _ => 0) pefSample r p k ∧ upResidual (fun _ _ => 0) pefSample r p k ≤ 32767 ∧
      category (upResidual (fun _ _ => 0) pefSample r p k) ∈ pefDefault.vals by decide +kernel) r hr p hp k hk) [0, 0, 0, 0, 0] (by decide +kernel)

/-- A table with three symbols, as stored in the file (high byte first), and what is read from it: one code of one bit, two of two bits. -/
example : pefTable true 7 (List.replicate 12 0) ⟨[1, 2, 0, 0, 0, 0, 0, 0, 0, 0, 0, 0, 0, 0, 0, 0], [2, 0, 1]⟩ = [0, 7, 0, 0, 0, 0, 0, 0, 0, 0, 0, 0, 0, 0, 8, 0, 12, 0, 0, 0, 2, 2, 1] ∧
    Pef.readTable .debug [0, 7, 0, 0, 0, 0, 0, 0, 0, 0, 0, 0, 0, 0, 8, 0, 12, 0, 0, 0, 2, 2, 1] BIG_ENDIAN =
      .ok ([0, 1, 2, 0, 0, 0, 0, 0, 0, 0, 0, 0, 0, 0, 0, 0, 0], [2, 0, 1] ++ List.replicate 253 0) := by decide +kernel

end Props

import Verif.Spec.Arw1
import Verif.Model.Dec.Arw
import Verif.Lemmas.Ljpeg
import Verif.Lemmas.LoopsMore
/-!
# C48: the first Sony raw format
-/

namespace Props
open Rust Spec Model Model.Ljpeg Model.HuffTable

private theorem category_le16 {d : Int} (h1 : -65536 < d) (h2 : d < 65536) : category d ≤ 16 := by
  unfold category
  by_cases h0 : d.natAbs = 0
  · rw [if_pos h0]; omega
  · rw [if_neg h0]
    have hlt : d.natAbs.log2 < 16 := by rw [Nat.log2_lt h0]; omega
    omega

private theorem extend_additional (d : Int) : additional (category d) d < 2 ^ category d ∧ extend (category d) (additional (category d) d) = d := by
  unfold extend additional
  by_cases h0 : d.natAbs = 0
  · have : d = 0 := by omega
    subst this
    decide
  · have hcat : category d = d.natAbs.log2 + 1 := by unfold category; rw [if_neg h0]
    obtain ⟨a1, a2⟩ := log2_bound h0
    rw [hcat]
    generalize d.natAbs.log2 = e at a1 a2
    rw [Nat.add_sub_cancel]
    have hp : (2 : Int) ^ (e + 1) = ((2 ^ (e + 1) : Nat) : Int) := by push_cast; rfl
    rw [hp]
    rw [Nat.pow_succ] at a2 ⊢
    generalize 2 ^ e = q at *
    constructor
    · split <;> omega
    · split <;> split <;> omega

private theorem bitsOf_zero (n : Nat) : bitsOf n 0 = List.replicate n 0 := by
  unfold bitsOf
  simp only [Nat.zero_div, Nat.zero_mod]
  apply List.ext_getElem?
  intro i
  rw [List.getElem?_map, List.getElem?_replicate]
  by_cases h : i < n
  · rw [List.getElem?_range h, if_pos h]; rfl
  · rw [if_neg h, List.getElem?_eq_none (by simp; omega)]; rfl

private theorem prefix_long (n : Nat) : arw1Prefix (n + 4) = bitsOf 2 0 ++ bitsOf (n + 1) 1 := by
  rw [bitsOf_succ n 1, arw1Prefix, show (1 : Nat) / 2 = 0 from rfl, bitsOf_zero n, List.append_assoc]
  rfl

private theorem prefix_length (n : Nat) : (arw1Prefix n).length ≤ n + 3 := by
  match n with
  | 0 => decide
  | 1 => decide
  | 2 => decide
  | 3 => decide
  | n + 4 => simp [arw1Prefix]

variable {limit : Option Nat} {st : Nat → Nat} {at_ : Pump → Nat → Nat → Prop}

/-- The length of a difference. -/
private theorem arw1Len_ok {b : Build} (hR : Reads (pumpMSB b) (fieldMSB st) limit at_) {s : Pump} {c a n : Nat} (hs : at_ s c a) (hn : n ≤ 16)
    (hf : Follows st c (arw1Prefix n)) (hw : within limit (c + (arw1Prefix n).length + n + 8)) :
    ∃ s' a', Arw.arw1Len b s = .ok (n, s') ∧ at_ s' (c + (arw1Prefix n).length) a' := by
  have two : ∀ v rest, arw1Prefix n = bitsOf 2 v ++ rest → v < 4 → fieldMSB st c 2 = v ∧ Follows st (c + 2) rest := by
    intro v rest e hv
    rw [e, follows_append, bitsOf_length] at hf
    exact ⟨follows_bitsOf hf.1 hv, hf.2⟩
  have one : ∀ c' v, Follows st c' (bitsOf 1 v) → v < 2 → fieldMSB st c' 1 = v := fun c' v h hv => follows_bitsOf h hv
  unfold Arw.arw1Len
  dsimp only
  obtain ⟨s1, a1, g1, g2⟩ := hR.get hs (n := 2) (by omega) (by omega) (within_mono hw (by
    match n with
    | 0 => simp [arw1Prefix]
    | 1 => simp [arw1Prefix]
    | 2 => simp [arw1Prefix]
    | 3 => simp [arw1Prefix]
    | n + 4 => simp [arw1Prefix]; omega))
  rw [g1, ok_bind]
  dsimp only
  match n, two, hw, hn with
  | 0, two, hw, hn =>
    obtain ⟨t1, t2⟩ := two 1 (bitsOf 1 1) (by decide) (by omega)
    rw [t1, subU_ok (by omega), ok_bind, if_pos (by rfl)]
    obtain ⟨s2, a2, g3, g4⟩ := hR.get g2 (n := 1) (by omega) (by omega) (within_mono hw (by simp [arw1Prefix]))
    rw [g3, ok_bind]
    dsimp only
    rw [one _ _ t2 (by omega), if_pos (by omega)]
    exact ⟨s2, a2, rfl, g4⟩
  | 1, two, hw, hn =>
    obtain ⟨t1, -⟩ := two 3 [] (by decide) (by omega)
    rw [t1, subU_ok (by omega), ok_bind, if_neg (by omega), if_neg (by omega)]
    exact ⟨s1, a1, rfl, g2⟩
  | 2, two, hw, hn =>
    obtain ⟨t1, -⟩ := two 2 [] (by decide) (by omega)
    rw [t1, subU_ok (by omega), ok_bind, if_neg (by omega), if_neg (by omega)]
    exact ⟨s1, a1, rfl, g2⟩
  | 3, two, hw, hn =>
    obtain ⟨t1, t2⟩ := two 1 (bitsOf 1 0) (by decide) (by omega)
    rw [t1, subU_ok (by omega), ok_bind, if_pos (by rfl)]
    obtain ⟨s2, a2, g3, g4⟩ := hR.get g2 (n := 1) (by omega) (by omega) (within_mono hw (by simp [arw1Prefix]))
    rw [g3, ok_bind]
    dsimp only
    rw [one _ _ t2 (by omega), if_neg (by omega)]
    exact ⟨s2, a2, rfl, g4⟩
  | n + 4, two, hw, hn =>
    obtain ⟨t1, t2⟩ := two 0 (bitsOf (n + 1) 1) (prefix_long n) (by omega)
    have hlen : (arw1Prefix (n + 4)).length = n + 3 := by rw [prefix_long, List.length_append, bitsOf_length, bitsOf_length]; omega
    rw [hlen] at hw ⊢
    rw [t1, subU_ok (by omega), ok_bind, if_neg (by omega), if_pos (by omega)]
    obtain ⟨s2, a2, g3, g4, g5, -⟩ := hR.peek s1 (c + 2) a1 13 g2 (by omega) (within_mono hw (by omega))
    have hv : fieldMSB st (c + 2) 13 / 2 ^ (13 - (n + 1)) = 1 := by
      rw [field_div st (c + 2) (by omega : n + 1 ≤ 13)]
      exact follows_bitsOf t2 (by rw [Nat.pow_succ]; have : 0 < 2 ^ n := Nat.pow_pos (by omega); omega)
    have hlz : leadingZeros (fieldMSB st (c + 2) 13) = 19 + n := by
      have hpos : 0 < 2 ^ (13 - (n + 1)) := Nat.pow_pos (by omega)
      have hb := (Nat.div_eq_iff hpos).mp hv
      have h0 : fieldMSB st (c + 2) 13 ≠ 0 := by
        intro h; rw [h, Nat.zero_div] at hv; omega
      have : (fieldMSB st (c + 2) 13).log2 = 12 - n := by
        rw [Nat.log2_eq_iff h0, show 12 - n + 1 = 13 - (n + 1) + 1 by omega, Nat.pow_succ, show 12 - n = 13 - (n + 1) by omega]
        omega
      unfold leadingZeros
      rw [if_neg h0, this]
      omega
    rw [g3, ok_bind]
    dsimp only
    rw [hlz, subU_ok (by omega), ok_bind, show 19 + n - 19 = n by omega, show Nat.min 13 (n + 1) = n + 1 from Nat.min_eq_right (by omega)]
    obtain ⟨s3, a3, g6, g7⟩ := hR.get g4 (n := n + 1) (by omega) (by omega) (within_mono hw (by omega))
    rw [g6, ok_bind]
    exact ⟨s3, a3, by rw [Nat.add_comm 4 n], by rw [show c + (n + 3) = c + 2 + (n + 1) by omega]; exact g7⟩

/-- One pixel. -/
private theorem arw1Pixel_ok {b : Build} (hR : Reads (pumpMSB b) (fieldMSB st) limit at_) {s : Pump} {c a : Nat} {sum d : Int} (hs : at_ s c a)
    (hd1 : -65536 < d) (hd2 : d < 65536) (hs1 : 0 ≤ sum) (hs2 : sum < 65536) (hsd : 0 ≤ sum + d) (hsd2 : sum + d < 65536)
    (hf : Follows st c (arw1Code d)) (hw : within limit (c + (arw1Code d).length + 8)) :
    ∃ s' a', Arw.arw1Pixel b sum s = .ok (sum + d, s') ∧ at_ s' (c + (arw1Code d).length) a' := by
  obtain ⟨had, hex⟩ := extend_additional d
  have hcat := category_le16 hd1 hd2
  unfold arw1Code at hf hw ⊢
  rw [List.length_append, bitsOf_length] at hw ⊢
  rw [follows_append] at hf
  generalize category d = n at *
  have hlt : 2 ^ n ≤ 65536 := Nat.pow_le_pow_right (n := 2) (by omega) hcat
  have hI : toI32 (additional n d : Nat) = (additional n d : Nat) := toI32_small (by omega)
  obtain ⟨s1, a1, g1, g2⟩ := arw1Len_ok hR hs hcat hf.1 (by rw [Nat.add_assoc c]; exact hw)
  unfold Arw.arw1Pixel
  rw [g1, ok_bind]
  dsimp only
  have hget : ∃ s2 a2, (pumpMSB b).getBits s1 n = .ok (additional n d, s2) ∧ at_ s2 (c + ((arw1Prefix n).length + n)) a2 := by
    by_cases h0 : n = 0
    · subst h0
      refine ⟨s1, a1, ?_, g2⟩
      unfold PumpOps.getBits
      rw [if_pos rfl, show additional 0 d = 0 by rw [Nat.pow_zero] at had; omega]
    · obtain ⟨s2, a2, g3, g4⟩ := hR.get g2 (n := n) (by omega) (by omega) (within_mono hw (by omega))
      exact ⟨s2, a2, by rw [g3, follows_bitsOf hf.2 had], by rw [← Nat.add_assoc]; exact g4⟩
  obtain ⟨s2, a2, g3, g4⟩ := hget
  rw [g3, ok_bind]
  dsimp only
  generalize additional n d = v at *
  rw [hI, i32_small (by omega) (by omega), ok_bind, Nat.shiftLeft_eq, Nat.one_mul, Nat.shiftLeft_eq, Nat.one_mul]
  unfold extend at hex
  by_cases h0 : 0 < n
  · have hand := and_top h0 had
    have hp : ((2 : Int) ^ n) = ((2 ^ n : Nat) : Int) := by simp
    rw [hp] at hex
    by_cases hv : v < 2 ^ (n - 1)
    · rw [if_pos hv] at hex
      rw [if_pos ⟨h0, hand.mpr hv⟩, i32_small (by omega) (by omega), ok_bind]
      exact ⟨s2, a2, by rw [show sum + (v : Int) - (((2 ^ n : Nat) : Int) - 1) = sum + d by omega], g4⟩
    · rw [if_neg hv] at hex
      rw [if_neg (fun h => hv (hand.mp h.2))]
      exact ⟨s2, a2, by rw [hex], g4⟩
  · have : n = 0 := by omega
    subst this
    rw [if_neg (fun h => h0 h.1)]
    refine ⟨s2, a2, ?_, g4⟩
    rw [Nat.pow_zero] at had
    have hv : v = 0 := by omega
    subst hv
    simp at hex
    rw [← hex]
    rfl

/-- What has been decoded after `k` pixels. -/
private def Arw1At (b : Build) (at_ : Pump → Nat → Nat → Prop) (width height : Nat) (img : Nat → Nat → Nat) (st : Nat → Nat) (k : Nat) (s : List Nat × Int × Pump) : Prop :=
  Wrote (List.replicate (width * height) 0) (fun x j => arw1Row height (x * height + j) * width + arw1Col width height (x * height + j))
    (fun x j => arw1Value width height img (x * height + j)) (fun x j => j < height ∧ x * height + j < k) s.1 ∧
  s.2.1 = arw1Before width height img k ∧
  ∃ c a, at_ s.2.2 c a ∧ c + (((List.range (width * height)).drop k).flatMap fun k => arw1Code ((arw1Value width height img k : Int) - arw1Before width height img k)).length =
      (encodeArw1 width height img).length ∧
    Follows st c (((List.range (width * height)).drop k).flatMap fun k => arw1Code ((arw1Value width height img k : Int) - arw1Before width height img k))

private theorem div_mod_cell {h x j : Nat} (hj : j < h) : (x * h + j) / h = x ∧ (x * h + j) % h = j := by
  constructor
  · rw [Nat.mul_comm, Nat.mul_add_div (by omega), Nat.div_eq_of_lt hj, Nat.add_zero]
  · rw [Nat.mul_comm, Nat.mul_add_mod, Nat.mod_eq_of_lt hj]

private theorem row_lt {height j : Nat} (hev : height % 2 = 0) (hj : j < height) :
    (if j < height / 2 then 2 * j else 2 * (j - height / 2) + 1) < height := by split <;> omega

/-- The next pixel. -/
private theorem arw1_step {b : Build} (hR : Reads (pumpMSB b) (fieldMSB st) limit at_) {width height x j : Nat} {img : Nat → Nat → Nat} (hev : height % 2 = 0) (hx : x < width) (hj : j < height)
    (himg : ∀ r c, img r c < 65536) (hw : within limit ((encodeArw1 width height img).length + 8)) {s : List Nat × Int × Pump}
    (hs : Arw1At b at_ width height img st (x * height + j) s) :
    ∃ sum p out, Arw.arw1Pixel b s.2.1 s.2.2 = .ok (sum, p) ∧
      setIdx s.1 ((if j < height / 2 then 2 * j else 2 * (j - height / 2) + 1) * width + (width - 1 - x)) (toU16 sum) = .ok out ∧
      Arw1At b at_ width height img st (x * height + j + 1) (out, sum, p) := by
  have hk : x * height + j < width * height := by
    have : (x + 1) * height ≤ width * height := Nat.mul_le_mul_right _ hx
    rw [Nat.add_mul, Nat.one_mul] at this
    omega
  obtain ⟨e1, e2⟩ := div_mod_cell (x := x) hj
  have hrow : arw1Row height (x * height + j) = if j < height / 2 then 2 * j else 2 * (j - height / 2) + 1 := by unfold arw1Row; rw [e2]
  have hcol : arw1Col width height (x * height + j) = width - 1 - x := by unfold arw1Col; rw [e1]
  obtain ⟨out, sum, p⟩ := s
  obtain ⟨h1, h2, c, a, h3, h4, h5⟩ := hs
  dsimp only at h1 h2 h3 ⊢
  rw [drop_range_flatMap hk, List.length_append] at h4
  rw [drop_range_flatMap hk, follows_append] at h5
  generalize hkk : x * height + j = k at *
  have hval : arw1Value width height img k < 65536 := himg _ _
  have hbef : arw1Before width height img k < 65536 := by unfold arw1Before; split; omega; exact himg _ _
  obtain ⟨p', a', g1, g2⟩ := arw1Pixel_ok hR (sum := sum) h3 (by omega) (by omega) (by omega) (by omega) (by omega) (by omega) h5.1 (within_mono hw (by omega))
  have hsum : sum + ((arw1Value width height img k : Int) - arw1Before width height img k) = arw1Value width height img k := by rw [h2]; omega
  rw [hsum] at g1
  have hu : toU16 (arw1Value width height img k : Int) = arw1Value width height img k := by unfold toU16; omega
  have hlt : arw1Row height k * width + arw1Col width height k < width * height := by
    have hr := row_lt hev hj
    rw [← hrow] at hr
    have : (arw1Row height k + 1) * width ≤ height * width := Nat.mul_le_mul_right _ hr
    rw [Nat.add_mul, Nat.one_mul, Nat.mul_comm height] at this
    rw [hcol]
    omega
  refine ⟨_, p', out.set (arw1Row height k * width + arw1Col width height k) (arw1Value width height img k), g1, ?_, ?_, ?_, c + (arw1Code ((arw1Value width height img k : Int) - arw1Before width height img k)).length, a', g2, by omega, h5.2⟩
  · rw [hu, ← hrow, ← hcol]
    exact setIdx_lt (by have := h1.1; rw [List.length_replicate] at this; omega)
  · have := Wrote.set (row := x) (col := j) h1 (by rw [hkk, List.length_replicate]; exact hlt) (by
      rintro x' j' ⟨hj', hlt'⟩ e
      have hx' : x' < width := by
        refine Nat.lt_of_not_le fun hle => ?_
        have := Nat.mul_le_mul_right height hle
        omega
      obtain ⟨e1', e2'⟩ := div_mod_cell (x := x') hj'
      obtain ⟨e1, e2⟩ := div_mod_cell (x := x) hj
      unfold arw1Row arw1Col at e
      rw [e1', e2', e1, e2] at e
      have a1 : width - 1 - x' < width := by omega
      have a2 : width - 1 - x < width := by omega
      generalize hR1 : (if j' < height / 2 then 2 * j' else 2 * (j' - height / 2) + 1) = R1 at e
      generalize hR2 : (if j < height / 2 then 2 * j else 2 * (j - height / 2) + 1) = R2 at e
      have d1 := (div_mod_cell (x := R1) a1)
      have d2 := (div_mod_cell (x := R2) a2)
      rw [e] at d1
      have f1 : R1 = R2 := by omega
      have f2 : x' = x := by omega
      have f3 : j' = j := by split at hR1 <;> split at hR2 <;> omega
      subst f2 f3
      omega)
    rw [hkk] at this
    exact this.congr fun x' j' => by
      constructor
      · rintro (h | ⟨rfl, rfl⟩)
        · omega
        · omega
      · rintro ⟨h, h'⟩
        by_cases hlt : x' * height + j' < k
        · exact Or.inl ⟨h, hlt⟩
        · right
          have he : x' * height + j' = x * height + j := by omega
          have q1 := div_mod_cell (x := x') h
          have q2 := div_mod_cell (x := x) hj
          rw [he] at q1
          omega
  · show (arw1Value width height img k : Int) = arw1Before width height img (k + 1)
    unfold arw1Before
    rw [if_neg (by omega), Nat.add_sub_cancel]

/-- The value of the variable `row` before step `j` of a column. -/
private def rowVar (height j : Nat) : Nat := if j ≤ height / 2 then 2 * j else 2 * (j - height / 2) + 1

private theorem arw1_column {b : Build} (hR : Reads (pumpMSB b) (fieldMSB st) limit at_) {width height x : Nat} {img : Nat → Nat → Nat} (hev : height % 2 = 0) (h0 : 0 < height) (hx : x < width)
    (himg : ∀ r c, img r c < 65536) (hw : within limit ((encodeArw1 width height img).length + 8)) : ∀ (m j n : Nat) (s : List Nat × Int × Pump), m + j = height → m < n →
    Arw1At b at_ width height img st (x * height + j) s →
    ∃ s', Arw.arw1Column b width height (width - 1 - x) n (rowVar height j) s = .ok s' ∧ Arw1At b at_ width height img st (x * height + height) s' := by
  intro m
  induction m with
  | zero =>
    intro j n s hm hn hs
    obtain ⟨n, rfl⟩ : ∃ k, n = k + 1 := ⟨n - 1, by omega⟩
    have : j = height := by omega
    subst this
    refine ⟨s, ?_, hs⟩
    unfold Arw.arw1Column
    rw [if_neg (by unfold rowVar; split <;> omega)]
  | succ m ih =>
    intro j n s hm hn hs
    obtain ⟨n, rfl⟩ : ∃ k, n = k + 1 := ⟨n - 1, by omega⟩
    obtain ⟨sum, p, out, g1, g2, g3⟩ := arw1_step hR hev hx (by omega : j < height) himg hw hs
    obtain ⟨s', e1, e2⟩ := ih (j + 1) n (out, sum, p) (by omega) (by omega) (by rw [← Nat.add_assoc]; exact g3)
    refine ⟨s', ?_, e2⟩
    have hr : (if rowVar height j = height then 1 else rowVar height j) = if j < height / 2 then 2 * j else 2 * (j - height / 2) + 1 := by
      unfold rowVar
      split <;> split <;> split <;> omega
    have hr2 : (if j < height / 2 then 2 * j else 2 * (j - height / 2) + 1) + 2 = rowVar height (j + 1) := by
      unfold rowVar
      split <;> split <;> omega
    unfold Arw.arw1Column
    rw [if_pos (by unfold rowVar; split <;> omega)]
    dsimp only
    rw [g1, ok_bind]
    dsimp only
    rw [hr, g2, ok_bind, hr2]
    exact e1

/-- C48. An image of even height is restored from its encoded form, so every pixel gets its own value, whatever follows the encoded
image. Reading ahead needs eight more bits, and only whole groups of four bytes are read. -/
theorem arw1_round_trip_partial (b : Build) (buf : Bytes) (width height : Nat) (img : Nat → Nat → Nat) (hev : height % 2 = 0) (h0 : 0 < height) (himg : ∀ r c, img r c < 65536)
    (hf : Follows (bytesOf buf) 0 (encodeArw1 width height img)) (hlen : (encodeArw1 width height img).length + 8 ≤ 32 * (buf.length / 4)) :
    Arw.decodeArw1 b buf width height = .ok (raster width height img) := by
  have hR := readsMSB b buf
  obtain ⟨s, e1, e2, -, -⟩ := forRange_inv (P := fun x s => Arw1At b (AtMSB buf (bytesOf buf)) width height img (bytesOf buf) (x * height) s)
    (f := fun x s => Arw.arw1Column b width height (width - 1 - x) (height + 2) 0 s) (s := (List.replicate (width * height) 0, 0, Pump.new buf)) (Nat.zero_le width) (by
      rw [Nat.zero_mul]
      exact ⟨⟨rfl, fun _ _ h => by omega, fun _ _ => rfl⟩, by simp [arw1Before], 0, 0, atMSB_new _ _, by rw [List.drop_zero, Nat.zero_add]; rfl, by rw [List.drop_zero]; exact hf⟩) (by
      intro x s _ hx hs
      obtain ⟨s', g1, g2⟩ := arw1_column hR hev h0 hx himg hlen height 0 (height + 2) s (by omega) (by omega) hs
      refine ⟨s', ?_, by rw [Nat.add_mul, Nat.one_mul]; exact g2⟩
      rw [show rowVar height 0 = 0 by simp [rowVar]] at g1
      exact g1)
  unfold Arw.decodeArw1
  rw [e1, ok_bind]
  congr 1
  have hl := e2.1
  rw [List.length_replicate] at hl
  apply List.ext_getElem?
  intro i
  by_cases hi : i < width * height
  · have hwd : 0 < width := Nat.pos_of_ne_zero fun h => by rw [h, Nat.zero_mul] at hi; omega
    have hc := Nat.mod_lt i hwd
    have hr : i / width < height := by rw [Nat.div_lt_iff_lt_mul hwd, Nat.mul_comm]; exact hi
    have e : i = i / width * width + i % width := by rw [Nat.mul_comm]; exact (Nat.div_add_mod i width).symm
    rw [e, raster_getElem? _ _ _ _ _ hr hc]
    generalize i / width = r at *
    generalize i % width = cl at *
    -- the step that writes this pixel
    obtain ⟨j, hj, hjr⟩ : ∃ j, j < height ∧ (if j < height / 2 then 2 * j else 2 * (j - height / 2) + 1) = r := by
      by_cases hp : r % 2 = 0
      · exact ⟨r / 2, by omega, by rw [if_pos (by omega)]; omega⟩
      · exact ⟨height / 2 + r / 2, by omega, by rw [if_neg (by omega)]; omega⟩
    have hk : (width - 1 - cl) * height + j < width * height := by
      have : (width - 1 - cl + 1) * height ≤ width * height := Nat.mul_le_mul_right _ (by omega)
      rw [Nat.add_mul, Nat.one_mul] at this
      omega
    have := e2.2.1 (width - 1 - cl) j ⟨hj, hk⟩
    obtain ⟨q1, q2⟩ := div_mod_cell (x := width - 1 - cl) hj
    unfold arw1Value arw1Row arw1Col at this
    dsimp only at this
    rw [q1, q2, hjr, show width - 1 - (width - 1 - cl) = cl by omega] at this
    exact this
  · rw [List.getElem?_eq_none (by omega), List.getElem?_eq_none (by rw [raster_length]; omega)]

/-- C48, the part that fails: in an image of odd height the odd rows are never written. -/
theorem arw1_odd_height_loses_rows (b : Build) (buf : Bytes) (width height : Nat) (out : List Nat) (hodd : height % 2 = 1) (h : Arw.decodeArw1 b buf width height = .ok out) :
    ∀ row col, row % 2 = 1 → row < height → col < width → out[row * width + col]? = some 0 := by
  have step : ∀ (x : Nat), x < width → ∀ (n row : Nat) (s s' : List Nat × Int × Pump), row % 2 = 0 →
      (s.1.length = width * height ∧ ∀ row col, row % 2 = 1 → row < height → col < width → s.1[row * width + col]? = some 0) →
      Arw.arw1Column b width height (width - 1 - x) n row s = .ok s' →
      (s'.1.length = width * height ∧ ∀ row col, row % 2 = 1 → row < height → col < width → s'.1[row * width + col]? = some 0) := by
    intro x hx n
    induction n with
    | zero => intro row s s' _ _ h; unfold Arw.arw1Column at h; exact absurd h (by simp)
    | succ n ih =>
      intro row s s' hrow hs h
      unfold Arw.arw1Column at h
      split at h
      · dsimp only at h
        rw [if_neg (by omega)] at h
        obtain ⟨⟨sum, p⟩, -, h⟩ := bind_eq_ok.mp h
        obtain ⟨o, ho, h⟩ := bind_eq_ok.mp h
        refine ih (row + 2) _ _ (by omega) ?_ h
        obtain ⟨hlt, rfl⟩ := setIdx_eq_ok.mp ho
        refine ⟨by simpa using hs.1, fun r c h1 h2 h3 => ?_⟩
        dsimp only
        rw [List.getElem?_set_ne]
        · exact hs.2 r c h1 h2 h3
        · intro e
          have d1 := div_mod_cell (x := row) (j := width - 1 - x) (h := width) (by omega)
          have d2 := div_mod_cell (x := r) h3
          rw [e] at d1
          omega
      · injection h with h
        subst h
        exact hs
  unfold Arw.decodeArw1 at h
  obtain ⟨s, hs, h⟩ := bind_eq_ok.mp h
  injection h with h
  subst h
  have := forRange_ok (P := fun _ (s : List Nat × Int × Pump) => s.1.length = width * height ∧ ∀ row col, row % 2 = 1 → row < height → col < width → s.1[row * width + col]? = some 0)
    (Nat.zero_le width) ⟨by simp, fun r c _ hr hc => by
      rw [List.getElem?_replicate, if_pos]
      have : (r + 1) * width ≤ height * width := Nat.mul_le_mul_right _ hr
      rw [Nat.add_mul, Nat.one_mul, Nat.mul_comm height] at this
      omega⟩ (fun x s s' _ hx hs e => step x hx _ 0 s s' rfl hs e) hs
  exact this.2

/-- C48, the part that fails: an image without rows is rejected with a panic. -/
theorem arw1_no_rows (b : Build) (buf : Bytes) (width : Nat) (hw : 0 < width) (out : List Nat) : Arw.decodeArw1 b buf width 0 ≠ .ok out := by
  intro h
  unfold Arw.decodeArw1 at h
  obtain ⟨s, hs, -⟩ := bind_eq_ok.mp h
  rw [forRange_cons _ hw] at hs
  obtain ⟨s1, hs1, -⟩ := bind_eq_ok.mp hs
  unfold Arw.arw1Column at hs1
  rw [if_pos (Nat.le_refl _)] at hs1
  dsimp only at hs1
  obtain ⟨⟨sum, p⟩, -, hs1⟩ := bind_eq_ok.mp hs1
  obtain ⟨o, ho, -⟩ := bind_eq_ok.mp hs1
  obtain ⟨hlt, -⟩ := setIdx_eq_ok.mp ho
  simp at hlt

/-! ## Cases -/

private def arw1Img (r c : Nat) : Nat := if r = 1 then 65535 else 7 * r + 300 * c
private def arw1Bytes : Bytes := packBits (encodeArw1 2 4 arw1Img) ++ [1, 2, 3, 4, 5, 6, 7]

/-- A 2 by 4 image. -/
example : Arw.decodeArw1 .debug arw1Bytes 2 4 = .ok [0, 300, 65535, 65535, 14, 314, 21, 321] := by decide +kernel

/-- The same bytes as an image of three rows. -/
example : Arw.decodeArw1 .debug arw1Bytes 2 3 = .ok [65535, 300, 0, 0, 321, 314] := by decide +kernel

end Props

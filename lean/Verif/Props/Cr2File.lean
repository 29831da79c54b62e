import Verif.Lemmas.FileExample
import Verif.Lemmas.OpenFile
import Verif.Lemmas.Reals
import Verif.Lemmas.Process
import Verif.Spec.Cr2File
import Verif.Props.Subsampled
import Verif.Props.Dither
/-!
# C81: whole Canon CR2 files
-/

namespace Props
open Rust Spec Model Model.Ljpeg

/-! ## The arrangement of the samples -/

private theorem slices_source (h : Nat) : ∀ (ws : List Nat) (start : Nat) (l : List Nat), start * h + ws.sum * h ≤ l.length →
    slices (fun r c => l.getD (sliceSource h start ws r c) 0) h start ws = (l.drop (start * h)).take (ws.sum * h) := by
  intro ws
  induction ws with
  | nil => intro start l _; simp [slices]
  | cons w ws ih =>
    intro start l hl
    rw [List.sum_cons, Nat.add_mul] at hl
    rw [slices, slices_congr (f := fun r c => l.getD (sliceSource h start (w :: ws) r c) 0) (g := fun r c => l.getD (sliceSource h (start + w) ws r c) 0) ws (start + w)
      (fun r c hc => by rw [sliceSource, if_neg (by omega)]), ih (start + w) l (by rw [Nat.add_mul]; omega), List.sum_cons, Nat.add_mul w, List.take_add, List.drop_drop, Nat.add_mul start]
    congr 1
    apply List.ext_getElem?
    intro k
    by_cases hk : k < w * h
    · have hw : 0 < w := Nat.pos_of_ne_zero fun e => by rw [e, Nat.zero_mul] at hk; omega
      have hr : k / w < h := by rw [Nat.div_lt_iff_lt_mul hw, Nat.mul_comm]; exact hk
      have hc : k % w < w := Nat.mod_lt _ hw
      have e := Nat.div_add_mod k w
      have := raster_getElem? w h (fun r c => l.getD (sliceSource h start (w :: ws) r (start + c)) 0) (k / w) (k % w) hr hc
      rw [Nat.mul_comm (k / w), e] at this
      rw [this, sliceSource, if_pos (by omega), List.getElem?_take, if_pos hk, List.getElem?_drop, Nat.add_sub_cancel_left, Nat.mul_comm (k / w), Nat.add_assoc, e,
        List.getD_eq_getElem?_getD, List.getElem?_eq_getElem (by omega)]
      rfl
    · rw [List.getElem?_eq_none (by rw [raster_length]; omega), List.getElem?_eq_none (by rw [List.length_take]; omega)]

private theorem raster_self {w h : Nat} {l : List Nat} (hl : l.length = w * h) : raster w h (fun r c => l.getD (r * w + c) 0) = l := by
  have := slices_source h [w] 0 l (by simp; omega)
  simp only [slices, List.append_nil, Nat.zero_mul, List.drop_zero, List.sum_cons, List.sum_nil, Nat.add_zero, List.take_of_length_le (Nat.le_of_eq hl)] at this
  refine Eq.trans (raster_congr fun r c hr hc => ?_) this
  simp only [sliceSource, Nat.zero_add, Nat.zero_mul, Nat.sub_zero]
  rw [if_pos hc]

/-- **C81**, the arrangement: sample `c` of row `r` is the sample of the JPEG that the directory says. -/
theorem cr2_arranged {raw : Dir} {ifd : TiffIFD} (hh : Holds raw ifd) (d : Decompressor) {v sh unit lw lh w h : Nat} {src : Nat → Nat → Nat} (hp : Cr2Places raw v sh unit lw lh w h src)
    (hv : d.superV = .ok v) (hs : d.superH = .ok sh) (hs0 : sh ≠ 0) (hlw : d.width = lw) (hlw0 : 0 < lw) {l : List Nat} (hl : l.length = lw * lh) :
    Cr2.arrange d ifd w h unit l = .ok (raster w h fun r c => l.getD (src r c) 0) := by
  cases hp with
  | whole hn same =>
    rw [raster_self (by omega)]
    unfold Cr2.arrange
    rcases hn with hn | ⟨t, hn⟩
    · rw [show TiffIFD.findEntry Tag.Cr2StripeWidths ifd = none from find_lacks hh hn]
    · obtain ⟨ent, e1, _, e2, _⟩ := find_numbers hh (tag := 0xc640) (by decide) hn
      rw [show TiffIFD.findEntry Tag.Cr2StripeWidths ifd = some ent from e1]
      dsimp only
      rw [e2 0 (by simp), ok_bind]
      exact if_pos rfl
  | sliced single widths some sum fits =>
    rename_i n w1 w2 t
    obtain ⟨ent, e1, _, e2, _⟩ := find_numbers hh (tag := 0xc640) (by decide) widths
    have hsum : (List.replicate n (w1 / sh * unit) ++ [w2 / sh * unit]).sum = w := by rw [List.sum_append]; simpa using sum
    have hsl := slices_source h (List.replicate n (w1 / sh * unit) ++ [w2 / sh * unit]) 0 l (by rw [hsum]; omega)
    have := cr2_arrange_restored d ifd ent (fun r c => l.getD (sliceSource h 0 (List.replicate n (w1 / sh * unit) ++ [w2 / sh * unit]) r c) 0) (l.drop (w * h)) w h unit n w1 w2 v sh e1
      (e2 0 (by simp)) (e2 1 (by simp)) (e2 2 (by simp)) hv single hs hs0 some sum
    rw [hsl, hsum, Nat.zero_mul, List.drop_zero, List.take_append_drop] at this
    exact this
  | paired double widths some sum threes even fits =>
    rename_i n w1 w2 t
    obtain ⟨ent, e1, _, e2, _⟩ := find_numbers hh (tag := 0xc640) (by decide) widths
    unfold Cr2.arrange
    rw [show TiffIFD.findEntry Tag.Cr2StripeWidths ifd = Option.some ent from e1]
    dsimp only
    rw [e2 0 (by simp), ok_bind, show ((n :: w1 :: w2 :: t)[0]'(by simp)) = n from rfl, if_neg some, e2 1 (by simp), ok_bind, e2 2 (by simp), ok_bind, hv, ok_bind, if_pos double, hlw]
    show Cr2.copyPairs l lw w h (List.replicate n w1 ++ [w2]) = _
    obtain ⟨m, rfl⟩ : ∃ m, h = 2 * m := ⟨h / 2, by omega⟩
    obtain ⟨k, rfl⟩ : ∃ k, lh = 2 * k := ⟨lh / 2, by omega⟩
    obtain ⟨n, rfl⟩ : ∃ n', n = n' + 1 := ⟨n - 1, by omega⟩
    subst sum
    obtain ⟨out, o1, o2, o3⟩ := cr2_pairs_restored_partial l lw k (n + 1 + 1) w1 m (List.replicate (n + 1) w1 ++ [w2]) hlw0 threes.2 threes.1 (by simp) (by simp [List.replicate_succ])
      hl (by
        have e1 : (n + 1 + 1) * w1 * (2 * m) = 2 * ((n + 1 + 1) * m * w1) := by ring
        have e2 : lw * (2 * k) = 2 * (lw * k) := by ring
        omega)
    rw [o1]
    refine congrArg Except.ok ?_
    apply List.ext_getElem?
    intro q
    by_cases hq : q < (n + 1 + 1) * w1 * (2 * m)
    · have hw : 0 < (n + 1 + 1) * w1 := Nat.pos_of_ne_zero fun e => by rw [e, Nat.zero_mul] at hq; omega
      have hw1 : 0 < w1 := Nat.pos_of_ne_zero fun e => by rw [e, Nat.mul_zero] at hw; omega
      have hr : q / ((n + 1 + 1) * w1) < 2 * m := by rw [Nat.div_lt_iff_lt_mul hw, Nat.mul_comm]; exact hq
      have hc : q % ((n + 1 + 1) * w1) < (n + 1 + 1) * w1 := Nat.mod_lt _ hw
      have e := Nat.div_add_mod q ((n + 1 + 1) * w1)
      generalize q / ((n + 1 + 1) * w1) = r at *
      generalize q % ((n + 1 + 1) * w1) = c at *
      have h1 := raster_getElem? ((n + 1 + 1) * w1) (2 * m) (fun r c => l.getD (pairSource lw (r % 2) ((c / w1 * (2 * m / 2) + r / 2) * w1 + c % w1)) 0) r c hr hc
      rw [Nat.mul_comm r, e] at h1
      have hf : c / w1 < n + 1 + 1 := by rw [Nat.div_lt_iff_lt_mul hw1]; exact hc
      have h2 := o3 (c / w1) (r / 2) (r % 2) (c % w1) hf (by omega) (Nat.mod_lt _ (by omega)) (Nat.mod_lt _ hw1)
      rw [Nat.div_add_mod, Nat.mul_comm (c / w1) w1, Nat.div_add_mod, Nat.mul_comm r, e] at h2
      rw [h1, h2, show 2 * m / 2 = m by omega, List.getD_eq_getElem?_getD]
      have hlt : q < out.length := by rw [o2]; exact hq
      rw [List.getElem?_eq_getElem hlt] at h2
      rw [← h2]
      rfl
    · rw [List.getElem?_eq_none (by rw [o2]; omega), List.getElem?_eq_none (by rw [raster_length]; omega)]

/-- The three colours of a pixel stay together. -/
private theorem source_threes (h : Nat) : ∀ (ws : List Nat) (start r c k : Nat), k < 3 → start ≤ c → c < start + ws.sum →
    sliceSource h (3 * start) (ws.map (3 * ·)) r (3 * c + k) = 3 * sliceSource h start ws r c + k := by
  intro ws
  induction ws with
  | nil => intro start r c k hk hs hc; simp at hc; omega
  | cons w ws ih =>
    intro start r c k hk hs hc
    rw [List.sum_cons] at hc
    rw [List.map_cons, sliceSource, sliceSource]
    by_cases h1 : c < start + w
    · rw [if_pos (by omega), if_pos h1]
      have e1 : 3 * start * h = 3 * (start * h) := by ring
      have e2 : r * (3 * w) = 3 * (r * w) := by ring
      omega
    · rw [if_neg (by omega), if_neg h1, ← ih (start + w) r c k hk (by omega) (by omega), Nat.mul_add]

private theorem pair_threes (m i q k : Nat) (hk : k < 3) : pairSource (3 * m) i (3 * q + k) = 3 * pairSource m i q + k := by
  have h1 : (3 * q + k) / (3 * m) = q / m := by rw [← Nat.div_div_eq_div_mul]; congr 1; omega
  have h2 : (3 * q + k) % (3 * m) = 3 * (q % m) + k := by
    rw [Nat.mod_mul, show (3 * q + k) % 3 = k by omega, show (3 * q + k) / 3 = q by omega, Nat.add_comm]
  unfold pairSource
  rw [h1, h2]
  ring

/-- **C81**: the three colours of a pixel of a small picture stay together, whatever the arrangement. -/
theorem cr2_pixels_whole {raw : Dir} {v sh lw lh w h : Nat} {src : Nat → Nat → Nat} (hp : Cr2Places raw v sh 3 (3 * lw) lh (3 * w) h src) :
    ∃ pix : Nat → Nat → Nat, ∀ r c k, c < w → k < 3 → src r (3 * c + k) = 3 * pix r c + k := by
  cases hp with
  | whole hn same => exact ⟨fun r c => r * w + c, fun r c k hc hk => by ring⟩
  | sliced single widths some sum fits =>
    rename_i n w1 w2 t
    refine ⟨sliceSource h 0 (List.replicate n (w1 / sh) ++ [w2 / sh]), fun r c k hc hk => ?_⟩
    have := source_threes h (List.replicate n (w1 / sh) ++ [w2 / sh]) 0 r c k hk (Nat.zero_le _) (by
      rw [List.sum_append]
      simp only [List.sum_replicate, smul_eq_mul, List.sum_cons, List.sum_nil]
      have e : n * (w1 / sh * 3) = 3 * (n * (w1 / sh)) := by ring
      omega)
    rw [← this]
    congr 1
    rw [List.map_append, List.map_replicate, Nat.mul_comm (w1 / sh), Nat.mul_comm (w2 / sh)]
    rfl
  | paired double widths some sum threes even fits =>
    rename_i n w1 w2 t
    obtain ⟨u, rfl⟩ : ∃ u, w1 = 3 * u := ⟨w1 / 3, by omega⟩
    refine ⟨fun r c => pairSource lw (r % 2) ((c / u * (h / 2) + r / 2) * u + c % u), fun r c k hc hk => ?_⟩
    dsimp only
    rw [← pair_threes _ _ _ _ hk]
    congr 1
    have h1 : (3 * c + k) / (3 * u) = c / u := by rw [← Nat.div_div_eq_div_mul]; congr 1; omega
    have h2 : (3 * c + k) % (3 * u) = 3 * (c % u) + k := by
      rw [Nat.mod_mul, show (3 * c + k) % 3 = k by omega, show (3 * c + k) / 3 = c by omega, Nat.add_comm]
    rw [h1, h2]
    ring

private theorem place_lt {w h r c : Nat} (hr : r < h) (hc : c < w) : r * w + c < w * h := by
  have : (r + 1) * w ≤ h * w := Nat.mul_le_mul_right w hr
  rw [Nat.add_mul, Nat.one_mul, Nat.mul_comm h] at this
  omega

private theorem source_inside {h r : Nat} (hr : r < h) : ∀ (ws : List Nat) (start c : Nat), start ≤ c → c < start + ws.sum → sliceSource h start ws r c < (start + ws.sum) * h := by
  intro ws
  induction ws with
  | nil => intro start c hs hc; simp at hc; omega
  | cons w ws ih =>
    intro start c hs hc
    rw [List.sum_cons] at hc ⊢
    rw [sliceSource]
    split
    · have := place_lt (w := w) (c := c - start) hr (by omega)
      rw [Nat.add_mul, Nat.add_mul]
      omega
    · rw [← Nat.add_assoc]
      exact ih (start + w) c (by omega) (by omega)

/-- Every sample of the picture comes from one of the JPEG. -/
theorem cr2_places_inside {raw : Dir} {v sh unit lw lh w h : Nat} {src : Nat → Nat → Nat} (hp : Cr2Places raw v sh unit lw lh w h src) {r c : Nat} (hr : r < h) (hc : c < w) : src r c < lw * lh := by
  cases hp with
  | whole hn same => rw [← same]; exact place_lt hr hc
  | sliced single widths some sum fits =>
    rename_i n w1 w2 t
    have hsum : (List.replicate n (w1 / sh * unit) ++ [w2 / sh * unit]).sum = w := by rw [List.sum_append]; simpa using sum
    have := source_inside (h := h) hr (List.replicate n (w1 / sh * unit) ++ [w2 / sh * unit]) 0 c (Nat.zero_le _) (by omega)
    rw [hsum, Nat.zero_add] at this
    omega
  | paired double widths some sum threes even fits =>
    rename_i n w1 w2 t
    obtain ⟨m, rfl⟩ : ∃ m, h = 2 * m := ⟨h / 2, by omega⟩
    obtain ⟨k, rfl⟩ : ∃ k, lh = 2 * k := ⟨lh / 2, by omega⟩
    subst sum
    have hw1 : 0 < w1 := Nat.pos_of_ne_zero fun e => by rw [e, Nat.mul_zero] at hc; omega
    have hf : c / w1 < n + 1 := by rw [Nat.div_lt_iff_lt_mul hw1]; exact hc
    have a1 : c / w1 * m + r / 2 < m * (n + 1) := place_lt hf (by omega)
    have a2 := place_lt (r := c / w1 * m + r / 2) (h := m * (n + 1)) a1 (Nat.mod_lt c hw1)
    have e1 : (n + 1) * w1 * (2 * m) = 2 * (w1 * (m * (n + 1))) := by ring
    have e2 : lw * (2 * k) = 2 * (lw * k) := by ring
    dsimp only
    rw [show 2 * m / 2 = m by omega]
    generalize (c / w1 * m + r / 2) * w1 + c % w1 = q at *
    have hlw : 0 < lw := Nat.pos_of_ne_zero fun e => by rw [e] at e2 fits; simp at fits; omega
    have hq : q / lw < k := by rw [Nat.div_lt_iff_lt_mul hlw, Nat.mul_comm]; omega
    exact place_lt (by omega) (Nat.mod_lt _ hlw)

/-! ## The directory and the white balance -/

private theorem find_dir {d : Dir} {ifd : TiffIFD} (hh : Holds d ifd) {tag : Nat} (hk : tag ∈ knownTags) {d' : Dir} (h : d.FirstWith tag d') :
    ∃ ifd', ifd.findFirstIfd tag = some ifd' ∧ Holds d' ifd' := by
  obtain ⟨ifd', f1, f2⟩ := fetch_dir hh hk h
  refine ⟨ifd', ?_, f2⟩
  unfold TiffIFD.fetchIfd at f1
  cases hf : ifd.findFirstIfd tag with
  | none => rw [hf] at f1; exact absurd f1 (fail_ne_ok _ _)
  | some x => rw [hf] at f1; injection f1 with f1; rw [f1]

private theorem find_no_dir {d : Dir} {ifd : TiffIFD} (hh : Holds d ifd) {tag : Nat} (h : d.Lacks tag) : ifd.findFirstIfd tag = none := by
  cases hf : ifd.findFirstIfd tag with
  | none => rfl
  | some x =>
    exfalso
    obtain ⟨p, d', hp, hget, _⟩ := (find_first_ifd_first tag ifd x).mp hf
    dsimp only at hget
    cases hm : Map.get d'.entries tag with
    | none => rw [hm] at hget; cases hget
    | some e =>
      have := (has_entry_iff tag ifd).mpr ⟨d', e, ⟨p, hp⟩, hm⟩
      unfold TiffIFD.hasEntry at this
      rw [find_lacks hh h] at this
      cases this

/-- **C81**, the directory. -/
theorem cr2_found {root raw : Dir} {tree : TiffIFD} (hh : Holds root tree) {offset : Nat} (h : Cr2Raw root raw offset) : ∃ ifd, Cr2.findRaw tree = .ok (ifd, offset) ∧ Holds raw ifd := by
  unfold Cr2.findRaw
  cases h with
  | marked first strip =>
    obtain ⟨ifd, f1, f2⟩ := find_dir hh (tag := 0xc5d8) (by decide) first
    refine ⟨ifd, ?_, f2⟩
    rw [show TiffIFD.findFirstIfd tree Tag.Cr2Id = some ifd from f1]
    dsimp only
    rw [show fetchUsize ifd Tag.StripOffsets = _ from fetch_number f2 (by decide) strip]
    rfl
  | patterned unmarked first strip =>
    obtain ⟨ifd, f1, f2⟩ := find_dir hh (tag := 0x828e) (by decide) first
    refine ⟨ifd, ?_, f2⟩
    rw [show TiffIFD.findFirstIfd tree Tag.Cr2Id = none from find_no_dir hh unmarked]
    dsimp only
    rw [show TiffIFD.findFirstIfd tree Tag.CFAPattern = some ifd from f1]
    dsimp only
    rw [show fetchUsize ifd Tag.StripOffsets = _ from fetch_number f2 (by decide) strip]
    rfl
  | old unmarked plain strip =>
    obtain ⟨ent, e1, _, e2, _⟩ := find_numbers hh (tag := 0x81) (by decide) strip
    refine ⟨tree, ?_, hh⟩
    rw [show TiffIFD.findFirstIfd tree Tag.Cr2Id = none from find_no_dir hh unmarked]
    dsimp only
    rw [show TiffIFD.findFirstIfd tree Tag.CFAPattern = none from find_no_dir hh plain]
    dsimp only
    rw [show TiffIFD.findEntry Tag.Cr2OldOffset tree = some ent from e1]
    dsimp only
    rw [e2 0 (by simp)]
    rfl

/-- The white balance: the levels of red, green and blue in the colour data (the blue after a second green), or else in the list of a PowerShot, or else in a field of their own, or none. -/
inductive Cr2White (root : Dir) (index : Nat) : List F32 → Prop
  | colours {big : Bool} {f : Field} {red green blue : Nat} (first : root.First 0x4001 big f) (small : red < 65536 ∧ green < 65536 ∧ blue < 65536)
      (r : bytesAt (f.bytes big) (2 * index) 2 = encode big 2 red) (g : bytesAt (f.bytes big) (2 * (index + 1)) 2 = encode big 2 green)
      (bl : bytesAt (f.bytes big) (2 * (index + 3)) 2 = encode big 2 blue) : Cr2White root index [F32.ofNat red, F32.ofNat green, F32.ofNat blue, .nan]
  | powershot {big : Bool} {f : Field} {red green blue : Nat} (none : root.Lacks 0x4001) (first : root.First 0x29 big f)
      (small : red < 4294967296 ∧ green < 4294967296 ∧ blue < 4294967296)
      (g : bytesAt (f.bytes big) 8 4 = encode big 4 green) (r : bytesAt (f.bytes big) 12 4 = encode big 4 red) (bl : bytesAt (f.bytes big) 16 4 = encode big 4 blue) :
      Cr2White root index [F32.ofNat red, F32.ofNat green, F32.ofNat blue, .nan]
  | old {red green blue : F32} {t : List F32} (none : root.Lacks 0x4001) (none' : root.Lacks 0x29) (levels : Dir.Reals root 0xa4 (red :: green :: blue :: t)) :
      Cr2White root index [red, green, blue, .nan]
  | missing (none : root.Lacks 0x4001) (none' : root.Lacks 0x29) (none'' : root.Lacks 0xa4) : Cr2White root index [.nan, .nan, .nan, .nan]

private theorem short_here {big : Bool} {e : Endian} {data : Bytes} {pos v : Nat} (he : e.big = big) (hv : v < 65536) (h : bytesAt data pos 2 = encode big 2 v) :
    e.ru16 data pos = .ok v := by
  have := bytesAt_known h (encode_length _ _ _) (by omega)
  rw [ru16_number (by omega), he, h, number_encode _ _ _ (by omega)]

private theorem long_here {big : Bool} {e : Endian} {data : Bytes} {pos v : Nat} (he : e.big = big) (hv : v < 4294967296) (h : bytesAt data pos 4 = encode big 4 v) :
    e.ru32 data pos = .ok v := by
  have := bytesAt_known h (encode_length _ _ _) (by omega)
  rw [ru32_number (by omega), he, h, number_encode _ _ _ (by omega)]

/-- **C81**, the white balance. -/
theorem cr2_white {root : Dir} {tree : TiffIFD} (hh : Holds root tree) {cam : Camera} {wb : List F32} (h : Cr2White root (cr2Index cam.wbOffset) wb) : Cr2.getWb tree cam = .ok wb := by
  have hidx : (if cam.wbOffset ≠ 0 then cam.wbOffset else 63) = cr2Index cam.wbOffset := by unfold cr2Index; by_cases h : cam.wbOffset = 0 <;> simp [h]
  unfold Cr2.getWb
  rw [hidx]
  generalize cr2Index cam.wbOffset = k at *
  cases h with
  | colours first small r g bl =>
    obtain ⟨ent, e1, e2⟩ := find_first hh (tag := 0x4001) (by decide) first
    rw [show TiffIFD.findEntry Tag.Cr2ColorData tree = some ent from e1]
    dsimp only
    unfold TiffEntry.getForceU16
    rw [e2.data, short_here e2.order small.1 (by rw [Nat.mul_comm]; exact r), ok_bind, short_here e2.order small.2.1 (by rw [Nat.mul_comm]; exact g), ok_bind,
      short_here e2.order small.2.2 (by rw [Nat.mul_comm]; exact bl), ok_bind]
  | powershot none first small g r bl =>
    obtain ⟨ent, e1, e2⟩ := find_first hh (tag := 0x29) (by decide) first
    rw [show TiffIFD.findEntry Tag.Cr2ColorData tree = Option.none from find_lacks hh none]
    dsimp only
    rw [show TiffIFD.findEntry Tag.Cr2PowerShotWB tree = some ent from e1]
    dsimp only
    unfold TiffEntry.getForceU32
    rw [e2.data, long_here e2.order small.1 r, ok_bind, long_here e2.order small.2.1 g, ok_bind, long_here e2.order small.2.2 bl, ok_bind]
  | old none none' levels =>
    obtain ⟨ent, e1, _, e3⟩ := find_reals hh (tag := 0xa4) (by decide) levels
    rw [show TiffIFD.findEntry Tag.Cr2ColorData tree = Option.none from find_lacks hh none]
    dsimp only
    rw [show TiffIFD.findEntry Tag.Cr2PowerShotWB tree = Option.none from find_lacks hh none']
    dsimp only
    rw [show TiffIFD.findEntry Tag.Cr2OldWB tree = some ent from e1]
    dsimp only
    rw [e3 0 (by simp), ok_bind, e3 1 (by simp), ok_bind, e3 2 (by simp), ok_bind]
    rfl
  | missing none none' none'' =>
    rw [show TiffIFD.findEntry Tag.Cr2ColorData tree = Option.none from find_lacks hh none]
    dsimp only
    rw [show TiffIFD.findEntry Tag.Cr2PowerShotWB tree = Option.none from find_lacks hh none']
    dsimp only
    rw [show TiffIFD.findEntry Tag.Cr2OldWB tree = Option.none from find_lacks hh none'']
    rfl

theorem turned_offset (cam : Camera) (o : Option Nat) : (turned cam o).wbOffset = cam.wbOffset := by unfold turned; cases o <;> rfl

/-! ## Full pictures -/

/-- Sample `i` of a JPEG of lines of `w` pixels with `n` components. -/
def jpegSample (n w : Nat) (img : Nat → Nat → Nat → Nat) (i : Nat) : Nat := img (i / (w * n)) (i % (w * n) / n) (i % (w * n) % n)

/-- A JPEG is opened and decoded as a whole. -/
private theorem jpeg_whole (b : Build) {n w h : Nat} {img : Nat → Nat → Nat → Nat} {bytes : Bytes} (hn : 2 ≤ n ∧ n ≤ 4) (hw : 0 < w) (hh : 0 < h) (hj : BeginsWithJpeg n h w img bytes) :
    ∃ d out, Ljpeg.new b bytes = .ok d ∧ d.width = w * n ∧ d.height = h ∧ d.superH = .ok 1 ∧ d.superV = .ok 1 ∧
      d.decode b (List.replicate (d.width * d.height) 0) 0 d.width d.width d.height = .ok out ∧ out.length = w * n * h ∧
      ∀ i, i < w * n * h → out[i]? = some (jpegSample n w img i) := by
  obtain ⟨precision, pt, id, tab, tail, h1, h2, h3, h4, h5, h6, h7, h8, rfl⟩ := hj
  have hmul : w * n * h = (h - 1) * (w * n) + 0 + w * n := by
    obtain ⟨h, rfl⟩ : ∃ h', h = h' + 1 := ⟨h - 1, by omega⟩
    rw [Nat.add_sub_cancel]; ring
  obtain ⟨d, out, d1, d2, d3, d4, d5⟩ := ljpeg_round_trip b false precision pt h w n id tab img tail h1.1 h1.2 h2.1 h2.2 h3.1 h3.2 hn.1 hn.2 h4.1 h4.2 h5 h6 h7 h8
    (List.replicate (w * n * h) 0) 0 (w * n) w h hh (Nat.le_refl _) hw (Nat.le_refl _) (Nat.le_refl _) (fun _ => ⟨rfl, rfl⟩) (by rw [List.length_replicate]; omega)
  obtain ⟨d', T, o1, o2⟩ := open_file b false false precision pt h w n id id (fun _ => 0x11) 1 tab
    (stuff (packBits (encodeScan n w h (fun k => encodeDiff (tab k).lens (tab k).vals) (2 ^ (precision - pt - 1)) img)) ++ [0xff, 0xd9] ++ tail)
    h1.1 h1.2 h2.1 h2.2 h3.1 (by omega) h3.2 (by omega) hn.2 h4.1 h4.1 (fun i _ => rfl) h4.2 (fun _ _ => by decide) (by decide) h5
  have hd : d = d' := by
    unfold encodeFile at d1
    rw [List.append_assoc, List.append_assoc, ← List.append_assoc (stuff _), o1] at d1
    injection d1 with d1
    exact d1.symm
  subst hd
  have hc : idx d.sof.components 0 = .ok ⟨id 0, 0, 0, 1, 1⟩ := by
    rw [o2.sof]
    unfold compsAfter
    rw [idx_eq_ok]
    dsimp only
    rw [List.getElem?_map, List.getElem?_range (by omega)]
    dsimp only [Option.map_some]
    rw [if_pos (by omega)]
    rfl
  refine ⟨d, out, d1, d2, d3, ?_, ?_, ?_, ?_, ?_⟩
  · unfold Decompressor.superH; rw [hc]; rfl
  · unfold Decompressor.superV; rw [hc]; rfl
  · rw [d2, d3]; exact d4
  · rw [d5.len, List.length_replicate]
  · intro i hi
    have hwn : 0 < w * n := Nat.mul_pos hw (by omega)
    have hr : i / (w * n) < h := by rw [Nat.div_lt_iff_lt_mul hwn, Nat.mul_comm]; exact hi
    have hm : i % (w * n) < w * n := Nat.mod_lt _ hwn
    have := d5.done (i / (w * n)) (i % (w * n) / n) (i % (w * n) % n) hr (by rw [Nat.div_lt_iff_lt_mul (by omega)]; exact hm) (Nat.mod_lt _ (by omega))
    rw [Nat.add_zero, Nat.mul_comm (i % (w * n) / n), Nat.add_assoc, Nat.div_add_mod, Nat.mul_comm (i / (w * n)), Nat.div_add_mod] at this
    exact this

/-- The size of a full picture, from that of the JPEG in samples: some cameras store two lines in one. -/
def Cr2Lines (cam : Camera) (lw lh w h : Nat) : Prop :=
  cam.findHint (b! "double_line") = false ∧ w = lw ∧ h = lh ∨ cam.findHint (b! "double_line") = true ∧ 2 * w = lw ∧ h = lh * 2

/-- **C81**: full pictures. -/
theorem cr2_file (s : RawLoader) (env : Platform) (b : Build) {contents : Bytes} {big : Bool} {dirs : List Dir} {model : Bytes} {o : Option Nat}
    (h : CameraFile contents big dirs (b! "Canon") model o) (h560 : model ≠ b! "DCS560C")
    {cam : Camera} (hcam : Map.get s.cameras (b! "Canon", model, []) = some cam) (hlin : cam.findHint (b! "linearization") = false)
    {raw : Dir} {offset : Nat} (hraw : Cr2Raw (fileRoot big dirs) raw offset) (hoff : offset ≤ contents.length)
    {n lw lh : Nat} {img : Nat → Nat → Nat → Nat} (hn : 2 ≤ n ∧ n ≤ 4) (hlw : 0 < lw) (hlh : 0 < lh) (hj : BeginsWithJpeg n lh lw img (contents.drop offset))
    {w ht : Nat} (hsize : Cr2Lines cam (lw * n) lh w ht) {src : Nat → Nat → Nat} (hsrc : Cr2Places raw 1 1 1 (lw * n) lh w ht src)
    {wb : List F32} (hwb : Cr2White (fileRoot big dirs) (cr2Index cam.wbOffset) wb) {pic : Nat → Nat → Nat} (hpic : ∀ r c, r < ht → c < w → jpegSample n lw img (src r c) = pic r c)
    {blacks : List Nat} (hb : BlacksOf cam w ht pic blacks) :
    s.decodeSafe env b (.ok contents) = .ok (pictureOf cam (orientationOf o) w ht wb blacks (raster w ht pic)) := by
  obtain ⟨root, hh, hc, hd⟩ := camera_decodes s env b h (k := .cr2) (by decide) h560
  obtain ⟨ifd, f1, f2⟩ := cr2_found hh hraw
  obtain ⟨d, out, j1, j2, j3, j4, j5, j6, j7, j8⟩ := jpeg_whole b hn hlw hlh (begins_pad 16 hj)
  have harr := cr2_arranged f2 d hsrc j5 j4 (by decide) j2 (Nat.mul_pos hlw (by omega)) j7
  have hdim : Cr2.dimensions (turned cam o) ifd d.width d.height 1 = .ok (w, ht) := by
    unfold Cr2.dimensions
    rw [if_neg (by decide), turned_hint, j2, j3]
    rcases hsize with ⟨e1, rfl, rfl⟩ | ⟨e1, e2, rfl⟩
    · rw [e1]; rfl
    · rw [e1, ← e2]
      exact congrArg Except.ok (Prod.ext (by dsimp only; omega) rfl)
  have hpic' : (raster w ht fun r c => out.getD (src r c) 0) = raster w ht pic := by
    refine raster_congr fun r c hr hc' => ?_
    have hlt : src r c < lw * n * lh := cr2_places_inside hsrc hr hc'
    rw [List.getD_eq_getElem?_getD, j8 _ hlt, Option.getD_some, hpic r c hr hc']
  have himage : Cr2.image b (contents ++ List.replicate 16 0) root s = .ok (pictureOf cam (orientationOf o) w ht wb blacks (raster w ht pic)) := by
    unfold Cr2.image RawLoader.checkSupported
    rw [hc [] cam hcam, ok_bind, f1, ok_bind]
    dsimp only
    rw [sliceFrom_le (by simp; omega), ok_bind, List.drop_append_of_le_length hoff]
    unfold Cr2.pixels
    rw [j1, ok_bind, j4, ok_bind]
    dsimp only
    rw [if_neg (by decide), j6, ok_bind, turned_hint, hlin, if_neg (by decide), ok_bind, if_neg (by decide), ok_bind, hdim, ok_bind]
    dsimp only
    rw [harr, ok_bind, hpic', ok_bind]
    dsimp only
    rw [cr2_white hh (by rw [turned_offset]; exact hwb), ok_bind, image_new b o hb wb, ok_bind]
    rfl
  apply hd
  intro d' hk ht'
  cases d' <;> cases hk
  injection ht' with ht'; subst ht'
  exact himage

/-! ## Small pictures -/

private theorem to_i32 {x : F32} {n : Nat} (h : x.toUnsigned 16 = n) (h0 : 0 < n) (h1 : n < 65535) : x.toI32 = n := by
  cases x with
  | nan => simp [F32.toUnsigned] at h; omega
  | inf s => simp only [F32.toUnsigned] at h; split at h <;> omega
  | zero s => simp [F32.toUnsigned] at h; omega
  | fin q =>
    simp only [F32.toUnsigned] at h
    split at h
    · omega
    · rename_i hq
      have hf : q.floor.toNat = n := by
        rcases Nat.le_total q.floor.toNat (2 ^ 16 - 1) with h' | h'
        · rw [show Nat.min q.floor.toNat (2 ^ 16 - 1) = q.floor.toNat from Nat.min_eq_left h'] at h; exact h
        · rw [show Nat.min q.floor.toNat (2 ^ 16 - 1) = 2 ^ 16 - 1 from Nat.min_eq_right h'] at h; omega
      have hf' : q.floor = n := by omega
      simp only [F32.toI32]
      rw [if_neg hq, hf', if_neg (by omega), if_neg (by omega)]

private theorem level_i32 {n : Nat} (h : n < 65536) : (F32.ofNat n).toI32 = n := by
  rcases Nat.eq_zero_or_pos n with rfl | h0
  · rfl
  · rw [F32.ofNat_pos h0 (by omega)]
    simp only [F32.toI32]
    have hf : ((n : ℚ)).floor = n := by exact_mod_cast Rat.floor_intCast n
    have hz : ¬ (n : ℚ) < 0 := not_lt.mpr (Nat.cast_nonneg n)
    simp only [if_neg hz, hf]
    rw [if_neg (by omega), if_neg (by omega)]

private theorem hold_clamp {x : Int} (h : -8388608 ≤ x ∧ x < 8388608) : toU16 (clampbits x 16) = hold16 x := by
  have hc := clampbits_partial x 16 (by decide) (by decide) (by omega)
  unfold hold16 toU16
  by_cases h1 : x < 2 ^ 16
  · rw [hc.1 h1]
    unfold saturate
    split
    · omega
    · split <;> omega
  · rw [hc.2 (by omega)]
    rw [if_neg (by omega), if_pos (by omega)]
    rfl

/-- One pixel. -/
private theorem colour_step (b : Build) {red green blue lift y cb cr : Nat} (hr : 64 ≤ red) (hg : green ≤ 16384) (hb : 64 ≤ blue) (hl : lift ≤ 512) (hy : y < 65536) (hcb : cb < 65536)
    (hcr : cr < 65536) :
    Cr2.rgbStep b ((1048576 / red : Nat) : Int) green ((1048576 / blue : Nat) : Int) lift [y, cb, cr] =
      .ok ((List.range 3).map (smallColour red green blue lift y cb cr)) := by
  have h1 : 1048576 / red ≤ 16384 := (Nat.div_le_div_left hr (by decide)).trans (by decide)
  have h3 : 1048576 / blue ≤ 16384 := (Nat.div_le_div_left hb (by decide)).trans (by decide)
  have hred : ∀ k, k = 1048576 / red → k ≤ 16384 := fun k e => by omega
  generalize e1 : 1048576 / red = c1 at *
  generalize e3 : 1048576 / blue = c3 at *
  have hsh : shlI32 ((cr : Int) - 16383) 11 = 2048 * ((cr : Int) - 16383) := by
    unfold shlI32 toI32
    rw [show (2 : Int) ^ 11 = 2048 by norm_num, Int.bmod_eq_of_le (by omega) (by omega), Int.mul_comm]
  have bound : ∀ (c : Nat) (z : Int), c ≤ 16384 → -100000 ≤ z → z ≤ 131000 → -2147483648 ≤ (c : Int) * z ∧ (c : Int) * z < 2147483648 := by
    intro c z hc hz1 hz2
    constructor <;> nlinarith
  have r1 := bound c1 (((y : Int) - lift) + ((cr : Int) - 16383)) h1 (by omega) (by omega)
  have r2 := bound green (((y : Int) - lift) + (-778 * ((cb : Int) - 16383) - 2048 * ((cr : Int) - 16383)) / 4096) hg (by omega) (by omega)
  have r3 := bound c3 (((y : Int) - lift) + ((cb : Int) - 16383)) h3 (by omega) (by omega)
  unfold Cr2.rgbStep
  simp only [idx, List.getElem?_cons_zero, List.getElem?_cons_succ, ok_bind, sarI, hsh]
  rw [show (2 : Int) ^ 12 = 4096 by norm_num, show (2 : Int) ^ 8 = 256 by norm_num, i32_small r1.1 r1.2, ok_bind, i32_small r2.1 r2.2, ok_bind, i32_small r3.1 r3.2, ok_bind,
    hold_clamp (by omega), hold_clamp (by omega), hold_clamp (by omega)]
  unfold smallColour
  rw [e1, e3]
  rfl

/-- The colours of all pixels. -/
private theorem colours_of (b : Build) {root : Dir} {tree : TiffIFD} (hh : Holds root tree) {cam : Camera} {red green blue : Nat}
    (hwb : Cr2White root (cr2Index cam.wbOffset) [F32.ofNat red, F32.ofNat green, F32.ofNat blue, .nan]) (hr : 64 ≤ red ∧ red < 65536) (hg : green ≤ 16384) (hb : 64 ≤ blue ∧ blue < 65536)
    {lift : Nat} (hl : lift = if cam.findHint (b! "40d_yuv") then 512 else 0) {n : Nat} {y cb cr : Nat → Nat} (hy : ∀ i, y i < 65536) (hcb : ∀ i, cb i < 65536) (hcr : ∀ i, cr i < 65536) {l : List Nat}
    (hlen : l.length = 3 * n) (h0 : ∀ i, i < n → l[3 * i]? = some (y i)) (h1 : ∀ i, i < n → l[3 * i + 1]? = some (cb i)) (h2 : ∀ i, i < n → l[3 * i + 2]? = some (cr i)) :
    ∃ l', Cr2.convertToRgb b tree cam l = .ok l' ∧ l'.length = 3 * n ∧ ∀ i, i < 3 * n → l'[i]? = some (smallColour red green blue lift (y (i / 3)) (cb (i / 3)) (cr (i / 3)) (i % 3)) := by
  have hl' : l = pixLine n 3 (fun i j => if j = 0 then y i else if j = 1 then cb i else cr i) := by
    unfold pixLine
    apply List.ext_getElem?
    intro i
    by_cases hi : i < n * 3
    · rw [List.getElem?_map, List.getElem?_range hi, Option.map_some]
      have hin : i / 3 < n := by omega
      rcases (by omega : i % 3 = 0 ∨ i % 3 = 1 ∨ i % 3 = 2) with h | h | h
      · rw [h]; dsimp only; rw [if_pos rfl, ← h0 _ hin]; congr 1; omega
      · rw [h]; dsimp only; rw [if_neg (by decide), if_pos rfl, ← h1 _ hin]; congr 1; omega
      · rw [h]; dsimp only; rw [if_neg (by decide), if_neg (by decide), ← h2 _ hin]; congr 1; omega
    · rw [List.getElem?_eq_none (by omega), List.getElem?_eq_none (by simp; omega)]
  have q1 : ((F32.ofNat 1048576).div (F32.ofNat red)).toI32 = ((1048576 / red : Nat) : Int) :=
    to_i32 (quotient_level (by decide) (by omega) (by omega) ((Nat.div_le_div_left (a := 1048576) hr.1 (by decide)).trans (by decide)))
      (Nat.div_pos (by omega) (by omega)) (by have := Nat.div_le_div_left (a := 1048576) hr.1 (by decide); omega)
  have q3 : ((F32.ofNat 1048576).div (F32.ofNat blue)).toI32 = ((1048576 / blue : Nat) : Int) :=
    to_i32 (quotient_level (by decide) (by omega) (by omega) ((Nat.div_le_div_left (a := 1048576) hb.1 (by decide)).trans (by decide)))
      (Nat.div_pos (by omega) (by omega)) (by have := Nat.div_le_div_left (a := 1048576) hb.1 (by decide); omega)
  refine ⟨pixLine n 3 (fun i => smallColour red green blue lift (y i) (cb i) (cr i)), ?_, ?_, ?_⟩
  · unfold Cr2.convertToRgb
    rw [cr2_white hh hwb, ok_bind]
    simp only [idx, List.getElem?_cons_zero, List.getElem?_cons_succ, ok_bind]
    rw [q1, level_i32 (by omega), q3, hl', show (if cam.findHint (b! "40d_yuv") then (512 : Int) else 0) = ((lift : Nat) : Int) by rw [hl]; split <;> rfl]
    apply mapChunks_pix (by decide)
    intro i hi
    exact colour_step b hr.1 hg hb.1 (by rw [hl]; split <;> omega) (hy i) (hcb i) (hcr i)
  · unfold pixLine; simp; omega
  · intro i hi
    unfold pixLine
    rw [List.getElem?_map, List.getElem?_range (by omega), Option.map_some]

/-- A JPEG of blocks is opened and decoded as a whole. -/
private theorem blocks_whole (b : Build) {v wb hb : Nat} {Y C : Nat → Nat → Nat → Nat} {bytes : Bytes} (hj : BeginsWithBlocks v wb hb Y C bytes) (k : Nat) (hk : 2 ≤ k) :
    ∃ d out, Ljpeg.new b (bytes ++ List.replicate k 0) = .ok d ∧ d.width = 2 * wb * 3 ∧ d.height = v * hb ∧ d.superH = .ok 2 ∧ d.superV = .ok v ∧
      d.decode b (List.replicate (d.width * d.height) 0) 0 d.width d.width d.height = .ok out ∧ out.length = 3 * (2 * wb * (v * hb)) ∧ (0 < wb ∧ 0 < hb ∧ 0 < v) ∧
      ((∀ r p j, Y r p j < 65536) ∧ ∀ r p k, C r p k < 65536) ∧
      ∀ i, i < 2 * wb * (v * hb) → out[3 * i]? = some (blockLuma v wb Y i) ∧ out[3 * i + 1]? = some (blockChroma v wb C i 0) ∧ out[3 * i + 2]? = some (blockChroma v wb C i 1) := by
  obtain ⟨precision, pt, id, pred, tab, tail, hv, h1, h2, h3, h4, h5, h6, h7, h8, h9, h10, rfl⟩ := hj
  obtain ⟨d, out, d1, d2, d3, d4, d5⟩ := canon_subsampled_round_trip b false precision pt v wb hb id pred tab Y C (tail ++ List.replicate k 0) hv h1.1 h1.2 h2.1 h2.2 h3.1 h3.2 h4.1 h4.2
    h5.1 h5.2 h6 h7 h8.1 h8.2 h9 h10 (by rw [List.length_append, List.length_replicate]; omega) (List.replicate (2 * wb * 3 * (v * hb)) 0) 0 (2 * wb * 3) (by rw [List.length_replicate, Nat.mul_comm])
  obtain ⟨d', T, o1, o2⟩ := open_file b false false precision pt (v * hb) (2 * wb) 3 id id (fun i => if i = 0 then 0x20 + v else 0x11) pred tab
    (stuff (packBits (encodeBlocks (2 * v) wb hb (fun k => encodeDiff (tab k).lens (tab k).vals) (2 ^ (precision - pt - 1)) Y C)) ++ [0xff, 0xd9] ++ (tail ++ List.replicate k 0))
    h1.1 h1.2 h2.1 h2.2 h3.2 (by omega) h4.2 (by omega) (by omega) h5.1 h5.1 (fun i _ => rfl) h5.2 (fun i _ => by split <;> omega) h6 h7
  have hd : d = d' := by
    unfold encodeSubsampled at d1
    rw [List.append_assoc, List.append_assoc, ← List.append_assoc (stuff _), o1] at d1
    injection d1 with d1
    exact d1.symm
  subst hd
  have hwd : d.width = 2 * wb * 3 := by unfold Decompressor.width; rw [o2.sof]
  have hht : d.height = v * hb := by unfold Decompressor.height; rw [o2.sof]
  have hcells : v * hb * (2 * wb * 3) = 3 * (2 * wb * (v * hb)) := by ring
  refine ⟨d, out, by rw [List.append_assoc]; exact d1, hwd, hht, d2, d3, by rw [hwd, hht]; exact d4, by rw [d5.len, hcells], ⟨h4.1, h3.1, by omega⟩, h8, ?_⟩
  intro i hi
  have hr : i / (2 * wb) < v * hb := by rw [Nat.div_lt_iff_lt_mul (by omega), Nat.mul_comm]; exact hi
  have hc : i % (2 * wb) < 2 * wb := Nat.mod_lt _ (by omega)
  have e : i / (2 * wb) * (2 * wb) + i % (2 * wb) = i := by rw [Nat.mul_comm]; exact Nat.div_add_mod _ _
  have a0 := d5.luma _ _ hr hc
  have a1 := d5.chroma _ _ 0 hr hc (by omega)
  have a2 := d5.chroma _ _ 1 hr hc (by omega)
  rw [e, Nat.mul_comm] at a0 a1 a2
  exact ⟨a0, a1, a2⟩

/-- The picture with three colours at every place, as it is returned. -/
def smallPicture (cam : Camera) (orientation : Orientation) (w h : Nat) (wb : List F32) (data : List Nat) : RawImage :=
  { pictureOf cam orientation w h wb [0, 0, 0, 0] data with cpp := 3, crops := [0, 0, 0, 0], whitelevels := [65535, 65535, 65535, 65535] }

/-- **C81**: small pictures, of which every pixel has its own brightness and the colour differences of its block. -/
theorem cr2_small_file (s : RawLoader) (env : Platform) (b : Build) {contents : Bytes} {big : Bool} {dirs : List Dir} {model : Bytes} {o : Option Nat}
    (h : CameraFile contents big dirs (b! "Canon") model o) (h560 : model ≠ b! "DCS560C")
    {cam : Camera} (hcam : Map.get s.cameras (b! "Canon", model, []) = some cam) (hlin : cam.findHint (b! "linearization") = false)
    {raw : Dir} {offset : Nat} (hraw : Cr2Raw (fileRoot big dirs) raw offset) (hoff : offset ≤ contents.length)
    {v wb hb : Nat} {Y C : Nat → Nat → Nat → Nat} (hj : BeginsWithBlocks v wb hb Y C (contents.drop offset))
    {w ht : Nat} (hsize : Cr2Size raw (2 * wb) (v * hb) w ht) {src : Nat → Nat → Nat} (hsrc : Cr2Places raw v 2 3 (2 * wb * 3) (v * hb) (w * 3) ht src)
    {red green blue : Nat} (hwb : Cr2White (fileRoot big dirs) (cr2Index cam.wbOffset) [F32.ofNat red, F32.ofNat green, F32.ofNat blue, .nan])
    (hr : 64 ≤ red ∧ red < 65536) (hg : green ≤ 16384) (hbl : 64 ≤ blue ∧ blue < 65536) {lift : Nat} (hl : lift = if cam.findHint (b! "40d_yuv") then 512 else 0)
    {pic : Nat → Nat → Nat} (hpic : ∀ r c, r < ht → c < w * 3 → smallColour red green blue lift (blockLuma v wb Y (src r c / 3)) (blockChroma v wb C (src r c / 3) 0)
      (blockChroma v wb C (src r c / 3) 1) (src r c % 3) = pic r c)
    {blacks : List Nat} (hb' : BlacksOf cam (w * 3) ht pic blacks) :
    s.decodeSafe env b (.ok contents) = .ok (smallPicture cam (orientationOf o) w ht [F32.ofNat red, F32.ofNat green, F32.ofNat blue, .nan] (raster (w * 3) ht pic)) := by
  obtain ⟨root, hh, hc, hd⟩ := camera_decodes s env b h (k := .cr2) (by decide) h560
  obtain ⟨ifd, f1, f2⟩ := cr2_found hh hraw
  obtain ⟨d, out, j1, j2, j3, j4, j5, j6, j7, ⟨p1, p2, p3⟩, j8, j9⟩ := blocks_whole b hj 16 (by decide)
  have hwb' : Cr2White (fileRoot big dirs) (cr2Index (turned cam o).wbOffset) [F32.ofNat red, F32.ofNat green, F32.ofNat blue, .nan] := by rw [turned_offset]; exact hwb
  obtain ⟨rgb, k1, k2, k3⟩ := colours_of b (cam := turned cam o) hh hwb' hr hg hbl (lift := lift) (by rw [turned_hint]; exact hl) (n := 2 * wb * (v * hb)) (y := blockLuma v wb Y)
    (cb := fun i => blockChroma v wb C i 0) (cr := fun i => blockChroma v wb C i 1) (fun i => j8.1 _ _ _) (fun i => j8.2 _ _ _) (fun i => j8.2 _ _ _) j7
    (fun i hi => (j9 i hi).1) (fun i hi => (j9 i hi).2.1) (fun i hi => (j9 i hi).2.2)
  have hcells : 2 * wb * 3 * (v * hb) = 3 * (2 * wb * (v * hb)) := by ring
  have harr := cr2_arranged f2 d hsrc j5 j4 (by decide) j2 (by omega) (l := rgb) (by rw [k2, hcells])
  have hdim : Cr2.dimensions (turned cam o) ifd d.width d.height 3 = .ok (w * 3, ht) := by
    unfold Cr2.dimensions
    rw [if_pos rfl, j2, j3]
    rcases hsize with ⟨t1, t2, e1, e2⟩ | ⟨e1, e2⟩
    · have hhas : ifd.hasEntry Tag.ImageWidth = true := by
        obtain ⟨ent, g1, _⟩ := find_numbers f2 (tag := 0x100) (by decide) e1
        unfold TiffIFD.hasEntry
        rw [show TiffIFD.findEntry Tag.ImageWidth ifd = some ent from g1]
        rfl
      rw [if_pos hhas, show fetchUsize ifd Tag.ImageWidth = _ from fetch_number f2 (by decide) e1, ok_bind,
        show fetchUsize ifd Tag.ImageLength = _ from fetch_number f2 (by decide) e2]
      rfl
    · have hhas : ¬ ifd.hasEntry Tag.ImageWidth = true := by
        unfold TiffIFD.hasEntry
        rw [show TiffIFD.findEntry Tag.ImageWidth ifd = none from find_lacks f2 e1]
        decide
      rw [if_neg hhas, Nat.mul_div_cancel _ (by decide)]
      rcases e2 with ⟨g1, rfl, rfl⟩ | ⟨g1, rfl, rfl⟩
      · rw [if_pos g1]
      · rw [if_neg (by omega)]
  have hpic' : (raster (w * 3) ht fun r c => rgb.getD (src r c) 0) = raster (w * 3) ht pic := by
    refine raster_congr fun r c hr' hc' => ?_
    have hlt := cr2_places_inside hsrc hr' hc'
    rw [List.getD_eq_getElem?_getD, k3 _ (by omega), Option.getD_some, hpic r c hr' hc']
  have himage : Cr2.image b (contents ++ List.replicate 16 0) root s =
      .ok (smallPicture cam (orientationOf o) w ht [F32.ofNat red, F32.ofNat green, F32.ofNat blue, .nan] (raster (w * 3) ht pic)) := by
    unfold Cr2.image RawLoader.checkSupported
    rw [hc [] cam hcam, ok_bind, f1, ok_bind]
    dsimp only
    rw [sliceFrom_le (by simp; omega), ok_bind, List.drop_append_of_le_length hoff]
    unfold Cr2.pixels
    rw [j1, ok_bind, j4, ok_bind]
    dsimp only
    rw [if_pos rfl, j6, ok_bind, turned_hint, hlin, if_neg (by decide), ok_bind, if_pos rfl, k1, ok_bind, hdim, ok_bind]
    dsimp only
    rw [harr, ok_bind, hpic', ok_bind]
    dsimp only
    rw [cr2_white hh hwb', ok_bind, image_new b o hb' _, ok_bind]
    unfold Cr2.finish smallPicture pictureOf
    rw [if_pos rfl]
    dsimp only
    rw [Nat.mul_div_cancel _ (by decide)]
  apply hd
  intro d' hk ht'
  cases d' <;> cases hk
  injection ht' with ht'; subst ht'
  exact himage

/-! ## Pictures with a curve -/

private theorem dither_all {b : Build} {tbl : LookupTable} {t : List Nat}
    (hd : ∀ i rand, i < t.length → rand < 2 ^ 32 → tbl.dither b i rand = .ok (dithered (t[i]?.getD 0) (above t i - below t i) rand, mwc rand)) :
    ∀ (l : List Nat) (rand : Nat), rand < 2 ^ 32 → (∀ v ∈ l, v < t.length) →
      ∃ out rand', Ljpeg.foldChunks (fun o (random : Nat) => do
        let v ← idx o 0
        let (v, random) ← tbl.dither b v random
        let o ← setIdx o 0 v
        .ok (o, random)) (chunks 1 l) rand = .ok (out, rand') ∧ out.length = l.length ∧
        ∀ i (hi : i < l.length), out[i]? = some (dithered (t[l[i]]?.getD 0) (above t l[i] - below t l[i]) (mwcAfter rand i)) := by
  intro l
  induction l with
  | nil => intro rand _ _; exact ⟨[], rand, rfl, rfl, fun i hi => absurd hi (by simp)⟩
  | cons x l ih =>
    intro rand hr hv
    obtain ⟨out, rand', e1, e2, e3⟩ := ih (mwc rand) (mwc_lt hr) (fun v hm => hv v (List.mem_cons_of_mem _ hm))
    refine ⟨dithered (t[x]?.getD 0) (above t x - below t x) rand :: out, rand', ?_, by simp [e2], ?_⟩
    · rw [show chunks 1 (x :: l) = [x] :: chunks 1 l from rfl, Ljpeg.foldChunks]
      rw [show idx [x] 0 = .ok x from rfl, ok_bind, hd x rand (hv x (by simp)) hr, ok_bind]
      dsimp only
      rw [show setIdx [x] 0 (dithered (t[x]?.getD 0) (above t x - below t x) rand) = .ok [dithered (t[x]?.getD 0) (above t x - below t x) rand] from rfl, ok_bind, ok_bind]
      dsimp only
      rw [e1]
      rfl
    · intro i hi
      cases i with
      | zero => rfl
      | succ i => exact e3 i (by simpa using hi)

private theorem values_read {n : Nat} {ent : TiffEntry} {table rest : List Nat} (full : table.length = n) (small : ∀ v ∈ table, v < 65536)
    (h : ∀ i (hi : i < (table ++ rest).length), ent.getU32 i = .ok (table ++ rest)[i]) :
    (List.range n).mapM (fun i => do
      let v ← ent.getU32 i
      (.ok (v % 65536) : M Nat)) = .ok table := by
  rw [mapM_ok _ (fun i => (table[i]?).getD 0) _ (fun i hi => by
    rw [List.mem_range] at hi
    have hi' : i < table.length := by omega
    rw [h i (by rw [List.length_append]; omega), ok_bind, List.getElem_append_left hi', List.getElem?_eq_getElem hi', Nat.mod_eq_of_lt (small _ (List.getElem_mem _))]
    rfl)]
  congr 1
  apply List.ext_getElem (by rw [List.length_map, List.length_range, full])
  intro i h1 h2
  rw [List.getElem_map, List.getElem_range, List.getElem?_eq_getElem h2]
  rfl

/-- **C81**: cameras that store the picture through a curve of 4096 values (field 0x123). The values are looked up with dithering, of which the random numbers start from the first sample. -/
theorem cr2_curve_file (s : RawLoader) (env : Platform) (b : Build) {contents : Bytes} {big : Bool} {dirs : List Dir} {model : Bytes} {o : Option Nat}
    (h : CameraFile contents big dirs (b! "Canon") model o) (h560 : model ≠ b! "DCS560C")
    {cam : Camera} (hcam : Map.get s.cameras (b! "Canon", model, []) = some cam) (hlin : cam.findHint (b! "linearization") = true)
    {table rest : List Nat} (htab : (fileRoot big dirs).Numbers 0x123 (table ++ rest)) (hfull : table.length = 4096) (hsmall : ∀ v ∈ table, v < 65536) (hsmooth : ∀ i, i < 4096 → gentle table i)
    {raw : Dir} {offset : Nat} (hraw : Cr2Raw (fileRoot big dirs) raw offset) (hoff : offset ≤ contents.length)
    {n lw lh : Nat} {img : Nat → Nat → Nat → Nat} (hn : 2 ≤ n ∧ n ≤ 4) (hlw : 0 < lw) (hlh : 0 < lh) (hj : BeginsWithJpeg n lh lw img (contents.drop offset))
    (hrange : ∀ r p k, r < lh → p < lw → k < n → img r p k < 4096)
    {w ht : Nat} (hsize : Cr2Lines cam (lw * n) lh w ht) {src : Nat → Nat → Nat} (hsrc : Cr2Places raw 1 1 1 (lw * n) lh w ht src)
    {wb : List F32} (hwb : Cr2White (fileRoot big dirs) (cr2Index cam.wbOffset) wb) {pic : Nat → Nat → Nat}
    (hpic : ∀ r c, r < ht → c < w → dithered (table[jpegSample n lw img (src r c)]?.getD 0) (above table (jpegSample n lw img (src r c)) - below table (jpegSample n lw img (src r c)))
      (mwcAfter (img 0 0 0) (src r c)) = pic r c)
    {blacks : List Nat} (hb : BlacksOf cam w ht pic blacks) :
    s.decodeSafe env b (.ok contents) = .ok (pictureOf cam (orientationOf o) w ht wb blacks (raster w ht pic)) := by
  obtain ⟨root, hh, hc, hd⟩ := camera_decodes s env b h (k := .cr2) (by decide) h560
  obtain ⟨ifd, f1, f2⟩ := cr2_found hh hraw
  obtain ⟨ent, t1, _, t2, _⟩ := find_numbers hh (tag := 0x123) (by decide) htab
  obtain ⟨tbl, u1, u2⟩ := dither_exact b table (fun i hi => hsmooth i (by omega))
  obtain ⟨d, out, j1, j2, j3, j4, j5, j6, j7, j8⟩ := jpeg_whole b hn hlw hlh (begins_pad 16 hj)
  have hwn : 0 < lw * n := Nat.mul_pos hlw (by omega)
  have hcell : 0 < lw * n * lh := Nat.mul_pos hwn hlh
  have hval : ∀ i, i < lw * n * lh → jpegSample n lw img i < 4096 := by
    intro i hi
    have hm : i % (lw * n) < lw * n := Nat.mod_lt _ hwn
    exact hrange _ _ _ (by rw [Nat.div_lt_iff_lt_mul hwn, Nat.mul_comm]; exact hi) (by rw [Nat.div_lt_iff_lt_mul (by omega)]; exact hm) (Nat.mod_lt _ (by omega))
  have hfirst : idx out 0 = .ok (img 0 0 0) := by
    rw [idx_eq_ok, j8 0 hcell]
    unfold jpegSample
    simp
  have h000 : img 0 0 0 < 4096 := hrange 0 0 0 hlh hlw (by omega)
  obtain ⟨lin, rand, v1, v2, v3⟩ := dither_all u2 out (img 0 0 0) (by omega) (by
    intro v hv
    obtain ⟨i, hi, rfl⟩ := List.getElem_of_mem hv
    have := j8 i (by omega)
    rw [List.getElem?_eq_getElem hi] at this
    injection this with this
    rw [this, hfull]
    exact hval i (by omega))
  have hlinear : Cr2.linearize b root out = .ok lin := by
    unfold Cr2.linearize TiffIFD.fetchTag
    rw [show TiffIFD.findEntry Tag.GrayResponse root = some ent from t1]
    simp only [ok_bind]
    rw [values_read hfull hsmall t2, ok_bind, u1, ok_bind, hfirst, ok_bind, v1]
    rfl
  have harr := cr2_arranged f2 d hsrc j5 j4 (by decide) j2 hwn (l := lin) (by rw [v2, j7])
  have hdim : Cr2.dimensions (turned cam o) ifd d.width d.height 1 = .ok (w, ht) := by
    unfold Cr2.dimensions
    rw [if_neg (by decide), turned_hint, j2, j3]
    rcases hsize with ⟨e1, rfl, rfl⟩ | ⟨e1, e2, rfl⟩
    · rw [e1]; rfl
    · rw [e1, ← e2]
      exact congrArg Except.ok (Prod.ext (by dsimp only; omega) rfl)
  have hpic' : (raster w ht fun r c => lin.getD (src r c) 0) = raster w ht pic := by
    refine raster_congr fun r c hr hc' => ?_
    have hlt : src r c < lw * n * lh := cr2_places_inside hsrc hr hc'
    have hlt' : src r c < out.length := by omega
    have hs := j8 _ hlt
    rw [List.getElem?_eq_getElem hlt'] at hs
    injection hs with hs
    rw [List.getD_eq_getElem?_getD, v3 _ hlt', Option.getD_some, hs, hpic r c hr hc']
  have himage : Cr2.image b (contents ++ List.replicate 16 0) root s = .ok (pictureOf cam (orientationOf o) w ht wb blacks (raster w ht pic)) := by
    unfold Cr2.image RawLoader.checkSupported
    rw [hc [] cam hcam, ok_bind, f1, ok_bind]
    dsimp only
    rw [sliceFrom_le (by simp; omega), ok_bind, List.drop_append_of_le_length hoff]
    unfold Cr2.pixels
    rw [j1, ok_bind, j4, ok_bind]
    dsimp only
    rw [if_neg (by decide), j6, ok_bind, turned_hint, hlin, if_pos rfl, hlinear, ok_bind, if_neg (by decide), ok_bind, hdim, ok_bind]
    dsimp only
    rw [harr, ok_bind, hpic', ok_bind]
    dsimp only
    rw [cr2_white hh (by rw [turned_offset]; exact hwb), ok_bind, image_new b o hb wb, ok_bind]
    rfl
  apply hd
  intro d' hk ht'
  cases d' <;> cases hk
  injection ht' with ht'; subst ht'
  exact himage

/-! ## Examples -/

section Examples

/-- A picture of two rows, cut after the third column. -/
private def slicedFile : Bytes :=
  [73, 73, 42, 0, 8, 0, 0, 0] ++
  [7, 0] ++
  [15, 1, 2, 0, 6, 0, 0, 0, 98, 0, 0, 0] ++
  [16, 1, 2, 0, 7, 0, 0, 0, 104, 0, 0, 0] ++
  [17, 1, 4, 0, 1, 0, 0, 0, 129, 0, 0, 0] ++
  [18, 1, 3, 0, 1, 0, 0, 0, 8, 0, 0, 0] ++
  [1, 64, 3, 0, 6, 0, 0, 0, 111, 0, 0, 0] ++
  [216, 197, 4, 0, 1, 0, 0, 0, 1, 0, 0, 0] ++
  [64, 198, 3, 0, 3, 0, 0, 0, 123, 0, 0, 0] ++
  [0, 0, 0, 0] ++
  [67, 97, 110, 111, 110, 0] ++
  [69, 79, 83, 32, 53, 68, 0] ++
  [9, 0, 208, 7, 0, 4, 1, 4, 220, 5, 7, 0] ++
  [1, 0, 3, 0, 1, 0] ++
  (tileFile 2 2 2 2 0 0 ++ ([] ++ [0, 0]))

private def slicedDir : Dir := .mk false [.plain ⟨0x10f, 2, [67, 97, 110, 111, 110, 0]⟩, .plain ⟨0x110, 2, [69, 79, 83, 32, 53, 68, 0]⟩, .plain ⟨0x111, 4, [129]⟩, .plain ⟨0x112, 3, [8]⟩, .plain ⟨0x4001, 3, [9, 2000, 1024, 1025, 1500, 7]⟩, .plain ⟨0xc5d8, 4, [1]⟩, .plain ⟨0xc640, 3, [1, 3, 1]⟩]

private theorem sliced_stored : TiffFile 11 false slicedFile [slicedDir] := by
  refine ⟨by decide +kernel, by decide +kernel, 8, by decide, by decide +kernel, rfl, ?_⟩
  refine ⟨by decide, by decide +kernel, by decide, by decide +kernel, by decide +kernel, ?_⟩
  intro i it hi
  match i with
  | 0 => injection hi with hi; subst hi; stored_outside 98
  | 1 => injection hi with hi; subst hi; stored_outside 104
  | 2 => injection hi with hi; subst hi; stored_inline
  | 3 => injection hi with hi; subst hi; stored_inline
  | 4 => injection hi with hi; subst hi; stored_outside 111
  | 5 => injection hi with hi; subst hi; stored_inline
  | 6 => injection hi with hi; subst hi; stored_outside 123
  | i + 7 => cases hi

private theorem sliced_camera : CameraFile slicedFile false [slicedDir] (b! "Canon") (b! "EOS 5D") (some 8) where
  tiff := sliced_stored
  few := by decide
  notCiff := by decide +kernel
  notDng := lacks_one rfl rfl
  make := ⟨⟨by decide, by decide, by decide⟩, false, _, first_one rfl, rfl, 0, 0, [0], Or.inr rfl, rfl⟩
  model := ⟨⟨by decide, by decide, by decide⟩, false, _, first_one rfl, rfl, 0, 0, [0], Or.inr rfl, rfl⟩
  orientation := numbers_one (f := ⟨0x112, 3, [8]⟩) rfl (by decide)

private theorem sliced_begins : BeginsWithJpeg 2 2 2 (cutTile 2 2 2 2 0 0) (slicedFile.drop 129) := by
  rw [show slicedFile.drop 129 = tileFile 2 2 2 2 0 0 ++ ([] ++ [0, 0]) by decide +kernel]
  exact begins_jpeg (by decide) (by decide) (by decide) (fun r p k => Nat.mod_lt _ (by decide)) fun r p k hr hp hk =>
    (by decide +kernel : ∀ r, r < 2 → ∀ p, p < 2 → ∀ k, k < 2 → category (residual (2 ^ (14 - 0 - 1)) (cutTile 2 2 2 2 0 0) r p k) ∈ tableK3.vals) r hr p hp k hk

/-- The samples of the JPEG are [8000, 8030, 8060, 8090, 8007, 8048, 8089, 8130]; the levels of white are at the place the camera states. -/
example (env : Platform) (b : Build) (cam : Camera) (hb : NoBlackAreas cam) (hh : cam.hints = []) (hwb : cam.wbOffset = 1) :
    (loaderOf (b! "Canon") (b! "EOS 5D") [] cam).decodeSafe env b (.ok slicedFile) =
      .ok (pictureOf cam .rotate270 4 2 [F32.ofNat 2000, F32.ofNat 1024, F32.ofNat 1500, .nan] cam.blacklevels [8000, 8030, 8060, 8089, 8090, 8007, 8048, 8130]) := by
  refine (cr2_file (loaderOf (b! "Canon") (b! "EOS 5D") [] cam) env b sliced_camera (by decide) rfl (by unfold Camera.findHint; rw [hh]; rfl)
    (.marked (first_with (f := ⟨0xc5d8, 4, [1]⟩) rfl) (numbers_here (f := ⟨0x111, 4, [129]⟩) rfl (by decide))) (by decide +kernel) (by decide) (by decide) (by decide) sliced_begins
    (w := 4) (ht := 2) (Or.inl ⟨by unfold Camera.findHint; rw [hh]; rfl, rfl, rfl⟩)
    (.sliced (by decide) (numbers_here (f := ⟨0xc640, 3, [1, 3, 1]⟩) rfl (by decide)) (by decide) (by decide) (by decide))
    (wb := [F32.ofNat 2000, F32.ofNat 1024, F32.ofNat 1500, .nan]) (by rw [hwb]; exact .colours (first_one rfl) (by decide) (by decide +kernel) (by decide +kernel) (by decide +kernel)) (fun r c _ _ => rfl) (hb.blacks _ _ _)).trans ?_
  exact congrArg (fun x => Except.ok (pictureOf _ _ _ _ _ _ x)) (by decide +kernel)

private def smallY (r p j : Nat) : Nat := (15000 + 40 * r + 9 * p * p + 25 * j) % 65536
private def smallC (r p k : Nat) : Nat := (16000 + 3 * r + 70 * p + 300 * k) % 65536

/-- Four blocks of four pixels, stored as pairs of lines in two slices. -/
private def smallFile : Bytes :=
  [77, 77, 0, 42, 0, 0, 0, 8] ++
  [0, 6] ++
  [1, 15, 0, 2, 0, 0, 0, 6, 0, 0, 0, 86] ++
  [1, 16, 0, 2, 0, 0, 0, 8, 0, 0, 0, 92] ++
  [0, 41, 0, 4, 0, 0, 0, 5, 0, 0, 0, 100] ++
  [1, 17, 0, 4, 0, 0, 0, 1, 0, 0, 0, 126] ++
  [130, 142, 0, 1, 0, 0, 0, 4, 0, 1, 1, 2] ++
  [198, 64, 0, 3, 0, 0, 0, 3, 0, 0, 0, 120] ++
  [0, 0, 0, 0] ++
  [67, 97, 110, 111, 110, 0] ++
  [69, 79, 83, 32, 54, 48, 68, 0] ++
  [0, 0, 0, 1, 0, 0, 0, 2, 0, 0, 0, 200, 0, 0, 4, 0, 0, 0, 8, 0] ++
  [0, 1, 0, 6, 0, 6] ++
  encodeSubsampled 15 0 2 2 2 id 1 (fun _ => tableK3) smallY smallC

private def smallDir : Dir := .mk true [.plain ⟨0x10f, 2, [67, 97, 110, 111, 110, 0]⟩, .plain ⟨0x110, 2, [69, 79, 83, 32, 54, 48, 68, 0]⟩, .plain ⟨0x29, 4, [1, 2, 200, 1024, 2048]⟩, .plain ⟨0x111, 4, [126]⟩, .plain ⟨0x828e, 1, [0, 1, 1, 2]⟩, .plain ⟨0xc640, 3, [1, 6, 6]⟩]

private theorem small_stored : TiffFile 11 true smallFile [smallDir] := by
  refine ⟨by decide +kernel, by decide +kernel, 8, by decide, by decide +kernel, rfl, ?_⟩
  refine ⟨by decide, by decide +kernel, by decide, by decide +kernel, by decide +kernel, ?_⟩
  intro i it hi
  match i with
  | 0 => injection hi with hi; subst hi; stored_outside 86
  | 1 => injection hi with hi; subst hi; stored_outside 92
  | 2 => injection hi with hi; subst hi; stored_outside 100
  | 3 => injection hi with hi; subst hi; stored_inline
  | 4 => injection hi with hi; subst hi; stored_inline
  | 5 => injection hi with hi; subst hi; stored_outside 120
  | i + 6 => cases hi

private theorem small_camera : CameraFile smallFile true [smallDir] (b! "Canon") (b! "EOS 60D") none where
  tiff := small_stored
  few := by decide
  notCiff := by decide +kernel
  notDng := lacks_one rfl rfl
  make := ⟨⟨by decide, by decide, by decide⟩, true, _, first_one rfl, rfl, 0, 0, [0], Or.inr rfl, rfl⟩
  model := ⟨⟨by decide, by decide, by decide⟩, true, _, first_one rfl, rfl, 0, 0, [0], Or.inr rfl, rfl⟩
  orientation := lacks_one rfl rfl

private theorem small_table : UsableTable tableK3 15 false :=
  ⟨⟨rfl, by decide⟩, ⟨by decide, by decide⟩, by decide, ⟨by decide, by decide, by decide⟩, Or.inl (by decide), by decide, by decide⟩

private theorem small_begins : BeginsWithBlocks 2 2 2 smallY smallC (smallFile.drop 126) :=
  ⟨15, 0, id, 1, fun _ => tableK3, [], Or.inr rfl, by decide, by decide, by decide, by decide, ⟨fun i hi => by simp only [id]; omega, fun i j _ _ h => h⟩, by decide, fun _ _ => small_table,
    ⟨fun r p k => Nat.mod_lt _ (by decide), fun r p k => Nat.mod_lt _ (by decide)⟩,
    fun r p j hr hp hj => (show ∀ r, r < 2 → ∀ p, p < 2 → ∀ j, j < 4 → category (diff16 (smallY r p j) (lumaPredict (2 * 2) (2 ^ (15 - 0 - 1)) smallY r p j)) ∈ tableK3.vals by decide +kernel) r hr p hp j hj,
    fun r p k hr hp hk => (show ∀ r, r < 2 → ∀ p, p < 2 → ∀ k, k < 2 → category (residual (2 ^ (15 - 0 - 1)) smallC r p k) ∈ tableK3.vals by decide +kernel) r hr p hp k hk, by decide +kernel⟩

/-- Four rows of four pixels of three colours. -/
example (env : Platform) (b : Build) (cam : Camera) (hb : NoBlackAreas cam) (hh : cam.hints = []) :
    (loaderOf (b! "Canon") (b! "EOS 60D") [] cam).decodeSafe env b (.ok smallFile) =
      .ok (smallPicture cam .unknown 4 4 [F32.ofNat 1024, F32.ofNat 200, F32.ofNat 2048, .nan]
        [59668, 11807, 29234, 59768, 11827, 29284, 59840, 11837, 29320, 59940, 11857, 29370, 59868, 11846, 29334, 59968, 11866, 29384, 60040, 11876, 29420, 60140, 11896, 29470, 59984, 11776, 29392, 60084, 11796, 29442, 60156, 11806, 29478, 60256, 11825, 29528, 60184, 11815, 29492, 60284, 11835, 29542, 60356, 11845, 29578, 60456, 11864, 29628]) := by
  refine (cr2_small_file (loaderOf (b! "Canon") (b! "EOS 60D") [] cam) env b small_camera (by decide) rfl (by unfold Camera.findHint; rw [hh]; rfl)
    (.patterned (lacks_one rfl rfl) (first_with (f := ⟨0x828e, 1, [0, 1, 1, 2]⟩) rfl) (numbers_here (f := ⟨0x111, 4, [126]⟩) rfl (by decide))) (by decide +kernel) small_begins
    (w := 4) (ht := 4) (Or.inr ⟨lacks_leaf rfl rfl, Or.inr ⟨by decide, rfl, rfl⟩⟩)
    (.paired rfl (numbers_here (f := ⟨0xc640, 3, [1, 6, 6]⟩) rfl (by decide)) (by decide) (by decide) (by decide) (by decide) (by decide)) (red := 1024) (green := 200) (blue := 2048)
    (.powershot (lacks_one rfl rfl) (first_one rfl) (by decide) (by decide +kernel) (by decide +kernel) (by decide +kernel)) (by decide) (by decide) (by decide) (lift := 0)
    (by unfold Camera.findHint; rw [hh]; rfl) (fun r c _ _ => rfl) (hb.blacks _ _ _)).trans ?_
  exact congrArg (fun x => Except.ok (smallPicture _ _ _ _ _ x)) (by decide +kernel)

private def canonCurve : List Nat := (List.range 4096).map (15 * ·)
private def curveImage (r p k : Nat) : Nat := (2000 + 7 * r + 30 * p + 100 * k) % 4096
private def curveJpeg : Bytes := encodeFile 12 0 2 2 2 id (fun _ => tableK3) curveImage

private def curveHead : Bytes :=
  [77, 77, 0, 42, 0, 0, 0, 8] ++
  [0, 4] ++
  [0, 129, 0, 4, 0, 0, 0, 1, 0, 0, 32, 79] ++
  [1, 15, 0, 2, 0, 0, 0, 6, 0, 0, 0, 62] ++
  [1, 16, 0, 2, 0, 0, 0, 11, 0, 0, 0, 68] ++
  [1, 35, 0, 3, 0, 0, 16, 0, 0, 0, 0, 79] ++
  [0, 0, 0, 0] ++
  [67, 97, 110, 111, 110, 0] ++
  [69, 79, 83, 32, 68, 50, 48, 48, 48, 67, 0]

private def curveFile : Bytes := curveHead ++ (canonCurve.flatMap (encode true 2) ++ (curveJpeg ++ [0, 0]))

private def curveDir : Dir := .mk true [.plain ⟨0x81, 4, [8271]⟩, .plain ⟨0x10f, 2, [67, 97, 110, 111, 110, 0]⟩, .plain ⟨0x110, 2, [69, 79, 83, 32, 68, 50, 48, 48, 48, 67, 0]⟩, .plain ⟨0x123, 3, canonCurve⟩]

attribute [local irreducible] canonCurve

private theorem curve_at {i : Nat} (hi : i < 4096) : canonCurve[i]?.getD 0 = 15 * i := by
  unfold canonCurve
  rw [List.getElem?_map, List.getElem?_range hi]
  rfl

private theorem curve_length : canonCurve.length = 4096 := by unfold canonCurve; rw [List.length_map, List.length_range]

private theorem curve_small : ∀ v ∈ canonCurve, v < 65536 := by
  intro v hv
  unfold canonCurve at hv
  obtain ⟨i, hi, rfl⟩ := List.mem_map.mp hv
  rw [List.mem_range] at hi
  omega

private theorem twice_length (l : List Nat) : (l.flatMap (encode true 2)).length = 2 * l.length := by
  induction l with
  | nil => rfl
  | cons v l ih => rw [List.flatMap_cons, List.length_append, ih, encode_length, List.length_cons]; omega

private theorem curve_head : curveHead.length = 79 := by decide

private theorem curve_long : 8271 ≤ curveFile.length := by
  unfold curveFile
  rw [List.length_append, List.length_append, curve_head, twice_length, curve_length]
  omega

private theorem curve_drop : curveFile.drop 8271 = curveJpeg ++ [0, 0] := by
  unfold curveFile
  rw [show 8271 = curveHead.length + (canonCurve.flatMap (encode true 2)).length by rw [curve_head, twice_length, curve_length], ← List.drop_drop, List.drop_left, List.drop_left]

private theorem curve_stored : TiffFile 11 true curveFile [curveDir] := by
  refine ⟨le_trans (by decide) curve_long, by decide +kernel, 8, by decide, by decide +kernel, rfl, ?_⟩
  refine ⟨by decide, le_trans (by decide) curve_long, by decide, by decide +kernel, by decide +kernel, ?_⟩
  intro i it hi
  match i with
  | 0 => injection hi with hi; subst hi; exact ⟨⟨by decide, by decide, by decide, by decide, by decide +kernel, by decide +kernel, by decide +kernel, le_trans (by decide) curve_long,
      fun _ => by decide +kernel, fun h => absurd h (by decide +kernel)⟩, by decide, by decide⟩
  | 1 => injection hi with hi; subst hi; exact ⟨⟨by decide, by decide, by decide, by decide, by decide +kernel, by decide +kernel, by decide +kernel, le_trans (by decide) curve_long,
      fun h => absurd h (by decide +kernel), fun _ => ⟨62, by decide, by decide +kernel, by decide +kernel⟩⟩, by decide, by decide⟩
  | 2 => injection hi with hi; subst hi; exact ⟨⟨by decide, by decide, by decide, by decide, by decide +kernel, by decide +kernel, by decide +kernel, le_trans (by decide) curve_long,
      fun h => absurd h (by decide +kernel), fun _ => ⟨68, by decide, by decide +kernel, by decide +kernel⟩⟩, by decide, by decide⟩
  | 3 =>
    injection hi with hi
    subst hi
    have hl : (Field.bytes true ⟨0x123, 3, canonCurve⟩).length = 8192 := by
      show (canonCurve.flatMap (encode true 2)).length = 8192
      rw [twice_length, curve_length]
    exact ⟨⟨by decide, by decide, by show canonCurve.length < _; rw [curve_length]; decide, curve_small, by decide +kernel, by decide +kernel, by show _ = encode true 4 canonCurve.length; rw [curve_length]; decide +kernel,
      le_trans (by decide) curve_long, fun h => absurd h (by rw [hl]; decide), fun _ => ⟨79, by decide, by decide +kernel, by
        unfold bytesAt curveFile
        rw [show 79 = curveHead.length from curve_head.symm, List.drop_left]
        exact List.take_left⟩⟩, by decide, by decide⟩
  | i + 4 => cases hi

private theorem curve_camera : CameraFile curveFile true [curveDir] (b! "Canon") (b! "EOS D2000C") none where
  tiff := curve_stored
  few := by decide
  notCiff := by decide +kernel
  notDng := lacks_one rfl rfl
  make := ⟨⟨by decide, by decide, by decide⟩, true, _, first_one rfl, rfl, 0, 0, [0], Or.inr rfl, rfl⟩
  model := ⟨⟨by decide, by decide, by decide⟩, true, _, first_one rfl, rfl, 0, 0, [0], Or.inr rfl, rfl⟩
  orientation := lacks_one rfl rfl

private theorem curve_table : UsableTable tableK3 12 false :=
  ⟨⟨rfl, by decide⟩, ⟨by decide, by decide⟩, by decide, ⟨by decide, by decide, by decide⟩, Or.inl (by decide), by decide, by decide⟩

private theorem curve_begins : BeginsWithJpeg 2 2 2 curveImage (curveFile.drop 8271) :=
  ⟨12, 0, id, fun _ => tableK3, [0, 0], by decide, by decide, by decide, ⟨fun i hi => by simp only [id]; omega, fun i j _ _ h => h⟩, fun _ _ => curve_table,
    fun r p k => (Nat.mod_lt _ (by decide)).trans (by decide),
    fun r p k hr hp hk => (show ∀ r, r < 2 → ∀ p, p < 2 → ∀ k, k < 2 → category (residual (2 ^ (12 - 0 - 1)) curveImage r p k) ∈ tableK3.vals by decide +kernel) r hr p hp k hk,
    by decide +kernel, curve_drop⟩

/-- A file of the oldest kind, with a curve that rises by 15. -/
example (env : Platform) (b : Build) (cam : Camera) (hb : NoBlackAreas cam) (hh : cam.hints = [b! "linearization"]) :
    (loaderOf (b! "Canon") (b! "EOS D2000C") [] cam).decodeSafe env b (.ok curveFile) =
      .ok (pictureOf cam .unknown 4 2 [.nan, .nan, .nan, .nan] cam.blacklevels [30006, 31492, 30455, 31949, 30104, 31600, 30552, 32061]) := by
  refine (cr2_curve_file (loaderOf (b! "Canon") (b! "EOS D2000C") [] cam) env b curve_camera (by decide) rfl (by unfold Camera.findHint; rw [hh]; rfl)
    (table := canonCurve) (rest := []) (by rw [List.append_nil]; exact numbers_one (f := ⟨0x123, 3, canonCurve⟩) rfl (by decide)) curve_length
    curve_small
    (fun i hi => by
      have e1 : below canonCurve i = 15 * (i - 1) := by
        unfold below
        split
        · rw [curve_at (by omega)]; omega
        · rw [curve_at (by omega)]
      have e2 : above canonCurve i = 15 * (if i + 1 < 4096 then i + 1 else i) := by
        unfold above
        rw [curve_length]
        split
        · rw [curve_at (by omega)]
        · rw [curve_at (by omega)]
      unfold gentle
      rw [e1, e2, curve_at hi]
      split <;> omega)
    (.old (lacks_one rfl rfl) (lacks_one rfl rfl) (numbers_one (f := ⟨0x81, 4, [8271]⟩) rfl (by decide))) curve_long (by decide) (by decide) (by decide) curve_begins
    (fun r p k hr hp hk => Nat.mod_lt _ (by decide)) (w := 4) (ht := 2) (Or.inl ⟨by unfold Camera.findHint; rw [hh]; rfl, rfl, rfl⟩)
    (.whole (Or.inl (lacks_one rfl rfl)) rfl) (.missing (lacks_one rfl rfl) (lacks_one rfl rfl) (lacks_one rfl rfl)) (fun r c _ _ => rfl) (hb.blacks _ _ _)).trans ?_
  exact congrArg (fun x => Except.ok (pictureOf _ _ _ _ _ _ x)) (by decide +kernel)

end Examples

end Props

import Verif.Spec.Srw
import Verif.Model.Dec.Srw
import Verif.Lemmas.Seq
/-!
# C66: Samsung's second compression
-/

namespace Props
open Rust Spec Model Model.Ljpeg Model.HuffTable

/-- The prefix as a number. -/
private def prefixValue (n : Nat) : Nat := (srw2Prefix n).foldl (fun a v => 2 * a + v) 0

private theorem prefix_bits : ∀ n : Fin 14, srw2Prefix n = bitsOf (srw2Prefix n).length (prefixValue n) ∧ prefixValue n < 2 ^ (srw2Prefix n).length ∧
    (srw2Prefix n).length ≤ 10 := by
  decide

/-- The table, line by line. -/
private theorem tbl_lookup {c : Nat} (h : c < 1024) : Srw.tbl[c]? = some (
    if c < 128 then (3, 4) else if c < 256 then (3, 7) else if c < 512 then (2, 6) else if c < 768 then (2, 5) else if c < 832 then (4, 3)
    else if c < 848 then (6, 0) else if c < 856 then (7, 9) else if c < 860 then (8, 10) else if c < 862 then (9, 11) else if c < 863 then (10, 12)
    else if c < 864 then (10, 13) else if c < 896 then (5, 1) else if c < 960 then (4, 8) else (4, 2)) := by
  have hg : ∀ (n : Nat) (x : Nat × Nat) (l : List (Nat × Nat)) (k : Nat), (List.replicate n x ++ l)[k]? = if k < n then some x else l[k - n]? := by
    intro n x l k
    rw [List.getElem?_append, List.length_replicate, List.getElem?_replicate]
    split <;> simp_all
  unfold Srw.tbl Srw.tab
  simp only [List.flatMap_cons, List.flatMap_nil, hg, Nat.sub_sub]
  simp only [show 1024 >>> 3 = 128 from rfl, show 1024 >>> 2 = 256 from rfl, show 1024 >>> 4 = 64 from rfl, show 1024 >>> 5 = 32 from rfl,
    show 1024 >>> 6 = 16 from rfl, show 1024 >>> 7 = 8 from rfl, show 1024 >>> 8 = 4 from rfl, show 1024 >>> 9 = 2 from rfl, show 1024 >>> 10 = 1 from rfl]
  have hi : ∀ {p q : Prop} [Decidable p] [Decidable q] {x : Nat × Nat} {l : Option (Nat × Nat)} {y : Nat × Nat}, (p ↔ q) → (¬q → l = some y) →
      (if p then some x else l) = some (if q then x else y) := by
    intro p q _ _ x l y h1 h2
    by_cases hq : q
    · rw [if_pos hq, if_pos (h1.mpr hq)]
    · rw [if_neg hq, if_neg (fun hp => hq (h1.mp hp)), h2 hq]
  iterate 13 refine hi (by omega) fun _ => ?_
  rw [if_pos (by omega)]

/-- The table holds, for ten bits that start with a prefix, its length and the number that it announces. -/
private theorem table_prefix (n c : Nat) (hn : n < 14) (hc : c < 1024) (h : c / 2 ^ (10 - (srw2Prefix n).length) = prefixValue n) :
    Srw.tbl[c]? = some ((srw2Prefix n).length, n) := by
  rw [tbl_lookup hc]
  congr 1
  have : n = 0 ∨ n = 1 ∨ n = 2 ∨ n = 3 ∨ n = 4 ∨ n = 5 ∨ n = 6 ∨ n = 7 ∨ n = 8 ∨ n = 9 ∨ n = 10 ∨ n = 11 ∨ n = 12 ∨ n = 13 := by omega
  rcases this with h' | h' | h' | h' | h' | h' | h' | h' | h' | h' | h' | h' | h' | h' <;> subst h' <;>
    simp only [srw2Prefix, prefixValue, List.length_cons, List.length_nil, List.foldl_cons, List.foldl_nil, Nat.reduceAdd, Nat.reduceSub, Nat.reducePow, Nat.reduceMul] at h ⊢ <;>
    (repeat (first | rw [if_pos (by omega)] | rw [if_neg (by omega)]))

variable {limit : Option Nat} {st : Nat → Nat} {at_ : Pump → Nat → Nat → Prop}

private theorem srw2Diff_ok {b : Build} (hR : Reads (pumpMSB b) (fieldMSB st) limit at_) {s : Pump} {c a : Nat} {d : Int} {rest : List Nat} (hs : at_ s c a)
    (hd1 : -8192 < d) (hd2 : d < 8192) (hf : Follows st c (srw2Code d ++ rest)) (hw : within limit (c + (srw2Code d ++ rest).length + 4)) :
    ∃ s' c' a', Srw.diff2 b s = .ok (d, s') ∧ at_ s' c' a' ∧ Follows st c' rest ∧ within limit (c' + rest.length + 4) := by
  obtain ⟨had, hex⟩ := extend_additional d
  have hcat : category d ≤ 13 := category_lt_two (by omega) (by omega)
  unfold srw2Code at hf hw
  rw [List.length_append, List.length_append, bitsOf_length] at hw
  rw [follows_append, follows_append, List.length_append, bitsOf_length] at hf
  obtain ⟨⟨f1, f2⟩, f3⟩ := hf
  have h0len : category d = 0 → 6 ≤ (srw2Prefix (category d)).length := by intro h; rw [h]; decide
  have hlen10 : 10 ≤ (srw2Prefix (category d)).length + category d + 4 := by
    have : ∀ n : Fin 14, 10 ≤ (srw2Prefix n).length + n + 4 := by decide
    exact this ⟨category d, by omega⟩
  obtain ⟨p1, p2, p3⟩ := prefix_bits ⟨category d, by omega⟩
  have htab := fun c => table_prefix (category d) c (by omega)
  dsimp only at p1 p2 p3
  rw [p1] at f1
  have f1 := follows_bitsOf f1 p2
  generalize category d = n at *
  have hlt : 2 ^ n ≤ 8192 := Nat.pow_le_pow_right (n := 2) (by omega) hcat
  obtain ⟨s1, a1, g1, g2, g3, -⟩ := hR.peek s c a 10 hs (by omega) (within_mono hw (by omega))
  have hc10 : fieldMSB st c 10 < 1024 := fieldMSB_lt st c 10
  have htab := htab (fieldMSB st c 10) hc10 (by rw [field_div st c p3]; exact f1)
  obtain ⟨s2, g4, g5⟩ := hR.consume s1 c a1 (srw2Prefix n).length g2 (by omega)
  obtain ⟨s3, a3, g6, g7⟩ := reads_bits hR g5 (n := n) (v := additional n d) (by omega) had f2 (within_mono hw (by omega))
  refine ⟨s3, _, a3, ?_, g7, by rw [Nat.add_assoc]; exact f3, within_mono hw (by omega)⟩
  unfold Srw.diff2
  show (do
    let (c, p) ← (pumpMSB b).peek s 10
    _) = _
  rw [g1, ok_bind]
  dsimp only
  rw [idx_eq_ok.mpr htab, ok_bind, g4, ok_bind, g6, ok_bind]
  dsimp only
  generalize additional n d = v at *
  rw [Nat.shiftLeft_eq, Nat.one_mul, Nat.shiftLeft_eq, Nat.one_mul]
  unfold extend at hex
  by_cases hn0 : 0 < n
  · have hand := and_top hn0 had
    have hp : ((2 : Int) ^ n) = ((2 ^ n : Nat) : Int) := by simp
    rw [hp] at hex
    by_cases hv : v < 2 ^ (n - 1)
    · rw [if_pos hv] at hex
      rw [if_pos ⟨by omega, hand.mpr hv⟩]
      congr 2
    · rw [if_neg hv] at hex
      rw [if_neg (fun h => hv (hand.mp h.2)), hex]
  · have : n = 0 := by omega
    subst this
    rw [if_neg (fun h => h.1 rfl)]
    have hv : v = 0 := by rw [Nat.pow_zero] at had; omega
    subst hv
    simp at hex
    rw [← hex]
    rfl

/-- What is left to decode after `k` pixels. -/
private def srw2Rest (w h : Nat) (img : Nat → Nat → Nat) (k : Nat) : List Nat :=
  ((List.range (w * h)).drop k).flatMap fun k => srw2Code (srw2Diff img (k / w) (k % w))

/-- The vertical predictions before column `c` of row `r`. -/
private def vertical (w : Nat) (img : Nat → Nat → Nat) (r c par x : Nat) : Int :=
  if x < w then
    if par = r % 2 then if x < c then (img r x : Int) else if r < 2 then 0 else (img (r - 2) x : Int)
    else if r = 0 then 0 else (img (r - 1) x : Int)
  else 0

/-- The state before column `c` of row `r`. -/
private structure Srw2At (at_ : Pump → Nat → Nat → Prop) (limit : Option Nat) (st : Nat → Nat) (w h : Nat) (img : Nat → Nat → Nat) (r c : Nat) (s : Srw.State2) : Prop where
  out : s.out = filled w (w * h) img (r * w + c)
  vpred : s.vpred = [[vertical w img r c 0 0, vertical w img r c 0 1], [vertical w img r c 1 0, vertical w img r c 1 1]]
  len : s.hpred.length = 2
  left1 : 1 ≤ c → s.hpred[(c - 1) % 2]? = some ((img r (c - 1) : Nat) : Int)
  left2 : 2 ≤ c → s.hpred[c % 2]? = some ((img r (c - 2) : Nat) : Int)
  pos : ∃ p a, at_ s.pump p a ∧ Follows st p (srw2Rest w h img (r * w + c)) ∧ within limit (p + (srw2Rest w h img (r * w + c)).length + 4)

private theorem pixel2_ok {b : Build} (hR : Reads (pumpMSB b) (fieldMSB st) limit at_) {w h r c : Nat} {img : Nat → Nat → Nat} {s : Srw.State2}
    (hr : r < h) (hc : c < w) (hi : ∀ r c, r < h → c < w → img r c < 65536)
    (hd : ∀ r c, r < h → c < w → -8192 < srw2Diff img r c ∧ srw2Diff img r c < 8192)
    (hs : Srw2At at_ limit st w h img r c s) : ∃ s', Srw.pixel2 b w r c s = .ok s' ∧ Srw2At at_ limit st w h img r (c + 1) s' := by
  obtain ⟨out, vpred, hpred, pump⟩ := s
  obtain ⟨e1, e2, e3, e4, e5, p, a, g1, g2, g3⟩ := hs
  dsimp only at e1 e2 e3 e4 e5 g1
  have hcell := cell_lt hr hc
  have hrest : srw2Rest w h img (r * w + c) = srw2Code (srw2Diff img r c) ++ srw2Rest w h img (r * w + (c + 1)) := by
    unfold srw2Rest
    rw [drop_range_flatMap hcell, (cell_div hc).1, (cell_div hc).2]
    rfl
  rw [hrest] at g2 g3
  obtain ⟨d1, d2⟩ := hd r c hr hc
  obtain ⟨s', c', a', k1, k2, k3, k4⟩ := srw2Diff_ok hR g1 d1 d2 g2 g3
  have hv := hi r c hr hc
  have hu16 : toU16 ((img r c : Nat) : Int) = img r c := by unfold toU16; omega
  have hi32 : i32Result b ((img r c : Nat) : Int) = .ok ((img r c : Nat) : Int) := i32_small (by omega) (by omega)
  have hset : setIdx out (r * w + c) (toU16 ((img r c : Nat) : Int)) = .ok (filled w (w * h) img (r * w + (c + 1))) := by
    rw [hu16, e1]; exact filled_set hc hcell
  obtain ⟨h0, h1, rfl⟩ : ∃ h0 h1, hpred = [h0, h1] := by
    match hpred, e3 with
    | [x, y], _ => exact ⟨x, y, rfl⟩
  have hsum : ((srw2Pred img r c : Nat) : Int) + srw2Diff img r c = ((img r c : Nat) : Int) := by unfold srw2Diff; omega
  unfold Srw.pixel2
  dsimp only
  rw [k1, ok_bind]
  dsimp only
  by_cases hc2 : c < 2
  · rw [if_pos hc2, e2]
    have hvert : vertical w img r c (r % 2) c = ((srw2Pred img r c : Nat) : Int) := by
      unfold vertical srw2Pred
      rw [if_pos hc, if_pos rfl, if_neg (by omega), if_pos hc2]
      split <;> rfl
    have hrow : ∀ par, idx [[vertical w img r c 0 0, vertical w img r c 0 1], [vertical w img r c 1 0, vertical w img r c 1 1]] par =
        if par < 2 then .ok [vertical w img r c par 0, vertical w img r c par 1] else crash := by
      intro par
      match par with
      | 0 => rfl
      | 1 => rfl
      | n + 2 => rw [if_neg (by omega)]; rfl
    have hnew : ∀ par x, vertical w img r (c + 1) par x = if par = r % 2 ∧ x = c then ((img r c : Nat) : Int) else vertical w img r c par x := by
      intro par x
      unfold vertical
      by_cases h1 : par = r % 2
      · by_cases h2 : x = c
        · subst h2
          rw [if_pos hc, if_pos h1, if_pos (by omega), if_pos ⟨h1, rfl⟩]
        · rw [if_neg (show ¬(par = r % 2 ∧ x = c) from fun h => h2 h.2)]
          by_cases h3 : x < c
          · simp only [h3, show x < c + 1 by omega, if_true]
          · simp only [h3, show ¬x < c + 1 by omega, if_false]
      · rw [if_neg (show ¬(par = r % 2 ∧ x = c) from fun h => h1 h.1)]
        simp only [h1, if_false]
    refine ⟨⟨filled w (w * h) img (r * w + (c + 1)), [[vertical w img r (c + 1) 0 0, vertical w img r (c + 1) 0 1],
      [vertical w img r (c + 1) 1 0, vertical w img r (c + 1) 1 1]], [h0, h1].set c (img r c : Int), s'⟩, ?_, rfl, rfl, by simp, ?_, ?_, _, _, k2, k3, k4⟩
    · have hp2 : r % 2 < 2 := by omega
      have hvi : idx [vertical w img r c (r % 2) 0, vertical w img r c (r % 2) 1] c = .ok (vertical w img r c (r % 2) c) := by
        have : c = 0 ∨ c = 1 := by omega
        rcases this with h | h <;> subst h <;> rfl
      rw [hrow, if_pos hp2, ok_bind, hvi, ok_bind, hvert, hsum, hi32, ok_bind]
      have hcc : c = 0 ∨ c = 1 := by omega
      have hrr : r % 2 = 0 ∨ r % 2 = 1 := by omega
      simp only [hnew]
      rcases hcc with h | h <;> rcases hrr with h' | h' <;> subst h <;> rw [h'] <;>
        (show (setIdx out _ _ >>= _) = _) <;> rw [hset] <;> rfl
    · intro _
      rw [Nat.add_sub_cancel, Nat.mod_eq_of_lt hc2, List.getElem?_set_self (by simpa using hc2)]
    · intro h2
      have h1 : c = 1 := by omega
      subst h1
      have := e4 (by omega)
      simpa using this
  · rw [if_neg hc2]
    have hidx : idx [h0, h1] (c % 2) = .ok ((srw2Pred img r c : Nat) : Int) := by
      rw [idx_eq_ok, e5 (by omega)]; unfold srw2Pred; rw [if_neg hc2]
    have hlt : c % 2 < [h0, h1].length := by show c % 2 < 2; omega
    refine ⟨⟨filled w (w * h) img (r * w + (c + 1)), vpred, [h0, h1].set (c % 2) (img r c : Int), s'⟩, ?_, rfl, ?_, by simp, ?_, ?_, _, _, k2, k3, k4⟩
    · rw [hidx, ok_bind, hsum, hi32, ok_bind, setIdx_lt hlt, ok_bind, ok_bind]
      dsimp only
      rw [idx_eq_ok.mpr (List.getElem?_set_self hlt), ok_bind, hset]
      rfl
    · dsimp only
      rw [e2]
      have : ∀ par x, x < 2 → vertical w img r c par x = vertical w img r (c + 1) par x := by
        intro par x hx
        unfold vertical
        simp only [show x < c by omega, show x < c + 1 by omega, if_true]
      rw [this 0 0 (by omega), this 0 1 (by omega), this 1 0 (by omega), this 1 1 (by omega)]
    · intro _
      rw [Nat.add_sub_cancel, List.getElem?_set_self hlt]
    · intro _
      have := e4 (by omega)
      rw [List.getElem?_set_ne (by omega), show (c + 1) % 2 = (c - 1) % 2 by omega, this, show c + 1 - 2 = c - 1 by omega]

/-- **C66.** Samsung's second compression gives back every image of 16 bits in which no sample is more than 8191 away from its prediction, which
covers every image of 13 bits: whatever the size of the image and in both kinds of build. The reader works in words of four bytes and looks ahead ten bits. -/
theorem srw2_roundtrip (b : Build) (buf : Bytes) (w h : Nat) (img : Nat → Nat → Nat) (hi : ∀ r c, r < h → c < w → img r c < 65536)
    (hd : ∀ r c, r < h → c < w → -8192 < srw2Diff img r c ∧ srw2Diff img r c < 8192) (hf : Follows (bytesOf buf) 0 (encodeSrw2 w h img))
    (hl : (encodeSrw2 w h img).length + 4 ≤ 32 * (buf.length / 4)) : Srw.decodeSrw2 b buf w h = .ok (raster w h img) := by
  have hrow : ∀ r s, r < h → Srw2At (AtMSB buf (bytesOf buf)) (some (32 * (buf.length / 4))) (bytesOf buf) w h img r 0 s →
      ∃ s', forRange 0 w (Srw.pixel2 b w r) s = .ok s' ∧ Srw2At (AtMSB buf (bytesOf buf)) (some (32 * (buf.length / 4))) (bytesOf buf) w h img (r + 1) 0 s' := by
    intro r s hr hs
    obtain ⟨s', g1, g2⟩ := forRange_inv (fun c s => Srw2At (AtMSB buf (bytesOf buf)) (some (32 * (buf.length / 4))) (bytesOf buf) w h img r c s) (Nat.zero_le w) hs
      (fun c s _ hc hs => pixel2_ok (readsMSB b buf) hr hc hi hd hs)
    refine ⟨s', g1, ?_⟩
    obtain ⟨e1, e2, e3, e4, e5, e6⟩ := g2
    have hrw : (r + 1) * w + 0 = r * w + w := by rw [Nat.add_mul]; omega
    refine ⟨by rw [hrw]; exact e1, ?_, e3, fun h => by omega, fun h => by omega, by rw [hrw]; exact e6⟩
    rw [e2]
    have : ∀ par x, par < 2 → vertical w img r w par x = vertical w img (r + 1) 0 par x := by
      intro par x hp
      unfold vertical
      by_cases hx : x < w
      · simp only [if_pos hx]
        by_cases h1 : par = r % 2
        · rw [if_pos h1, if_neg (show ¬par = (r + 1) % 2 by omega), if_neg (show ¬r + 1 = 0 by omega)]; rfl
        · rw [if_neg h1, if_pos (show par = (r + 1) % 2 by omega), if_neg (show ¬x < 0 by omega)]
          by_cases h2 : r = 0
          · rw [if_pos h2, if_pos (show r + 1 < 2 by omega)]
          · rw [if_neg h2, if_neg (show ¬r + 1 < 2 by omega)]; rfl
      · rw [if_neg hx, if_neg hx]
    rw [this 0 0 (by omega), this 0 1 (by omega), this 1 0 (by omega), this 1 1 (by omega)]
  unfold Srw.decodeSrw2
  obtain ⟨s', g1, g2⟩ := forRange_inv (fun r s => Srw2At (AtMSB buf (bytesOf buf)) (some (32 * (buf.length / 4))) (bytesOf buf) w h img r 0 s) (Nat.zero_le h)
    (s := ⟨List.replicate (w * h) 0, [[0, 0], [0, 0]], [0, 0], Pump.new buf⟩) (f := fun row s => forRange 0 w (Srw.pixel2 b w row) s) (by
      refine ⟨?_, ?_, rfl, fun h => by omega, fun h => by omega, 0, 0, atMSB_new buf _, ?_, ?_⟩
      · rw [Nat.zero_mul]; exact (filled_zero ..).symm
      · have : ∀ par x, vertical w img 0 0 par x = 0 := by
          intro par x
          unfold vertical
          split
          · split
            · rw [if_neg (by omega), if_pos (by omega)]
            · rw [if_pos rfl]
          · rfl
        simp only [this]
      · rw [Nat.zero_mul]; exact hf
      · rw [Nat.zero_mul]
        show _ ≤ _
        rw [Nat.zero_add]; exact hl) (fun r s _ hr hs => hrow r s hr hs)
  rw [g1, ok_bind, g2.out, Nat.mul_comm h w, Nat.add_zero, filled_all]

/-- The whole way: every image of 13 bits survives being written to a file and read back, whatever follows it in the file, if that is at least four bytes. -/
theorem srw2_file (b : Build) (w h : Nat) (img : Nat → Nat → Nat) (hi : ∀ r c, r < h → c < w → img r c < 8192) (tail : Bytes) (ht : 4 ≤ tail.length) :
    Srw.decodeSrw2 b (packBits (encodeSrw2 w h img) ++ tail) w h = .ok (raster w h img) := by
  have hbits : ∀ v ∈ encodeSrw2 w h img, v ≤ 1 := by
    intro v hv
    unfold encodeSrw2 at hv
    obtain ⟨k, -, hv⟩ := List.mem_flatMap.mp hv
    unfold srw2Code at hv
    rcases List.mem_append.mp hv with hv | hv
    · have h1 : ∀ n, ∀ v ∈ srw2Prefix n, v ≤ 1 := by
        intro n
        unfold srw2Prefix
        split <;> decide
      exact h1 _ v hv
    · exact bitsOf_le _ _ v hv
  obtain ⟨hf, hl⟩ := follows_packed hbits tail
  refine srw2_roundtrip b _ w h img (fun r c hr hc => by have := hi r c hr hc; omega) ?_ hf ?_
  · intro r c hr hc
    have h1 := hi r c hr hc
    have h2 : srw2Pred img r c < 8192 := by
      unfold srw2Pred
      split
      · split
        · omega
        · exact hi _ _ (by omega) hc
      · exact hi _ _ hr (by omega)
    unfold srw2Diff
    omega
  · rw [List.length_append]
    omega

/-- A picture of three lines with steps of every kind, read back in both kinds of build. -/
private def srw2Sample (r c : Nat) : Nat := if r = 0 then 4000 + c else if r = 1 then 8191 * (c % 2) else 17 * c

example : packBits (encodeSrw2 3 3 srw2Sample) = [215, 190, 131, 94, 250, 31, 180, 215, 255, 255, 166, 188, 11, 250, 240, 55, 177, 127] ∧
    Srw.decodeSrw2 .debug (packBits (encodeSrw2 3 3 srw2Sample) ++ [0, 0, 0, 0]) 3 3 = .ok [4000, 4001, 4002, 0, 8191, 0, 0, 17, 34] := by
  decide +kernel

end Props

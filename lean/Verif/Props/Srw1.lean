import Verif.Spec.Srw1
import Verif.Model.Dec.Srw
import Verif.Lemmas.Cursor
import Verif.Lemmas.TiffEntry
import Verif.Lemmas.DecMore
/-!
# C71: Samsung's first compression
-/

namespace Props
open Rust Spec Model Model.Ljpeg Model.HuffTable

variable {limit : Option Nat} {st : Nat → Nat} {at_ : Pump → Nat → Nat → Prop} {e : Nat}

private theorem changeLen_ok {b : Build} (hR : Reads (pumpMSB32 b) (fieldMSB st) limit at_) {ch : LenChange} {i l : Nat} {len rest : List Nat} {p : Pump}
    (hl : len[i]? = some l) (hc : ch.Legal l) (h17 : ch.apply l ≤ 17) (hs : Before st limit at_ e (ch.extra ++ rest) p) :
    ∃ p', Srw.changeLen b i ch.code (len, p) = .ok (len.set i (ch.apply l), p') ∧ Before st limit at_ e rest p' := by
  have hi : i < len.length := by
    have := (List.getElem?_eq_some_iff.mp hl).1
    exact this
  cases ch with
  | keep =>
    refine ⟨p, ?_, hs⟩
    have : len.set i l = len := by
      apply List.ext_getElem?
      intro j
      rw [List.getElem?_set]
      by_cases h : i = j
      · subst h; rw [if_pos rfl, if_pos hi, hl]
      · rw [if_neg h]
    show Except.ok (len, p) = Except.ok (len.set i l, p)
    rw [this]
  | plus =>
    refine ⟨p, ?_, hs⟩
    have h17 : l + 1 ≤ 17 := h17
    show (do let v ← idx len i; let v ← addU 32 b v 1; let l ← setIdx len i v; Except.ok (l, p)) = _
    rw [idx_eq_ok.mpr hl, ok_bind, addU_ok (by omega), ok_bind, setIdx_lt hi, ok_bind]
    rfl
  | minus =>
    refine ⟨p, ?_, hs⟩
    unfold LenChange.Legal at hc
    show (do let v ← idx len i; let v ← subU 32 b v 1; let l ← setIdx len i v; Except.ok (l, p)) = _
    rw [idx_eq_ok.mpr hl, ok_bind, subU_ok (by omega), ok_bind, setIdx_lt hi, ok_bind]
    rfl
  | set n =>
    unfold LenChange.Legal at hc
    obtain ⟨p', g1, g2⟩ := Before.bits hR (n := 4) (v := n) hs (by omega) (by omega)
    refine ⟨p', ?_, g2⟩
    show (do let (v, p) ← (pumpMSB32 b).getBits p 4; let l ← setIdx len i v; Except.ok (l, p)) = _
    rw [g1, ok_bind]
    dsimp only
    rw [setIdx_lt hi, ok_bind]
    rfl

/-- One pixel, given its prediction. -/
private theorem pixel1_ok {b : Build} (hR : Reads (pumpMSB32 b) (fieldMSB st) limit at_) {w h r up back col c lenAt l v : Nat} {dir : Bool} {len : List Nat} {d : Int} {rest : List Nat}
    {F G : Nat → Nat → Nat} {p : Pump} (hr : r < h) (hl : len[lenAt]? = some l) (hl17 : l ≤ 17) (hd : SignedFits l d) (hs : Before st limit at_ e (signedBits l d ++ rest) p)
    (hpred : ∃ q : Nat, (if dir then idx (raster w h F) (up + col + c) else if col = 0 then .ok 128 else idx (raster w h F) (w * r + col - back)) = .ok q ∧
      (col + c < w → (q : Int) + d = v)) (hv : v < 65536)
    (hG : ∀ r' c', r' < h → c' < w → G r' c' = if r' = r ∧ c' = col + c then v else F r' c') :
    ∃ p', Srw.pixel1 b w (w * r) up back col dir len lenAt c (raster w h F, p) = .ok (raster w h G, p') ∧ Before st limit at_ e rest p' := by
  obtain ⟨p', g1, g2⟩ := hs.signed b hR (by omega) hd
  obtain ⟨q, q1, q2⟩ := hpred
  refine ⟨p', ?_, g2⟩
  unfold Srw.pixel1
  rw [idx_eq_ok.mpr hl, ok_bind]
  show (do let (adj, p) ← (pumpMSB32 b).getIbitsSextended b p l; _) = _
  rw [g1, ok_bind]
  dsimp only
  have fin : (if col + c < w then do
      let v ← i32Result b ((q : Int) + d)
      let out ← setIdx (raster w h F) (w * r + col + c) (toU16 v)
      Except.ok (out, p')
    else Except.ok (raster w h F, p')) = Except.ok (raster w h G, p') := by
    by_cases hc : col + c < w
    · rw [if_pos hc, q2 hc, i32_small (by omega) (by omega), ok_bind, show toU16 (v : Int) = v by unfold toU16; omega, Nat.mul_comm w r, Nat.add_assoc, raster_set hr hc hG, ok_bind]
    · rw [if_neg hc, raster_congr (q := G)]
      intro r' c' h1 h2
      rw [hG r' c' h1 h2, if_neg (by rintro ⟨-, h⟩; omega)]
  by_cases h1 : dir = true
  · rw [if_pos h1] at q1 ⊢
    rw [q1, ok_bind]
    exact fin
  · rw [if_neg h1] at q1 ⊢
    by_cases h2 : col = 0
    · rw [if_pos h2] at q1 ⊢
      cases q1
      exact fin
    · rw [if_neg h2] at q1 ⊢
      rw [q1, ok_bind]
      exact fin

/-- What has been written in group `g` of row `r`, after `e` even and `o` odd samples. -/
private def part (pic : Nat → Nat → Nat) (r g e o r' c' : Nat) : Nat :=
  if r' < r ∨ r' = r ∧ (c' < 16 * g ∨ c' % 2 = 0 ∧ c' < 16 * g + 2 * e ∨ c' % 2 = 1 ∧ c' < 16 * g + 2 * o) then pic r' c' else 0

private theorem part_set (pic : Nat → Nat → Nat) {r g e o e' o' c : Nat} (h : e ≤ 8 ∧ o ≤ 8) (hc : c % 2 = 0 ∧ c = 2 * e ∧ e' = e + 1 ∧ o' = o ∨ c % 2 = 1 ∧ c = 2 * o + 1 ∧ o' = o + 1 ∧ e' = e)
    (r' c' : Nat) : part pic r g e' o' r' c' = if r' = r ∧ c' = 16 * g + c then pic r (16 * g + c) else part pic r g e o r' c' := by
  unfold part
  by_cases h1 : r' = r ∧ c' = 16 * g + c
  · obtain ⟨h1, h2⟩ := h1
    subst h1 h2
    rw [if_pos (by omega), if_pos ⟨rfl, rfl⟩]
  · rw [if_neg h1]
    congr 1
    apply propext
    constructor <;> intro h2 <;> omega

private theorem up_idx {w h r g c : Nat} {F : Nat → Nat → Nat} (hr : r < h) (h2 : 2 ≤ h) (hw : 16 ≤ w) (hg : 16 * g < w) (hc : c < 16) (k : Nat) (hk : 1 ≤ k) :
    ∃ q, idx (raster w h F) (w * (Nat.max k r - k) + 16 * g + c) = .ok q ∧ (16 * g + c < w → q = F (Nat.max k r - k) (16 * g + c)) := by
  have hrow : Nat.max k r - k < h := by
    have : Nat.max k r = if k ≤ r then r else k := Nat.max_def
    split at this <;> omega
  by_cases hin : 16 * g + c < w
  · refine ⟨_, ?_, fun _ => rfl⟩
    rw [Nat.mul_comm w, Nat.add_assoc]
    exact raster_idx hrow hin
  · have hlt : w * (Nat.max k r - k) + 16 * g + c < w * h := by
      have h3 : Nat.max k r - k + 2 ≤ h := by
        have : Nat.max k r = if k ≤ r then r else k := Nat.max_def
        split at this <;> omega
      have : w * (Nat.max k r - k + 2) ≤ w * h := Nat.mul_le_mul_left w h3
      rw [Nat.mul_add] at this
      omega
    exact ⟨_, idx_lt (by rw [raster_length]; exact hlt), fun h => absurd h hin⟩

private theorem left_idx {w h r g : Nat} {F : Nat → Nat → Nat} (hr : r < h) (hg : 16 * g < w) (hg0 : g ≠ 0) (k : Nat) (hk : 1 ≤ k) (hk2 : k ≤ 2) :
    idx (raster w h F) (w * r + 16 * g - k) = .ok (F r (16 * g - k)) := by
  rw [show w * r + 16 * g - k = r * w + (16 * g - k) by rw [Nat.mul_comm]; omega]
  exact raster_idx hr (by omega)

/-- The prediction is found. -/
private theorem pred_ok {w h r g c e o : Nat} {pic : Nat → Nat → Nat} {junk : Nat → Nat → Int} {up : Bool} (hr : r < h) (h2 : 2 ≤ h) (hw : 16 ≤ w) (hg : 16 * g < w) (hc : c < 16) (k : Nat)
    (hk : k = if c % 2 = 0 then 1 else 2) (heo : c % 2 = 0 ∧ c = 2 * e ∨ c % 2 = 1 ∧ c = 2 * o + 1) :
    ∃ q : Nat, (if up then idx (raster w h (part pic r g e o)) (w * (Nat.max k r - k) + 16 * g + c) else if 16 * g = 0 then .ok 128 else
      idx (raster w h (part pic r g e o)) (w * r + 16 * g - (3 - k))) = .ok q ∧ (16 * g + c < w → (q : Int) + srw1Diff w pic junk up r g c = ((pic r (16 * g + c) : Nat) : Int)) := by
  have hk1 : k = 1 ∨ k = 2 := by split at hk <;> omega
  suffices ∃ q : Nat, (if up then idx (raster w h (part pic r g e o)) (w * (Nat.max k r - k) + 16 * g + c) else if 16 * g = 0 then .ok 128 else
      idx (raster w h (part pic r g e o)) (w * r + 16 * g - (3 - k))) = .ok q ∧ (16 * g + c < w → q = srw1Pred pic up r g c) by
    obtain ⟨q, q1, q2⟩ := this
    refine ⟨q, q1, fun h => ?_⟩
    unfold srw1Diff
    rw [if_pos h, q2 h]
    omega
  by_cases hu : up = true
  · rw [if_pos hu]
    obtain ⟨q, q1, q2⟩ := up_idx (F := part pic r g e o) hr h2 hw hg hc k (by omega)
    refine ⟨q, q1, fun h => ?_⟩
    rw [q2 h]
    unfold srw1Pred part
    rw [if_pos hu]
    have hm : Nat.max k r - k = r - k := by
      have : Nat.max k r = if k ≤ r then r else k := Nat.max_def
      split at this <;> omega
    rw [hm]
    by_cases h0 : r = 0
    · subst h0
      rw [if_pos rfl, if_neg (by omega)]
    · rw [if_neg h0]
      by_cases hpar : c % 2 = 0
      · rw [if_pos hpar] at hk ⊢
        rw [if_pos (by omega), hk]
      · rw [if_neg hpar] at hk ⊢
        rw [if_pos (by omega), hk]
  · rw [if_neg hu]
    unfold srw1Pred
    rw [if_neg hu]
    by_cases h0 : g = 0
    · subst h0
      exact ⟨128, rfl, fun _ => rfl⟩
    · rw [if_neg (by omega), if_neg h0]
      refine ⟨_, left_idx hr hg h0 (3 - k) (by omega) (by omega), fun _ => ?_⟩
      unfold part
      rw [if_pos (by omega)]
      by_cases hpar : c % 2 = 0
      · rw [if_pos hpar] at hk ⊢
        rw [hk]
      · rw [if_neg hpar] at hk ⊢
        rw [hk]

private theorem lens_idx (L : Nat → Nat) : ∀ i, i < 4 → [L 0, L 1, L 2, L 3][i]? = some (L i)
  | 0, _ => rfl
  | 1, _ => rfl
  | 2, _ => rfl
  | 3, _ => rfl

private theorem group1_ok {b : Build} (hR : Reads (pumpMSB32 b) (fieldMSB st) limit at_) {w h r g : Nat} {pic : Nat → Nat → Nat} {junk : Nat → Nat → Int} {ch : Nat → Srw1Group} {rest : List Nat}
    {p : Pump} (hr : r < h) (h2 : 2 ≤ h) (hw : 16 ≤ w) (hg : 16 * g < w) (hp : ∀ r c, r < h → c < w → pic r c < 65536) (hL : Srw1Legal w pic junk ch r)
    (hs : Before st limit at_ e (srw1GroupBits w pic junk (ch g) (srw1Lens ch (srw1First r) (g + 1)) r g ++ rest) p) :
    let L := srw1Lens ch (srw1First r)
    ∃ p', Srw.group1 b w r (g * 16) (raster w h (part pic r g 0 0), [L g 0, L g 1, L g 2, L g 3], p) =
      .ok (raster w h (part pic r (g + 1) 0 0), [L (g + 1) 0, L (g + 1) 1, L (g + 1) 2, L (g + 1) 3], p') ∧ Before st limit at_ e rest p' := by
  intro L
  obtain ⟨hl1, hl2⟩ := hL g (by omega)
  unfold srw1GroupBits at hs
  rw [show (List.range 4) = [0, 1, 2, 3] from rfl] at hs
  simp only [List.flatMap_cons, List.flatMap_nil, List.append_nil, List.append_assoc] at hs
  have hb1 : [if (ch g).up then 1 else 0] = bitsOf 1 (if (ch g).up then 1 else 0) := by cases (ch g).up <;> rfl
  rw [hb1] at hs
  have hcode : ∀ c : LenChange, c.code < 2 ^ 2 := by intro c; cases c <;> first | decide | exact (by decide : 3 < 4)
  obtain ⟨p1, a1, hs⟩ := hs.bits hR (by omega) (by cases (ch g).up <;> decide)
  obtain ⟨p2, a2, hs⟩ := hs.bits hR (by omega) (hcode _)
  obtain ⟨p3, a3, hs⟩ := hs.bits hR (by omega) (hcode _)
  obtain ⟨p4, a4, hs⟩ := hs.bits hR (by omega) (hcode _)
  obtain ⟨p5, a5, hs⟩ := hs.bits hR (by omega) (hcode _)
  have hL1 : ∀ i, L (g + 1) i = ((ch g).change i).apply (L g i) := fun i => rfl
  obtain ⟨p6, a6, hs⟩ := changeLen_ok hR (len := [L g 0, L g 1, L g 2, L g 3]) (i := 0) (l := L g 0) rfl (hl1 0 (by omega)).1 (hl1 0 (by omega)).2 hs
  obtain ⟨p7, a7, hs⟩ := changeLen_ok hR (len := [L (g + 1) 0, L g 1, L g 2, L g 3]) (i := 1) (l := L g 1) rfl (hl1 1 (by omega)).1 (hl1 1 (by omega)).2 hs
  obtain ⟨p8, a8, hs⟩ := changeLen_ok hR (len := [L (g + 1) 0, L (g + 1) 1, L g 2, L g 3]) (i := 2) (l := L g 2) rfl (hl1 2 (by omega)).1 (hl1 2 (by omega)).2 hs
  obtain ⟨p9, a9, hs⟩ := changeLen_ok hR (len := [L (g + 1) 0, L (g + 1) 1, L (g + 1) 2, L g 3]) (i := 3) (l := L g 3) rfl (hl1 3 (by omega)).1 (hl1 3 (by omega)).2 hs
  have a6 : Srw.changeLen b 0 ((ch g).change 0).code ([L g 0, L g 1, L g 2, L g 3], p5) = .ok ([L (g + 1) 0, L g 1, L g 2, L g 3], p6) := a6
  have a7 : Srw.changeLen b 1 ((ch g).change 1).code ([L (g + 1) 0, L g 1, L g 2, L g 3], p6) = .ok ([L (g + 1) 0, L (g + 1) 1, L g 2, L g 3], p7) := a7
  have a8 : Srw.changeLen b 2 ((ch g).change 2).code ([L (g + 1) 0, L (g + 1) 1, L g 2, L g 3], p7) = .ok ([L (g + 1) 0, L (g + 1) 1, L (g + 1) 2, L g 3], p8) := a8
  have a9 : Srw.changeLen b 3 ((ch g).change 3).code ([L (g + 1) 0, L (g + 1) 1, L (g + 1) 2, L g 3], p8) = .ok ([L (g + 1) 0, L (g + 1) 1, L (g + 1) 2, L (g + 1) 3], p9) := a9
  have hlt : ∀ c, 16 * g + c < w → pic r (16 * g + c) < 65536 := fun c h => hp r _ hr h
  -- a value beyond the image does not matter
  obtain ⟨⟨o1, q1⟩, b1, rfl, hs⟩ := loopN_inv (P := fun k (s : List Nat × Pump) => s.1 = raster w h (part pic r g k 0) ∧
      Before st limit at_ e (((List.range 8).drop k).flatMap (fun k => signedBits (L (g + 1) (k / 4)) (srw1Diff w pic junk (ch g).up r g (2 * k))) ++
        ((List.range 8).flatMap (fun k => signedBits (L (g + 1) (2 + k / 4)) (srw1Diff w pic junk (ch g).up r g (2 * k + 1))) ++ rest)) s.2)
    (fun j => Srw.pixel1 b w (w * r) (w * (Nat.max 1 r - 1)) 2 (16 * g) (ch g).up [L (g + 1) 0, L (g + 1) 1, L (g + 1) 2, L (g + 1) 3] ((0 + j * 2) >>> 3) (0 + j * 2)) 8 0
    (raster w h (part pic r g 0 0), p9) ⟨rfl, hs⟩ (by
      rintro k ⟨o, q⟩ _ hk ⟨ho, hs⟩
      dsimp only at ho hs
      subst ho
      rw [drop_range_flatMap (by omega), List.append_assoc] at hs
      have hsh : (0 + k * 2) >>> 3 = k / 4 := by rw [Nat.shiftRight_eq_div_pow]; omega
      have hc2 : 0 + k * 2 = 2 * k := by omega
      rw [hsh, hc2]
      have hf := hl2 (2 * k) (by omega)
      rw [if_pos (by omega), show 2 * k / 8 = k / 4 by omega] at hf
      obtain ⟨v, v1, v2, v3⟩ : ∃ v, v < 65536 ∧ (16 * g + 2 * k < w → v = pic r (16 * g + 2 * k)) ∧ (¬16 * g + 2 * k < w → v = 0) := by
        by_cases h : 16 * g + 2 * k < w
        · exact ⟨_, hlt _ h, fun _ => rfl, fun h' => absurd h h'⟩
        · exact ⟨0, by omega, fun h' => absurd h' h, fun _ => rfl⟩
      obtain ⟨q', d1, d2⟩ := pred_ok (e := k) (o := 0) (pic := pic) (junk := junk) (up := (ch g).up) hr h2 hw hg (show 2 * k < 16 by omega) 1 (by rw [if_pos (by omega)]) (by omega)
      obtain ⟨p', g1, g2⟩ := pixel1_ok hR (w := w) (h := h) (r := r) (F := part pic r g k 0) (G := part pic r g (k + 1) 0) (v := v) hr (lens_idx (L (g + 1)) (k / 4) (by omega)) (hl1 _ (by omega)).2 hf hs
        ⟨q', d1, fun h => by rw [v2 h]; exact d2 h⟩ v1 (fun r' c' h1 h2 => by
          rw [part_set pic (by omega) (Or.inl ⟨by omega, rfl, rfl, rfl⟩)]
          split
          · rename_i h; rw [v2 (by omega)]
          · rfl)
      exact ⟨_, g1, rfl, g2⟩)
  dsimp only at b1 hs
  rw [Nat.zero_add] at b1 hs
  obtain ⟨⟨o2, q2⟩, b2, rfl, hs⟩ := loopN_inv (P := fun k (s : List Nat × Pump) => s.1 = raster w h (part pic r g 8 k) ∧
      Before st limit at_ e (((List.range 8).drop k).flatMap (fun k => signedBits (L (g + 1) (2 + k / 4)) (srw1Diff w pic junk (ch g).up r g (2 * k + 1))) ++ rest) s.2)
    (fun j => Srw.pixel1 b w (w * r) (w * (Nat.max 2 r - 2)) 1 (16 * g) (ch g).up [L (g + 1) 0, L (g + 1) 1, L (g + 1) 2, L (g + 1) 3] (2 ||| (1 + j * 2) >>> 3) (1 + j * 2)) 8 0
    (raster w h (part pic r g 8 0), q1) ⟨rfl, hs⟩ (by
      rintro k ⟨o, q⟩ _ hk ⟨ho, hs⟩
      dsimp only at ho hs
      subst ho
      rw [drop_range_flatMap (by omega), List.append_assoc] at hs
      have hsh : (1 + k * 2) >>> 3 = k / 4 := by rw [Nat.shiftRight_eq_div_pow]; omega
      have hor : 2 ||| k / 4 = 2 + k / 4 := by
        have : k / 4 = 0 ∨ k / 4 = 1 := by omega
        rcases this with h | h <;> rw [h] <;> rfl
      have hc2 : 1 + k * 2 = 2 * k + 1 := by omega
      rw [hsh, hc2, hor]
      have hf := hl2 (2 * k + 1) (by omega)
      rw [if_neg (by omega), show (2 * k + 1) / 8 = k / 4 by omega] at hf
      obtain ⟨v, v1, v2, v3⟩ : ∃ v, v < 65536 ∧ (16 * g + (2 * k + 1) < w → v = pic r (16 * g + (2 * k + 1))) ∧ (¬16 * g + (2 * k + 1) < w → v = 0) := by
        by_cases h : 16 * g + (2 * k + 1) < w
        · exact ⟨_, hlt _ h, fun _ => rfl, fun h' => absurd h h'⟩
        · exact ⟨0, by omega, fun h' => absurd h' h, fun _ => rfl⟩
      obtain ⟨q', d1, d2⟩ := pred_ok (e := 8) (o := k) (pic := pic) (junk := junk) (up := (ch g).up) hr h2 hw hg (show 2 * k + 1 < 16 by omega) 2 (by rw [if_neg (by omega)]) (by omega)
      obtain ⟨p', g1, g2⟩ := pixel1_ok hR (w := w) (h := h) (r := r) (F := part pic r g 8 k) (G := part pic r g 8 (k + 1)) (v := v) hr (lens_idx (L (g + 1)) (2 + k / 4) (by omega)) (hl1 _ (by omega)).2 hf hs
        ⟨q', d1, fun h => by rw [v2 h]; exact d2 h⟩ v1 (fun r' c' h1 h2 => by
          rw [part_set pic (by omega) (Or.inr ⟨by omega, rfl, rfl, rfl⟩)]
          split
          · rename_i h; rw [v2 (by omega)]
          · rfl)
      exact ⟨_, g1, rfl, g2⟩)
  dsimp only at b2 hs
  rw [Nat.zero_add] at b2 hs
  refine ⟨q2, ?_, hs⟩
  unfold Srw.group1
  dsimp only
  rw [a1, ok_bind]
  dsimp only
  rw [a2, ok_bind]
  dsimp only
  rw [a3, ok_bind]
  dsimp only
  rw [a4, ok_bind]
  dsimp only
  rw [a5, ok_bind]
  dsimp only
  rw [a6, ok_bind, a7, ok_bind, a8, ok_bind, a9, ok_bind]
  dsimp only
  have hdir : decide ((if (ch g).up then 1 else 0) = 1) = (ch g).up := by cases (ch g).up <;> rfl
  rw [hdir, Nat.mul_comm g 16]
  unfold forStep
  rw [show (16 - 0 + 2 - 1) / 2 = 8 from rfl, b1, ok_bind, b2, ok_bind, raster_congr (q := part pic r (g + 1) 0 0)]
  intro r' c' _ _
  unfold part
  congr 1
  apply propext
  constructor <;> intro h2 <;> omega

/-- The groups of a row. -/
private theorem row1_ok (b : Build) (src : Bytes) {w h r : Nat} {pic : Nat → Nat → Nat} {junk : Nat → Nat → Int} {ch : Nat → Srw1Group}
    (hr : r < h) (h2 : 2 ≤ h) (hw : 16 ≤ w) (hp : ∀ r c, r < h → c < w → pic r c < 65536) (hL : Srw1Legal w pic junk ch r)
    (hf : Follows (swap32 (bytesOf src)) 0 (srw1Line w pic junk ch r)) (hl : (srw1Line w pic junk ch r).length ≤ 32 * (src.length / 4)) :
    ∃ s, forStep 0 w 16 (Srw.group1 b w r) (raster w h (part pic r 0 0 0), List.replicate 4 (if r < 2 then 7 else 4), Pump.new src) = .ok s ∧
      s.1 = raster w h (part pic (r + 1) 0 0 0) := by
  unfold forStep
  rw [show (w - 0 + 16 - 1) / 16 = (w + 15) / 16 by omega]
  obtain ⟨⟨o, len, q⟩, g1, g2, -⟩ := loopN_inv (P := fun g (s : List Nat × List Nat × Pump) => s.1 = raster w h (part pic r g 0 0) ∧
      s.2.1 = [srw1Lens ch (srw1First r) g 0, srw1Lens ch (srw1First r) g 1, srw1Lens ch (srw1First r) g 2, srw1Lens ch (srw1First r) g 3] ∧
      Before (swap32 (bytesOf src)) (some (32 * (src.length / 4))) (AtMSB src (swap32 (bytesOf src))) (srw1Line w pic junk ch r).length
        (((List.range ((w + 15) / 16)).drop g).flatMap fun g => srw1GroupBits w pic junk (ch g) (srw1Lens ch (srw1First r) (g + 1)) r g) s.2.2)
    (fun j => Srw.group1 b w r (0 + j * 16)) ((w + 15) / 16) 0 (raster w h (part pic r 0 0 0), List.replicate 4 (if r < 2 then 7 else 4), Pump.new src)
    ⟨rfl, rfl, 0, 0, atMSB_new _ _, hf, Nat.zero_add _, hl⟩ (by
      rintro g ⟨o, len, q⟩ _ hg ⟨e1, e2, e3⟩
      dsimp only at e1 e2 e3
      subst e1 e2
      rw [drop_range_flatMap (by omega)] at e3
      obtain ⟨p', k1, k2⟩ := group1_ok (readsMSB32 b src) hr h2 hw (show 16 * g < w by omega) hp hL e3
      rw [Nat.zero_add]
      exact ⟨_, k1, rfl, rfl, k2⟩)
  refine ⟨_, g1, ?_⟩
  rw [g2]
  apply raster_congr
  intro r' c' _ hc'
  unfold part
  congr 1
  apply propext
  constructor <;> intro h3 <;> omega

/-- The picture in which the squares before row `r` and, in the two rows from there, column `c` have been exchanged. -/
private def swapped (img : Nat → Nat → Nat) (r c r' c' : Nat) : Nat := if r' < r ∨ r' < r + 2 ∧ c' < c then img r' c' else srw1Stored img r' c'

private theorem swap_ok {w h i j : Nat} {img : Nat → Nat → Nat} (hi : 2 * i + 1 < h) (hj : 2 * j + 1 < w) :
    Srw.swap (raster w h (swapped img (2 * i) (2 * j))) (2 * i * w + 2 * j + 1) ((2 * i + 1) * w + 2 * j) = .ok (raster w h (swapped img (2 * i) (2 * (j + 1)))) := by
  unfold Srw.swap
  rw [Nat.add_assoc, raster_idx (by omega) hj, ok_bind, raster_idx hi (by omega), ok_bind]
  have e1 : swapped img (2 * i) (2 * j) (2 * i) (2 * j + 1) = img (2 * i + 1) (2 * j) := by
    unfold swapped srw1Stored
    rw [if_neg (by omega), if_pos (by omega), Nat.add_sub_cancel]
  have e2 : swapped img (2 * i) (2 * j) (2 * i + 1) (2 * j) = img (2 * i) (2 * j + 1) := by
    unfold swapped srw1Stored
    rw [if_neg (by omega), if_neg (by omega), if_pos (by omega), Nat.add_sub_cancel]
  rw [e1, e2, raster_set (G := fun r' c' => if r' = 2 * i ∧ c' = 2 * j + 1 then img (2 * i) (2 * j + 1) else swapped img (2 * i) (2 * j) r' c') (by omega) hj (fun _ _ _ _ => rfl), ok_bind]
  refine raster_set hi (by omega) ?_
  intro r' c' _ _
  by_cases h1 : r' = 2 * i + 1 ∧ c' = 2 * j
  · obtain ⟨rfl, rfl⟩ := h1
    rw [if_pos ⟨rfl, rfl⟩]
    unfold swapped
    rw [if_pos (by omega)]
  · rw [if_neg h1]
    by_cases h2 : r' = 2 * i ∧ c' = 2 * j + 1
    · obtain ⟨rfl, rfl⟩ := h2
      rw [if_pos ⟨rfl, rfl⟩]
      unfold swapped
      rw [if_pos (by omega)]
    · rw [if_neg h2]
      unfold swapped
      by_cases h3 : r' < 2 * i ∨ r' < 2 * i + 2 ∧ c' < 2 * j
      · rw [if_pos h3, if_pos (by omega)]
      · rw [if_neg h3]
        by_cases h4 : r' < 2 * i ∨ r' < 2 * i + 2 ∧ c' < 2 * (j + 1)
        · rw [if_pos h4]
          unfold srw1Stored
          rw [if_neg (by omega), if_neg (by omega)]
        · rw [if_neg h4]

/-- **C71.** Samsung's first compression gives back every picture of 16 bits, whatever the choices of the encoder, whatever it stores beside the
picture and wherever it puts the lines. -/
theorem srw1_roundtrip (b : Build) (buf loffsets : Bytes) (w h : Nat) (img : Nat → Nat → Nat) (junk : Nat → Nat → Int) (ch : Nat → Nat → Srw1Group) (off : Nat → Nat)
    (hw : 16 ≤ w) (hw2 : w % 2 = 0) (hh2 : h % 2 = 0) (hi : ∀ r c, r < h → c < w → img r c < 65536)
    (ho : ∀ r, r < h → r * 4 + 4 ≤ loffsets.length ∧ numberLE (bytesAt loffsets (r * 4) 4) = off r ∧ off r ≤ buf.length)
    (hL : ∀ r, r < h → Srw1Legal w (srw1Stored img) junk (ch r) r)
    (hf : ∀ r, r < h → Follows (swap32 (bytesOf (buf.drop (off r)))) 0 (srw1Line w (srw1Stored img) junk (ch r) r))
    (hl : ∀ r, r < h → (srw1Line w (srw1Stored img) junk (ch r) r).length ≤ 32 * ((buf.drop (off r)).length / 4)) :
    Srw.decodeSrw1 b buf loffsets w h = .ok (raster w h img) := by
  have hp : ∀ r c, r < h → c < w → srw1Stored img r c < 65536 := by
    intro r c hr hc
    unfold srw1Stored
    split
    · exact hi _ _ (by omega) (by omega)
    · split
      · exact hi _ _ (by omega) (by omega)
      · exact hi _ _ hr hc
  unfold Srw.decodeSrw1
  obtain ⟨out, g1, g2⟩ := forRange_inv (fun r out => out = raster w h (part (srw1Stored img) r 0 0 0)) (Nat.zero_le h) (s := List.replicate (w * h) 0)
    (f := fun row out => do
      let loffset ← LEu32 loffsets (row * 4)
      let src ← sliceFrom buf loffset
      let r ← forStep 0 w 16 (Srw.group1 b w row) (out, List.replicate 4 (if row < 2 then 7 else 4), Pump.new src)
      .ok r.1) (by
      rw [← raster_zero]
      apply raster_congr
      intro r c _ _
      unfold part
      rw [if_neg (by omega)]) (by
      rintro r out _ hr rfl
      obtain ⟨o1, o2, o3⟩ := ho r hr
      obtain ⟨s, k1, k2⟩ := row1_ok b (buf.drop (off r)) hr (by omega) hw hp (hL r hr) (hf r hr) (hl r hr)
      refine ⟨s.1, ?_, k2⟩
      have hle : LEu32 loffsets (r * 4) = .ok (off r) := by
        rw [← o2]
        exact ru32_number (e := LITTLE_ENDIAN) o1
      rw [hle, ok_bind, sliceFrom_le o3, ok_bind, k1, ok_bind])
  rw [g1, ok_bind]
  subst g2
  unfold forStep
  rw [show (h - 0 + 2 - 1) / 2 = h / 2 by omega, show (w - 0 + 2 - 1) / 2 = w / 2 by omega]
  obtain ⟨out, k1, k2⟩ := loopN_inv (P := fun i out => out = raster w h (swapped img (2 * i) 0))
    (fun i out => loopN (fun j => fun out => Srw.swap out ((0 + i * 2) * w + (0 + j * 2) + 1) ((0 + i * 2 + 1) * w + (0 + j * 2))) (w / 2) 0 out) (h / 2) 0
    (raster w h (part (srw1Stored img) h 0 0 0)) (by
      apply raster_congr
      intro r c hr _
      unfold part swapped
      rw [if_pos (by omega), if_neg (by omega)]) (by
      rintro i out _ hi rfl
      obtain ⟨out, k1, k2⟩ := loopN_inv (P := fun j out => out = raster w h (swapped img (2 * i) (2 * j)))
        (fun j out => Srw.swap out ((0 + i * 2) * w + (0 + j * 2) + 1) ((0 + i * 2 + 1) * w + (0 + j * 2))) (w / 2) 0 (raster w h (swapped img (2 * i) 0)) rfl (by
          rintro j out _ hj rfl
          refine ⟨_, ?_, rfl⟩
          rw [Nat.zero_add, Nat.zero_add, Nat.mul_comm i 2, Nat.mul_comm j 2]
          exact swap_ok (by omega) (by omega))
      refine ⟨out, k1, ?_⟩
      rw [k2]
      apply raster_congr
      intro r c _ _
      unfold swapped
      congr 1
      apply propext
      constructor <;> intro h3 <;> omega)
  rw [k1, k2, raster_congr (q := img)]
  intro r c hr _
  unfold swapped
  rw [if_pos (by omega)]

private theorem line_le (w : Nat) (pic : Nat → Nat → Nat) (junk : Nat → Nat → Int) (ch : Nat → Srw1Group) (r : Nat) : ∀ v ∈ srw1Line w pic junk ch r, v ≤ 1 := by
  intro v hv
  unfold srw1Line srw1GroupBits signedBits at hv
  simp only [List.mem_flatMap, List.mem_append, List.mem_singleton] at hv
  obtain ⟨g, _, (((hv | ⟨_, _, hv⟩) | ⟨i, _, hv⟩) | ⟨_, _, hv⟩) | ⟨_, _, hv⟩⟩ := hv
  · split at hv <;> omega
  · exact bitsOf_le _ _ v hv
  · unfold LenChange.extra at hv
    split at hv
    · exact bitsOf_le _ _ v hv
    · cases hv
  · exact bitsOf_le _ _ v hv
  · exact bitsOf_le _ _ v hv

/-- The whole way: the lines one after the other, and a table of their places. What follows the lines and the table does not matter. -/
theorem srw1_file (b : Build) (w h : Nat) (img : Nat → Nat → Nat) (junk : Nat → Nat → Int) (ch : Nat → Nat → Srw1Group) (pad : Nat → List UInt8) (tail tail' : Bytes)
    (hw : 16 ≤ w) (hw2 : w % 2 = 0) (hh2 : h % 2 = 0) (hi : ∀ r c, r < h → c < w → img r c < 65536) (hL : ∀ r, r < h → Srw1Legal w (srw1Stored img) junk (ch r) r)
    (hpad : ∀ r, r < h → ((packBits (srw1Line w (srw1Stored img) junk (ch r) r)).length + (pad r).length) % 4 = 0) (hlen : (encodeSrw1 w h img junk ch pad).length < 4294967296) :
    Srw.decodeSrw1 b (encodeSrw1 w h img junk ch pad ++ tail) (srw1Table w h img junk ch pad ++ tail') w h = .ok (raster w h img) := by
  have hsplit : ∀ r, r < h → ∃ rest, encodeSrw1 w h img junk ch pad = encodeSrw1 w r img junk ch pad ++ (srw1LineBytes w (srw1Stored img) junk (ch r) (pad r) r ++ rest) := by
    intro r hr
    refine ⟨((List.range h).drop (r + 1)).flatMap fun r => srw1LineBytes w (srw1Stored img) junk (ch r) (pad r) r, ?_⟩
    unfold encodeSrw1
    conv => lhs; rw [← List.take_append_drop r (List.range h), List.flatMap_append, List.take_range, Nat.min_eq_left (Nat.le_of_lt hr)]
    congr 1
    rw [List.drop_eq_getElem_cons (by simpa using hr), List.flatMap_cons]
    simp
  have hdrop : ∀ r, r < h → ∃ rest, (encodeSrw1 w h img junk ch pad ++ tail).drop (encodeSrw1 w r img junk ch pad).length =
      srw1LineBytes w (srw1Stored img) junk (ch r) (pad r) r ++ rest ∧ (encodeSrw1 w r img junk ch pad).length ≤ (encodeSrw1 w h img junk ch pad).length := by
    intro r hr
    obtain ⟨rest, e⟩ := hsplit r hr
    refine ⟨rest ++ tail, ?_, by rw [e, List.length_append]; omega⟩
    rw [e, List.append_assoc, List.drop_left, List.append_assoc]
  have htab : (srw1Table w h img junk ch pad).length = h * 4 := by
    unfold srw1Table
    rw [flatMap_const_length _ 4 (fun _ => encodeLE_length _ _), List.length_range]
  have hbefore : ∀ r, r < h → Follows (swap32 (bytesOf ((encodeSrw1 w h img junk ch pad ++ tail).drop (encodeSrw1 w r img junk ch pad).length))) 0 (srw1Line w (srw1Stored img) junk (ch r) r) ∧
      (srw1Line w (srw1Stored img) junk (ch r) r).length ≤ 32 * (((encodeSrw1 w h img junk ch pad ++ tail).drop (encodeSrw1 w r img junk ch pad).length).length / 4) := by
    intro r hr
    obtain ⟨rest, e, -⟩ := hdrop r hr
    rw [e]
    have hle := line_le w (srw1Stored img) junk (ch r) r
    exact ⟨(follows_swapped hle (hpad r hr) rest).1, (follows_swapped hle (hpad r hr) rest).2⟩
  refine srw1_roundtrip b _ _ w h img junk ch (fun r => (encodeSrw1 w r img junk ch pad).length) hw hw2 hh2 hi ?_ hL (fun r hr => (hbefore r hr).1) (fun r hr => (hbefore r hr).2)
  intro r hr
  obtain ⟨-, -, hle⟩ := hdrop r hr
  refine ⟨by rw [List.length_append, htab]; omega, ?_, by rw [List.length_append]; omega⟩
  have hb : bytesAt (srw1Table w h img junk ch pad ++ tail') (r * 4) 4 = encodeLE 4 (encodeSrw1 w r img junk ch pad).length := by
    have h1 : bytesAt (srw1Table w h img junk ch pad ++ tail') (r * 4) 4 = bytesAt (srw1Table w h img junk ch pad) (r * 4) 4 := by
      unfold bytesAt
      rw [List.drop_append_of_le_length (by omega), List.take_append_of_le_length (by rw [List.length_drop]; omega)]
    rw [h1]
    unfold srw1Table
    rw [flatMap_chunk _ 4 (fun _ => encodeLE_length _ _) _ _ (by simpa using hr), List.getElem_range]
  rw [hb, numberLE_encodeLE 4 _ (by omega)]

/-- Every picture of 14 bits can be stored. -/
theorem srw1_plain (w h : Nat) (img : Nat → Nat → Nat) (hw2 : w % 2 = 0) (hh2 : h % 2 = 0) (hi : ∀ r c, r < h → c < w → img r c < 16384) (r : Nat) (hr : r < h) :
    Srw1Legal w (srw1Stored img) (fun _ _ => 0) (fun _ => srw1Plain) r := by
  have hp : ∀ c, c < w → srw1Stored img r c < 16384 := by
    intro c hc
    unfold srw1Stored
    split
    · exact hi _ _ (by omega) (by omega)
    · split
      · exact hi _ _ (by omega) (by omega)
      · exact hi _ _ hr hc
  intro g hg
  refine ⟨fun i _ => ⟨show 15 < 16 by omega, show 15 ≤ 17 by omega⟩, fun c hc => ?_⟩
  show SignedFits 15 (srw1Diff w (srw1Stored img) (fun _ _ => 0) srw1Plain.up r g c)
  unfold srw1Diff SignedFits
  split
  · rename_i hin
    have h1 := hp _ hin
    have h2 : srw1Pred (srw1Stored img) srw1Plain.up r g c < 16384 := by
      unfold srw1Pred
      rw [if_neg (by decide)]
      split
      · omega
      · split
        · exact hp _ (by omega)
        · exact hp _ (by omega)
    constructor <;> omega
  · exact (by decide : -(2 ^ 15 : Int) ≤ 2 * 0 ∧ 2 * (0 : Int) < 2 ^ 15)

/-- So every picture of 14 bits survives being written to a file and read back. -/
theorem srw1_any (b : Build) (w h : Nat) (img : Nat → Nat → Nat) (tail tail' : Bytes) (hw : 16 ≤ w) (hw2 : w % 2 = 0) (hh2 : h % 2 = 0) (hi : ∀ r c, r < h → c < w → img r c < 16384) :
    let line := fun r => (packBits (srw1Line w (srw1Stored img) (fun _ _ => 0) (fun _ => srw1Plain) r)).length
    let pad := fun r => List.replicate (4 - line r % 4) (0 : UInt8)
    (encodeSrw1 w h img (fun _ _ => 0) (fun _ _ => srw1Plain) pad).length < 4294967296 →
    Srw.decodeSrw1 b (encodeSrw1 w h img (fun _ _ => 0) (fun _ _ => srw1Plain) pad ++ tail) (srw1Table w h img (fun _ _ => 0) (fun _ _ => srw1Plain) pad ++ tail') w h = .ok (raster w h img) := by
  intro line pad hlen
  refine srw1_file b w h img _ _ pad tail tail' hw hw2 hh2 (fun r c hr hc => by have := hi r c hr hc; omega) (srw1_plain w h img hw2 hh2 hi) (fun r _ => ?_) hlen
  show (line r + (pad r).length) % 4 = 0
  rw [List.length_replicate]
  omega

/-- A picture with an odd number of lines is never decoded: after the last line there is nothing to exchange its samples with. -/
theorem srw1_odd_height (b : Build) (buf loffsets : Bytes) (w h : Nat) (hw : 0 < w) (hh : h % 2 = 1) (out : List Nat) : Srw.decodeSrw1 b buf loffsets w h ≠ .ok out := by
  intro hok
  unfold Srw.decodeSrw1 at hok
  obtain ⟨out0, k1, k2⟩ := bind_eq_ok.mp hok
  have hl0 : out0.length = w * h := by
    have := forRange_ok (fun _ (o : List Nat) => o.length = w * h) (Nat.zero_le h) (s := List.replicate (w * h) 0) (List.length_replicate ..) (by
      intro row o o' _ _ ho hr
      obtain ⟨lo, l1, hr⟩ := bind_eq_ok.mp hr
      obtain ⟨src, l2, hr⟩ := bind_eq_ok.mp hr
      obtain ⟨r, l3, hr⟩ := bind_eq_ok.mp hr
      cases hr
      have := (post_forStep_size fun j t _ => Srw.post_group1 b w row j t).2 _ l3
      exact this.trans ho) k1
    exact this
  unfold forStep at k2
  rw [show (h - 0 + 2 - 1) / 2 = h / 2 + 1 by omega, loopN_add] at k2
  obtain ⟨out1, m1, m2⟩ := bind_eq_ok.mp k2
  have hl1 : out1.length = w * h := by
    refine loopN_ok (fun _ (o : List Nat) => o.length = w * h) _ _ _ _ _ hl0 ?_ m1
    intro i o o' _ _ ho hr
    exact ((post_forStep_size (lo := 0) (hi := w) (k := 2) (s := o) fun j t _ => Srw.post_swap t ((0 + i * 2) * w + j + 1) ((0 + i * 2 + 1) * w + j)).2 o' hr).trans ho
  rw [loopN] at m2
  obtain ⟨out2, m3, m4⟩ := bind_eq_ok.mp m2
  dsimp only at m3
  rw [show (w - 0 + 2 - 1) / 2 = (w - 1) / 2 + 1 by omega] at m3
  rw [loopN] at m3
  obtain ⟨out3, m5, m6⟩ := bind_eq_ok.mp m3
  unfold Srw.swap at m5
  obtain ⟨x, n1, m5⟩ := bind_eq_ok.mp m5
  obtain ⟨y, n2, m5⟩ := bind_eq_ok.mp m5
  rw [idx_eq_ok] at n2
  have := (List.getElem?_eq_some_iff.mp n2).1
  rw [hl1, show 0 + (0 + h / 2) * 2 + 1 = h by omega, Nat.mul_comm h w] at this
  omega

/-- Two lines of 18 samples, so that the second group is not full: the first line with the plain choices, the second with prediction from above, differences of
8, 9, 9 and 7 bits, and other changes for the second group. -/
private def srw1Sample (r c : Nat) : Nat := if r = 0 then 128 + 2 * c else 100 + 3 * c

private def srw1Choice (r g : Nat) : Srw1Group :=
  if r = 0 then srw1Plain
  else if g = 0 then ⟨true, fun i => if i = 0 then .plus else if i = 1 then .set 9 else if i = 2 then .set 9 else .keep⟩
  else ⟨false, fun i => if i = 0 then .minus else if i = 3 then .plus else .keep⟩

private def srw1Pads (r : Nat) : List UInt8 := List.replicate (4 - (packBits (srw1Line 18 (srw1Stored srw1Sample) (fun _ c => c) (srw1Choice r) r)).length % 4) 0xff

example : (∀ r, r < 2 → Srw1Legal 18 (srw1Stored srw1Sample) (fun _ c => c) (srw1Choice r) r) ∧ (encodeSrw1 18 2 srw1Sample (fun _ c => c) srw1Choice srw1Pads).length = 108 := by
  decide +kernel

example : Srw.decodeSrw1 .debug (encodeSrw1 18 2 srw1Sample (fun _ c => c) srw1Choice srw1Pads) (srw1Table 18 2 srw1Sample (fun _ c => c) srw1Choice srw1Pads) 18 2 =
    .ok (raster 18 2 srw1Sample) := by
  decide +kernel

end Props

import Verif.Spec.Srw3
import Verif.Model.Dec.Srw
import Verif.Lemmas.Cursor
import Verif.Lemmas.DecMore
import Verif.Lemmas.LoopsMore
import Verif.Props.Basics
import Mathlib.Tactic.Linarith
/-!
# C72: Samsung's third compression
-/

namespace Props
open Rust Spec Model Model.Ljpeg Model.HuffTable

variable {limit : Option Nat} {st : Nat → Nat} {at_ : Pump → Nat → Nat → Prop} {e : Nat} {hd : Srw3Header}

/-- The header as the decoder keeps it. -/
private def head3 (hd : Srw3Header) : Srw.Header :=
  ⟨hd.depth, 4 * (if hd.noScale then 1 else 0) + 2 * (if hd.fewModes then 1 else 0) + (if hd.noSkip then 1 else 0), hd.init⟩

private theorem flag4 (hd : Srw3Header) : (head3 hd).optflags &&& 4 = 0 ↔ hd.noScale = false :=
  (by decide : ∀ x y z : Bool, (4 * (if x then 1 else 0) + 2 * (if y then 1 else 0) + (if z then 1 else 0)) &&& 4 = 0 ↔ x = false) hd.noScale hd.fewModes hd.noSkip

private theorem flag2 (hd : Srw3Header) : (head3 hd).optflags &&& 2 ≠ 0 ↔ hd.fewModes = true :=
  (by decide : ∀ x y z : Bool, (4 * (if x then 1 else 0) + 2 * (if y then 1 else 0) + (if z then 1 else 0)) &&& 2 ≠ 0 ↔ y = true) hd.noScale hd.fewModes hd.noSkip

private theorem flag1 (hd : Srw3Header) : (head3 hd).optflags &&& 1 ≠ 0 ↔ hd.noSkip = true :=
  (by decide : ∀ x y z : Bool, (4 * (if x then 1 else 0) + 2 * (if y then 1 else 0) + (if z then 1 else 0)) &&& 1 ≠ 0 ↔ z = true) hd.noScale hd.fewModes hd.noSkip

/-! ## The beginning of a block -/

private theorem scale3_ok {b : Build} (hR : Reads (pumpMSB32 b) (fieldMSB st) limit at_) {ch : Nat → Srw3Block} {g : Nat} {scale : Int} {rest : List Nat} {p : Pump}
    (h0 : g % 4 = 0 → scale = 0) (hset : match (ch g).scale with | .set n => n < 4096 | _ => True)
    (hs : Before st limit at_ e ((if hd.noScale = false ∧ g % 4 = 0 then (ch g).scale.bits else []) ++ rest) p) :
    ∃ p', Srw.scale3 b (head3 hd) (16 * g) scale p = .ok (srw3Scale hd ch g, p') ∧ Before st limit at_ e rest p' := by
  unfold Srw.scale3 srw3Scale
  by_cases hc : hd.noScale = false ∧ g % 4 = 0
  · rw [if_pos ⟨(flag4 hd).mpr hc.1, by omega⟩, if_pos hc]
    rw [if_pos hc] at hs
    rw [h0 hc.2]
    cases hsc : (ch g).scale with
    | zero =>
      rw [hsc] at hs
      obtain ⟨p', g1, g2⟩ := Before.bits hR (n := 2) (v := 0) hs (by omega) (by omega)
      refine ⟨p', ?_, g2⟩
      rw [g1]
      cases b <;> rfl
    | down =>
      rw [hsc] at hs
      obtain ⟨p', g1, g2⟩ := Before.bits hR (n := 2) (v := 1) hs (by omega) (by omega)
      refine ⟨p', ?_, g2⟩
      rw [g1]
      cases b <;> rfl
    | up =>
      rw [hsc] at hs
      obtain ⟨p', g1, g2⟩ := Before.bits hR (n := 2) (v := 2) hs (by omega) (by omega)
      refine ⟨p', ?_, g2⟩
      rw [g1]
      cases b <;> rfl
    | set n =>
      rw [hsc] at hs hset
      dsimp only at hset
      rw [show (Srw3Scale.set n).bits = bitsOf 2 3 ++ bitsOf 12 n from rfl, List.append_assoc] at hs
      obtain ⟨p', g1, g2⟩ := Before.bits hR (n := 2) (v := 3) hs (by omega) (by omega)
      obtain ⟨p'', g3, g4⟩ := Before.bits hR (n := 12) (v := n) g2 (by omega) (by omega)
      refine ⟨p'', ?_, g4⟩
      rw [g1, ok_bind]
      dsimp only
      rw [if_neg (by omega), g3]
      rfl
  · rw [if_neg (fun h => hc ⟨(flag4 hd).mp h.1, by omega⟩), if_neg hc]
    rw [if_neg hc] at hs
    exact ⟨p, rfl, hs⟩

private theorem motion3_ok {b : Build} (hR : Reads (pumpMSB32 b) (fieldMSB st) limit at_) {ch : Nat → Srw3Block} {g : Nat} {rest : List Nat} {p : Pump}
    (hm : srw3Mode ch (g + 1) ≤ 7) (hf : hd.fewModes = true → srw3Mode ch (g + 1) = 3 ∨ srw3Mode ch (g + 1) = 7)
    (hs : Before st limit at_ e ((if hd.fewModes then (if srw3Mode ch (g + 1) = 3 then [1] else [0]) else match (ch g).mode with
      | some m => [0] ++ bitsOf 3 m
      | none => [1]) ++ rest) p) :
    ∃ p', Srw.motion3 b (head3 hd) (srw3Mode ch g) p = .ok (srw3Mode ch (g + 1), p') ∧ Before st limit at_ e rest p' := by
  unfold Srw.motion3
  by_cases hc : hd.fewModes = true
  · rw [if_pos ((flag2 hd).mpr hc)]
    rw [if_pos hc] at hs
    rcases hf hc with h | h
    · rw [if_pos h] at hs
      obtain ⟨p', g1, g2⟩ := Before.bits hR (n := 1) (v := 1) hs (by omega) (by omega)
      exact ⟨p', by rw [g1, h]; rfl, g2⟩
    · rw [if_neg (by omega)] at hs
      obtain ⟨p', g1, g2⟩ := Before.bits hR (n := 1) (v := 0) hs (by omega) (by omega)
      exact ⟨p', by rw [g1, h]; rfl, g2⟩
  · rw [if_neg (fun h => hc ((flag2 hd).mp h))]
    rw [if_neg hc] at hs
    cases hmode : (ch g).mode with
    | none =>
      rw [hmode] at hs
      obtain ⟨p', g1, g2⟩ := Before.bits hR (n := 1) (v := 1) hs (by omega) (by omega)
      refine ⟨p', ?_, g2⟩
      rw [g1, show srw3Mode ch (g + 1) = srw3Mode ch g by rw [srw3Mode, hmode]]
      rfl
    | some m =>
      rw [hmode] at hs
      have hm1 : srw3Mode ch (g + 1) = m := by rw [srw3Mode, hmode]
      dsimp only at hs
      rw [List.append_assoc] at hs
      obtain ⟨p', g1, g2⟩ := Before.bits hR (n := 1) (v := 0) hs (by omega) (by omega)
      obtain ⟨p'', g3, g4⟩ := Before.bits hR (n := 3) (v := m) g2 (by omega) (by omega)
      refine ⟨p'', ?_, g4⟩
      rw [g1, ok_bind]
      dsimp only
      rw [if_pos rfl, g3, hm1]

/-! ## Predictions -/

private theorem linear_idx {w h k : Nat} {F : Nat → Nat → Nat} (hk : k < w * h) : idx (raster w h F) k = .ok (F (k / w) (k % w)) := by
  have hw : 0 < w := by
    rcases Nat.eq_zero_or_pos w with h0 | h0
    · subst h0; omega
    · exact h0
  have := raster_idx (w := w) (h := h) (r := k / w) (c := k % w) (F := F) (by rw [Nat.div_lt_iff_lt_mul hw, Nat.mul_comm]; exact hk) (Nat.mod_lt _ hw)
  rwa [Nat.mul_comm, Nat.div_add_mod] at this

private theorem linear_before {w k r c : Nat} (hw : 0 < w) (hc : c ≤ w) (h : k < r * w + c) : k / w < r ∨ k / w = r ∧ k % w < c := by
  have hm := Nat.div_add_mod k w
  by_cases h1 : k / w < r
  · exact Or.inl h1
  · right
    have h2 : r ≤ k / w := by omega
    have h3 : w * r ≤ w * (k / w) := Nat.mul_le_mul_left w h2
    have h4 : k / w = r := by
      apply Nat.le_antisymm _ h2
      rw [← Nat.lt_succ_iff, Nat.div_lt_iff_lt_mul hw, Nat.succ_mul]
      omega
    rw [h4, Nat.mul_comm] at hm
    exact ⟨h4, by omega⟩

/-- What has been written before block `g` of row `r`. -/
private def done3 (pic : Nat → Nat → Nat) (r g r' c' : Nat) : Nat := if r' < r ∨ r' = r ∧ c' < 16 * g then pic r' c' else 0

/-- The same, and the predictions of `i` samples. -/
private def refs3 (pic : Nat → Nat → Nat) (pred : Nat → Nat) (r g i r' c' : Nat) : Nat :=
  if r' < r ∨ r' = r ∧ c' < 16 * g then pic r' c' else if r' = r ∧ c' < 16 * g + i then pred (c' - 16 * g) else 0

private theorem refpixel_ok {w r g m i : Nat} (hr : 2 ≤ r) (h0 : 0 ≤ srw3Place w r g m i) : Srw.refpixel w r (16 * g) i (srw3Slide m) = .ok (srw3Place w r g m i).toNat := by
  unfold Srw.refpixel
  have e1 : w * (Nat.max 1 r - 1) = (r - 1) * w := by
    rw [show Nat.max 1 r = r from Nat.max_eq_right (by omega), Nat.mul_comm]
  have e2 : w * (Nat.max 2 r - 2) = (r - 2) * w := by
    rw [show Nat.max 2 r = r from Nat.max_eq_right (by omega), Nat.mul_comm]
  dsimp only
  rw [e1, e2]
  have hplace : srw3Place w r g m i = (((if (r + i) % 2 ≠ 0 then (r - 2) * w + 16 * g + i else if i % 2 ≠ 0 then (r - 1) * w + 16 * g + i - 1 else (r - 1) * w + 16 * g + i + 1 : Nat)) : Int) +
      srw3Slide m := by
    unfold srw3Place
    congr 1
    by_cases h1 : (r + i) % 2 = 1
    · rw [if_pos h1, if_pos (show (r + i) % 2 ≠ 0 by omega)]
    · rw [if_neg h1, if_neg (show ¬(r + i) % 2 ≠ 0 by omega)]
      by_cases h2 : i % 2 = 1
      · rw [if_pos h2, if_pos (show i % 2 ≠ 0 by omega)]
      · rw [if_neg h2, if_neg (show ¬i % 2 ≠ 0 by omega)]
  rw [← hplace, if_neg (by omega)]

private theorem slide_idx {m : Nat} (hm : m < 7) : idx ([-4, -2, -2, 0, 0, 2, 4] : List Int) m = .ok (srw3Slide m) ∧
    idx [0, 0, 1, 0, 1, 0, 0] m = .ok (if srw3Mean m then 1 else 0) := by
  have : m = 0 ∨ m = 1 ∨ m = 2 ∨ m = 3 ∨ m = 4 ∨ m = 5 ∨ m = 6 := by omega
  rcases this with h | h | h | h | h | h | h <;> subst h <;> exact ⟨rfl, rfl⟩

private theorem reference_ok {b : Build} {w h r g m i : Nat} {pic : Nat → Nat → Nat} (hr : r < h) (hw : 16 * g + 16 ≤ w) (hi : i < 16) (hp : ∀ r c, r < h → c < w → pic r c < 32768)
    (hm : m = 7 ∨ m < 7 ∧ 2 ≤ r ∧ ∀ i, i < 16 → 0 ≤ srw3Place w r g m i ∧ srw3Place w r g m i + (if srw3Mean m then 2 else 0) < (r * w + 16 * g : Nat)) :
    Srw.reference b (head3 hd) w r (16 * g) m i (raster w h (refs3 pic (srw3Pred hd w pic r g m) r g i)) = .ok (raster w h (refs3 pic (srw3Pred hd w pic r g m) r g (i + 1))) := by
  have hset : setIdx (raster w h (refs3 pic (srw3Pred hd w pic r g m) r g i)) (w * r + 16 * g + i) (srw3Pred hd w pic r g m i) =
      .ok (raster w h (refs3 pic (srw3Pred hd w pic r g m) r g (i + 1))) := by
    rw [Nat.mul_comm w r, Nat.add_assoc]
    refine raster_set hr (by omega) ?_
    intro r' c' _ _
    unfold refs3
    by_cases h1 : r' = r ∧ c' = 16 * g + i
    · obtain ⟨rfl, rfl⟩ := h1
      rw [if_neg (by omega), if_pos (by omega), if_pos ⟨rfl, rfl⟩, Nat.add_sub_cancel_left]
    · rw [if_neg h1]
      by_cases h2 : r' < r ∨ r' = r ∧ c' < 16 * g
      · rw [if_pos h2, if_pos h2]
      · rw [if_neg h2, if_neg h2]
        by_cases h3 : r' = r ∧ c' < 16 * g + i
        · rw [if_pos h3, if_pos (by omega)]
        · rw [if_neg h3, if_neg (by omega)]
  unfold Srw.reference
  dsimp only
  by_cases h7 : m = 7
  · rw [if_pos h7]
    by_cases hg : g = 0
    · rw [if_pos (by omega)]
      have : srw3Pred hd w pic r g m i = (head3 hd).initVal := by unfold srw3Pred; rw [if_pos h7, if_pos hg]; rfl
      rw [this] at hset
      exact hset
    · rw [if_neg (by omega)]
      have : idx (raster w h (refs3 pic (srw3Pred hd w pic r g m) r g i)) (w * r + 16 * g + i - 2) = .ok (srw3Pred hd w pic r g m i) := by
        rw [show w * r + 16 * g + i - 2 = r * w + (16 * g + i - 2) by rw [Nat.mul_comm]; omega, raster_idx hr (by omega)]
        congr 1
        unfold refs3
        by_cases hi2 : i < 2
        · rw [if_pos (by omega)]
          unfold srw3Pred
          rw [if_pos h7, if_neg hg, show 16 * g + i - 2 = 16 * g - 2 + i % 2 by omega]
        · rw [if_neg (by omega), if_pos (by omega)]
          unfold srw3Pred
          rw [if_pos h7, if_neg hg, if_pos h7, if_neg hg, show 16 * g + i - 2 - 16 * g = i - 2 by omega, show (i - 2) % 2 = i % 2 by omega]
      rw [this, ok_bind]
      exact hset
  · rw [if_neg h7]
    obtain ⟨m1, m2, m3⟩ := hm.resolve_left h7
    obtain ⟨s1, s2⟩ := slide_idx m1
    obtain ⟨p1, p2⟩ := m3 i hi
    rw [s1, ok_bind, s2, ok_bind, refpixel_ok m2 p1, ok_bind]
    generalize hk : (srw3Place w r g m i).toNat = k at *
    have hread : ∀ k', k' < r * w + 16 * g → idx (raster w h (refs3 pic (srw3Pred hd w pic r g m) r g i)) k' = .ok (pic (k' / w) (k' % w)) ∧ pic (k' / w) (k' % w) < 32768 := by
      intro k' hk'
      have hb := linear_before (by omega) (by omega) hk'
      have hcell := cell_lt (w := w) (c := 16 * g) hr (by omega)
      constructor
      · rw [linear_idx (by omega)]
        unfold refs3
        rw [if_pos hb]
      · exact hp _ _ (by omega) (Nat.mod_lt _ (by omega))
    by_cases hmean : srw3Mean m = true
    · rw [if_pos hmean] at p2 ⊢
      rw [if_pos (by omega)]
      have hpred : srw3Pred hd w pic r g m i = (pic (k / w) (k % w) + pic ((k + 2) / w) ((k + 2) % w) + 1) / 2 := by
        unfold srw3Pred
        dsimp only
        rw [if_neg h7, if_pos hmean, hk]
      obtain ⟨r1, r2⟩ := hread k (by omega)
      obtain ⟨r3, r4⟩ := hread (k + 2) (by omega)
      rw [r1, ok_bind, r3, ok_bind, addU_ok (by omega), ok_bind, addU_ok (by omega), ok_bind]
      have hset' : setIdx (raster w h (refs3 pic (srw3Pred hd w pic r g m) r g i)) (w * r + 16 * g + i) ((pic (k / w) (k % w) + pic ((k + 2) / w) ((k + 2) % w) + 1) >>> 1) =
          .ok (raster w h (refs3 pic (srw3Pred hd w pic r g m) r g (i + 1))) := by
        rw [Nat.shiftRight_eq_div_pow, Nat.pow_one, ← hpred]
        exact hset
      exact hset'
    · rw [if_neg hmean] at p2 ⊢
      rw [if_neg (by omega)]
      have hpred : srw3Pred hd w pic r g m i = pic (k / w) (k % w) := by
        unfold srw3Pred
        dsimp only
        rw [if_neg h7, if_neg hmean, hk]
      obtain ⟨r1, r2⟩ := hread k (by omega)
      rw [r1, ok_bind, ← hpred]
      exact hset

/-! ## Numbers of bits -/

private theorem diffBits_ok {b : Build} (hR : Reads (pumpMSB32 b) (fieldMSB st) limit at_) {cg : LenChange} {row i color m0 m1 : Nat} {d rest : List Nat} {modes : List (List Nat)} {p : Pump}
    (hcol : (if row % 2 ≠ 0 then i >>> 1 else ((i >>> 1) + 2) % 3) = color) (hmode : modes[color]? = some [m0, m1]) (hi : i < d.length) (hl : cg.Legal m0) (hb : cg.apply m0 ≤ hd.depth + 1)
    (hdep : hd.depth ≤ 15) (hs : Before st limit at_ e (cg.extra ++ rest) p) :
    ∃ p', Srw.diffBits b (head3 hd) row i cg.code (d, modes, p) = .ok (d.set i (cg.apply m0), modes.set color [m1, cg.apply m0], p') ∧ Before st limit at_ e rest p' := by
  have hcl : color < modes.length := (List.getElem?_eq_some_iff.mp hmode).1
  unfold Srw.diffBits
  rw [hcol]
  show ∃ p', (idx modes color >>= _) = _ ∧ _
  rw [idx_eq_ok.mpr hmode, ok_bind]
  show ∃ p', (do
    let (v, p) ← if cg.code = 0 then Except.ok (m0, p)
      else if cg.code = 1 then do
        let v ← addU 32 b m0 1
        Except.ok (v, p)
      else if cg.code = 2 then do
        let v ← subU 32 b m0 1
        Except.ok (v, p)
      else (pumpMSB32 b).getBits p 4
    let d ← setIdx d i v
    let modes ← setIdx modes color [m1, v]
    if v > hd.depth + 1 then crash else Except.ok (d, modes, p)) = _ ∧ _
  have fin : ∀ p' : Pump, (do
      let d ← setIdx d i (cg.apply m0)
      let modes ← setIdx modes color [m1, cg.apply m0]
      if cg.apply m0 > hd.depth + 1 then crash else Except.ok (d, modes, p')) = Except.ok (d.set i (cg.apply m0), modes.set color [m1, cg.apply m0], p') := by
    intro p'
    rw [setIdx_lt hi, ok_bind, setIdx_lt hcl, ok_bind, if_neg (by omega)]
  cases cg with
  | keep => exact ⟨p, fin p, hs⟩
  | plus =>
    refine ⟨p, ?_, hs⟩
    have h17 : m0 + 1 ≤ hd.depth + 1 := hb
    have := addU_ok (b := b) (w := 32) (x := m0) (y := 1) (by omega)
    show (do
      let v ← addU 32 b m0 1
      let d ← setIdx d i v
      let modes ← setIdx modes color [m1, v]
      if v > hd.depth + 1 then crash else Except.ok (d, modes, p)) = _
    rw [this, ok_bind]
    exact fin p
  | minus =>
    refine ⟨p, ?_, hs⟩
    unfold LenChange.Legal at hl
    have := subU_ok (b := b) (w := 32) (x := m0) (y := 1) (by omega)
    show (do
      let v ← subU 32 b m0 1
      let d ← setIdx d i v
      let modes ← setIdx modes color [m1, v]
      if v > hd.depth + 1 then crash else Except.ok (d, modes, p)) = _
    rw [this, ok_bind]
    exact fin p
  | set n =>
    unfold LenChange.Legal at hl
    obtain ⟨p', g1, g2⟩ := Before.bits hR (n := 4) (v := n) hs (by omega) (by omega)
    refine ⟨p', ?_, g2⟩
    show (do
      let (v, p) ← (pumpMSB32 b).getBits p 4
      let d ← setIdx d i v
      let modes ← setIdx modes color [m1, v]
      if v > hd.depth + 1 then crash else Except.ok (d, modes, p)) = _
    rw [g1, ok_bind]
    exact fin p'

/-- The numbers of bits as the decoder keeps them, by colour. -/
private def modes3 (r init : Nat) (L : Nat → Nat) : List (List Nat) :=
  if r % 2 = 1 then [[L 0, L 1], [L 2, L 3], [init, init]] else [[L 2, L 3], [init, init], [L 0, L 1]]

/-- The part of a block that is there if it has differences. -/
private def flags3 (b : Build) (hd : Srw3Header) (r : Nat) (modes : List (List Nat)) (p : Pump) : M (List Nat × List (List Nat) × Pump) := do
  let (f0, p) ← (pumpMSB32 b).getBits p 2
  let (f1, p) ← (pumpMSB32 b).getBits p 2
  let (f2, p) ← (pumpMSB32 b).getBits p 2
  let (f3, p) ← (pumpMSB32 b).getBits p 2
  let s ← Srw.diffBits b (head3 hd) r 0 f0 ([0, 0, 0, 0], modes, p)
  let s ← Srw.diffBits b (head3 hd) r 1 f1 s
  let s ← Srw.diffBits b (head3 hd) r 2 f2 s
  Srw.diffBits b (head3 hd) r 3 f3 s

private theorem flags3_ok {b : Build} (hR : Reads (pumpMSB32 b) (fieldMSB st) limit at_) {ch : Nat → LenChange} {r init : Nat} {L L' : Nat → Nat} {rest : List Nat} {p : Pump} (hdep : hd.depth ≤ 15)
    (hL : ∀ i, L' i = (ch i).apply (L i)) (hl : ∀ i, i < 4 → (ch i).Legal (L i) ∧ L' i ≤ hd.depth + 1)
    (hs : Before st limit at_ e (((List.range 4).flatMap fun i => bitsOf 2 (ch i).code) ++ ((List.range 4).flatMap fun i => (ch i).extra) ++ rest) p) :
    ∃ p', flags3 b hd r (modes3 r init L) p = .ok ([L' 0, L' 1, L' 2, L' 3], modes3 r init L', p') ∧ Before st limit at_ e rest p' := by
  have hcode : ∀ c : LenChange, c.code < 2 ^ 2 := by intro c; cases c <;> first | decide | exact (by decide : 3 < 4)
  simp only [hL] at hl ⊢
  rw [show (List.range 4) = [0, 1, 2, 3] from rfl] at hs
  simp only [List.flatMap_cons, List.flatMap_nil, List.append_nil, List.append_assoc] at hs
  obtain ⟨p2, a2, hs⟩ := hs.bits hR (by omega) (hcode _)
  obtain ⟨p3, a3, hs⟩ := hs.bits hR (by omega) (hcode _)
  obtain ⟨p4, a4, hs⟩ := hs.bits hR (by omega) (hcode _)
  obtain ⟨p5, a5, hs⟩ := hs.bits hR (by omega) (hcode _)
  unfold flags3
  rw [a2, ok_bind]
  dsimp only
  rw [a3, ok_bind]
  dsimp only
  rw [a4, ok_bind]
  dsimp only
  rw [a5, ok_bind]
  dsimp only
  unfold modes3
  by_cases hr : r % 2 = 1
  · rw [if_pos hr]
    have hc : ∀ i, (if r % 2 ≠ 0 then i >>> 1 else ((i >>> 1) + 2) % 3) = i >>> 1 := fun i => if_pos (by omega)
    obtain ⟨p6, a6, hs⟩ := diffBits_ok hR (row := r) (i := 0) (d := [0, 0, 0, 0]) (modes := [[L 0, L 1], [L 2, L 3], [init, init]]) (hc 0) rfl (by decide) (hl 0 (by omega)).1 (hl 0 (by omega)).2 hdep hs
    obtain ⟨p7, a7, hs⟩ := diffBits_ok hR (row := r) (i := 1) (d := [(ch 0).apply (L 0), 0, 0, 0]) (modes := [[L 1, (ch 0).apply (L 0)], [L 2, L 3], [init, init]]) (hc 1) rfl (by show 1 < 4; decide) (hl 1 (by omega)).1
      (hl 1 (by omega)).2 hdep hs
    obtain ⟨p8, a8, hs⟩ := diffBits_ok hR (row := r) (i := 2) (d := [(ch 0).apply (L 0), (ch 1).apply (L 1), 0, 0]) (modes := [[(ch 0).apply (L 0), (ch 1).apply (L 1)], [L 2, L 3], [init, init]]) (hc 2) rfl (by show 2 < 4; decide)
      (hl 2 (by omega)).1 (hl 2 (by omega)).2 hdep hs
    obtain ⟨p9, a9, hs⟩ := diffBits_ok hR (row := r) (i := 3) (d := [(ch 0).apply (L 0), (ch 1).apply (L 1), (ch 2).apply (L 2), 0])
      (modes := [[(ch 0).apply (L 0), (ch 1).apply (L 1)], [L 3, (ch 2).apply (L 2)], [init, init]]) (hc 3) rfl (by show 3 < 4; decide) (hl 3 (by omega)).1 (hl 3 (by omega)).2 hdep hs
    refine ⟨p9, ?_, hs⟩
    rw [a6, ok_bind]
    show (Srw.diffBits b (head3 hd) r 1 (ch 1).code ([(ch 0).apply (L 0), 0, 0, 0], [[L 1, (ch 0).apply (L 0)], [L 2, L 3], [init, init]], p6) >>= _) = _
    rw [a7, ok_bind]
    show (Srw.diffBits b (head3 hd) r 2 (ch 2).code ([(ch 0).apply (L 0), (ch 1).apply (L 1), 0, 0], [[(ch 0).apply (L 0), (ch 1).apply (L 1)], [L 2, L 3], [init, init]], p7) >>= _) = _
    rw [a8, ok_bind]
    show Srw.diffBits b (head3 hd) r 3 (ch 3).code ([(ch 0).apply (L 0), (ch 1).apply (L 1), (ch 2).apply (L 2), 0], [[(ch 0).apply (L 0), (ch 1).apply (L 1)], [L 3, (ch 2).apply (L 2)], [init, init]], p8) = _
    rw [a9, if_pos hr]
    simp only [hL]
    rfl
  · rw [if_neg hr]
    have hc : ∀ i, (if r % 2 ≠ 0 then i >>> 1 else ((i >>> 1) + 2) % 3) = ((i >>> 1) + 2) % 3 := fun i => if_neg (by omega)
    obtain ⟨p6, a6, hs⟩ := diffBits_ok hR (row := r) (i := 0) (d := [0, 0, 0, 0]) (modes := [[L 2, L 3], [init, init], [L 0, L 1]]) (hc 0) rfl (by decide) (hl 0 (by omega)).1 (hl 0 (by omega)).2 hdep hs
    obtain ⟨p7, a7, hs⟩ := diffBits_ok hR (row := r) (i := 1) (d := [(ch 0).apply (L 0), 0, 0, 0]) (modes := [[L 2, L 3], [init, init], [L 1, (ch 0).apply (L 0)]]) (hc 1) rfl (by show 1 < 4; decide) (hl 1 (by omega)).1
      (hl 1 (by omega)).2 hdep hs
    obtain ⟨p8, a8, hs⟩ := diffBits_ok hR (row := r) (i := 2) (d := [(ch 0).apply (L 0), (ch 1).apply (L 1), 0, 0]) (modes := [[L 2, L 3], [init, init], [(ch 0).apply (L 0), (ch 1).apply (L 1)]]) (hc 2) rfl (by show 2 < 4; decide)
      (hl 2 (by omega)).1 (hl 2 (by omega)).2 hdep hs
    obtain ⟨p9, a9, hs⟩ := diffBits_ok hR (row := r) (i := 3) (d := [(ch 0).apply (L 0), (ch 1).apply (L 1), (ch 2).apply (L 2), 0])
      (modes := [[L 3, (ch 2).apply (L 2)], [init, init], [(ch 0).apply (L 0), (ch 1).apply (L 1)]]) (hc 3) rfl (by show 3 < 4; decide) (hl 3 (by omega)).1 (hl 3 (by omega)).2 hdep hs
    refine ⟨p9, ?_, hs⟩
    rw [a6, ok_bind]
    show (Srw.diffBits b (head3 hd) r 1 (ch 1).code ([(ch 0).apply (L 0), 0, 0, 0], [[L 2, L 3], [init, init], [L 1, (ch 0).apply (L 0)]], p6) >>= _) = _
    rw [a7, ok_bind]
    show (Srw.diffBits b (head3 hd) r 2 (ch 2).code ([(ch 0).apply (L 0), (ch 1).apply (L 1), 0, 0], [[L 2, L 3], [init, init], [(ch 0).apply (L 0), (ch 1).apply (L 1)]], p7) >>= _) = _
    rw [a8, ok_bind]
    show Srw.diffBits b (head3 hd) r 3 (ch 3).code ([(ch 0).apply (L 0), (ch 1).apply (L 1), (ch 2).apply (L 2), 0], [[L 3, (ch 2).apply (L 2)], [init, init], [(ch 0).apply (L 0), (ch 1).apply (L 1)]], p8) = _
    rw [a9, if_neg hr]
    simp only [hL]
    rfl

private theorem blockBits_ok {b : Build} (hR : Reads (pumpMSB32 b) (fieldMSB st) limit at_) {ch : Nat → Srw3Block} {r g : Nat} {rest : List Nat} {p : Pump} (hdep : hd.depth ≤ 15)
    (hl : srw3Skips hd ch g = false → ∀ i, i < 4 → ((ch g).change i).Legal (srw3Lens hd ch (srw1First r) g i) ∧ srw3Lens hd ch (srw1First r) (g + 1) i ≤ hd.depth + 1)
    (hs : Before st limit at_ e ((if hd.noSkip then [] else if (ch g).skip then [1] else [0]) ++ ((if srw3Skips hd ch g then [] else
      ((List.range 4).flatMap fun i => bitsOf 2 ((ch g).change i).code) ++ ((List.range 4).flatMap fun i => ((ch g).change i).extra)) ++ rest)) p) :
    ∃ p', Srw.blockBits b (head3 hd) r (modes3 r (srw1First r) (srw3Lens hd ch (srw1First r) g)) p =
      .ok ([srw3Used hd ch (srw1First r) g 0, srw3Used hd ch (srw1First r) g 1, srw3Used hd ch (srw1First r) g 2, srw3Used hd ch (srw1First r) g 3],
        modes3 r (srw1First r) (srw3Lens hd ch (srw1First r) (g + 1)), p') ∧ Before st limit at_ e rest p' := by
  have hdiff : srw3Skips hd ch g = false → ∀ p, Before st limit at_ e ((if srw3Skips hd ch g then [] else
      ((List.range 4).flatMap fun i => bitsOf 2 ((ch g).change i).code) ++ ((List.range 4).flatMap fun i => ((ch g).change i).extra)) ++ rest) p →
      ∃ p', flags3 b hd r (modes3 r (srw1First r) (srw3Lens hd ch (srw1First r) g)) p =
        .ok ([srw3Used hd ch (srw1First r) g 0, srw3Used hd ch (srw1First r) g 1, srw3Used hd ch (srw1First r) g 2, srw3Used hd ch (srw1First r) g 3],
          modes3 r (srw1First r) (srw3Lens hd ch (srw1First r) (g + 1)), p') ∧ Before st limit at_ e rest p' := by
    intro hk p hs
    rw [if_neg (by rw [hk]; decide)] at hs
    have hused : ∀ i, srw3Used hd ch (srw1First r) g i = srw3Lens hd ch (srw1First r) (g + 1) i := by
      intro i; unfold srw3Used; rw [if_neg (by rw [hk]; decide)]
    rw [hused, hused, hused, hused]
    refine flags3_ok hR hdep (fun i => ?_) (hl hk) hs
    rw [srw3Lens, if_neg (by rw [hk]; decide)]
  unfold Srw.blockBits
  dsimp only
  by_cases h1 : hd.noSkip = true
  · have hk : srw3Skips hd ch g = false := by unfold srw3Skips; rw [h1]; rfl
    rw [if_pos h1] at hs
    rw [if_pos ((flag1 hd).mpr h1)]
    exact hdiff hk p hs
  · rw [if_neg (fun h => h1 ((flag1 hd).mp h))]
    rw [if_neg h1] at hs
    have h1' : hd.noSkip = false := by cases h : hd.noSkip <;> simp_all
    cases h2 : (ch g).skip
    · rw [h2, if_neg (by decide)] at hs
      have hk : srw3Skips hd ch g = false := by unfold srw3Skips; rw [h2, Bool.and_false]
      obtain ⟨p', g1, g2⟩ := Before.bits hR (n := 1) (v := 0) hs (by omega) (by omega)
      rw [g1, ok_bind]
      exact hdiff hk p' g2
    · rw [h2, if_pos rfl] at hs
      have hk : srw3Skips hd ch g = true := by unfold srw3Skips; rw [h2, h1']; rfl
      obtain ⟨p', g1, g2⟩ := Before.bits hR (n := 1) (v := 1) hs (by omega) (by omega)
      rw [hk, if_pos rfl] at g2
      have hused : ∀ i, srw3Used hd ch (srw1First r) g i = 0 := by
        intro i; unfold srw3Used; rw [if_pos hk]
      have hnext : srw3Lens hd ch (srw1First r) (g + 1) = srw3Lens hd ch (srw1First r) g := by
        funext i; rw [srw3Lens, if_pos hk]
      refine ⟨p', ?_, g2⟩
      rw [g1, hused, hused, hused, hused, hnext]
      rfl

/-! ## Differences -/

/-- The place of a sample in the order of the differences. -/
private def rank3 (r x : Nat) : Nat := if r % 2 = 1 then if x % 2 = 1 then x / 2 else x / 2 + 8 else if x % 2 = 0 then x / 2 else x / 2 + 8

private theorem rank_order {r i : Nat} (hi : i < 16) : rank3 r (srw3Order r i) = i ∧ srw3Order r i < 16 := by
  unfold rank3 srw3Order
  split <;> split <;> split <;> omega

private theorem order_rank {r x : Nat} (hx : x < 16) : srw3Order r (rank3 r x) = x := by
  unfold rank3 srw3Order
  split <;> split <;> split <;> omega

/-- The block after `i` differences. -/
private def parts3 (pic : Nat → Nat → Nat) (pred : Nat → Nat) (r g i r' c' : Nat) : Nat :=
  if r' < r ∨ r' = r ∧ c' < 16 * g then pic r' c' else if r' = r ∧ c' < 16 * g + 16 then if rank3 r (c' - 16 * g) < i then pic r' c' else pred (c' - 16 * g) else 0

private theorem apply3_ok {b : Build} (hR : Reads (pumpMSB32 b) (fieldMSB st) limit at_) {w h r g i l : Nat} {pic : Nat → Nat → Nat} {pred : Nat → Nat} {scale d : Int} {bits rest : List Nat} {p : Pump}
    (hr : r < h) (hw : 16 * g + 16 ≤ w) (hi : i < 16) (hdep1 : 1 ≤ hd.depth) (hdep : hd.depth ≤ 15) (hp : pic r (16 * g + srw3Order r i) < 2 ^ hd.depth)
    (hl : bits[i / 4]? = some l) (hl16 : l ≤ 16) (hfit : SignedFits l d) (hsc : -2 ≤ scale ∧ scale < 4096) (hval : (pic r (16 * g + srw3Order r i) : Int) = pred (srw3Order r i) + (d * (2 * scale + 1) + scale))
    (hs : Before st limit at_ e (signedBits l d ++ rest) p) :
    ∃ p', Srw.apply3 b (head3 hd) w r (16 * g) scale bits i (raster w h (parts3 pic pred r g i), p) = .ok (raster w h (parts3 pic pred r g (i + 1)), p') ∧ Before st limit at_ e rest p' := by
  obtain ⟨p', g1, g2⟩ := hs.signed b hR (by omega) hfit
  refine ⟨p', ?_, g2⟩
  obtain ⟨o1, o2⟩ := rank_order (r := r) hi
  have hpow : 2 ^ hd.depth ≤ 2 ^ 15 := Nat.pow_le_pow_right (by omega) hdep
  have hd1 : -32768 ≤ d ∧ d ≤ 32768 := by
    unfold SignedFits at hfit
    have : (2 : Int) ^ l ≤ 2 ^ 16 := by exact_mod_cast Nat.pow_le_pow_right (n := 2) (by omega) hl16
    omega
  have hmul : -268402688 ≤ d * (2 * scale + 1) ∧ d * (2 * scale + 1) ≤ 268402688 := by
    have hk : -3 ≤ 2 * scale + 1 ∧ 2 * scale + 1 ≤ 8191 := by omega
    generalize 2 * scale + 1 = k at hk
    constructor <;> nlinarith
  have hpos : (if r % 2 ≠ 0 then ((i % 8) <<< 1) + 1 - (i >>> 3) else ((i % 8) <<< 1) + (i >>> 3)) = srw3Order r i := by
    rw [Nat.shiftLeft_eq, Nat.shiftRight_eq_div_pow]
    unfold srw3Order
    split <;> split <;> split <;> omega
  unfold Srw.apply3
  rw [show i >>> 2 = i / 4 from Nat.shiftRight_eq_div_pow i 2, idx_eq_ok.mpr hl, ok_bind]
  show (do let (d, p) ← (pumpMSB32 b).getIbitsSextended b p l; _) = _
  rw [g1, ok_bind]
  dsimp only
  rw [Int.mul_comm scale 2, i32_small (by omega) (by omega), ok_bind, i32_small (by omega) (by omega), ok_bind, i32_small (by omega) (by omega), ok_bind, i32_small (by omega) (by omega), ok_bind, hpos]
  have hread : idx (raster w h (parts3 pic pred r g i)) (srw3Order r i + w * r + 16 * g) = .ok (pred (srw3Order r i)) := by
    rw [show srw3Order r i + w * r + 16 * g = r * w + (16 * g + srw3Order r i) by rw [Nat.mul_comm]; omega, raster_idx hr (by omega)]
    congr 1
    unfold parts3
    rw [if_neg (by omega), if_pos (by omega), Nat.add_sub_cancel_left, o1, if_neg (by omega)]
  rw [hread, ok_bind, ← hval, i32_small (by omega) (by omega), ok_bind]
  have hclamp : toU16 (clampbits ((pic r (16 * g + srw3Order r i) : Nat) : Int) hd.depth) = pic r (16 * g + srw3Order r i) := by
    rw [(clampbits_partial _ hd.depth hdep1 (by omega) (by omega)).1 (by exact_mod_cast hp)]
    unfold saturate toU16
    have h1 : ((pic r (16 * g + srw3Order r i) : Nat) : Int) < 2 ^ hd.depth := by exact_mod_cast hp
    have h2 : (2 : Int) ^ hd.depth ≤ 2 ^ 15 := by exact_mod_cast hpow
    generalize (2 : Int) ^ hd.depth = k at h1 h2
    omega
  show (setIdx _ (srw3Order r i + w * r + 16 * g) (toU16 (clampbits ((pic r (16 * g + srw3Order r i) : Nat) : Int) hd.depth)) >>= _) = _
  rw [hclamp, show srw3Order r i + w * r + 16 * g = r * w + (16 * g + srw3Order r i) by rw [Nat.mul_comm]; omega,
    raster_set (G := parts3 pic pred r g (i + 1)) hr (by omega), ok_bind]
  intro r' c' _ _
  unfold parts3
  by_cases h1 : r' = r ∧ c' = 16 * g + srw3Order r i
  · obtain ⟨rfl, rfl⟩ := h1
    rw [if_neg (by omega), if_pos (by omega), Nat.add_sub_cancel_left, o1, if_pos (by omega), if_pos ⟨rfl, rfl⟩]
  · rw [if_neg h1]
    by_cases h2 : r' < r ∨ r' = r ∧ c' < 16 * g
    · rw [if_pos h2, if_pos h2]
    · rw [if_neg h2, if_neg h2]
      by_cases h3 : r' = r ∧ c' < 16 * g + 16
      · rw [if_pos h3, if_pos h3]
        have : rank3 r (c' - 16 * g) ≠ i := by
          intro h
          have := order_rank (r := r) (x := c' - 16 * g) (by omega)
          rw [h] at this
          omega
        by_cases h4 : rank3 r (c' - 16 * g) < i
        · rw [if_pos h4, if_pos (by omega)]
        · rw [if_neg h4, if_neg (by omega)]
      · rw [if_neg h3, if_neg h3]

/-! ## Blocks and lines -/

private theorem scale_bounds {ch : Nat → Srw3Block} {g : Nat} (hset : match (ch g).scale with | .set n => n < 4096 | _ => True) : -2 ≤ srw3Scale hd ch g ∧ srw3Scale hd ch g < 4096 := by
  unfold srw3Scale
  by_cases hc : hd.noScale = false ∧ g % 4 = 0
  · rw [if_pos hc]
    cases hs : (ch g).scale with
    | set n =>
      rw [hs] at hset
      dsimp only at hset
      show -2 ≤ (n : Int) ∧ (n : Int) < 4096
      omega
    | zero => exact ⟨by decide, by decide⟩
    | up => exact ⟨by decide, by decide⟩
    | down => exact ⟨by decide, by decide⟩
  · rw [if_neg hc]; omega

private theorem block3_ok {b : Build} (hR : Reads (pumpMSB32 b) (fieldMSB st) limit at_) {w h r g : Nat} {pic : Nat → Nat → Nat} {diff : Nat → Nat → Int} {ch : Nat → Srw3Block} {scale : Int}
    {rest : List Nat} {p : Pump} (hr : r < h) (hw : 16 * g + 16 ≤ w) (hdep1 : 1 ≤ hd.depth) (hdep : hd.depth ≤ 15) (hp : ∀ r c, r < h → c < w → pic r c < 2 ^ hd.depth)
    (hL : Srw3Legal hd w pic diff ch r) (h0 : g % 4 = 0 → scale = 0) (hs : Before st limit at_ e (srw3BlockBits hd diff ch r g ++ rest) p) :
    ∃ p', Srw.block3 b (head3 hd) w r (16 * g) ⟨raster w h (done3 pic r g), srw3Mode ch g, scale, modes3 r (srw1First r) (srw3Lens hd ch (srw1First r) g), p⟩ =
      .ok ⟨raster w h (done3 pic r (g + 1)), srw3Mode ch (g + 1), srw3Scale hd ch g, modes3 r (srw1First r) (srw3Lens hd ch (srw1First r) (g + 1)), p'⟩ ∧ Before st limit at_ e rest p' := by
  obtain ⟨l1, l2, l3, l4, l5⟩ := hL g (by omega)
  dsimp only at l2
  have hpow : 2 ^ hd.depth ≤ 2 ^ 15 := Nat.pow_le_pow_right (by omega) hdep
  unfold srw3BlockBits at hs
  simp only [List.append_assoc] at hs
  obtain ⟨p1, a1, hs⟩ := scale3_ok hR h0 l1 hs
  obtain ⟨p2, a2, hs⟩ := motion3_ok hR (by omega) l3 hs
  have hs := hs
  obtain ⟨out, a3, rfl⟩ := forRange_inv (fun i out => out = raster w h (refs3 pic (srw3Pred hd w pic r g (srw3Mode ch (g + 1))) r g i)) (Nat.zero_le 16)
    (f := Srw.reference b (head3 hd) w r (16 * g) (srw3Mode ch (g + 1))) (s := raster w h (done3 pic r g)) (by
      apply raster_congr
      intro r' c' _ _
      unfold done3 refs3
      by_cases h1 : r' < r ∨ r' = r ∧ c' < 16 * g
      · rw [if_pos h1, if_pos h1]
      · rw [if_neg h1, if_neg h1, if_neg (by omega)]) (by
      rintro i out _ hi rfl
      exact ⟨_, reference_ok hr hw hi (fun r c hr hc => Nat.lt_of_lt_of_le (hp r c hr hc) hpow) l2, rfl⟩)
  obtain ⟨p3, a4, hs⟩ := blockBits_ok hR (ch := ch) (r := r) (g := g) hdep l4 hs
  obtain ⟨s, a5, a6, hs⟩ := forRange_inv (fun i s => s.1 = raster w h (parts3 pic (srw3Pred hd w pic r g (srw3Mode ch (g + 1))) r g i) ∧
      Before st limit at_ e (((List.range 16).drop i).flatMap (fun i => signedBits (srw3Used hd ch (srw1First r) g (i / 4)) (diff r (16 * g + srw3Order r i))) ++ rest) s.2) (Nat.zero_le 16)
    (f := Srw.apply3 b (head3 hd) w r (16 * g) (srw3Scale hd ch g) [srw3Used hd ch (srw1First r) g 0, srw3Used hd ch (srw1First r) g 1, srw3Used hd ch (srw1First r) g 2, srw3Used hd ch (srw1First r) g 3])
    (s := (raster w h (refs3 pic (srw3Pred hd w pic r g (srw3Mode ch (g + 1))) r g 16), p3)) (by
      refine ⟨?_, hs⟩
      apply raster_congr
      intro r' c' _ _
      unfold parts3 refs3
      by_cases h1 : r' < r ∨ r' = r ∧ c' < 16 * g
      · rw [if_pos h1, if_pos h1]
      · rw [if_neg h1, if_neg h1]
        by_cases h2 : r' = r ∧ c' < 16 * g + 16
        · rw [if_pos h2, if_pos h2, if_neg (by omega)]
        · rw [if_neg h2, if_neg h2]) (by
      rintro i ⟨out, p⟩ _ hi ⟨rfl, hs⟩
      rw [drop_range_flatMap hi, List.append_assoc] at hs
      obtain ⟨o1, o2⟩ := rank_order (r := r) hi
      have hlen : srw3Used hd ch (srw1First r) g (i / 4) ≤ 16 := by
        unfold srw3Used
        by_cases hk : srw3Skips hd ch g = true
        · rw [if_pos hk]; omega
        · rw [if_neg hk]
          have := (l4 (by simpa using hk) (i / 4) (by omega)).2
          omega
      have hget : [srw3Used hd ch (srw1First r) g 0, srw3Used hd ch (srw1First r) g 1, srw3Used hd ch (srw1First r) g 2, srw3Used hd ch (srw1First r) g 3][i / 4]? =
          some (srw3Used hd ch (srw1First r) g (i / 4)) := by
        have : i / 4 = 0 ∨ i / 4 = 1 ∨ i / 4 = 2 ∨ i / 4 = 3 := by omega
        rcases this with h | h | h | h <;> rw [h] <;> rfl
      obtain ⟨p', k1, k2⟩ := apply3_ok hR (scale := srw3Scale hd ch g) hr hw hi hdep1 hdep (hp _ _ hr (by omega)) hget hlen (l5 i hi).1 (scale_bounds l1) (l5 i hi).2 hs
      exact ⟨_, k1, rfl, k2⟩)
  refine ⟨s.2, ?_, hs⟩
  unfold Srw.block3
  dsimp only
  rw [a1, ok_bind]
  dsimp only
  rw [a2, ok_bind]
  dsimp only
  rw [if_neg (by omega), a3, ok_bind, a4, ok_bind]
  dsimp only
  rw [a5, ok_bind, a6, raster_congr (q := done3 pic r (g + 1))]
  intro r' c' _ _
  unfold parts3 done3
  by_cases h1 : r' < r ∨ r' = r ∧ c' < 16 * g
  · rw [if_pos h1, if_pos (by omega)]
  · rw [if_neg h1]
    by_cases h2 : r' = r ∧ c' < 16 * g + 16
    · have hrank : rank3 r (c' - 16 * g) < 16 := by
        unfold rank3
        split <;> split <;> omega
      rw [if_pos h2, if_pos hrank, if_pos (by omega)]
    · rw [if_neg h2, if_neg (by omega)]

/-- The position of the reader, when all bits have been read. -/
private theorem getPos_ok {b : Build} {src : Bytes} {p : Pump} (hs : Before st limit (AtMSB src st) e [] p) : p.getPos b = .ok ((e + 7) / 8) := by
  obtain ⟨c, a, ⟨-, h1, h2, -, -, h3, -⟩, -, h4, -⟩ := hs
  rw [List.length_nil, Nat.add_zero] at h4
  unfold Pump.getPos
  rw [Nat.shiftRight_eq_div_pow, h1, subU_ok (by omega)]
  congr 1
  omega

private theorem line3_ok (b : Build) {w h r : Nat} {pic : Nat → Nat → Nat} {diff : Nat → Nat → Int} {ch : Nat → Srw3Block} {src : Bytes} (hr : r < h) (hw : w % 16 = 0) (hdep1 : 1 ≤ hd.depth)
    (hdep : hd.depth ≤ 15) (hp : ∀ r c, r < h → c < w → pic r c < 2 ^ hd.depth) (hL : Srw3Legal hd w pic diff ch r)
    (hf : Follows (swap32 (bytesOf src)) 0 (srw3Line hd w diff ch r)) (hl : (srw3Line hd w diff ch r).length ≤ 32 * (src.length / 4)) :
    ∃ s : Srw.Row3, forStep 0 w 16 (Srw.block3 b (head3 hd) w r) ⟨raster w h (done3 pic r 0), 7, 0, List.replicate 3 [srw1First r, srw1First r], Pump.new src⟩ = .ok s ∧
      s.out = raster w h (done3 pic (r + 1) 0) ∧ s.pump.getPos b = .ok (packBits (srw3Line hd w diff ch r)).length := by
  obtain ⟨s, k1, k2, k3, k4, k5, k6⟩ := loopN_inv (fun g (s : Srw.Row3) => s.out = raster w h (done3 pic r g) ∧ s.motion = srw3Mode ch g ∧ (g % 4 = 0 → s.scale = 0) ∧
      s.modes = modes3 r (srw1First r) (srw3Lens hd ch (srw1First r) g) ∧
      Before (swap32 (bytesOf src)) (some (32 * (src.length / 4))) (AtMSB src (swap32 (bytesOf src))) (srw3Line hd w diff ch r).length
        (((List.range (w / 16)).drop g).flatMap (srw3BlockBits hd diff ch r) ++ []) s.pump)
    (fun j => Srw.block3 b (head3 hd) w r (0 + j * 16)) (w / 16) 0 ⟨raster w h (done3 pic r 0), 7, 0, List.replicate 3 [srw1First r, srw1First r], Pump.new src⟩
    ⟨rfl, rfl, fun _ => rfl, by unfold modes3; split <;> rfl, 0, 0, atMSB_new _ _, by rw [List.append_nil]; exact hf, by rw [List.append_nil, Nat.zero_add]; rfl, hl⟩ (by
      rintro g ⟨out, motion, scale, modes, p⟩ _ hg ⟨rfl, rfl, h0, rfl, hs⟩
      rw [drop_range_flatMap (by omega), List.append_assoc] at hs
      obtain ⟨p', k1, k2⟩ := block3_ok (readsMSB32 b src) (scale := scale) hr (by omega) hdep1 hdep hp hL h0 hs
      refine ⟨⟨_, _, srw3Scale hd ch g, _, p'⟩, ?_, rfl, rfl, ?_, rfl, k2⟩
      · rw [Nat.zero_add, Nat.mul_comm g 16]
        exact k1
      · intro h4
        show srw3Scale hd ch g = 0
        unfold srw3Scale
        rw [if_neg (by omega)])
  refine ⟨s, ?_, ?_, ?_⟩
  · unfold forStep
    rw [show (w - 0 + 16 - 1) / 16 = w / 16 by omega]
    exact k1
  · rw [k2]
    apply raster_congr
    intro r' c' _ _
    unfold done3
    congr 1
    apply propext
    constructor <;> intro <;> omega
  · rw [List.drop_eq_nil_of_le (by simp), List.flatMap_nil, List.append_nil] at k6
    rw [getPos_ok k6]
    unfold packBits
    rw [List.length_map, List.length_range]

/-! ## The header -/

private theorem skip3_ok {b : Build} (hR : Reads (pumpMSB32 b) (fieldMSB st) limit at_) : ∀ (ns : List Nat) (l rest : List Nat) (p : Pump), l.length = ns.sum → (∀ n ∈ ns, 0 < n ∧ n ≤ 32) →
    Before st limit at_ e (l ++ rest) p → ∃ p', Srw.skip b ns p = .ok p' ∧ Before st limit at_ e rest p'
  | [], l, rest, p, hl, _, hs => by
    rw [List.sum_nil] at hl
    rw [List.eq_nil_of_length_eq_zero hl] at hs
    exact ⟨p, rfl, hs⟩
  | n :: ns, l, rest, p, hl, hn, hs => by
    rw [List.sum_cons] at hl
    rw [← List.take_append_drop n l, List.append_assoc] at hs
    obtain ⟨n1, n2⟩ := hn n (List.mem_cons_self ..)
    obtain ⟨v, p', g1, g2⟩ := hs.skip hR (by rw [List.length_take]; omega) n2 n1
    obtain ⟨p'', g3, g4⟩ := skip3_ok hR ns (l.drop n) rest p' (by rw [List.length_drop]; omega) (fun m hm => hn m (List.mem_cons_of_mem _ hm)) g2
    refine ⟨p'', ?_, g4⟩
    unfold Srw.skip
    rw [g1, ok_bind]
    exact g3

private theorem header3_ok {bd : Build} (hR : Reads (pumpMSB32 bd) (fieldMSB st) limit at_) {a b c rest : List Nat} {p : Pump} (ha : a.length = 20) (hb : b.length = 60) (hc : c.length = 26)
    (hdep1 : 1 ≤ hd.depth) (hdep : hd.depth ≤ 16) (hi : hd.init < 2 ^ 14) (hs : Before st limit at_ e (srw3HeaderBits hd a b c ++ rest) p) :
    ∃ p', Srw.header bd p = .ok (head3 hd, p') ∧ Before st limit at_ e rest p' := by
  unfold srw3HeaderBits at hs
  simp only [List.append_assoc] at hs
  obtain ⟨p1, a1, hs⟩ := skip3_ok hR [16, 4] a _ p ha (by decide) hs
  obtain ⟨p2, a2, hs⟩ := hs.bits hR (by omega) (by omega)
  obtain ⟨p3, a3, hs⟩ := skip3_ok hR [4, 4, 16, 16, 16, 4] b _ p2 hb (by decide) hs
  have hflag : [0, if hd.noScale then 1 else 0, if hd.fewModes then 1 else 0, if hd.noSkip then 1 else 0] = bitsOf 4 (head3 hd).optflags :=
    (by decide : ∀ x y z : Bool, [0, if x then 1 else 0, if y then 1 else 0, if z then 1 else 0] =
      bitsOf 4 (4 * (if x then 1 else 0) + 2 * (if y then 1 else 0) + (if z then 1 else 0))) hd.noScale hd.fewModes hd.noSkip
  have hflag2 : (head3 hd).optflags < 2 ^ 4 :=
    (by decide : ∀ x y z : Bool, (4 * (if x then 1 else 0) + 2 * (if y then 1 else 0) + (if z then 1 else 0)) < 2 ^ 4) hd.noScale hd.fewModes hd.noSkip
  rw [hflag] at hs
  obtain ⟨p4, a4, hs⟩ := hs.bits hR (by omega) hflag2
  obtain ⟨p5, a5, hs⟩ := skip3_ok hR [8, 8, 8, 2] c _ p4 hc (by decide) hs
  obtain ⟨p6, a6, hs⟩ := hs.bits hR (by omega) hi
  refine ⟨p6, ?_, hs⟩
  unfold Srw.header
  dsimp only
  rw [a1, ok_bind, a2, ok_bind]
  dsimp only
  rw [a3, ok_bind, a4, ok_bind]
  dsimp only
  rw [a5, ok_bind, a6, ok_bind]
  dsimp only
  rw [Nat.sub_add_cancel hdep1, Nat.mod_eq_of_lt (by omega)]
  rfl

/-! ## The file -/

private theorem swapWords_length (l : List UInt8) : (swapWords l).length = l.length := by
  unfold swapWords; rw [List.length_map, List.length_range]

private theorem swapWords_append {l l' : List UInt8} (h4 : l.length % 4 = 0) : swapWords (l ++ l') = swapWords l ++ swapWords l' := by
  unfold swapWords
  rw [List.length_append, List.range_add, List.map_append, List.map_map]
  congr 1
  · apply List.map_congr_left
    intro i hi
    rw [List.mem_range] at hi
    rw [List.getD_append _ _ _ _ (by omega)]
  · apply List.map_congr_left
    intro i hi
    show (l ++ l').getD ((l.length + i) / 4 * 4 + (3 - (l.length + i) % 4)) 0 = _
    rw [List.getD_append_right _ _ _ _ (by omega)]
    congr 1
    omega

private theorem line3_le (w : Nat) (diff : Nat → Nat → Int) (ch : Nat → Srw3Block) (r : Nat) : ∀ v ∈ srw3Line hd w diff ch r, v ≤ 1 := by
  intro v hv
  unfold srw3Line srw3BlockBits signedBits at hv
  simp only [List.mem_flatMap, List.mem_append] at hv
  obtain ⟨g, _, (((hv | hv) | hv) | hv) | ⟨_, _, hv⟩⟩ := hv
  · split at hv
    · unfold Srw3Scale.bits at hv
      split at hv
      · exact bitsOf_le _ _ v hv
      · exact bitsOf_le _ _ v hv
      · exact bitsOf_le _ _ v hv
      · rw [List.mem_append] at hv
        rcases hv with hv | hv <;> exact bitsOf_le _ _ v hv
    · cases hv
  · split at hv
    · split at hv <;> simp only [List.mem_singleton] at hv <;> omega
    · split at hv
      · rw [List.mem_append, List.mem_singleton] at hv
        rcases hv with hv | hv
        · omega
        · exact bitsOf_le _ _ v hv
      · rw [List.mem_singleton] at hv; omega
  · split at hv
    · cases hv
    · split at hv <;> simp only [List.mem_singleton] at hv <;> omega
  · split at hv
    · cases hv
    · simp only [List.mem_append, List.mem_flatMap] at hv
      rcases hv with ⟨_, _, hv⟩ | ⟨_, _, hv⟩
      · exact bitsOf_le _ _ v hv
      · unfold LenChange.extra at hv
        split at hv
        · exact bitsOf_le _ _ v hv
        · cases hv
  · exact bitsOf_le _ _ v hv

private theorem fill16_length (l : List UInt8) : (fill16 l).length = (l.length + 15) / 16 * 16 := by
  unfold fill16
  rw [List.length_append, List.length_replicate]
  omega

private theorem flatMap_mod {f : Nat → List UInt8} {k : Nat} (h : ∀ r, (f r).length % k = 0) : ∀ l : List Nat, (l.flatMap f).length % k = 0
  | [] => Nat.zero_mod k
  | r :: l => by
    rw [List.flatMap_cons, List.length_append, Nat.add_mod, h r, flatMap_mod h l, Nat.zero_add, Nat.zero_mod]

/-- **Lossless** (C72). -/
theorem srw3_roundtrip (bd : Build) (hd : Srw3Header) (a b c : List Nat) (w h : Nat) (pic : Nat → Nat → Nat) (diff : Nat → Nat → Int) (ch : Nat → Nat → Srw3Block) (tail : Bytes)
    (hw : w % 16 = 0) (hdep1 : 1 ≤ hd.depth) (hdep : hd.depth ≤ 15) (hi : hd.init < 2 ^ 14) (hp : ∀ r c, r < h → c < w → pic r c < 2 ^ hd.depth)
    (ha : a.length = 20) (hb : b.length = 60) (hc : c.length = 26) (habc : ∀ v ∈ a ++ b ++ c, v ≤ 1)
    (hL : ∀ r, r < h → Srw3Legal hd w pic diff (ch r) r) (hlen : (encodeSrw3 hd a b c w h diff ch).length < 2 ^ 63) :
    Srw.decodeSrw3 bd (encodeSrw3 hd a b c w h diff ch ++ tail) w h = .ok (raster w h pic) := by
  have hhlen : (srw3HeaderBits hd a b c).length = 128 := by
    unfold srw3HeaderBits
    simp only [List.length_append, bitsOf_length, List.length_cons, List.length_nil, ha, hb, hc]
  have hhle : ∀ v ∈ srw3HeaderBits hd a b c, v ≤ 1 := by
    intro v hv
    unfold srw3HeaderBits at hv
    simp only [List.mem_append] at hv
    simp only [List.mem_append] at habc
    rcases hv with ((((hv | hv) | hv) | hv) | hv) | hv
    · exact habc v (Or.inl (Or.inl hv))
    · exact bitsOf_le _ _ v hv
    · exact habc v (Or.inl (Or.inr hv))
    · simp only [List.mem_cons, List.not_mem_nil, or_false] at hv
      rcases hv with hv | hv | hv | hv
      · omega
      · split at hv <;> omega
      · split at hv <;> omega
      · split at hv <;> omega
    · exact habc v (Or.inr hv)
    · exact bitsOf_le _ _ v hv
  have hhp : (packBits (srw3HeaderBits hd a b c)).length = 16 := by
    unfold packBits
    rw [List.length_map, List.length_range, hhlen]
  generalize hline : (fun r => fill16 (packBits (srw3Line hd w diff (ch r) r))) = line
  have hl16 : ∀ r, (line r).length % 16 = 0 := by
    intro r; subst hline; dsimp only; rw [fill16_length]; omega
  -- The start of a line.
  generalize hS : (fun r => 16 + ((List.range r).flatMap line).length) = S
  have hS0 : S 0 = 16 := by subst hS; rfl
  have hS1 : ∀ r, S (r + 1) = S r + ((packBits (srw3Line hd w diff (ch r) r)).length + 15) / 16 * 16 := by
    intro r
    subst hS
    dsimp only
    rw [List.range_succ, List.flatMap_append, List.length_append, List.flatMap_cons, List.flatMap_nil, List.append_nil, ← fill16_length]
    subst hline
    dsimp only
    omega
  have hS16 : ∀ r, S r % 16 = 0 := by
    intro r
    subst hS
    have := flatMap_mod hl16 (List.range r)
    dsimp only
    omega
  have hbuf : encodeSrw3 hd a b c w h diff ch = swapWords (packBits (srw3HeaderBits hd a b c) ++ (List.range h).flatMap line) := by
    subst hline; rfl
  have hdrop : ∀ r, r < h → ∃ rest, (encodeSrw3 hd a b c w h diff ch ++ tail).drop (S r) = swapWords (packBits (srw3Line hd w diff (ch r) r) ++ rest) ++ tail ∧
      ((packBits (srw3Line hd w diff (ch r) r)).length + rest.length) % 4 = 0 ∧ S (r + 1) ≤ (encodeSrw3 hd a b c w h diff ch).length := by
    intro r hr
    refine ⟨List.replicate ((16 - (packBits (srw3Line hd w diff (ch r) r)).length % 16) % 16) 0 ++ ((List.range h).drop (r + 1)).flatMap line, ?_, ?_, ?_⟩
    · have hsplit : (List.range h).flatMap line = (List.range r).flatMap line ++ (line r ++ ((List.range h).drop (r + 1)).flatMap line) := by
        conv => lhs; rw [← List.take_append_drop r (List.range h), List.flatMap_append, List.take_range, Nat.min_eq_left (Nat.le_of_lt hr)]
        congr 1
        rw [List.drop_eq_getElem_cons (by simpa using hr), List.flatMap_cons]
        simp
      have h4 : (packBits (srw3HeaderBits hd a b c) ++ (List.range r).flatMap line).length % 4 = 0 := by
        have := hS16 r
        rw [List.length_append, hhp]
        subst hS
        dsimp only at this
        omega
      rw [hbuf, hsplit, ← List.append_assoc, swapWords_append h4, List.append_assoc, List.drop_append_of_le_length (by
        rw [swapWords_length, List.length_append, hhp]; subst hS; exact Nat.le_refl _), List.drop_eq_nil_of_le (by
        rw [swapWords_length, List.length_append, hhp]; subst hS; exact Nat.le_refl _), List.nil_append]
      subst hline
      dsimp only
      unfold fill16
      rw [List.append_assoc]
    · have := flatMap_mod hl16 ((List.range h).drop (r + 1))
      rw [List.length_append, List.length_replicate]
      omega
    · rw [hbuf, swapWords_length, List.length_append, hhp]
      have : ((List.range h).flatMap line).length = ((List.range (r + 1)).flatMap line).length + (((List.range h).drop (r + 1)).flatMap line).length := by
        conv => lhs; rw [← List.take_append_drop (r + 1) (List.range h), List.flatMap_append, List.take_range, Nat.min_eq_left (show r + 1 ≤ h by omega), List.length_append]
      subst hS
      dsimp only
      omega
  -- The header.
  have hhead : ∃ p, Srw.header bd (Pump.new (encodeSrw3 hd a b c w h diff ch ++ tail)) = .ok (head3 hd, p) ∧ p.getPos bd = .ok 16 := by
    have h4 : ((packBits (srw3HeaderBits hd a b c)).length + ((List.range h).flatMap line).length) % 4 = 0 := by
      have := flatMap_mod hl16 (List.range h)
      omega
    obtain ⟨f1, f2⟩ := follows_swapped hhle h4 tail
    rw [← hbuf] at f1 f2
    obtain ⟨p, k1, k2⟩ := header3_ok (e := 128) (rest := []) (readsMSB32 bd (encodeSrw3 hd a b c w h diff ch ++ tail)) ha hb hc hdep1 (by omega) hi
      ⟨0, 0, atMSB_new _ _, by rw [List.append_nil]; exact f1, by rw [List.append_nil, hhlen], by rw [← hhlen]; exact f2⟩
    exact ⟨p, k1, getPos_ok k2⟩
  obtain ⟨p, k1, k2⟩ := hhead
  unfold Srw.decodeSrw3
  rw [k1, ok_bind]
  dsimp only
  obtain ⟨s, k3, k4, -⟩ := forRange_inv (fun r (s : List Nat × Nat × Pump) => s.1 = raster w h (done3 pic r 0) ∧
      ∃ n, s.2.2.getPos bd = .ok n ∧ (s.2.1 + n + 15) / 16 * 16 = S r) (Nat.zero_le h)
    (f := Srw.row3 bd (head3 hd) (encodeSrw3 hd a b c w h diff ch ++ tail) w) (s := (List.replicate (w * h) 0, 0, p)) (by
      dsimp only
      refine ⟨?_, 16, k2, by rw [hS0]⟩
      rw [← raster_zero]
      apply raster_congr
      intro r c _ _
      unfold done3
      rw [if_neg (by omega)]) (by
      rintro r ⟨out, off, p⟩ _ hr ⟨rfl, n, j1, j2⟩
      dsimp only at j1 j2
      obtain ⟨rest, d1, d2, d3⟩ := hdrop r hr
      have hSr := hS1 r
      obtain ⟨f1, f2⟩ := follows_swapped (line3_le (hd := hd) w diff (ch r) r) d2 tail
      obtain ⟨s, e1, e2, e3⟩ := line3_ok bd hr hw hdep1 hdep hp (hL r hr) f1 f2
      refine ⟨(s.out, S r, s.pump), ?_, e2, _, e3, ?_⟩
      · unfold Srw.row3
        dsimp only
        rw [j1, ok_bind, addU_ok (by omega), ok_bind]
        have fin : (do
            let src ← sliceFrom (encodeSrw3 hd a b c w h diff ch ++ tail) (S r)
            let init := if r < 2 then 7 else 4
            let x ← forStep 0 w 16 (Srw.block3 bd (head3 hd) w r) ⟨raster w h (done3 pic r 0), 7, 0, List.replicate 3 [init, init], Pump.new src⟩
            .ok (x.out, S r, x.pump)) = (.ok (s.out, S r, s.pump) : M (List Nat × Nat × Pump)) := by
          rw [sliceFrom_le (by rw [List.length_append]; omega), ok_bind, d1]
          show (forStep 0 w 16 (Srw.block3 bd (head3 hd) w r) ⟨raster w h (done3 pic r 0), 7, 0, List.replicate 3 [srw1First r, srw1First r], Pump.new _⟩ >>= _) = _
          rw [e1]
          rfl
        by_cases h16 : (off + n) % 16 ≠ 0
        · rw [if_pos h16, addU_ok (by omega), ok_bind, show off + n + (16 - (off + n) % 16) = S r by omega]
          exact fin
        · rw [if_neg h16, show off + n = S r by omega]
          exact fin
      · dsimp only
        rw [hSr]
        have := hS16 r
        omega)
  rw [k3, ok_bind, k4, raster_congr (q := pic)]
  intro r c hr _
  unfold done3
  rw [if_pos (by omega)]

/-- Such choices exist for every picture with at most 14 bits, whatever the header says: all samples from the left, with all bits. -/
theorem srw3_plain (bd : Build) (hd : Srw3Header) (a b c : List Nat) (w h : Nat) (pic : Nat → Nat → Nat) (tail : Bytes)
    (hw : w % 16 = 0) (hdep1 : 1 ≤ hd.depth) (hdep : hd.depth ≤ 14) (hi : hd.init < 2 ^ hd.depth) (hp : ∀ r c, r < h → c < w → pic r c < 2 ^ hd.depth)
    (ha : a.length = 20) (hb : b.length = 60) (hc : c.length = 26) (habc : ∀ v ∈ a ++ b ++ c, v ≤ 1)
    (hlen : (encodeSrw3 hd a b c w h (srw3PlainDiff hd pic) fun _ _ => srw3PlainBlock hd).length < 2 ^ 63) :
    Srw.decodeSrw3 bd (encodeSrw3 hd a b c w h (srw3PlainDiff hd pic) (fun _ _ => srw3PlainBlock hd) ++ tail) w h = .ok (raster w h pic) := by
  refine srw3_roundtrip bd hd a b c w h pic _ _ tail hw hdep1 (by omega) (Nat.lt_of_lt_of_le hi (Nat.pow_le_pow_right (by omega) hdep)) hp ha hb hc habc ?_ hlen
  intro r hr g hg
  have hmode : ∀ g, srw3Mode (fun _ => srw3PlainBlock hd) g = 7 := by
    intro g
    induction g with
    | zero => rfl
    | succ g ih => exact ih
  have hskip : ∀ g, srw3Skips hd (fun _ => srw3PlainBlock hd) g = false := by
    intro g; exact Bool.and_false _
  have hlens : ∀ g i, srw3Lens hd (fun _ => srw3PlainBlock hd) (srw1First r) (g + 1) i = hd.depth + 1 := by
    intro g i; rw [srw3Lens, hskip]; rfl
  have hscale : srw3Scale hd (fun _ => srw3PlainBlock hd) g = 0 := by
    unfold srw3Scale; split <;> rfl
  refine ⟨trivial, Or.inl (hmode _), fun _ => Or.inr (hmode _), fun _ i _ => ⟨by show hd.depth + 1 < 16; omega, by rw [hlens]⟩, ?_⟩
  intro i hi16
  have hord := (rank_order (r := r) hi16).2
  rw [hmode, hscale]
  unfold srw3Used
  rw [hskip, hlens, if_neg (by decide)]
  generalize srw3Order r i = x at hord
  unfold srw3Pred SignedFits srw3PlainDiff
  dsimp only
  have h1 := hp r (16 * g + x) hr (by omega)
  have hcast : ((2 : Int) ^ (hd.depth + 1)) = 2 * ((2 ^ hd.depth : Nat) : Int) := by rw [Int.pow_succ, Int.mul_comm]; push_cast; rfl
  rw [if_pos rfl, hcast]
  generalize 2 ^ hd.depth = q at *
  by_cases hg0 : g = 0
  · subst hg0
    rw [if_pos (by omega), if_pos rfl]
    omega
  · rw [if_neg (by omega), if_neg hg0, show (16 * g + x) / 16 * 16 - 2 + (16 * g + x) % 2 = 16 * g - 2 + x % 2 by omega]
    have h2 := hp r (16 * g - 2 + x % 2) hr (by omega)
    omega

private theorem reference_lt {b : Build} {hh : Srw.Header} {w r c m i : Nat} {o o' : List Nat} (hok : Srw.reference b hh w r c m i o = .ok o') : w * r + c + i < o.length := by
  have fin : ∀ v, setIdx o (w * r + c + i) v = .ok o' → w * r + c + i < o.length := fun v h => (setIdx_eq_ok.mp h).1
  unfold Srw.reference at hok
  dsimp only at hok
  split at hok
  · split at hok
    · exact fin _ hok
    · obtain ⟨v, -, hok⟩ := bind_eq_ok.mp hok
      exact fin _ hok
  · obtain ⟨_, -, hok⟩ := bind_eq_ok.mp hok
    obtain ⟨_, -, hok⟩ := bind_eq_ok.mp hok
    obtain ⟨_, -, hok⟩ := bind_eq_ok.mp hok
    split at hok
    · obtain ⟨_, -, hok⟩ := bind_eq_ok.mp hok
      obtain ⟨_, -, hok⟩ := bind_eq_ok.mp hok
      obtain ⟨_, -, hok⟩ := bind_eq_ok.mp hok
      obtain ⟨_, -, hok⟩ := bind_eq_ok.mp hok
      exact fin _ hok
    · obtain ⟨_, -, hok⟩ := bind_eq_ok.mp hok
      exact fin _ hok

private theorem block3_lt {b : Build} {hh : Srw.Header} {w r c : Nat} {s s' : Srw.Row3} (hok : Srw.block3 b hh w r c s = .ok s') : w * r + c + 15 < s.out.length := by
  unfold Srw.block3 at hok
  obtain ⟨⟨_, _⟩, -, hok⟩ := bind_eq_ok.mp hok
  obtain ⟨⟨m, _⟩, -, hok⟩ := bind_eq_ok.mp hok
  dsimp only at hok
  split at hok
  · cases hok
  · obtain ⟨o, h1, -⟩ := bind_eq_ok.mp hok
    unfold forRange at h1
    rw [show 16 - 0 = 15 + 1 from rfl, loopN_add] at h1
    obtain ⟨o1, h2, h3⟩ := bind_eq_ok.mp h1
    have hl : o1.length = s.out.length := by
      refine loopN_ok (fun _ (o : List Nat) => o.length = s.out.length) _ _ _ _ _ rfl ?_ h2
      intro i o o' _ _ ho hr
      exact ((Srw.post_reference b hh w r c m i o).2 o' hr).trans ho
    rw [loopN] at h3
    obtain ⟨o2, h4, -⟩ := bind_eq_ok.mp h3
    have := reference_lt h4
    omega

/-- A picture whose width is not a multiple of 16 is never returned: the last block of the last line does not fit. -/
theorem srw3_width (b : Build) (buf : Bytes) (w h : Nat) (hw : w % 16 ≠ 0) (hh : 0 < h) (out : List Nat) : Srw.decodeSrw3 b buf w h ≠ .ok out := by
  intro hok
  unfold Srw.decodeSrw3 at hok
  obtain ⟨⟨hd, p⟩, -, hok⟩ := bind_eq_ok.mp hok
  obtain ⟨s, hok, -⟩ := bind_eq_ok.mp hok
  unfold forRange at hok
  rw [show h - 0 = (h - 1) + 1 by omega, loopN_add] at hok
  obtain ⟨s1, h1, h2⟩ := bind_eq_ok.mp hok
  have hl : s1.1.length = w * h := by
    refine loopN_ok (fun _ (s : List Nat × Nat × Pump) => s.1.length = w * h) _ _ _ _ _ (List.length_replicate ..) ?_ h1
    intro r o o' _ _ ho hr
    exact ((Srw.post_row3 b hd buf w r o).2 o' hr).trans ho
  rw [loopN] at h2
  obtain ⟨s2, h3, -⟩ := bind_eq_ok.mp h2
  unfold Srw.row3 at h3
  have fin : ∀ (init : Srw.Row3) (r : Srw.Row3), init.out = s1.1 → forStep 0 w 16 (Srw.block3 b hd w (0 + (h - 1))) init = .ok r → False := by
    intro init r hi hr
    unfold forStep at hr
    rw [show (w - 0 + 16 - 1) / 16 = w / 16 + 1 by omega, loopN_add] at hr
    obtain ⟨r1, k1, k2⟩ := bind_eq_ok.mp hr
    have hl1 : r1.out.length = w * h := by
      refine loopN_ok (fun _ (s : Srw.Row3) => s.out.length = w * h) _ _ _ _ _ (by rw [hi]; exact hl) ?_ k1
      intro j o o' _ _ ho hr
      exact ((Srw.post_block3 b hd w _ _ o).2 o' hr).trans ho
    rw [loopN] at k2
    obtain ⟨r2, k3, -⟩ := bind_eq_ok.mp k2
    have := block3_lt k3
    rw [hl1, show 0 + (h - 1) = h - 1 by omega] at this
    have e : w * h = w * (h - 1) + w := by
      conv => lhs; rw [show h = (h - 1) + 1 by omega, Nat.mul_add, Nat.mul_one]
    omega
  obtain ⟨pos, -, h3⟩ := bind_eq_ok.mp h3
  obtain ⟨off, -, h3⟩ := bind_eq_ok.mp h3
  dsimp only at h3
  by_cases h16 : off % 16 ≠ 0
  · rw [if_pos h16] at h3
    obtain ⟨off, -, h3⟩ := bind_eq_ok.mp h3
    obtain ⟨src, -, h3⟩ := bind_eq_ok.mp h3
    obtain ⟨r, h3, -⟩ := bind_eq_ok.mp h3
    exact fin _ r rfl h3
  · rw [if_neg h16, ok_bind] at h3
    obtain ⟨src, -, h3⟩ := bind_eq_ok.mp h3
    obtain ⟨r, h3, -⟩ := bind_eq_ok.mp h3
    exact fin _ r rfl h3

/-! ## Examples -/

/-- Two lines from the left; then two lines from the two above, without differences but with a scale of 7, which is added to all samples. -/
private def picExample (r c : Nat) : Nat :=
  if r = 0 then 40 + c else if r = 1 then 60 + 3 * c else if r = 2 then if c % 2 = 1 then 47 + c else 70 + 3 * c else if c % 2 = 0 then 67 + 3 * c else 74 + 3 * c

private def headExample : Srw3Header := ⟨8, false, false, false, 50⟩

private def choiceExample (r _g : Nat) : Srw3Block := if r < 2 then srw3PlainBlock headExample else ⟨.set 7, some 3, true, fun _ => .keep⟩

private def diffExample (r x : Nat) : Int := if r < 2 then srw3PlainDiff headExample picExample r x else 0

example (bd : Build) (tail : Bytes) : Srw.decodeSrw3 bd (encodeSrw3 headExample (List.replicate 20 1) (List.replicate 60 0) (List.replicate 26 1) 16 4 diffExample choiceExample ++ tail) 16 4 =
    .ok (raster 16 4 picExample) := by
  refine srw3_roundtrip bd headExample _ _ _ 16 4 picExample _ _ tail rfl (by decide) (by decide) (by decide) ?_ rfl rfl rfl (by decide +kernel) ?_ (by decide +kernel)
  · intro r c hr hc
    exact (by decide +kernel : ∀ r, r < 4 → ∀ c, c < 16 → picExample r c < 256) r hr c hc
  · decide +kernel

/-- The header has 16 bytes, the first lines have 32 and the others 16; 64 samples of 8 bits. -/
example : (encodeSrw3 headExample (List.replicate 20 1) (List.replicate 60 0) (List.replicate 26 1) 16 4 diffExample choiceExample).length = 112 := by decide +kernel

end Props

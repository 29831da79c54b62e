import Verif.Model.Packed
import Verif.Lemmas.Packed
/-!
# Lemmas on the one-word-per-sample decoders
-/

namespace Model
open Rust Spec

theorem take_succ_getElem {α : Type} (l : List α) (n : Nat) (h : n < l.length) : l.take (n + 1) = l.take n ++ [l[n]] := by
  rw [List.take_succ, List.getElem?_eq_getElem h]; rfl

/-- The word loop computes the words in order and leaves the rest of the line alone. -/
theorem wordLoop_take (w : Nat) (f : Bytes → M Nat) (inb : Bytes) (n : Nat) (hn : n ≤ min w ((inb.length + 1) / 2)) :
    (((List.range w).zip (chunks 2 inb)).take n).foldlM (fun out p => do
      let v ← f p.2
      setIdx out p.1 v) (List.replicate w 0) =
    (do
      let vs ← (List.range n).mapM (fun c => f ((inb.drop (2 * c)).take 2))
      .ok (vs ++ List.replicate (w - n) 0)) := by
  induction n with
  | zero => simp
  | succ n ih =>
    have hcl := chunks_length 2 (by omega) inb
    have hlen : n < ((List.range w).zip (chunks 2 inb)).length := by
      rw [List.length_zip, List.length_range, hcl]; omega
    rw [take_succ_getElem _ _ hlen, List.foldlM_append, ih (by omega), List.range_succ, List.mapM_append]
    have hc : (chunks 2 inb)[n]'(by omega) = (inb.drop (2 * n)).take 2 := by
      have := chunks_getElem? 2 (by omega) inb n
      rw [if_pos (by omega), List.getElem?_eq_getElem (by omega)] at this
      simpa using this
    cases hm : (List.range n).mapM (fun c => f ((inb.drop (2 * c)).take 2)) with
    | error e => simp
    | ok vs =>
      have hvl : vs.length = n := by
        have := ((mapM_eq_ok_iff _ _ _).mp hm).1
        simpa using this
      simp only [ok_bind, List.foldlM_cons, List.foldlM_nil, List.getElem_zip, hc, List.mapM_cons, List.mapM_nil,
        List.getElem_range]
      cases hv : f ((inb.drop (2 * n)).take 2) with
      | error e => simp
      | ok v =>
        simp only [ok_bind, pure_eq_ok]
        rw [setIdx_lt (by simp; omega)]
        simp only [ok_bind, Except.ok.injEq]
        obtain ⟨k, hk⟩ : ∃ k, w - n = k + 1 := ⟨w - n - 1, by omega⟩
        rw [hk, List.set_append]
        have : w - (n + 1) = k := by omega
        simp [hvl, this, List.replicate_succ]

theorem wordLoop_def (w : Nat) (f : Bytes → M Nat) (inb : Bytes) :
    wordLoop w f (List.replicate w 0) inb =
    (do
      let vs ← (List.range (min w ((inb.length + 1) / 2))).mapM (fun c => f ((inb.drop (2 * c)).take 2))
      .ok (vs ++ List.replicate (w - min w ((inb.length + 1) / 2)) 0)) := by
  rw [← wordLoop_take w f inb _ (Nat.le_refl _)]
  unfold wordLoop
  rw [List.take_of_length_le]
  rw [List.length_zip, List.length_range, chunks_length 2 (by omega)]; omega

/-- What a word reader does: a value on two bytes, a panic on fewer. -/
structure WordDec (f : Bytes → M Nat) (px : Nat → Nat → Nat) : Prop where
  full : ∀ i, i.length = 2 → f i = .ok (px (bytesOf i 0) (bytesOf i 1))
  short : ∀ i, i.length < 2 → f i = crash

variable {f : Bytes → M Nat} {px : Nat → Nat → Nat}

theorem WordDec.at (hd : WordDec f px) (inb : Bytes) (c : Nat) (h : 2 * c + 2 ≤ inb.length) :
    f ((inb.drop (2 * c)).take 2) = .ok (px (bytesOf inb (2 * c)) (bytesOf inb (2 * c + 1))) := by
  rw [hd.full _ (by simp; omega), bytesOf_drop_take _ _ _ _ (by omega), bytesOf_drop_take _ _ _ _ (by omega)]
  simp

theorem WordDec.line (hd : WordDec f px) (w : Nat) (inb : Bytes) (h : 2 * w ≤ inb.length) :
    wordLoop w f (List.replicate w 0) inb =
      .ok ((List.range w).map fun c => px (bytesOf inb (2 * c)) (bytesOf inb (2 * c + 1))) := by
  rw [wordLoop_def]
  have : min w ((inb.length + 1) / 2) = w := by omega
  rw [this, mapM_ok (g := fun c => px (bytesOf inb (2 * c)) (bytesOf inb (2 * c + 1)))]
  · simp
  · intro c hc
    rw [List.mem_range] at hc
    exact hd.at inb c (by omega)

theorem WordDec.line_ok (hd : WordDec f px) (w : Nat) (inb : Bytes) (r : List Nat)
    (h : wordLoop w f (List.replicate w 0) inb = .ok r) :
    r = (List.range w).map fun c =>
      if 2 * c + 2 ≤ inb.length then px (bytesOf inb (2 * c)) (bytesOf inb (2 * c + 1)) else 0 := by
  rw [wordLoop_def, bind_eq_ok] at h
  obtain ⟨vs, hvs, h⟩ := h
  simp only [Except.ok.injEq] at h
  subst h
  rw [mapM_eq_ok_iff] at hvs
  obtain ⟨hl, hvs⟩ := hvs
  rw [List.length_range] at hl
  apply List.ext_getElem
  · simp [hl]; omega
  · intro c h1 h2
    simp only [List.getElem_map, List.getElem_range, List.getElem_append]
    split
    · rename_i hc
      obtain ⟨b, hb, hfb⟩ := hvs c c (by rw [List.getElem?_range (by omega)])
      rw [List.getElem?_eq_getElem hc] at hb
      simp only [Option.some.injEq] at hb
      rw [hb]
      by_cases h3 : 2 * c + 2 ≤ inb.length
      · rw [hd.at inb c h3] at hfb
        simp only [Except.ok.injEq] at hfb
        rw [if_pos h3, hfb]
      · rw [hd.short _ (by simp; omega)] at hfb
        simp at hfb
    · rename_i hc
      simp at h2
      rw [if_neg (by omega)]
      simp

theorem WordDec.rows (hd : WordDec f px) (w h : Nat) (hw : 0 < w) (buf : Bytes) (off : Nat → Nat)
    (hsrc : ∀ r, r < h → off r + 2 * w ≤ buf.length) :
    decodeThreaded w h (fun out row => do
      let inb ← sliceFrom buf (off row)
      wordLoop w f out inb) =
      .ok (raster w h fun r c => px (bytesOf buf (off r + 2 * c)) (bytesOf buf (off r + 2 * c + 1))) := by
  apply decodeThreaded_eq hw
  intro r hr
  have := hsrc r hr
  rw [sliceFrom_le (by omega), ok_bind, hd.line w _ (by simp; omega)]
  simp only [bytesOf_drop, Nat.add_assoc]

theorem WordDec.rows_ok (hd : WordDec f px) (w h : Nat) (buf : Bytes) (off : Nat → Nat) (out : List Nat)
    (ho : decodeThreaded w h (fun out row => do
      let inb ← sliceFrom buf (off row)
      wordLoop w f out inb) = .ok out) :
    out = raster w h fun r c =>
      if off r + 2 * c + 2 ≤ buf.length then px (bytesOf buf (off r + 2 * c)) (bytesOf buf (off r + 2 * c + 1)) else 0 := by
  have hlen : ∀ r l, r < h → (do let inb ← sliceFrom buf (off r); wordLoop w f (List.replicate w 0) inb) = .ok l →
      l.length = w := by
    intro r l _ hl
    rw [bind_eq_ok] at hl
    obtain ⟨inb, _, hl⟩ := hl
    rw [hd.line_ok w inb l hl]; simp
  obtain ⟨hw, rows, rfl, hrows⟩ := decodeThreaded_ok hlen ho
  apply raster_congr
  intro r c hr hc
  have := hrows r hr
  rw [bind_eq_ok] at this
  obtain ⟨inb, hinb, hz⟩ := this
  have hz := hd.line_ok w inb _ hz
  rw [sliceFrom_eq_ok] at hinb
  obtain ⟨hle, rfl⟩ := hinb
  rw [List.map_inj_left] at hz
  have := hz c (by simpa using hc)
  rw [this, List.length_drop]
  simp only [bytesOf_drop, Nat.add_assoc]
  by_cases hq : 2 * c + 2 ≤ buf.length - off r
  · rw [if_pos hq, if_pos (by omega)]
  · rw [if_neg hq, if_neg (by omega)]

theorem LEu16_eq {buf : Bytes} {pos : Nat} (h : pos + 2 ≤ buf.length) :
    LEu16 buf pos = .ok (bytesOf buf (pos + 1) * 256 + bytesOf buf pos) := by
  have hl : ((buf.take (pos + 2)).drop pos).length = 2 := by simp; omega
  have hb : ∀ i, i < 2 → bytesOf ((buf.take (pos + 2)).drop pos) i = bytesOf buf (pos + i) := by
    intro i hi
    rw [bytesOf_drop]
    simp [bytesOf, hi]
  simp only [LEu16, slice_le (show pos ≤ pos + 2 by omega) h, ok_bind, byteAt_lt (show 0 < _ by rw [hl]; omega),
    byteAt_lt (show 1 < _ by rw [hl]; omega), hb 0 (by omega), hb 1 (by omega), Nat.add_zero]

theorem BEu16_eq {buf : Bytes} {pos : Nat} (h : pos + 2 ≤ buf.length) :
    BEu16 buf pos = .ok (bytesOf buf pos * 256 + bytesOf buf (pos + 1)) := by
  have hl : ((buf.take (pos + 2)).drop pos).length = 2 := by simp; omega
  have hb : ∀ i, i < 2 → bytesOf ((buf.take (pos + 2)).drop pos) i = bytesOf buf (pos + i) := by
    intro i hi
    rw [bytesOf_drop]
    simp [bytesOf, hi]
  simp only [BEu16, slice_le (show pos ≤ pos + 2 by omega) h, ok_bind, byteAt_lt (show 0 < _ by rw [hl]; omega),
    byteAt_lt (show 1 < _ by rw [hl]; omega), hb 0 (by omega), hb 1 (by omega), Nat.add_zero]

theorem LEu32_eq {buf : Bytes} {pos : Nat} (h : pos + 4 ≤ buf.length) :
    LEu32 buf pos = .ok (bytesOf buf (pos + 3) * 16777216 + bytesOf buf (pos + 2) * 65536 +
      bytesOf buf (pos + 1) * 256 + bytesOf buf pos) := by
  have hl : ((buf.take (pos + 4)).drop pos).length = 4 := by simp; omega
  have hb : ∀ i, i < 4 → bytesOf ((buf.take (pos + 4)).drop pos) i = bytesOf buf (pos + i) := by
    intro i hi
    rw [bytesOf_drop]
    simp [bytesOf, hi]
  simp only [LEu32, slice_le (show pos ≤ pos + 4 by omega) h, ok_bind, byteAt_lt (show 0 < _ by rw [hl]; omega),
    byteAt_lt (show 1 < _ by rw [hl]; omega), byteAt_lt (show 2 < _ by rw [hl]; omega),
    byteAt_lt (show 3 < _ by rw [hl]; omega), hb 0 (by omega), hb 1 (by omega), hb 2 (by omega), hb 3 (by omega), Nat.add_zero]

theorem BEu32_eq {buf : Bytes} {pos : Nat} (h : pos + 4 ≤ buf.length) :
    BEu32 buf pos = .ok (bytesOf buf pos * 16777216 + bytesOf buf (pos + 1) * 65536 +
      bytesOf buf (pos + 2) * 256 + bytesOf buf (pos + 3)) := by
  have hl : ((buf.take (pos + 4)).drop pos).length = 4 := by simp; omega
  have hb : ∀ i, i < 4 → bytesOf ((buf.take (pos + 4)).drop pos) i = bytesOf buf (pos + i) := by
    intro i hi
    rw [bytesOf_drop]
    simp [bytesOf, hi]
  simp only [BEu32, slice_le (show pos ≤ pos + 4 by omega) h, ok_bind, byteAt_lt (show 0 < _ by rw [hl]; omega),
    byteAt_lt (show 1 < _ by rw [hl]; omega), byteAt_lt (show 2 < _ by rw [hl]; omega),
    byteAt_lt (show 3 < _ by rw [hl]; omega), hb 0 (by omega), hb 1 (by omega), hb 2 (by omega), hb 3 (by omega), Nat.add_zero]

theorem LEu16_short {buf : Bytes} {pos : Nat} (h : buf.length < pos + 2) : LEu16 buf pos = crash := by
  simp [LEu16, slice_gt h]
theorem BEu16_short {buf : Bytes} {pos : Nat} (h : buf.length < pos + 2) : BEu16 buf pos = crash := by
  simp [BEu16, slice_gt h]
theorem LEu32_short {buf : Bytes} {pos : Nat} (h : buf.length < pos + 4) : LEu32 buf pos = crash := by
  simp [LEu32, slice_gt h]
theorem BEu32_short {buf : Bytes} {pos : Nat} (h : buf.length < pos + 4) : BEu32 buf pos = crash := by
  simp [BEu32, slice_gt h]

theorem wordLE : WordDec (fun bytes => LEu16 bytes 0) (fun b0 b1 => b0 + 256 * b1) where
  full := by intro i hi; rw [LEu16_eq (by omega)]; congr 1; simp only [Nat.zero_add]; omega
  short := by intro i hi; exact LEu16_short (by omega)

theorem wordBE : WordDec (fun bytes => BEu16 bytes 0) (fun b0 b1 => 256 * b0 + b1) where
  full := by intro i hi; rw [BEu16_eq (by omega)]; congr 1; simp only [Nat.zero_add]; omega
  short := by intro i hi; exact BEu16_short (by omega)

theorem WordDec.map (hd : WordDec f px) (g : Nat → Nat) :
    WordDec (fun i => do let v ← f i; .ok (g v)) (fun b0 b1 => g (px b0 b1)) where
  full := by intro i hi; rw [hd.full i hi]; rfl
  short := by intro i hi; rw [hd.short i hi]; rfl

end Model

import Verif.Model.Dec.Mos
import Verif.Lemmas.LoopsMore
import Verif.Lemmas.DecLjpeg
/-!
# C46: the lines of interlaced Leaf images
-/

namespace Spec

/-- Where the stored lines go: the even ones downwards from the first row, the odd ones upwards from the last. -/
def leafRow (height line : Nat) : Nat := if line % 2 = 0 then line / 2 else height - 1 - line / 2

end Spec

namespace Props
open Rust Spec Model

/-- C46. The places of the lines are a permutation of the rows. -/
theorem leaf_rows_permute (height : Nat) :
    (∀ line, line < height → leafRow height line < height) ∧
    (∀ line line', line < height → line' < height → leafRow height line = leafRow height line' → line = line') ∧
    ∀ row, row < height → ∃ line, line < height ∧ leafRow height line = row := by
  refine ⟨fun line h => ?_, fun line line' h h' e => ?_, fun row h => ?_⟩
  · unfold leafRow; split <;> omega
  · unfold leafRow at e; split at e <;> split at e <;> omega
  · by_cases hr : 2 * row < height
    · exact ⟨2 * row, hr, by unfold leafRow; rw [if_pos (by omega)]; omega⟩
    · exact ⟨2 * (height - 1 - row) + 1, by omega, by unfold leafRow; rw [if_neg (by omega)]; omega⟩

private theorem deinterlace_ok (b : Build) {width height : Nat} {lines : List Nat} (hw : 0 < width) (hl : lines.length = width * height) :
    ∃ out, Mos.deinterlace b width height lines = .ok out ∧ out.length = width * height ∧
      ∀ line col, line < height → col < width → out[leafRow height line * width + col]? = lines[line * width + col]? := by
  have hn : (chunks width lines).length = height := by
    rw [chunks_length width hw, hl, show width * height + width - 1 = width - 1 + width * height by omega, Nat.add_mul_div_left _ _ hw,
      Nat.div_eq_of_lt (by omega), Nat.zero_add]
  obtain ⟨perm1, perm2, -⟩ := leaf_rows_permute height
  have bound : ∀ line col, line < height → col < width → line * width + col < width * height := by
    intro line col h1 h2
    have : (line + 1) * width ≤ height * width := Nat.mul_le_mul_right _ h1
    rw [Nat.add_mul, Nat.one_mul, Nat.mul_comm height] at this
    omega
  unfold Mos.deinterlace
  rw [if_neg (by omega)]
  dsimp only
  rw [hn]
  obtain ⟨out, e1, e2⟩ := forRange_inv (P := fun line s => Wrote (List.replicate (width * height) 0) (fun line col => leafRow height line * width + col)
      (fun line col => lines.getD (line * width + col) 0) (fun r c => r < line ∧ c < width) s)
    (f := fun row out => do
      let line ← idx (chunks width lines) row
      let orow ← if row % 2 = 1 then do
          let h ← subU 64 b height 1
          subU 64 b h (row / 2)
        else .ok (row / 2)
      if line.length = width then copySlice out (orow * width) line else crash)
    (s := List.replicate (width * height) 0) (Nat.zero_le height) ⟨rfl, fun _ _ h => by omega, fun _ _ => rfl⟩ (by
      intro line s _ hline hs
      have hb := bound line (width - 1) hline (by omega)
      have hb' := bound (leafRow height line) (width - 1) (perm1 line hline) (by omega)
      have hlen : ((lines.drop (width * line)).take width).length = width := by
        rw [List.length_take, List.length_drop, hl, Nat.mul_comm width line]; omega
      rw [idx_eq_ok.mpr (by rw [chunks_getElem? width hw, if_pos (by rw [hl, Nat.mul_comm width line]; omega)]), ok_bind]
      obtain ⟨s', e1, e2⟩ := hs.copyRow (vals := (lines.drop (width * line)).take width) (row := line) (C := width) (pos := leafRow height line * width) hlen (by
        intro col hc
        have := bound line col hline hc
        rw [List.getElem?_take, if_pos hc, List.getElem?_drop, Nat.mul_comm width line, List.getD_eq_getElem?_getD, List.getElem?_eq_getElem (by omega)]
        rfl) (fun _ _ => rfl) (by rw [List.length_replicate]; omega) (by
        rintro r c col ⟨h1, h2⟩ h3 e
        have e1 : leafRow height r = leafRow height line := by
          have a : (leafRow height r * width + c) / width = leafRow height r := by
            rw [Nat.mul_comm, Nat.mul_add_div hw, Nat.div_eq_of_lt h2, Nat.add_zero]
          have b : (leafRow height line * width + col) / width = leafRow height line := by
            rw [Nat.mul_comm, Nat.mul_add_div hw, Nat.div_eq_of_lt h3, Nat.add_zero]
          rw [← a, e, b]
        have := perm2 r line (by omega) hline e1
        omega)
      refine ⟨s', ?_, e2.congr fun r c => by omega⟩
      unfold leafRow at e1
      by_cases h : line % 2 = 1
      · rw [if_neg (by omega)] at e1
        rw [if_pos h, subU_ok (by omega), ok_bind, subU_ok (by omega), ok_bind]
        dsimp only
        rw [if_pos hlen, e1]
      · rw [if_pos (by omega)] at e1
        rw [if_neg h, ok_bind]
        dsimp only
        rw [if_pos hlen, e1])
  refine ⟨out, e1, by have := e2.1; simpa using this, fun line col h1 h2 => ?_⟩
  have := e2.2.1 line col ⟨h1, h2⟩
  have hb := bound line col h1 h2
  dsimp only at this
  rw [this, List.getD_eq_getElem?_getD, List.getElem?_eq_getElem (by omega)]
  rfl

/-- C46. An interlaced image has its stored lines on their rows: if the JPEG stream decodes, so does the image, and every stored line
is found on its own row. By `leaf_rows_permute` this says what is on every row. -/
theorem leaf_deinterlace (b : Build) (cam : Camera) (src : Bytes) (width height : Nat) (d : Ljpeg.Decompressor) (lines : List Nat)
    (hint : cam.findHint (b! "interlaced") = true) (hd : Ljpeg.newFull b src true true = .ok d) (hl : d.decodeLeaf b width height = .ok lines) :
    ∃ out, Mos.decodeCompressed b cam src width height = .ok out ∧ lines.length = width * height ∧ out.length = width * height ∧
      ∀ line col, line < height → col < width → out[leafRow height line * width + col]? = lines[line * width + col]? := by
  have hlen : lines.length = width * height := (Ljpeg.post_decodeLeaf b ((Ljpeg.post_newFull b src true true).2 d hd) width height).2 lines hl
  have hw : 0 < width := by
    refine Nat.pos_of_ne_zero fun h0 => ?_
    subst h0
    unfold Ljpeg.Decompressor.decodeLeaf at hl
    obtain ⟨o, -, hl⟩ := bind_eq_ok.mp hl
    obtain ⟨h, -, hl⟩ := bind_eq_ok.mp hl
    dsimp only at hl
    split at hl
    · exact absurd hl (fail_ne_ok _ _)
    · obtain ⟨t1, -, hl⟩ := bind_eq_ok.mp hl
      obtain ⟨t2, -, hl⟩ := bind_eq_ok.mp hl
      obtain ⟨bp, -, hl⟩ := bind_eq_ok.mp hl
      unfold decodeThreadedMultiline parChunksMut at hl
      rw [Nat.zero_mul, if_pos rfl] at hl
      exact absurd hl (crash_ne_ok _)
  obtain ⟨out, e1, e2⟩ := deinterlace_ok b hw hlen
  refine ⟨out, ?_, hlen, e2⟩
  unfold Mos.decodeCompressed
  rw [hd, ok_bind, hl, ok_bind, hint]
  exact e1

/-- Five stored lines of two pixels. -/
example : Mos.deinterlace .debug 2 5 [1, 2, 3, 4, 5, 6, 7, 8, 9, 10] = .ok [1, 2, 5, 6, 9, 10, 7, 8, 3, 4] := by decide +kernel

end Props

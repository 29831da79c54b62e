import Verif.Lemmas.OpBuffer
/-!
# Properties C35 and C36: orientation
-/

namespace Props
open Rust Spec Model

variable {α : Type}

theorem orient_cases (o : Nat) : (o = 2 ∨ o = 3 ∨ o = 4 ∨ o = 5 ∨ o = 6 ∨ o = 7 ∨ o = 8) ∨
    ((∀ h w r c, exifPlace o h w r c = (r, c)) ∧ exifSwaps o = false ∧ (Orientation.fromU16 o).toFlips = (false, false, false)) := by
  by_cases h : 2 ≤ o ∧ o ≤ 8
  · left; omega
  · right
    refine ⟨?_, ?_, ?_⟩
    · intro h w r c
      unfold exifPlace
      split <;> first | rfl | omega
    · unfold exifSwaps
      simp only [Bool.and_eq_false_iff, decide_eq_false_iff_not]
      omega
    · unfold Orientation.fromU16
      split <;> first | rfl | omega

/-- The exif place of a pixel is inside the displayed picture. -/
theorem exifPlace_inside (o h w r c : Nat) (hr : r < h) (hc : c < w) :
    (exifPlace o h w r c).1 < (if exifSwaps o then w else h) ∧ (exifPlace o h w r c).2 < (if exifSwaps o then h else w) := by
  rcases orient_cases o with (rfl | rfl | rfl | rfl | rfl | rfl | rfl) | ⟨h1, h2, _⟩
  all_goals first
    | (rw [h1, h2]; exact ⟨hr, hc⟩)
    | (simp [exifPlace, exifSwaps]; omega)

/-- Different stored pixels are displayed at different places. -/
theorem exifPlace_injective (o h w r c r' c' : Nat) (hr : r < h) (hc : c < w) (hr' : r' < h) (hc' : c' < w)
    (he : exifPlace o h w r c = exifPlace o h w r' c') : r = r' ∧ c = c' := by
  unfold exifPlace at he
  split at he <;> simp only [Prod.mk.injEq] at he <;> omega

/-- Every displayed pixel comes from a stored one. -/
theorem exifPlace_surjective (o h w r c : Nat) (hr : r < (if exifSwaps o then w else h)) (hc : c < (if exifSwaps o then h else w)) :
    ∃ r' c', r' < h ∧ c' < w ∧ exifPlace o h w r' c' = (r, c) := by
  rcases orient_cases o with (rfl | rfl | rfl | rfl | rfl | rfl | rfl) | ⟨h1, h2, _⟩
  all_goals first
    | (rw [h2] at hr hc; exact ⟨r, c, hr, hc, h1 _ _ _ _⟩)
    | simp [exifSwaps] at hr hc
  · exact ⟨r, w - 1 - c, by omega, by omega, by simp [exifPlace]; omega⟩
  · exact ⟨h - 1 - r, w - 1 - c, by omega, by omega, by simp [exifPlace]; omega⟩
  · exact ⟨h - 1 - r, c, by omega, by omega, by simp [exifPlace]; omega⟩
  · exact ⟨c, r, by omega, by omega, by simp [exifPlace]⟩
  · exact ⟨h - 1 - c, r, by omega, by omega, by simp [exifPlace]; omega⟩
  · exact ⟨h - 1 - c, w - 1 - r, by omega, by omega, by simp [exifPlace]; omega⟩
  · exact ⟨c, w - 1 - r, by omega, by omega, by simp [exifPlace]; omega⟩

/-- `rotate_buffer` on an image given by its pixels. -/
theorem rotateBuffer_ofPix {w h k : Nat} (hw : 0 < w) (hh : 0 < h) (hk : 0 < k) (z : α) (p : Nat → Nat → Nat → α) (o : Nat) :
    ∃ q, rotateBuffer z (ofPix w h k p) (Orientation.fromU16 o) =
        .ok (ofPix (if exifSwaps o then h else w) (if exifSwaps o then w else h) k q) ∧
      ∀ r c ch, r < h → c < w → ch < k → q (exifPlace o h w r c).1 (exifPlace o h w r c).2 ch = p r c ch := by
  rcases orient_cases o with (rfl | rfl | rfl | rfl | rfl | rfl | rfl) | ⟨h1, h2, h3⟩
  all_goals first
    | (refine ⟨p, ?_, ?_⟩
       · unfold rotateBuffer; rw [h3, h2]; rfl
       · intro r c ch _ _ _; rw [h1])
    | skip
  all_goals
    simp only [rotateBuffer, Orientation.fromU16, Orientation.toFlips,
      flipHorizontal_ofPix hw hk, flipVertical_ofPix hw hk, transpose_ofPix hh hk, ok_bind,
      flipHorizontal_ofPix hh hk, flipVertical_ofPix hh hk]
    refine ⟨_, rfl, ?_⟩
    intro r c ch hr hc hch
    simp only [exifPlace]
    try (congr 1 <;> omega)

/-- **C35.** Whatever the orientation value in the file, the rotation succeeds on every image with at least one pixel, gives a
buffer of the right size (width and height exchanged exactly for orientations 5 to 8) and puts every value of every stored pixel
where the EXIF table says. With `exifPlace_injective` and `exifPlace_surjective` this determines the whole output. -/
theorem rotate_is_exif (z : α) (b : OpBuffer α) (hb : b.wf) (hw : 0 < b.width) (hh : 0 < b.height) (hk : 0 < b.colors) (o : Nat) :
    ∃ out, rotateBuffer z b (Orientation.fromU16 o) = .ok out ∧ out.wf ∧ out.colors = b.colors ∧
      out.width = (if exifSwaps o then b.height else b.width) ∧ out.height = (if exifSwaps o then b.width else b.height) ∧
      ∀ r c ch, r < b.height → c < b.width → ch < b.colors →
        out.at? (exifPlace o b.height b.width r c).1 (exifPlace o b.height b.width r c).2 ch = b.at? r c ch := by
  have he := wf_eq_ofPix z b hb
  obtain ⟨q, h1, h2⟩ := rotateBuffer_ofPix hw hh hk z (fun r c ch => (b.at? r c ch).getD z) o
  rw [← he] at h1
  refine ⟨_, h1, ofPix_wf _ _ _ _, rfl, rfl, rfl, ?_⟩
  intro r c ch hr hc hch
  obtain ⟨i1, i2⟩ := exifPlace_inside o b.height b.width r c hr hc
  rw [ofPix_at i1 i2 hch, h2 r c ch hr hc hch]
  have hs : (b.at? r c ch).isSome := by
    rw [he, ofPix_at hr hc hch]; rfl
  rw [Option.isSome_iff_exists] at hs
  obtain ⟨v, hv⟩ := hs
  rw [hv]; rfl

/-- Orientation values outside 1..8 leave the buffer untouched, whatever it is. -/
theorem rotate_unknown (z : α) (b : OpBuffer α) (o : Nat) (ho : o < 2 ∨ 8 < o) :
    rotateBuffer z b (Orientation.fromU16 o) = .ok b := by
  rcases orient_cases o with h | ⟨_, _, h3⟩
  · omega
  · unfold rotateBuffer; rw [h3]

/-- A 3 by 2 image with one value per pixel rotated by orientation 6 (a quarter turn clockwise). -/
example : rotateBuffer 0 ⟨3, 2, 1, [1, 2, 3, 4, 5, 6]⟩ (Orientation.fromU16 6) = .ok ⟨2, 3, 1, [4, 1, 5, 2, 6, 3]⟩ := by decide
example : rotateBuffer 0 ⟨2, 1, 3, [1, 2, 3, 4, 5, 6]⟩ (Orientation.fromU16 8) = .ok ⟨1, 2, 3, [4, 5, 6, 1, 2, 3]⟩ := by decide

/-! ## C36: the orientations form the dihedral group -/

/-- **C36.** Orientation 3 and the mirrored ones undo themselves; 6 undoes 8 and the other way around. -/
theorem rotate_inverse (z : α) (b : OpBuffer α) (hb : b.wf) (hw : 0 < b.width) (hh : 0 < b.height) (hk : 0 < b.colors)
    (o o' : Nat) (hoo : (o, o') ∈ [(1, 1), (2, 2), (3, 3), (4, 4), (5, 5), (6, 8), (7, 7), (8, 6)]) :
    (rotateBuffer z b (Orientation.fromU16 o) >>= fun b' => rotateBuffer z b' (Orientation.fromU16 o')) = .ok b := by
  have he := wf_eq_ofPix z b hb
  rw [he]
  generalize (fun r c ch => (b.at? r c ch).getD z) = p
  generalize b.width = w at *
  generalize b.height = h at *
  generalize b.colors = k at *
  clear he hb
  simp only [List.mem_cons, Prod.mk.injEq, List.not_mem_nil, or_false] at hoo
  rcases hoo with ⟨rfl, rfl⟩ | ⟨rfl, rfl⟩ | ⟨rfl, rfl⟩ | ⟨rfl, rfl⟩ | ⟨rfl, rfl⟩ | ⟨rfl, rfl⟩ | ⟨rfl, rfl⟩ | ⟨rfl, rfl⟩ <;>
    simp only [Orientation.fromU16, rotateBuffer, Orientation.toFlips, flipHorizontal_ofPix hw hk, flipVertical_ofPix hw hk,
      transpose_ofPix hh hk, transpose_ofPix hw hk, ok_bind, flipHorizontal_ofPix hh hk, flipVertical_ofPix hh hk] <;>
    congr 1 <;> apply ofPix_congr <;> intro r c ch hr hc hch <;> congr 1 <;> omega

/-- Composition table of the orientations: `composed i j` displays a picture oriented by `i` and then by `j`. It is the
multiplication of the symmetries of the square, with `1` the identity, `6` the clockwise quarter turn and `2` the mirror. -/
def composed (i j : Nat) : Nat :=
  -- (turns clockwise, mirrored first)
  let dec : Nat → Nat × Bool := fun o => match o with
    | 2 => (0, true) | 3 => (2, false) | 4 => (2, true) | 5 => (3, true) | 6 => (1, false) | 7 => (1, true) | 8 => (3, false)
    | _ => (0, false)
  let enc : Nat × Bool → Nat := fun x => match x with
    | (0, true) => 2 | (2, false) => 3 | (2, true) => 4 | (3, true) => 5 | (1, false) => 6 | (1, true) => 7 | (3, false) => 8
    | _ => 1
  let (a, m) := dec i
  let (b, n) := dec j
  if n then enc ((b + (4 - a)) % 4, !m) else enc ((b + a) % 4, m)

/-- **C36.** Applying two orientations one after the other is applying the orientation of the group product, for every image. -/
theorem rotate_compose (z : α) (b : OpBuffer α) (hb : b.wf) (hw : 0 < b.width) (hh : 0 < b.height) (hk : 0 < b.colors)
    (i j : Nat) (hi : 1 ≤ i ∧ i ≤ 8) (hj : 1 ≤ j ∧ j ≤ 8) :
    (rotateBuffer z b (Orientation.fromU16 i) >>= fun b' => rotateBuffer z b' (Orientation.fromU16 j)) =
      rotateBuffer z b (Orientation.fromU16 (composed i j)) := by
  have he := wf_eq_ofPix z b hb
  rw [he]
  generalize (fun r c ch => (b.at? r c ch).getD z) = p
  generalize b.width = w at *
  generalize b.height = h at *
  generalize b.colors = k at *
  clear he hb
  have hi' : i = 1 ∨ i = 2 ∨ i = 3 ∨ i = 4 ∨ i = 5 ∨ i = 6 ∨ i = 7 ∨ i = 8 := by omega
  have hj' : j = 1 ∨ j = 2 ∨ j = 3 ∨ j = 4 ∨ j = 5 ∨ j = 6 ∨ j = 7 ∨ j = 8 := by omega
  clear hi hj
  rcases hi' with rfl | rfl | rfl | rfl | rfl | rfl | rfl | rfl <;>
  rcases hj' with rfl | rfl | rfl | rfl | rfl | rfl | rfl | rfl <;>
    simp only [composed, Bool.not_true, Bool.not_false, reduceIte, Nat.reduceAdd, Nat.reduceSub, Nat.reduceMod,
      Bool.false_eq_true,
      Orientation.fromU16, rotateBuffer, Orientation.toFlips, flipHorizontal_ofPix hw hk, flipVertical_ofPix hw hk,
      transpose_ofPix hh hk, transpose_ofPix hw hk, ok_bind, flipHorizontal_ofPix hh hk, flipVertical_ofPix hh hk] <;>
    congr 1 <;> apply ofPix_congr <;> intro r c ch hr hc hch <;> congr 1 <;> omega

example : composed 6 6 = 3 ∧ composed 2 6 = 7 ∧ composed 6 2 = 5 := by decide

/-- The composition table is a group: associative, with unit 1 and inverses. -/
theorem composed_group : (∀ i ∈ List.range' 1 8, ∀ j ∈ List.range' 1 8, ∀ k ∈ List.range' 1 8,
      composed (composed i j) k = composed i (composed j k)) ∧
    (∀ i ∈ List.range' 1 8, composed 1 i = i ∧ composed i 1 = i ∧ ∃ j ∈ List.range' 1 8, composed i j = 1) := by
  decide

/-- An image without width: the code cuts lines of zero elements, which panics. -/
example : flipHorizontal 0 ⟨0, 2, 1, ([] : List Nat)⟩ = .error .panic := by decide

end Props

import Verif.Lemmas.LoopsMore
/-!
# Parallel strips of several lines

`decodeThreadedMultiline` cuts the image into strips and decodes them one by one.
-/

namespace Rust

theorem chunksFuel_flatten {α : Type} (n : Nat) (hn : 0 < n) : ∀ (fuel : Nat) (l : List α), l.length ≤ fuel → (chunksFuel n fuel l).flatten = l := by
  intro fuel
  induction fuel with
  | zero => intro l hl; cases l with
    | nil => simp [chunksFuel]
    | cons _ _ => simp at hl
  | succ fuel ih =>
    intro l hl
    cases l with
    | nil => simp [chunksFuel]
    | cons a l =>
      unfold chunksFuel
      simp only [List.length_cons] at hl
      rw [if_neg (by simp), List.flatten_cons, ih _ (by simp; omega), List.take_append_drop]

theorem chunks_flatten {α : Type} (n : Nat) (hn : 0 < n) (l : List α) : (chunks n l).flatten = l :=
  chunksFuel_flatten n hn _ l (Nat.le_refl _)

end Rust

namespace Model
open Rust Spec

/-- A parallel decode in strips, from what the closure does with each strip. -/
theorem decodeThreadedMultiline_eq {w h t : Nat} (hw : 0 < w) (ht : 0 < t) (closure : List Nat → Nat → M (List Nat)) (pix : Nat → Nat → Nat)
    (hc : ∀ q, q * t < h → closure (List.replicate (w * min t (h - q * t)) 0) (q * t) = .ok (raster w (min t (h - q * t)) fun r c => pix (q * t + r) c)) :
    decodeThreadedMultiline w h t closure = .ok (raster w h pix) := by
  have hn : 0 < w * t := Nat.mul_pos hw ht
  have hstrip : ∀ q, (w * t * q < w * h ↔ q * t < h) := by
    intro q
    rw [Nat.mul_assoc, Nat.mul_comm t q]
    exact Nat.mul_lt_mul_left hw
  have hmin : ∀ q, min (w * t) (w * h - w * t * q) = w * min t (h - q * t) := by
    intro q
    rw [Nat.mul_assoc, Nat.mul_comm t q, ← Nat.mul_sub, Nat.mul_min_mul_left]
  unfold decodeThreadedMultiline parChunksMut
  rw [if_neg (by omega), mapM_ok (g := fun p => raster w (min t (h - p.2 * t)) fun r c => pix (p.2 * t + r) c)]
  · rw [ok_bind]
    congr 1
    rw [← chunks_flatten _ hn (raster w h pix)]
    congr 1
    apply List.ext_getElem?
    intro q
    rw [List.getElem?_map, List.getElem?_zipIdx, chunks_getElem? _ hn, chunks_getElem? _ hn, List.length_replicate, raster_length]
    by_cases hq : w * t * q < w * h
    · rw [if_pos hq, if_pos hq]
      simp only [Option.map_some, Nat.zero_add]
      congr 1
      apply List.ext_getElem?
      intro i
      rw [List.getElem?_take, List.getElem?_drop]
      have hi : i = i / w * w + i % w := by rw [Nat.mul_comm]; exact (Nat.div_add_mod i w).symm
      have hm := Nat.mod_lt i hw
      by_cases hl : i < w * min t (h - q * t)
      · have hr : i / w < min t (h - q * t) := by rw [Nat.div_lt_iff_lt_mul hw, Nat.mul_comm]; exact hl
        have hlt : i < w * t := Nat.lt_of_lt_of_le hl (Nat.mul_le_mul_left _ (Nat.min_le_left _ _))
        rw [if_pos hlt]
        have e1 := raster_getElem? w (min t (h - q * t)) (fun r c => pix (q * t + r) c) (i / w) (i % w) hr hm
        have e2 := raster_getElem? w h pix (q * t + i / w) (i % w) (by have := (hstrip q).mp hq; omega) hm
        rw [← hi] at e1
        rw [e1, ← e2]
        congr 1
        rw [Nat.add_mul, Nat.add_assoc, ← hi, Nat.mul_comm w t, Nat.mul_right_comm t w q, Nat.mul_comm t q]
      · rw [List.getElem?_eq_none (by rw [raster_length]; omega)]
        have := hmin q
        split
        · rw [List.getElem?_eq_none (by rw [raster_length]; omega)]
        · rfl
    · rw [if_neg hq, if_neg hq]; rfl
  · intro p hp
    obtain ⟨q, hq⟩ := List.mem_iff_getElem?.mp hp
    rw [List.getElem?_zipIdx, chunks_getElem? _ hn, List.length_replicate] at hq
    by_cases hlt : w * t * q < w * h
    · rw [if_pos hlt] at hq
      simp only [Option.map_some, Option.some.injEq, Nat.zero_add] at hq
      subst hq
      simp only [List.drop_replicate, List.take_replicate, hmin]
      exact hc q ((hstrip q).mp hlt)
    · rw [if_neg hlt] at hq; simp at hq

end Model

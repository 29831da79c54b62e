import Verif.Model.OpBuffer
import Verif.Spec.Image
import Verif.Lemmas.Loops
/-!
# Pixel buffers as functions
-/

namespace Rust
open Spec

theorem chunks_raster {α : Type} {w h : Nat} (hw : 0 < w) (pix : Nat → Nat → α) :
    chunks w (raster w h pix) = (List.range h).map (fun r => (List.range w).map (pix r)) := by
  apply List.ext_getElem?
  intro r
  rw [chunks_getElem? w hw, raster_length]
  by_cases hr : r < h
  · have hlt : w * r < w * h := Nat.mul_lt_mul_of_pos_left hr hw
    rw [if_pos hlt]
    simp only [List.getElem?_map, List.getElem?_range hr, Option.map_some, Option.some.injEq]
    have hle : w * r + w ≤ w * h := by
      have : w * (r + 1) ≤ w * h := Nat.mul_le_mul_left w hr
      rw [Nat.mul_add] at this; omega
    apply List.ext_getElem?
    intro c
    by_cases hc : c < w
    · rw [List.getElem?_take, if_pos hc, List.getElem?_drop, Nat.mul_comm, raster_getElem? w h pix r c hr hc]
      simp [hc]
    · rw [List.getElem?_eq_none (by simp; omega), List.getElem?_eq_none (by simp; omega)]
  · have hge : ¬ w * r < w * h := by
      have : w * h ≤ w * r := Nat.mul_le_mul_left w (by omega)
      omega
    rw [if_neg hge, List.getElem?_eq_none (by simp; omega)]

theorem parChunks_rows {α : Type} {w h : Nat} (hw : 0 < w) (p q : Nat → Nat → α) (f : List α → Nat → M (List α))
    (hf : ∀ r, r < h → f ((List.range w).map (p r)) r = .ok ((List.range w).map (q r))) :
    parChunksMut w (raster w h p) f = .ok (raster w h q) := by
  unfold parChunksMut
  rw [if_neg (by omega), chunks_raster hw]
  rw [mapM_ok (g := fun x => (List.range w).map (q x.2))]
  · simp only [ok_bind]
    congr 1
    rw [raster_eq_flatMap, List.flatMap_def]
    congr 1
    apply List.ext_getElem?
    intro r
    by_cases hr : r < h
    · simp [hr]
    · simp [hr]
  · intro x hx
    obtain ⟨i, hi, hxi⟩ := List.mem_iff_getElem.mp hx
    simp only [List.length_zipIdx, List.length_map, List.length_range] at hi
    simp only [List.getElem_zipIdx, List.getElem_map, List.getElem_range, Nat.zero_add] at hxi
    rw [← hxi]
    exact hf i hi

theorem replicate_eq_raster {α : Type} (w h : Nat) (z : α) : List.replicate (w * h) z = raster w h (fun _ _ => z) := by
  unfold raster
  apply List.ext_getElem
  · simp
  · intro i h1 h2; simp

end Rust

namespace Model
open Rust Spec

variable {α : Type}

/-- The buffer of a `w` by `h` image with `k` values per pixel. -/
def ofPix (w h k : Nat) (p : Nat → Nat → Nat → α) : OpBuffer α := ⟨w, h, k, raster (w * k) h (fun r i => p r (i / k) (i % k))⟩

/-- The buffer has as many values as its dimensions say. -/
def OpBuffer.wf (b : OpBuffer α) : Prop := b.data.length = b.width * b.height * b.colors

/-- Value `ch` of pixel `(row, col)`. -/
def OpBuffer.at? (b : OpBuffer α) (row col ch : Nat) : Option α := b.data[(row * b.width + col) * b.colors + ch]?

theorem pix_index {w k r c ch : Nat} : (r * w + c) * k + ch = r * (w * k) + (c * k + ch) := by
  rw [Nat.add_mul, Nat.mul_assoc]; omega

theorem pix_lt {w k c ch : Nat} (hc : c < w) (hch : ch < k) : c * k + ch < w * k := by
  have : (c + 1) * k ≤ w * k := Nat.mul_le_mul_right k hc
  rw [Nat.add_mul] at this; omega

theorem div_pix {k c ch : Nat} (hch : ch < k) : (c * k + ch) / k = c ∧ (c * k + ch) % k = ch := by
  constructor
  · rw [Nat.mul_comm, Nat.mul_add_div (by omega), Nat.div_eq_of_lt hch, Nat.add_zero]
  · rw [Nat.mul_comm, Nat.mul_add_mod, Nat.mod_eq_of_lt hch]

theorem ofPix_at {w h k : Nat} {p : Nat → Nat → Nat → α} {r c ch : Nat} (hr : r < h) (hc : c < w) (hch : ch < k) :
    (ofPix w h k p).at? r c ch = some (p r c ch) := by
  unfold ofPix OpBuffer.at?
  simp only
  rw [pix_index, raster_getElem? _ _ _ r _ hr (pix_lt hc hch), (div_pix hch).1, (div_pix hch).2]

theorem ofPix_wf (w h k : Nat) (p : Nat → Nat → Nat → α) : (ofPix w h k p).wf := by
  unfold ofPix OpBuffer.wf
  simp only
  rw [raster_length, Nat.mul_assoc, Nat.mul_assoc, Nat.mul_comm k h]

/-- Two images with the same pixels are the same buffer. -/
theorem ofPix_congr {w h k : Nat} {p q : Nat → Nat → Nat → α}
    (hpq : ∀ r c ch, r < h → c < w → ch < k → p r c ch = q r c ch) : ofPix w h k p = ofPix w h k q := by
  unfold ofPix
  congr 1
  apply raster_congr
  intro r i hr hi
  have hk : 0 < k := by
    rcases Nat.eq_zero_or_pos k with h0 | h0
    · subst h0; simp at hi
    · exact h0
  exact hpq r _ _ hr (Nat.div_lt_of_lt_mul (by rw [Nat.mul_comm]; exact hi)) (Nat.mod_lt _ hk)

/-- Every buffer with the right length is the buffer of its pixels. -/
theorem wf_eq_ofPix (z : α) (b : OpBuffer α) (hb : b.wf) :
    b = ofPix b.width b.height b.colors (fun r c ch => (b.at? r c ch).getD z) := by
  obtain ⟨w, h, k, d⟩ := b
  unfold OpBuffer.wf at hb
  simp only at hb
  unfold ofPix
  simp only
  congr 1
  apply List.ext_getElem
  · rw [raster_length, hb, Nat.mul_assoc, Nat.mul_assoc, Nat.mul_comm k h]
  · intro i h1 h2
    rw [raster_length] at h2
    have hwk : 0 < w * k := by
      rcases Nat.eq_zero_or_pos (w * k) with h0 | h0
      · rw [h0] at h2; simp at h2
      · exact h0
    have hk : 0 < k := by
      rcases Nat.eq_zero_or_pos k with h0 | h0
      · subst h0; simp at hwk
      · exact h0
    simp only [raster, List.getElem_map, List.getElem_range, OpBuffer.at?]
    rw [pix_index, Nat.div_add_mod', Nat.div_add_mod']
    simp [h1]

theorem new_eq_ofPix (z : α) (w h k : Nat) : OpBuffer.new z w h k = ofPix w h k (fun _ _ _ => z) := by
  unfold OpBuffer.new ofPix
  rw [show w * h * k = w * k * h by rw [Nat.mul_assoc, Nat.mul_assoc, Nat.mul_comm h k], replicate_eq_raster]

/-- The line of an image. -/
def pixLine (w k : Nat) (p : Nat → Nat → α) : List α := (List.range (w * k)).map (fun i => p (i / k) (i % k))

/-- A double loop over columns and channels that writes every value of a line. -/
theorem fill_pixels {w k : Nat} {read : Nat → Nat → M α} {g : Nat → Nat → α} {line : List α} (hl : line.length = w * k)
    (hread : ∀ c ch, c < w → ch < k → read c ch = .ok (g c ch)) :
    forRange 0 w (fun col line => forRange 0 k (fun c line => do
      let v ← read col c
      setIdx line (col * k + c) v) line) line = .ok (pixLine w k g) := by
  obtain ⟨r, h1, h2, h3⟩ := forRange_inv (P := fun col (s : List α) => s.length = w * k ∧
      ∀ i, i < col * k → s[i]? = some (g (i / k) (i % k)))
    (f := fun col line => forRange 0 k (fun c line => do
      let v ← read col c
      setIdx line (col * k + c) v) line) (s := line) (Nat.zero_le w)
    ⟨hl, fun i hi => by simp at hi⟩ (by
      intro col s _ hcol ⟨hs, hi⟩
      obtain ⟨r, e1, e2, e3⟩ := forRange_inv (P := fun c (t : List α) => t.length = w * k ∧
          ∀ i, i < col * k + c → t[i]? = some (g (i / k) (i % k)))
        (f := fun c line => do
          let v ← read col c
          setIdx line (col * k + c) v) (s := s) (Nat.zero_le k)
        ⟨hs, fun i hlt => hi i (by omega)⟩ (by
          intro c t _ hc ⟨ht, hti⟩
          have hlt := pix_lt hcol hc
          refine ⟨t.set (col * k + c) (g col c), ?_, by simp [ht], ?_⟩
          · rw [hread col c hcol hc, ok_bind, setIdx_lt (by omega)]
          · intro i hi'
            rw [List.getElem?_set]
            by_cases heq : col * k + c = i
            · rw [if_pos heq, if_pos (by omega), ← heq, (div_pix hc).1, (div_pix hc).2]
            · rw [if_neg heq]; exact hti i (by omega))
      refine ⟨r, e1, e2, fun i hi' => e3 i ?_⟩
      rw [Nat.add_mul] at hi'; omega)
  rw [h1]
  congr 1
  unfold pixLine
  apply List.ext_getElem?
  intro i
  by_cases hi : i < w * k
  · rw [h3 i hi]; simp [hi]
  · rw [List.getElem?_eq_none (by omega), List.getElem?_eq_none (by simp; omega)]

/-- Building an image line by line. -/
theorem par_ofPix {w h k : Nat} (hw : 0 < w) (hk : 0 < k) (z : α) (q : Nat → Nat → Nat → α) (f : List α → Nat → M (List α))
    (hf : ∀ line r, r < h → line.length = w * k → f line r = .ok (pixLine w k (q r))) :
    (do
      let data ← parChunksMut ((OpBuffer.new z w h k).width * (OpBuffer.new z w h k).colors) (OpBuffer.new z w h k).data f
      .ok { OpBuffer.new z w h k with data } : M (OpBuffer α)) = .ok (ofPix w h k q) := by
  rw [new_eq_ofPix]
  unfold ofPix
  simp only
  rw [parChunks_rows (Nat.mul_pos hw hk) (fun _ i => z) (fun r i => q r (i / k) (i % k))]
  · rfl
  · intro r hr
    rw [hf _ r hr (by simp)]
    rfl

theorem idx_ofPix {w h k : Nat} {p : Nat → Nat → Nat → α} {r c ch i : Nat} (hr : r < h) (hc : c < w) (hch : ch < k)
    (hi : i = (r * w + c) * k + ch) : idx (ofPix w h k p).data i = .ok (p r c ch) := by
  rw [idx_eq_ok, hi]
  exact ofPix_at hr hc hch

theorem flipHorizontal_ofPix {w h k : Nat} (hw : 0 < w) (hk : 0 < k) (z : α) (p : Nat → Nat → Nat → α) :
    flipHorizontal z (ofPix w h k p) = .ok (ofPix w h k (fun r c ch => p r (w - 1 - c) ch)) := by
  unfold flipHorizontal
  apply par_ofPix hw hk
  intro line r hr hl
  unfold flipHLine
  apply fill_pixels hl
  intro c ch hc hch
  apply idx_ofPix hr (by omega) hch
  show w * r * k + (w - 1 - c) * k + ch = (r * w + (w - 1 - c)) * k + ch
  rw [Nat.add_mul, Nat.mul_comm w r]

theorem flipVertical_ofPix {w h k : Nat} (hw : 0 < w) (hk : 0 < k) (z : α) (p : Nat → Nat → Nat → α) :
    flipVertical z (ofPix w h k p) = .ok (ofPix w h k (fun r c ch => p (h - 1 - r) c ch)) := by
  unfold flipVertical
  apply par_ofPix hw hk
  intro line r hr hl
  have hr : r < h := hr
  unfold flipVLine pixLine
  apply forRange_fill_all hl
  intro i s hi hs
  have hc : i / k < w := Nat.div_lt_of_lt_mul (by rw [Nat.mul_comm]; exact hi)
  have hch : i % k < k := Nat.mod_lt _ hk
  rw [idx_ofPix (r := h - 1 - r) (c := i / k) (ch := i % k) (by omega) hc hch (by
    show (h - 1 - r) * w * k + i = _
    rw [Nat.add_mul, Nat.add_assoc, Nat.mul_comm _ k, Nat.mul_comm (i / k) k, Nat.div_add_mod]), ok_bind,
    setIdx_lt (by rw [hs]; exact hi)]

theorem transpose_ofPix {w h k : Nat} (hh : 0 < h) (hk : 0 < k) (z : α) (p : Nat → Nat → Nat → α) :
    transpose z (ofPix w h k p) = .ok (ofPix h w k (fun r c ch => p c r ch)) := by
  unfold transpose
  apply par_ofPix hh hk
  intro line r hr hl
  unfold transposeLine
  apply fill_pixels hl
  intro c ch hc hch
  exact idx_ofPix hc hr hch rfl

end Model

import Verif.Model.Pipeline
import Verif.Lemmas.OpBuffer
/-!
# Lines of pixels
-/

namespace Rust

/-- `zipChunksEnum` with all input chunks present. -/
theorem zipChunksEnumFuel_eq {α β : Type} {ko ki : Nat} (hko : 0 < ko) (f : Nat → List α → List β → M (List α)) :
    ∀ (fuel n : Nat) (p : Nat → α) (out : List α) (inb : List β), out.length ≤ fuel →
      (∀ q, ko * q < out.length → ki * q < inb.length ∧
        f (n + q) ((out.drop (ko * q)).take ko) ((inb.drop (ki * q)).take ki) =
          .ok ((List.range (min ko (out.length - ko * q))).map fun j => p (ko * q + j))) →
      zipChunksEnumFuel ko ki f fuel n out inb = .ok ((List.range out.length).map p) := by
  intro fuel
  induction fuel with
  | zero =>
    intro n p out inb hl _
    have : out = [] := List.eq_nil_of_length_eq_zero (by omega)
    subst this
    simp [zipChunksEnumFuel]
  | succ fuel ih =>
    intro n p out inb hl hf
    by_cases h0 : out.length = 0
    · have : out = [] := List.eq_nil_of_length_eq_zero h0
      subst this
      simp [zipChunksEnumFuel]
    · have hf0 := hf 0 (by omega)
      have h1 : out.isEmpty = false := by
        cases out with
        | nil => simp at h0
        | cons _ _ => rfl
      have h2 : inb.isEmpty = false := by
        cases inb with
        | nil => simp at hf0
        | cons _ _ => rfl
      rw [zipChunksEnumFuel]
      simp only [h1, h2, Bool.or_self, Bool.false_eq_true, if_false]
      have hf1 := hf0.2
      simp only [Nat.mul_zero, List.drop_zero, Nat.zero_add, Nat.add_zero, Nat.sub_zero] at hf1
      rw [hf1]
      have ih' := ih (n + 1) (fun i => p (ko + i)) (out.drop ko) (inb.drop ki) (by simp; omega)
        (by
          intro q hq
          rw [List.length_drop] at hq
          have := hf (q + 1) (by rw [Nat.mul_succ]; omega)
          refine ⟨?_, ?_⟩
          · rw [List.length_drop]
            have := this.1
            rw [Nat.mul_succ] at this; omega
          · have := this.2
            rw [List.drop_drop, List.drop_drop]
            have e : ki + ki * q = ki * (q + 1) := by rw [Nat.mul_succ]; omega
            have e2 : ko + ko * q = ko * (q + 1) := by rw [Nat.mul_succ]; omega
            rw [e, e2, show n + 1 + q = n + (q + 1) by omega, this, List.length_drop]
            rw [show out.length - ko - ko * q = out.length - ko * (q + 1) by omega]
            congr 2
            funext j
            congr 1
            omega)
      simp only [ok_bind]
      rw [ih']
      simp only [ok_bind]
      by_cases hk : ko ≤ out.length
      · rw [List.length_drop, Nat.min_eq_left hk]
        obtain ⟨d, hd⟩ : ∃ d, out.length = ko + d := ⟨out.length - ko, by omega⟩
        rw [hd, List.range_add, Nat.add_sub_cancel_left]
        simp
      · rw [List.length_drop, Nat.min_eq_right (by omega)]
        have : out.length - ko = 0 := by omega
        rw [this]; simp

end Rust

namespace Model
open Rust Spec

variable {α β : Type}

theorem pixLine_length (w k : Nat) (p : Nat → Nat → α) : (pixLine w k p).length = w * k := by simp [pixLine]

theorem pixLine_getElem? {w k c ch : Nat} (p : Nat → Nat → α) (hc : c < w) (hch : ch < k) :
    (pixLine w k p)[c * k + ch]? = some (p c ch) := by
  unfold pixLine
  rw [List.getElem?_map, List.getElem?_range (pix_lt hc hch), Option.map_some, (div_pix hch).1, (div_pix hch).2]

theorem pixLine_congr {w k : Nat} {p q : Nat → Nat → α} (h : ∀ c ch, c < w → ch < k → p c ch = q c ch) :
    pixLine w k p = pixLine w k q := by
  unfold pixLine
  apply List.map_congr_left
  intro i hi
  rw [List.mem_range] at hi
  have hk : 0 < k := by
    rcases Nat.eq_zero_or_pos k with h0 | h0
    · subst h0; simp at hi
    · exact h0
  exact h _ _ (Nat.div_lt_of_lt_mul (by rw [Nat.mul_comm]; exact hi)) (Nat.mod_lt _ hk)

/-- A line is determined by its pixels. -/
theorem eq_pixLine {w k : Nat} {p : Nat → Nat → α} {l : List α} (hl : l.length = w * k)
    (h : ∀ c ch, c < w → ch < k → l[c * k + ch]? = some (p c ch)) : l = pixLine w k p := by
  apply List.ext_getElem?
  intro i
  by_cases hi : i < w * k
  · have hk : 0 < k := by
      rcases Nat.eq_zero_or_pos k with h0 | h0
      · subst h0; simp at hi
      · exact h0
    have hc : i / k < w := Nat.div_lt_of_lt_mul (by rw [Nat.mul_comm]; exact hi)
    have := h (i / k) (i % k) hc (Nat.mod_lt _ hk)
    have h2 := pixLine_getElem? p hc (Nat.mod_lt i hk)
    rw [Nat.div_add_mod'] at this h2
    rw [this, h2]
  · rw [List.getElem?_eq_none (by omega), List.getElem?_eq_none (by rw [pixLine_length]; omega)]

theorem ofPix_data (w h k : Nat) (p : Nat → Nat → Nat → α) :
    (ofPix w h k p).data = raster (w * k) h (fun r i => p r (i / k) (i % k)) := rfl

/-- Changing an image line by line. -/
theorem mutateLines_ofPix {w h k : Nat} (hw : 0 < w) (hk : 0 < k) {p q : Nat → Nat → Nat → α} {f : List α → Nat → M (List α)}
    (hf : ∀ r, r < h → f (pixLine w k (p r)) r = .ok (pixLine w k (q r))) :
    (ofPix w h k p).mutateLines f = .ok (ofPix w h k q) := by
  unfold OpBuffer.mutateLines ofPix
  simp only
  rw [parChunks_rows (Nat.mul_pos hw hk) _ (fun r i => q r (i / k) (i % k))]
  · rfl
  · intro r hr
    exact hf r hr

theorem take_drop_pixLine {w k c : Nat} (p : Nat → Nat → α) (hc : c < w) :
    ((pixLine w k p).drop (k * c)).take k = (List.range k).map (p c) := by
  apply List.ext_getElem?
  intro j
  by_cases hj : j < k
  · rw [List.getElem?_take, if_pos hj, List.getElem?_drop, Nat.mul_comm, pixLine_getElem? p hc hj]
    simp [hj]
  · rw [List.getElem?_eq_none (by simp; omega), List.getElem?_eq_none (by simp; omega)]

/-- A line made by zipping its pixels with chunks of the input. -/
theorem zipChunks_pix {w ko ki : Nat} (hko : 0 < ko) {f : List α → List β → M (List α)} {g : Nat → Nat → α} {line : List α}
    {inb : List β} (hl : line.length = w * ko)
    (hf : ∀ c, c < w → ki * c < inb.length ∧ ∀ o, o.length = ko →
      f o ((inb.drop (ki * c)).take ki) = .ok ((List.range ko).map (g c))) :
    zipChunks ko ki f line inb = .ok (pixLine w ko g) := by
  rw [zipChunks_eq hko f (fun i => g (i / ko) (i % ko)) line inb, hl]
  · rfl
  · intro c hc
    have hcw : c < w := by
      rw [hl, Nat.mul_comm] at hc
      exact Nat.lt_of_mul_lt_mul_right hc
    obtain ⟨h1, h2⟩ := hf c hcw
    refine ⟨h1, fun o ho => ?_⟩
    have hmul : ko * c + ko ≤ w * ko := by
      have : ko * (c + 1) ≤ ko * w := Nat.mul_le_mul_left ko hcw
      rw [Nat.mul_add, Nat.mul_comm ko w] at this; omega
    have ho' : o.length = ko := by rw [ho, hl]; omega
    rw [h2 o ho', ho']
    congr 1
    apply List.map_congr_left
    intro j hj
    rw [List.mem_range] at hj
    rw [Nat.mul_comm ko c, (div_pix hj).1, (div_pix hj).2]

/-- A line made by zipping its pixels with chunks of the input, with the old pixel and the column available. -/
theorem zipChunksEnum_pix {w ko ki : Nat} (hko : 0 < ko) {f : Nat → List α → List β → M (List α)} {p g : Nat → Nat → α}
    {inb : List β} (hf : ∀ c, c < w → ki * c < inb.length ∧
      f c ((List.range ko).map (p c)) ((inb.drop (ki * c)).take ki) = .ok ((List.range ko).map (g c))) :
    zipChunksEnum ko ki f (pixLine w ko p) inb = .ok (pixLine w ko g) := by
  unfold zipChunksEnum
  rw [zipChunksEnumFuel_eq hko f _ 0 (fun i => g (i / ko) (i % ko)) _ inb (Nat.le_refl _), pixLine_length]
  · rfl
  · intro c hc
    rw [pixLine_length] at hc
    have hcw : c < w := by
      rw [Nat.mul_comm w ko] at hc
      exact Nat.lt_of_mul_lt_mul_left hc
    obtain ⟨h1, h2⟩ := hf c hcw
    refine ⟨h1, ?_⟩
    have hmul : ko * c + ko ≤ w * ko := by
      have : ko * (c + 1) ≤ ko * w := Nat.mul_le_mul_left ko hcw
      rw [Nat.mul_add, Nat.mul_comm ko w] at this; omega
    rw [Nat.zero_add, take_drop_pixLine p hcw, h2, pixLine_length]
    rw [show min ko (w * ko - ko * c) = ko by omega]
    congr 1
    apply List.map_congr_left
    intro j hj
    rw [List.mem_range] at hj
    rw [Nat.mul_comm ko c, (div_pix hj).1, (div_pix hj).2]

end Model

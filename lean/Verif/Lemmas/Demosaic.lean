import Verif.Lemmas.Pipeline
import Verif.Lemmas.F32Ops
import Verif.Spec.Demosaic
import Mathlib.Algebra.BigOperators.Intervals
import Mathlib.Algebra.Order.BigOperators.Group.Finset
import Mathlib.Algebra.Group.Action.Defs
/-!
# Lemmas for the full size demosaic
-/

namespace Rust

theorem setIdx_map_range {α : Type} {n i : Nat} (f : Nat → α) (v : α) (hi : i < n) :
    setIdx ((List.range n).map f) i v = .ok ((List.range n).map (fun j => if j = i then v else f j)) := by
  rw [setIdx_lt (by simpa using hi)]
  congr 1
  apply List.ext_getElem?
  intro j
  rw [List.getElem?_set]
  by_cases h : i = j
  · subst h; simp [hi]
  · rw [if_neg h]
    by_cases hj : j < n
    · simp [hj, Ne.symm h]
    · simp [hj]

theorem idx_map_range {α : Type} {n i : Nat} (f : Nat → α) (hi : i < n) : idx ((List.range n).map f) i = .ok (f i) := by
  rw [idx_eq_ok]; simp [hi]

end Rust

namespace Model
open Rust Spec

variable {α : Type}

theorem setIdx_pixLine {w k c ch : Nat} (p : Nat → Nat → α) (v : α) (hc : c < w) (hch : ch < k) :
    setIdx (pixLine w k p) (c * k + ch) v = .ok (pixLine w k (fun c' ch' => if c' = c ∧ ch' = ch then v else p c' ch')) := by
  have hlt := pix_lt hc hch
  rw [setIdx_lt (by rw [pixLine_length]; exact hlt)]
  congr 1
  apply eq_pixLine (by rw [List.length_set, pixLine_length])
  intro c' ch' hc' hch'
  rw [List.getElem?_set]
  by_cases h : c' = c ∧ ch' = ch
  · obtain ⟨rfl, rfl⟩ := h
    rw [if_pos rfl, if_pos (by rw [pixLine_length]; exact hlt), if_pos ⟨rfl, rfl⟩]
  · rw [if_neg h, if_neg, pixLine_getElem? p hc' hch']
    intro he
    apply h
    have h1 := (div_pix (c := c) hch).1
    have h2 := (div_pix (c := c) hch).2
    rw [he, (div_pix hch').1] at h1
    rw [he, (div_pix hch').2] at h2
    exact ⟨h1, h2⟩

/-- Loop state of the second pass with integer sums and counts. -/
def nstate (a n : Nat → Nat) : List F32 × List Nat := ((List.range 4).map (fun c => F32.ofNat (a c)), (List.range 4).map n)

theorem nstate_zero : (List.replicate 4 (F32.zero false), List.replicate 4 0) = nstate (fun _ => 0) (fun _ => 0) := by
  unfold nstate
  simp only [F32.ofNat_zero]
  rfl

section
variable {b : Build} {cfa : CFA} {w h : Nat} {K S : Nat → Nat → Nat}

/-- The image measured by a sensor, before interpolation. -/
def sensorBuf (w h : Nat) (S : Nat → Nat → Nat) : OpBuffer F32 := ofPix w h 1 (fun r c _ => F32.ofNat (S r c))

theorem fullNeighbour_eq (hK : ∀ r c, r < h → c < w → cfa.colorAt b r c = .ok (K r c)) (hK4 : ∀ r c, K r c < 4)
    {color y x : Nat} (hy : y < h) (hx : x < w) (a n : Nat → Nat)
    (ha : a (K y x) + S y x ≤ 2 ^ 24) (hn : n (K y x) + 1 < 2 ^ 32) :
    fullNeighbour b cfa (sensorBuf w h S) color y x (nstate a n) =
      .ok (nstate (fun c => a c + if K y x = c ∧ c ≠ color then S y x else 0) (fun c => n c + if K y x = c ∧ c ≠ color then 1 else 0)) := by
  unfold fullNeighbour
  rw [hK y x hy hx, ok_bind]
  by_cases hc : K y x ≠ color
  · rw [if_pos hc]
    have hd : idx (sensorBuf w h S).data (y * (sensorBuf w h S).width + x) = .ok (F32.ofNat (S y x)) := by
      apply idx_ofPix (p := fun r c _ => F32.ofNat (S r c)) (r := y) (c := x) (ch := 0) hy hx (by decide)
      show y * w + x = _
      omega
    rw [hd, ok_bind]
    unfold nstate
    simp only
    rw [idx_map_range _ (hK4 y x), ok_bind, setIdx_map_range _ _ (hK4 y x), ok_bind, idx_map_range _ (hK4 y x), ok_bind,
      addU_ok hn, ok_bind, setIdx_map_range _ _ (hK4 y x), ok_bind]
    congr 2
    · apply List.map_congr_left
      intro c _
      by_cases hcc : c = K y x
      · subst hcc
        rw [if_pos rfl, if_pos ⟨rfl, hc⟩, F32.add_ofNat ha]
      · rw [if_neg hcc, if_neg (fun hh => hcc hh.1.symm), Nat.add_zero]
    · apply List.map_congr_left
      intro c _
      by_cases hcc : c = K y x
      · subst hcc
        rw [if_pos rfl, if_pos ⟨rfl, hc⟩]
      · rw [if_neg hcc, if_neg (fun hh => hcc hh.1.symm), Nat.add_zero]
  · rw [if_neg hc]
    have hc' : K y x = color := not_not.mp hc
    congr 1
    unfold nstate
    congr 1
    · apply List.map_congr_left
      intro c _
      show _ = F32.ofNat (a c + if K y x = c ∧ c ≠ color then S y x else 0)
      rw [if_neg (by rintro ⟨h1, h2⟩; exact h2 (h1.symm.trans hc')), Nat.add_zero]
    · apply List.map_congr_left
      intro c _
      rw [if_neg (by rintro ⟨h1, h2⟩; exact h2 (h1.symm.trans hc')), Nat.add_zero]

/-- What a neighbour adds to the sum of a colour. -/
def term (K S : Nat → Nat → Nat) (color c y x : Nat) : Nat := if K y x = c ∧ c ≠ color then S y x else 0

/-- The double loop over a window of at most 3 by 3 neighbours. -/
theorem window_loop (hK : ∀ r c, r < h → c < w → cfa.colorAt b r c = .ok (K r c)) (hK4 : ∀ r c, K r c < 4)
    (hS : ∀ r c, r < h → c < w → S r c < 65536) {color y0 y1 x0 x1 : Nat} (hy : y0 ≤ y1) (hyh : y1 ≤ h) (hy3 : y1 ≤ y0 + 3)
    (hx : x0 ≤ x1) (hxw : x1 ≤ w) (hx3 : x1 ≤ x0 + 3) :
    forRange y0 y1 (fun y s => forRange x0 x1 (fun x s => fullNeighbour b cfa (sensorBuf w h S) color y x s) s)
      (nstate (fun _ => 0) (fun _ => 0)) =
    .ok (nstate (fun c => ∑ y ∈ Finset.Ico y0 y1, ∑ x ∈ Finset.Ico x0 x1, term K S color c y x)
      (fun c => ∑ y ∈ Finset.Ico y0 y1, ∑ x ∈ Finset.Ico x0 x1, term K (fun _ _ => 1) color c y x)) := by
  have ht : ∀ c y x, y < h → x < w → term K S color c y x ≤ 65535 := by
    intro c y x h1 h2
    have := hS y x h1 h2
    unfold term; split <;> omega
  have ht1 : ∀ c y x, term K (fun _ _ => 1) color c y x ≤ 1 := by
    intro c y x; unfold term; split <;> simp
  -- bounds of partial sums
  have rowB : ∀ c y x, y < h → x0 ≤ x → x ≤ x1 → ∑ x ∈ Finset.Ico x0 x, term K S color c y x ≤ (x - x0) * 65535 := by
    intro c y x h1 h2 h3
    calc _ ≤ ∑ _x ∈ Finset.Ico x0 x, 65535 := Finset.sum_le_sum (fun i hi => ht c y i h1 (by rw [Finset.mem_Ico] at hi; omega))
      _ = _ := by simp
  have rowB1 : ∀ c y x, ∑ x ∈ Finset.Ico x0 x, term K (fun _ _ => 1) color c y x ≤ (x - x0) := by
    intro c y x
    calc _ ≤ ∑ _x ∈ Finset.Ico x0 x, 1 := Finset.sum_le_sum (fun i _ => ht1 c y i)
      _ = _ := by simp
  have winB : ∀ c y, y0 ≤ y → y ≤ y1 → ∑ y ∈ Finset.Ico y0 y, ∑ x ∈ Finset.Ico x0 x1, term K S color c y x ≤ (y - y0) * (3 * 65535) := by
    intro c y h1 h2
    calc _ ≤ ∑ _y ∈ Finset.Ico y0 y, (3 * 65535) := Finset.sum_le_sum (fun i hi => by
            rw [Finset.mem_Ico] at hi
            exact Nat.le_trans (rowB c i x1 (by omega) hx (Nat.le_refl _)) (Nat.mul_le_mul_right _ (by omega)))
      _ = _ := by rw [Finset.sum_const, Nat.card_Ico, smul_eq_mul]
  have winB1 : ∀ c y, ∑ y ∈ Finset.Ico y0 y, ∑ x ∈ Finset.Ico x0 x1, term K (fun _ _ => 1) color c y x ≤ (y - y0) * 3 := by
    intro c y
    calc _ ≤ ∑ _y ∈ Finset.Ico y0 y, 3 := Finset.sum_le_sum (fun i _ => by have := rowB1 c i x1; omega)
      _ = _ := by simp
  obtain ⟨s, h1, h2⟩ := forRange_inv (P := fun y s => s = nstate (fun c => ∑ y ∈ Finset.Ico y0 y, ∑ x ∈ Finset.Ico x0 x1, term K S color c y x)
      (fun c => ∑ y ∈ Finset.Ico y0 y, ∑ x ∈ Finset.Ico x0 x1, term K (fun _ _ => 1) color c y x))
    (f := fun y s => forRange x0 x1 (fun x s => fullNeighbour b cfa (sensorBuf w h S) color y x s) s)
    (s := nstate (fun _ => 0) (fun _ => 0)) hy (by simp) (by
      intro y s hy0 hy1 hs
      subst hs
      obtain ⟨s, e1, e2⟩ := forRange_inv (P := fun x s => s = nstate
          (fun c => ∑ y ∈ Finset.Ico y0 y, ∑ x ∈ Finset.Ico x0 x1, term K S color c y x + ∑ x ∈ Finset.Ico x0 x, term K S color c y x)
          (fun c => ∑ y ∈ Finset.Ico y0 y, ∑ x ∈ Finset.Ico x0 x1, term K (fun _ _ => 1) color c y x +
            ∑ x ∈ Finset.Ico x0 x, term K (fun _ _ => 1) color c y x))
        (f := fun x s => fullNeighbour b cfa (sensorBuf w h S) color y x s)
        (s := nstate (fun c => ∑ y ∈ Finset.Ico y0 y, ∑ x ∈ Finset.Ico x0 x1, term K S color c y x)
          (fun c => ∑ y ∈ Finset.Ico y0 y, ∑ x ∈ Finset.Ico x0 x1, term K (fun _ _ => 1) color c y x)) hx (by simp) (by
          intro x s hx0 hx1 hs
          subst hs
          refine ⟨_, fullNeighbour_eq hK hK4 (by omega) (by omega) _ _ ?_ ?_, ?_⟩
          · have a1 := winB (K y x) y hy0 (by omega)
            have a2 := rowB (K y x) y x (by omega) hx0 (by omega)
            have a3 := hS y x (by omega) (by omega)
            have a4 : (y - y0) * (3 * 65535) ≤ 3 * (3 * 65535) := Nat.mul_le_mul_right _ (by omega)
            have a5 : (x - x0) * 65535 ≤ 3 * 65535 := Nat.mul_le_mul_right _ (by omega)
            omega
          · have a1 := winB1 (K y x) y
            have a2 := rowB1 (K y x) y x
            omega
          · congr 1
            · funext c
              rw [Finset.sum_Ico_succ_top hx0]; unfold term; omega
            · funext c
              rw [Finset.sum_Ico_succ_top hx0]; unfold term; simp only; omega)
      refine ⟨s, e1, ?_⟩
      rw [e2]
      congr 1
      · funext c; rw [Finset.sum_Ico_succ_top hy0]
      · funext c; rw [Finset.sum_Ico_succ_top hy0])
  rw [h1, h2]

/-- The window of the code is the neighbourhood of the specification. -/
theorem around_eq {r c : Nat} (hr : r < h) (hc : c < w) : around h w r c =
    Finset.Ico (r - 1) (min h (r + 2)) ×ˢ Finset.Ico (c - 1) (min w (c + 2)) := by
  ext ⟨y, x⟩
  simp only [around, Finset.mem_filter, Finset.mem_product, Finset.mem_range, Finset.mem_Ico]
  omega

theorem sum_term {r c k color : Nat} (hr : r < h) (hc : c < w) (hk : k ≠ color) (T : Nat → Nat → Nat) :
    ∑ y ∈ Finset.Ico (r - 1) (min h (r + 2)), ∑ x ∈ Finset.Ico (c - 1) (min w (c + 2)), term K T color k y x =
      ∑ p ∈ measuring h w K r c k, T p.1 p.2 := by
  unfold measuring
  rw [Finset.sum_filter, around_eq hr hc, Finset.sum_product]
  apply Finset.sum_congr rfl
  intro y _
  apply Finset.sum_congr rfl
  intro x _
  unfold term
  simp [hk]

/-- The value the second pass gives to channel `k` of pixel `(r, c)`. -/
def filled (w h : Nat) (K S : Nat → Nat → Nat) (r c k : Nat) : F32 :=
  if k = K r c then F32.ofNat (S r c)
  else if 0 < (measuring h w K r c k).card then F32.ofRat (meanAt (measuring h w K r c k) S)
  else F32.zero false

/-- The value after the first pass. -/
def measured (K S : Nat → Nat → Nat) (r c k : Nat) : F32 := if k = K r c then F32.ofNat (S r c) else F32.zero false

theorem measuring_card_le {r c k : Nat} (hr : r < h) (hc : c < w) : (measuring h w K r c k).card ≤ 9 := by
  refine Nat.le_trans (Finset.card_filter_le _ _) ?_
  rw [around_eq hr hc, Finset.card_product, Nat.card_Ico, Nat.card_Ico]
  calc _ ≤ 3 * 3 := Nat.mul_le_mul (by omega) (by omega)
    _ = 9 := rfl

theorem fullPixel_eq (hK : ∀ r c, r < h → c < w → cfa.colorAt b r c = .ok (K r c)) (hK4 : ∀ r c, K r c < 4)
    (hS : ∀ r c, r < h → c < w → S r c < 65536) {r col : Nat} (hr : r < h) (hcol : col < w) :
    fullPixel b cfa (sensorBuf w h S) r col
      (pixLine w 4 (fun c k => if c < col then filled w h K S r c k else measured K S r c k)) =
    .ok (pixLine w 4 (fun c k => if c < col + 1 then filled w h K S r c k else measured K S r c k)) := by
  unfold fullPixel
  rw [hK r col hr hcol, ok_bind, nstate_zero]
  show (forRange (r - 1) (min h (r + 2)) (fun y s => forRange (col - 1) (min w (col + 2)) (fun x s =>
    fullNeighbour b cfa (sensorBuf w h S) (K r col) y x s) s) (nstate (fun _ => 0) (fun _ => 0)) >>= _) = _
  rw [window_loop hK hK4 hS (by omega) (by omega) (by omega) (by omega) (by omega) (by omega), ok_bind]
  obtain ⟨l, h1, h2⟩ := forRange_inv (P := fun k l => l = pixLine w 4 (fun c j =>
      if c < col ∨ (c = col ∧ j < k) then filled w h K S r c j else measured K S r c j))
    (f := fullChannel (K r col) col (nstate
      (fun c => ∑ y ∈ Finset.Ico (r - 1) (min h (r + 2)), ∑ x ∈ Finset.Ico (col - 1) (min w (col + 2)), term K S (K r col) c y x)
      (fun c => ∑ y ∈ Finset.Ico (r - 1) (min h (r + 2)), ∑ x ∈ Finset.Ico (col - 1) (min w (col + 2)),
        term K (fun _ _ => 1) (K r col) c y x)))
    (s := pixLine w 4 (fun c k => if c < col then filled w h K S r c k else measured K S r c k)) (Nat.zero_le 4)
    (by simp) (by
      intro k l _ hk hl
      subst hl
      unfold fullChannel nstate
      simp only
      rw [idx_map_range _ hk, ok_bind]
      by_cases hkc : k = K r col
      · rw [if_neg (fun hh => hh.1 hkc)]
        refine ⟨_, rfl, ?_⟩
        apply pixLine_congr
        intro c j hc hj
        by_cases hcj : c = col ∧ j = k
        · obtain ⟨rfl, rfl⟩ := hcj
          rw [if_neg (by omega), if_pos (by omega)]
          unfold measured filled
          rw [if_pos hkc, if_pos hkc]
        · have : (c < col ∨ c = col ∧ j < k) ↔ (c < col ∨ c = col ∧ j < k + 1) := by omega
          simp only [this]
      · rw [sum_term hr hcol hkc]
        simp only [Finset.sum_const, smul_eq_mul, mul_one]
        by_cases hcnt : 0 < (measuring h w K r col k).card
        · rw [if_pos ⟨hkc, hcnt⟩, idx_map_range _ hk, ok_bind, sum_term hr hcol hkc, setIdx_pixLine _ _ hcol hk]
          refine ⟨_, rfl, ?_⟩
          have hsum : ∑ p ∈ measuring h w K r col k, S p.1 p.2 ≤ 2 ^ 24 := by
            have hb : ∑ p ∈ measuring h w K r col k, S p.1 p.2 ≤ (measuring h w K r col k).card * 65535 := by
              rw [← smul_eq_mul]
              apply Finset.sum_le_card_nsmul
              rintro ⟨y, x⟩ hp
              simp only [measuring, around, Finset.mem_filter, Finset.mem_product, Finset.mem_range] at hp
              have := hS y x hp.1.1.1 hp.1.1.2
              simp only; omega
            have := measuring_card_le (K := K) (k := k) hr hcol
            have : (measuring h w K r col k).card * 65535 ≤ 9 * 65535 := Nat.mul_le_mul_right _ this
            omega
          rw [F32.div_ofNat hsum hcnt (by have := measuring_card_le (K := K) (k := k) hr hcol; omega)]
          apply pixLine_congr
          intro c j hc hj
          by_cases hcj : c = col ∧ j = k
          · rw [if_pos hcj]
            obtain ⟨rfl, rfl⟩ := hcj
            rw [if_pos (by omega)]
            unfold filled meanAt
            rw [if_neg hkc, if_pos hcnt]
          · rw [if_neg hcj]
            have : (c < col ∨ c = col ∧ j < k) ↔ (c < col ∨ c = col ∧ j < k + 1) := by omega
            simp only [this]
        · rw [if_neg (fun hh => hcnt hh.2)]
          refine ⟨_, rfl, ?_⟩
          apply pixLine_congr
          intro c j hc hj
          by_cases hcj : c = col ∧ j = k
          · obtain ⟨rfl, rfl⟩ := hcj
            rw [if_neg (by omega), if_pos (by omega)]
            unfold measured filled
            rw [if_neg hkc, if_neg hkc, if_neg hcnt]
          · have : (c < col ∨ c = col ∧ j < k) ↔ (c < col ∨ c = col ∧ j < k + 1) := by omega
            simp only [this])
  rw [h1, h2]
  congr 1
  apply pixLine_congr
  intro c j hc hj
  have : (c < col ∨ c = col ∧ j < 4) ↔ c < col + 1 := by omega
  simp only [this]

theorem fullMeasured_eq (hK : ∀ r c, r < h → c < w → cfa.colorAt b r c = .ok (K r c)) (hK4 : ∀ r c, K r c < 4) {r : Nat} (hr : r < h)
    (hw : 0 < w) :
    fullMeasured b cfa (sensorBuf w h S) (pixLine w 4 (fun _ _ => F32.zero false)) r = .ok (pixLine w 4 (measured K S r)) := by
  have hdl : (sensorBuf w h S).data.length = w * h := by
    unfold sensorBuf; rw [ofPix_data, raster_length, Nat.mul_one]
  have hrow : w * (r + 1) ≤ w * h := Nat.mul_le_mul_left w hr
  rw [Nat.mul_add, Nat.mul_one] at hrow
  unfold fullMeasured
  rw [sliceFrom_le (by rw [hdl]; show w * r ≤ _; omega), ok_bind]
  apply zipChunksEnum_pix (by decide)
  intro c hc
  have hv : (sensorBuf w h S).data[w * r + c]? = some (F32.ofNat (S r c)) := by
    have := ofPix_at (p := fun r c _ => F32.ofNat (S r c)) (k := 1) (ch := 0) hr hc (by decide)
    unfold OpBuffer.at? at this
    rw [← this]
    show (sensorBuf w h S).data[w * r + c]? = (sensorBuf w h S).data[(r * w + c) * 1 + 0]?
    congr 1
    rw [Nat.mul_comm]; omega
  have htake : (((sensorBuf w h S).data.drop ((sensorBuf w h S).width * r)).drop (1 * c)).take 1 = [F32.ofNat (S r c)] := by
    rw [Nat.one_mul, List.drop_drop]
    show ((sensorBuf w h S).data.drop (w * r + c)).take 1 = _
    have hlt : w * r + c < (sensorBuf w h S).data.length := by rw [hdl]; omega
    rw [List.drop_eq_getElem_cons hlt]
    rw [List.getElem?_eq_getElem hlt] at hv
    simp only [Option.some.injEq] at hv
    simp [hv]
  refine ⟨?_, ?_⟩
  · rw [List.length_drop, hdl]; show 1 * c < w * h - w * r; omega
  · rw [htake, hK r c hr hc, ok_bind]
    show (Except.ok _ >>= fun v => setIdx _ _ v) = _
    rw [ok_bind, setIdx_map_range _ _ (hK4 r c)]
    rfl

end

end Model

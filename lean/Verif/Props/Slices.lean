import Verif.Spec.Bits
import Verif.Model.Dec.Cr2
import Verif.Lemmas.Bits
import Verif.Lemmas.LoopsMore
/-!
# C47: the vertical slices of Canon files
-/

namespace Spec

/-- Where a stream of line pairs has its sample `m` of the upper (`i = 0`) or lower (`i = 1`) line: the upper lines, each `lw` wide,
are read one after the other, and so are the lower ones. -/
def pairSource (lw i m : Nat) : Nat := (2 * (m / lw) + i) * lw + m % lw

/-- An image cut into vertical slices of the given widths, stored one after the other; the first begins at column `start`. -/
def slices {α : Type} (img : Nat → Nat → α) (height : Nat) : Nat → List Nat → List α
  | _, [] => []
  | start, w :: ws => raster w height (fun row col => img row (start + col)) ++ slices img height (start + w) ws

end Spec

namespace Props
open Rust Spec Model

theorem slices_length {α : Type} (img : Nat → Nat → α) (height : Nat) : ∀ (ws : List Nat) (start : Nat), (slices img height start ws).length = ws.sum * height := by
  intro ws
  induction ws with
  | nil => intro start; simp [slices]
  | cons w ws ih => intro start; rw [slices, List.length_append, raster_length, ih, List.sum_cons, Nat.add_mul]

theorem slices_congr {α : Type} {f g : Nat → Nat → α} {height : Nat} : ∀ (ws : List Nat) (start : Nat), (∀ row col, start ≤ col → f row col = g row col) →
    slices f height start ws = slices g height start ws := by
  intro ws
  induction ws with
  | nil => intro start _; rfl
  | cons w ws ih =>
    intro start h
    rw [slices, slices, ih (start + w) (fun row col hc => h row col (by omega))]
    congr 1
    exact raster_congr fun row col _ _ => h row _ (by omega)

private theorem cell_lt {w h r c : Nat} (hr : r < h) (hc : c < w) : r * w + c < w * h := by
  have : (r + 1) * w ≤ h * w := Nat.mul_le_mul_right w hr
  rw [Nat.add_mul, Nat.one_mul, Nat.mul_comm h] at this
  omega

private theorem cell_inj {n r c r' c' : Nat} (hc : c < n) (hc' : c' < n) (h : r * n + c = r' * n + c') : r = r' ∧ c = c' := by
  have h1 : (r * n + c) / n = r := by rw [Nat.mul_comm, Nat.mul_add_div (by omega), Nat.div_eq_of_lt hc, Nat.add_zero]
  have h2 : (r' * n + c') / n = r' := by rw [Nat.mul_comm, Nat.mul_add_div (by omega), Nat.div_eq_of_lt hc', Nat.add_zero]
  have : r = r' := by rw [← h1, h, h2]
  subst this
  exact ⟨rfl, by omega⟩

/-- One field. -/
private theorem copyField_ok {img : Nat → Nat → Nat} {l out0 out tail : List Nat} {width height w S : Nat} (hl : l.drop (S * height) = raster w height (fun row col => img row (S + col)) ++ tail)
    (hlen : S * height ≤ l.length) (hw : S + w ≤ width) (ho : out0.length = width * height)
    (hs : Wrote out0 (fun r c => r * width + c) img (fun r c => r < height ∧ c < S) out) :
    ∃ out', Cr2.copyField l width height w (out, S, S * height) = .ok (out', S + w, (S + w) * height) ∧
      Wrote out0 (fun r c => r * width + c) img (fun r c => r < height ∧ c < S + w) out' := by
  have hread : ∀ row col, row < height → col < w → l[S * height + row * w + col]? = some (img row (S + col)) := by
    intro row col hr hc
    rw [Nat.add_assoc, ← List.getElem?_drop, hl, List.getElem?_append_left (by rw [raster_length]; exact cell_lt hr hc), raster_getElem? _ _ _ _ _ hr hc]
  have hll : S * height + w * height ≤ l.length := by
    have := congrArg List.length hl
    rw [List.length_drop, List.length_append, raster_length] at this
    omega
  unfold Cr2.copyField
  dsimp only
  obtain ⟨out', e1, e2⟩ := forRange_inv (P := fun row s => Wrote out0 (fun r c => r * width + c) img (fun r c => r < height ∧ c < S ∨ r < row ∧ S ≤ c ∧ c < S + w) s)
    (f := fun row out => do
      let inb ← slice l (S * height + row * w) (S * height + row * w + w)
      copySlice out (row * width + S) inb) (s := out) (Nat.zero_le height) (hs.congr fun r c => by omega) (by
      intro row s _ hr hs
      have hb : row * w + w ≤ w * height := by
        have : (row + 1) * w ≤ height * w := Nat.mul_le_mul_right w hr
        rw [Nat.add_mul, Nat.one_mul, Nat.mul_comm height] at this
        omega
      obtain ⟨v, v1, v2, v3⟩ := slice_getElem? (l := l) (i := S * height + row * w) (j := S * height + row * w + w) (by omega) (by omega)
      rw [v1, ok_bind]
      obtain ⟨s', e1, e2⟩ := hs.copySeg (vals := v) (row := row) (S := S) (C := w) (pos := row * width + S) (by omega)
        (fun col hc => by rw [v3 col (by omega), hread row col hr hc]) (fun col hc => by omega) (by
          have : (row + 1) * width ≤ height * width := Nat.mul_le_mul_right width hr
          rw [Nat.add_mul, Nat.one_mul, Nat.mul_comm height] at this
          omega) (by
          intro r c col hd hc e
          rw [Nat.add_assoc] at e
          have := cell_inj (by omega) (by omega) e
          omega)
      exact ⟨s', e1, e2.congr fun r c => by omega⟩)
  rw [e1, ok_bind]
  refine ⟨out', by rw [Nat.add_mul], e2.congr fun r c => by omega⟩

private theorem copyFields_go {img : Nat → Nat → Nat} {l out0 rest : List Nat} {width height cpp sh : Nat} (hsh : sh ≠ 0) (ho : out0.length = width * height) :
    ∀ (ws : List Nat) (S : Nat) (out : List Nat), l.drop (S * height) = slices img height S (ws.map fun w => w / sh * cpp) ++ rest → S * height ≤ l.length →
      S + (ws.map fun w => w / sh * cpp).sum ≤ width →
      Wrote out0 (fun r c => r * width + c) img (fun r c => r < height ∧ c < S) out →
      ∃ s : List Nat × Nat × Nat, ws.foldlM (fun s w => if sh = 0 then crash else Cr2.copyField l width height (w / sh * cpp) s) (out, S, S * height) = .ok s ∧
        Wrote out0 (fun r c => r * width + c) img (fun r c => r < height ∧ c < S + (ws.map fun w => w / sh * cpp).sum) s.1 := by
  intro ws
  induction ws with
  | nil => intro S out _ _ _ h; exact ⟨_, rfl, by simpa using h⟩
  | cons w ws ih =>
    intro S out h1 h2 h3 h4
    rw [List.map_cons, List.sum_cons] at h3
    rw [List.map_cons, slices, List.append_assoc] at h1
    obtain ⟨out', e1, e2⟩ := copyField_ok h1 h2 (by omega) ho h4
    rw [List.foldlM_cons, if_neg hsh, e1, ok_bind]
    have h5 : l.drop ((S + w / sh * cpp) * height) = slices img height (S + w / sh * cpp) (ws.map fun w => w / sh * cpp) ++ rest := by
      rw [Nat.add_mul, ← List.drop_drop, h1, List.drop_append_of_le_length (by rw [raster_length]; exact Nat.le_refl _), List.drop_eq_nil_of_le (by rw [raster_length]; exact Nat.le_refl _), List.nil_append]
    have h6 : (S + w / sh * cpp) * height ≤ l.length := by
      have := congrArg List.length h1
      rw [List.length_drop, List.length_append, raster_length] at this
      rw [Nat.add_mul]
      omega
    obtain ⟨s, s1, s2⟩ := ih _ out' h5 h6 (by omega) e2
    exact ⟨s, s1, s2.congr fun r c => by rw [List.map_cons, List.sum_cons]; omega⟩

/-- C47. An image is restored from its slices: widths are those of the directory, divided by the horizontal subsampling and times the
number of components. -/
theorem cr2_slices_restored (img : Nat → Nat → Nat) (rest fieldwidths : List Nat) (width height cpp sh : Nat) (hsh : sh ≠ 0)
    (hsum : (fieldwidths.map fun w => w / sh * cpp).sum = width) :
    Cr2.copyFields (slices img height 0 (fieldwidths.map fun w => w / sh * cpp) ++ rest) width height cpp sh fieldwidths = .ok (raster width height img) := by
  obtain ⟨s, e1, e2⟩ := copyFields_go (img := img) (l := slices img height 0 (fieldwidths.map fun w => w / sh * cpp) ++ rest) (out0 := List.replicate (width * height) 0)
    (rest := rest) (width := width) (height := height) (cpp := cpp) hsh (by simp) fieldwidths 0 _ (by simp) (by simp) (by omega) ⟨rfl, fun _ _ h => by omega, fun _ _ => rfl⟩
  rw [Nat.zero_mul] at e1
  unfold Cr2.copyFields
  rw [e1, ok_bind]
  congr 1
  rw [Nat.zero_add, hsum] at e2
  have hl := e2.1
  rw [List.length_replicate] at hl
  apply List.ext_getElem?
  intro k
  by_cases hk : k < width * height
  · have hw : 0 < width := Nat.pos_of_ne_zero fun h => by rw [h, Nat.zero_mul] at hk; omega
    have hc := Nat.mod_lt k hw
    have hr : k / width < height := by rw [Nat.div_lt_iff_lt_mul hw, Nat.mul_comm]; exact hk
    have e : k = k / width * width + k % width := by rw [Nat.mul_comm]; exact (Nat.div_add_mod k width).symm
    rw [e, raster_getElem? _ _ _ _ _ hr hc]
    exact e2.2.1 _ _ ⟨hr, hc⟩
  · rw [List.getElem?_eq_none (by omega), List.getElem?_eq_none (by rw [raster_length]; omega)]

/-- Every list of the right length is the sliced form of an image. -/
private theorem exists_slices (height : Nat) : ∀ (ws : List Nat) (start : Nat) (l : List Nat), ws.sum * height ≤ l.length →
    ∃ img : Nat → Nat → Nat, l.take (ws.sum * height) = slices img height start ws := by
  intro ws
  induction ws with
  | nil => intro start l _; exact ⟨fun _ _ => 0, by simp [slices]⟩
  | cons w ws ih =>
    intro start l hl
    rw [List.sum_cons, Nat.add_mul] at hl
    obtain ⟨img, h⟩ := ih (start + w) (l.drop (w * height)) (by rw [List.length_drop]; omega)
    refine ⟨fun row col => if col < start + w then l.getD (row * w + (col - start)) 0 else img row col, ?_⟩
    rw [List.sum_cons, Nat.add_mul, List.take_add, h, slices, slices_congr (f := img) (g := fun row col => if col < start + w then l.getD (row * w + (col - start)) 0 else img row col) ws (start + w)
      (fun row col hc => by rw [if_neg (by omega)])]
    congr 1
    apply List.ext_getElem?
    intro k
    rw [List.getElem?_take]
    by_cases hk : k < w * height
    · have hw : 0 < w := Nat.pos_of_ne_zero fun h => by rw [h, Nat.zero_mul] at hk; omega
      have hc := Nat.mod_lt k hw
      have hr : k / w < height := by rw [Nat.div_lt_iff_lt_mul hw, Nat.mul_comm]; exact hk
      have e : k / w * w + k % w = k := by rw [Nat.mul_comm]; exact Nat.div_add_mod k w
      rw [if_pos hk]
      have : (raster w height fun row col => if start + col < start + w then l.getD (row * w + (start + col - start)) 0 else img row (start + col))[k / w * w + k % w]? =
          some (if start + k % w < start + w then l.getD (k / w * w + (start + k % w - start)) 0 else img (k / w) (start + k % w)) := raster_getElem? _ _ _ _ _ hr hc
      rw [e] at this
      rw [this, if_pos (by omega), show start + k % w - start = k % w by omega, e, List.getD_eq_getElem?_getD, List.getElem?_eq_getElem (by omega)]
      rfl
    · rw [if_neg hk, List.getElem?_eq_none (by rw [raster_length]; omega)]

/-- C47. Every sample of the stream gets its own place: whatever the stream holds, the image that comes out has the stream as its sliced form. -/
theorem cr2_slices_complete (stream fieldwidths : List Nat) (width height cpp sh : Nat) (hsh : sh ≠ 0)
    (hsum : (fieldwidths.map fun w => w / sh * cpp).sum = width) (hlen : width * height ≤ stream.length) :
    ∃ img : Nat → Nat → Nat, Cr2.copyFields stream width height cpp sh fieldwidths = .ok (raster width height img) ∧
      stream.take (width * height) = slices img height 0 (fieldwidths.map fun w => w / sh * cpp) := by
  obtain ⟨img, h⟩ := exists_slices height (fieldwidths.map fun w => w / sh * cpp) 0 stream (by rw [hsum]; exact hlen)
  rw [hsum] at h
  refine ⟨img, ?_, h⟩
  conv => lhs; rw [← List.take_append_drop (width * height) stream, h]
  exact cr2_slices_restored img _ fieldwidths width height cpp sh hsh hsum

/-! ## Two lines at a time -/

/-- The place of sample `m` of the upper or lower lines. -/
private def pairTarget (width fw hp i m : Nat) : Nat := (2 * (m / fw % hp) + i) * width + (m / fw / hp * fw + m % fw)

private theorem pairTarget_eq {width fw hp f r i x : Nat} (hr : r < hp) (hx : x < fw) :
    pairTarget width fw hp i ((f * hp + r) * fw + x) = (2 * r + i) * width + (f * fw + x) := by
  have h1 : ((f * hp + r) * fw + x) / fw = f * hp + r := by rw [Nat.mul_comm, Nat.mul_add_div (by omega), Nat.div_eq_of_lt hx, Nat.add_zero]
  have h2 : ((f * hp + r) * fw + x) % fw = x := by rw [Nat.mul_comm, Nat.mul_add_mod, Nat.mod_eq_of_lt hx]
  have h3 : (f * hp + r) / hp = f := by rw [Nat.mul_comm, Nat.mul_add_div (by omega), Nat.div_eq_of_lt hr, Nat.add_zero]
  have h4 : (f * hp + r) % hp = r := by rw [Nat.mul_comm, Nat.mul_add_mod, Nat.mod_eq_of_lt hr]
  unfold pairTarget
  rw [h1, h2, h3, h4]

private theorem split3 {n hp fw m : Nat} (h : m < n * hp * fw) : ∃ f r x, f < n ∧ r < hp ∧ x < fw ∧ m = (f * hp + r) * fw + x := by
  have hfw : 0 < fw := Nat.pos_of_ne_zero fun e => by rw [e, Nat.mul_zero] at h; omega
  have h1 : m / fw < n * hp := by rw [Nat.div_lt_iff_lt_mul hfw]; exact h
  have hhp : 0 < hp := Nat.pos_of_ne_zero fun e => by rw [e, Nat.mul_zero] at h1; exact absurd h1 (Nat.not_lt_zero _)
  refine ⟨m / fw / hp, m / fw % hp, m % fw, by rw [Nat.div_lt_iff_lt_mul hhp]; exact h1, Nat.mod_lt _ hhp, Nat.mod_lt _ hfw, ?_⟩
  rw [Nat.mul_comm (m / fw / hp), Nat.div_add_mod, Nat.mul_comm (m / fw), Nat.div_add_mod]

/-- The places are distinct and inside the image. -/
private theorem pairTarget_inj {n hp fw i i' m m' : Nat} (hi : i < 2) (hi' : i' < 2) (hm : m < n * hp * fw) (hm' : m' < n * hp * fw)
    (e : pairTarget (n * fw) fw hp i m = pairTarget (n * fw) fw hp i' m') : i = i' ∧ m = m' := by
  obtain ⟨f, r, x, h1, h2, h3, rfl⟩ := split3 hm
  obtain ⟨f', r', x', h1', h2', h3', rfl⟩ := split3 hm'
  rw [pairTarget_eq h2 h3, pairTarget_eq h2' h3'] at e
  have a : f * fw + x < n * fw := by rw [Nat.mul_comm n]; exact cell_lt h1 h3
  have a' : f' * fw + x' < n * fw := by rw [Nat.mul_comm n]; exact cell_lt h1' h3'
  obtain ⟨e1, e2⟩ := cell_inj a a' e
  obtain ⟨e3, e4⟩ := cell_inj h3 h3' e2
  have : r = r' := by omega
  subst this e3 e4
  exact ⟨by omega, rfl⟩

private theorem pairTarget_lt {n hp fw i m : Nat} (hi : i < 2) (hm : m < n * hp * fw) : pairTarget (n * fw) fw hp i m < n * fw * (2 * hp) := by
  obtain ⟨f, r, x, h1, h2, h3, rfl⟩ := split3 hm
  rw [pairTarget_eq h2 h3]
  exact cell_lt (by omega) (by rw [Nat.mul_comm n]; exact cell_lt h1 h3)

/-- The values in their places, up to sample `M`. -/
private def Pairs (stream : List Nat) (lw n fw hp M : Nat) (s : List Nat × Nat) : Prop :=
  Wrote (List.replicate (n * fw * (2 * hp)) 0) (pairTarget (n * fw) fw hp) (fun i m => stream.getD (pairSource lw i m) 0) (fun i m => i < 2 ∧ m < M) s.1 ∧
    s.2 = pairSource lw 0 M

/-- A pair of lines holds the three samples. -/
private theorem pairSource_lt {lw lh i M T : Nat} (hlw : 0 < lw) (h3 : lw % 3 = 0) (hM : M % 3 = 0) (hi : i < 2) (hT : M < T) (hle : T ≤ lw * lh) :
    pairSource lw i M + 3 ≤ lw * (2 * lh) ∧ M % lw + 3 ≤ lw := by
  have h1 : M / lw < lh := by rw [Nat.div_lt_iff_lt_mul hlw, Nat.mul_comm]; omega
  have h2 := Nat.mod_lt M hlw
  have h4 : M % lw % 3 = 0 := by rw [Nat.mod_mod_of_dvd M (Nat.dvd_of_mod_eq_zero h3)]; exact hM
  have h5 : M % lw + 3 ≤ lw := by omega
  refine ⟨?_, h5⟩
  have := cell_lt (w := lw) (h := 2 * lh) (r := 2 * (M / lw) + i) (c := M % lw + 2) (by omega) (by omega)
  unfold pairSource
  omega

private theorem pairSource_step {lw i M j : Nat} (h : M % lw + 3 ≤ lw) (hj : j < 3) : pairSource lw i (M + j) = pairSource lw i M + j := by
  have hlw : 0 < lw := by omega
  have e1 : (M + j) / lw = M / lw := by
    conv => lhs; rw [← Nat.div_add_mod M lw, Nat.add_assoc, Nat.mul_add_div hlw, Nat.div_eq_of_lt (by omega : M % lw + j < lw), Nat.add_zero]
  have e2 : (M + j) % lw = M % lw + j := by
    conv => lhs; rw [← Nat.div_add_mod M lw, Nat.add_assoc, Nat.mul_add_mod, Nat.mod_eq_of_lt (by omega : M % lw + j < lw)]
  unfold pairSource
  rw [e1, e2]
  omega

private theorem pairSource_next {lw M : Nat} (h : M % lw + 3 ≤ lw) :
    pairSource lw 0 (M + 3) = if (pairSource lw 0 M + 3) % lw = 0 then pairSource lw 0 M + 3 + lw else pairSource lw 0 M + 3 := by
  have hlw : 0 < lw := by omega
  have e0 : (pairSource lw 0 M + 3) % lw = (M % lw + 3) % lw := by
    unfold pairSource
    rw [Nat.mul_comm, Nat.add_assoc, Nat.mul_add_mod]
  rw [e0]
  by_cases hl : M % lw + 3 = lw
  · rw [hl, Nat.mod_self, if_pos rfl]
    have hM : M + 3 = lw * (M / lw + 1) := by
      conv => lhs; rw [← Nat.div_add_mod M lw]
      rw [Nat.mul_add]; omega
    unfold pairSource
    rw [hM, Nat.mul_div_cancel_left _ hlw, Nat.mul_mod_right]
    have : (2 * (M / lw + 1) + 0) * lw = (2 * (M / lw) + 0) * lw + lw + lw := by
      rw [show 2 * (M / lw + 1) + 0 = 2 * (M / lw) + 0 + 1 + 1 by omega, Nat.add_mul, Nat.add_mul, Nat.one_mul]
    omega
  · rw [Nat.mod_eq_of_lt (by omega), if_neg (by omega)]
    have e1 : (M + 3) / lw = M / lw := by
      conv => lhs; rw [← Nat.div_add_mod M lw, Nat.add_assoc, Nat.mul_add_div hlw, Nat.div_eq_of_lt (by omega : M % lw + 3 < lw), Nat.add_zero]
    have e2 : (M + 3) % lw = M % lw + 3 := by
      conv => lhs; rw [← Nat.div_add_mod M lw, Nat.add_assoc, Nat.mul_add_mod, Nat.mod_eq_of_lt (by omega : M % lw + 3 < lw)]
    unfold pairSource
    rw [e1, e2]
    omega

private theorem pairStep_ok {stream : List Nat} {lw lh n fw hp f r c : Nat} {s : List Nat × Nat} (h3 : lw % 3 = 0) (hlw : 0 < lw) (hfw : fw % 3 = 0)
    (hlen : stream.length = lw * (2 * lh)) (hfit : n * hp * fw ≤ lw * lh) (hf : f < n) (hr : r < hp) (hc : 3 * c < fw)
    (hs : Pairs stream lw n fw hp ((f * hp + r) * fw + 3 * c) s) :
    ∃ s', Cr2.pairStep stream lw (n * fw) (f * fw) (2 * r) (3 * c) s = .ok s' ∧ Pairs stream lw n fw hp ((f * hp + r) * fw + 3 * (c + 1)) s' := by
  generalize hM : (f * hp + r) * fw + 3 * c = M at hs
  have hM3 : M % 3 = 0 := by
    have : ((f * hp + r) * fw) % 3 = 0 := by rw [Nat.mul_mod, hfw, Nat.mul_zero, Nat.zero_mod]
    omega
  have hb : ∀ j, j < 3 → M + j < n * hp * fw := by
    intro j hj
    have h1 : f * hp + r < n * hp := by rw [Nat.mul_comm n]; exact cell_lt hf hr
    have := cell_lt (w := fw) h1 (by omega : 3 * c + j < fw)
    rw [Nat.mul_comm fw] at this
    omega
  obtain ⟨out, inpos⟩ := s
  obtain ⟨hs1, hs2⟩ := hs
  dsimp only at hs1 hs2
  obtain ⟨b0, b2⟩ := pairSource_lt (i := 0) hlw h3 hM3 (by omega) (hb 0 (by omega)) hfit
  obtain ⟨b1, -⟩ := pairSource_lt (i := 1) hlw h3 hM3 (by omega) (hb 0 (by omega)) hfit
  have hp1 : pairSource lw 1 M = pairSource lw 0 M + lw := by
    unfold pairSource; rw [Nat.add_mul, Nat.add_mul, Nat.one_mul, Nat.zero_mul]; omega
  have htgt : ∀ i j, j < 3 → pairTarget (n * fw) fw hp i (M + j) = (2 * r + i) * (n * fw) + f * fw + 3 * c + j := by
    intro i j hj
    rw [← hM, Nat.add_assoc _ (3 * c) j, pairTarget_eq hr (by omega)]
    omega
  have hval : ∀ i j, i < 2 → j < 3 → stream[pairSource lw i M + j]? = some (stream.getD (pairSource lw i (M + j)) 0) := by
    intro i j hi hj
    rw [pairSource_step b2 hj]
    obtain ⟨b, -⟩ := pairSource_lt (i := i) hlw h3 hM3 hi (hb 0 (by omega)) hfit
    rw [List.getD_eq_getElem?_getD, List.getElem?_eq_getElem (by omega)]
    rfl
  have hpos : ∀ i, i < 2 → (2 * r + i) * (n * fw) + f * fw + 3 * c + 3 ≤ (List.replicate (n * fw * (2 * hp)) 0).length := by
    intro i hi
    have := pairTarget_lt (i := i) hi (hb 2 (by omega))
    rw [htgt i 2 (by omega)] at this
    rw [List.length_replicate]
    omega
  unfold Cr2.pairStep
  dsimp only
  obtain ⟨v, v1, v2, v3⟩ := slice_getElem? (l := stream) (i := pairSource lw 0 M) (j := pairSource lw 0 M + 3) (by omega) (by omega)
  obtain ⟨v', v1', v2', v3'⟩ := slice_getElem? (l := stream) (i := pairSource lw 1 M) (j := pairSource lw 1 M + 3) (by omega) (by omega)
  obtain ⟨o1, e1, e2⟩ := hs1.copySeg (vals := v) (row := 0) (S := M) (C := 3) (pos := (2 * r + 0) * (n * fw) + f * fw + 3 * c) (by omega)
    (fun j hj => by rw [v3 j (by omega), hval 0 j (by omega) hj]) (fun j hj => htgt 0 j hj) (hpos 0 (by omega)) (by
      rintro i m j ⟨hi, hm⟩ hj e
      rw [← htgt 0 j hj] at e
      have := hb j hj
      have := pairTarget_inj hi (by omega) (by omega) (hb j hj) e
      omega)
  obtain ⟨o2, e3, e4⟩ := e2.copySeg (vals := v') (row := 1) (S := M) (C := 3) (pos := (2 * r + 1) * (n * fw) + f * fw + 3 * c) (by omega)
    (fun j hj => by rw [v3' j (by omega), hval 1 j (by omega) hj]) (fun j hj => htgt 1 j hj) (hpos 1 (by omega)) (by
      rintro i m j hd hj e
      rw [← htgt 1 j hj] at e
      have := hb j hj
      have := hb 2 (by omega)
      have := pairTarget_inj (by omega) (by omega) (by omega) (hb j hj) e
      omega)
  rw [hs2, v1, ok_bind, show 2 * r * (n * fw) + f * fw + 3 * c = (2 * r + 0) * (n * fw) + f * fw + 3 * c from rfl, e1, ok_bind, ← hp1, v1', ok_bind, e3, ok_bind]
  refine ⟨_, rfl, e4.congr fun i m => ?_, ?_⟩
  · rw [show (f * hp + r) * fw + 3 * (c + 1) = M + 3 by omega]; omega
  · dsimp only
    rw [show (f * hp + r) * fw + 3 * (c + 1) = M + 3 by omega, pairSource_next b2]

/-- C47. With two lines at a time (vertical subsampling 2): the upper lines of the stream hold the slices of the even rows, the lower lines those
of the odd rows. Sample `x` of row `2 * r + i` of slice `f` comes from its own place in the stream. All slices are as wide as the first. -/
theorem cr2_pairs_restored_partial (stream : List Nat) (lw lh n fw hp : Nat) (ws : List Nat) (hlw : 0 < lw) (h3 : lw % 3 = 0) (hfw : fw % 3 = 0) (hn : ws.length = n) (h0 : ws[0]? = some fw)
    (hlen : stream.length = lw * (2 * lh)) (hfit : n * hp * fw ≤ lw * lh) :
    ∃ out, Cr2.copyPairs stream lw (n * fw) (2 * hp) ws = .ok out ∧ out.length = n * fw * (2 * hp) ∧
      ∀ f r i x, f < n → r < hp → i < 2 → x < fw →
        out[(2 * r + i) * (n * fw) + (f * fw + x)]? = stream[pairSource lw i ((f * hp + r) * fw + x)]? := by
  have hrun : ∃ s, forRange 0 n (fun n' s => forStep 0 (2 * hp) 2 (fun row s => forStep 0 fw 3 (fun col s => Cr2.pairStep stream lw (n * fw) (n' * fw) row col s) s) s)
      (List.replicate (n * fw * (2 * hp)) 0, 0) = .ok s ∧ Pairs stream lw n fw hp (n * hp * fw) s := by
    refine forRange_inv (P := fun f s => Pairs stream lw n fw hp (f * hp * fw) s) (Nat.zero_le n) ?_ ?_
    · rw [Nat.zero_mul, Nat.zero_mul]
      refine ⟨⟨rfl, fun _ _ h => by omega, fun _ _ => rfl⟩, ?_⟩
      simp [pairSource]
    · intro f s _ hf hs
      unfold forStep
      rw [show (2 * hp - 0 + 2 - 1) / 2 = hp by omega]
      obtain ⟨s', e1, e2⟩ := loopN_inv (fun r s => Pairs stream lw n fw hp ((f * hp + r) * fw) s)
        (fun j s => loopN (fun k s => Cr2.pairStep stream lw (n * fw) (f * fw) (0 + j * 2) (0 + k * 3) s) ((fw - 0 + 3 - 1) / 3) 0 s) hp 0 s hs (by
          intro r s _ hr hs
          have hr' : r < hp := by omega
          obtain ⟨s', e1, e2⟩ := loopN_inv (fun c s => Pairs stream lw n fw hp ((f * hp + r) * fw + 3 * c) s)
            (fun k s => Cr2.pairStep stream lw (n * fw) (f * fw) (0 + r * 2) (0 + k * 3) s) ((fw - 0 + 3 - 1) / 3) 0 s (by simpa using hs) (by
              intro c s _ hc hs
              rw [show 0 + r * 2 = 2 * r by omega, show 0 + c * 3 = 3 * c by omega]
              exact pairStep_ok h3 hlw hfw hlen hfit hf hr' (by omega) hs)
          refine ⟨s', e1, ?_⟩
          rw [show 3 * (0 + (fw - 0 + 3 - 1) / 3) = fw by omega] at e2
          rw [← Nat.add_assoc, Nat.add_mul _ 1, Nat.one_mul]
          exact e2)
      refine ⟨s', e1, ?_⟩
      rw [Nat.zero_add] at e2
      rw [Nat.add_mul f 1, Nat.one_mul]
      exact e2
  obtain ⟨s, e1, e2, -⟩ := hrun
  refine ⟨s.1, ?_, by simpa using e2.1, fun f r i x hf hr hi hx => ?_⟩
  · unfold Cr2.copyPairs
    rw [idx_eq_ok.mpr h0, ok_bind, hn, e1]
    rfl
  · have hm : (f * hp + r) * fw + x < n * hp * fw := by
      have h1 : f * hp + r < n * hp := by rw [Nat.mul_comm n]; exact cell_lt hf hr
      have := cell_lt (w := fw) h1 hx
      rw [Nat.mul_comm fw] at this
      exact this
    have := e2.2.1 i ((f * hp + r) * fw + x) ⟨hi, hm⟩
    rw [pairTarget_eq hr hx] at this
    dsimp only at this
    rw [this, List.getD_eq_getElem?_getD, List.getElem?_eq_getElem]
    · rfl
    · rw [hlen]
      unfold pairSource
      generalize (f * hp + r) * fw + x = m at *
      exact cell_lt (by have : m / lw < lh := by rw [Nat.div_lt_iff_lt_mul hlw, Nat.mul_comm]; omega
                        omega) (Nat.mod_lt _ hlw)

/-- C47. The places in the stream are distinct, so no sample is used twice. -/
theorem cr2_pairs_distinct (lw hp fw f r i x f' r' i' x' : Nat) (hlw : 0 < lw) (hr : r < hp) (hr' : r' < hp) (hi : i < 2) (hi' : i' < 2) (hx : x < fw) (hx' : x' < fw)
    (e : pairSource lw i ((f * hp + r) * fw + x) = pairSource lw i' ((f' * hp + r') * fw + x')) : f = f' ∧ r = r' ∧ i = i' ∧ x = x' := by
  unfold pairSource at e
  obtain ⟨e1, e2⟩ := cell_inj (Nat.mod_lt _ hlw) (Nat.mod_lt _ hlw) e
  have e3 : ((f * hp + r) * fw + x) = ((f' * hp + r') * fw + x') := by
    rw [← Nat.div_add_mod ((f * hp + r) * fw + x) lw, ← Nat.div_add_mod ((f' * hp + r') * fw + x') lw, e2]
    congr 2
    omega
  obtain ⟨e4, e5⟩ := cell_inj hx hx' e3
  obtain ⟨e6, e7⟩ := cell_inj hr hr' e4
  exact ⟨e6, e7, by omega, e5⟩

/-- C47. Slices of different widths are lost with two lines at a time: the width of the last slice is not used. Here the widths 3 and 6 add up to the
image width 9 and the stream has no zeros, but three columns of the image are never written. -/
theorem cr2_pairs_unequal : ∃ out, Cr2.copyPairs (List.replicate 18 1) 9 9 2 [3, 6] = .ok out ∧ out[6]? = some 0 :=
  ⟨[1, 1, 1, 1, 1, 1, 0, 0, 0, 1, 1, 1, 1, 1, 1, 0, 0, 0], by decide +kernel, rfl⟩

/-! ## The widths of the directory -/

/-- C47. The image is restored from the slices that the tag of the directory describes: a number of equal slices and a last one. -/
theorem cr2_arrange_restored (d : Ljpeg.Decompressor) (raw : TiffIFD) (e : TiffEntry) (img : Nat → Nat → Nat) (rest : List Nat) (width height cpp n w1 w2 sv sh : Nat)
    (he : raw.findEntry Tag.Cr2StripeWidths = some e) (h0 : e.getU32 0 = .ok n) (h1 : e.getU32 1 = .ok w1) (h2 : e.getU32 2 = .ok w2)
    (hsv : d.superV = .ok sv) (hsv2 : sv ≠ 2) (hsh : d.superH = .ok sh) (hsh0 : sh ≠ 0) (hn : n ≠ 0) (hsum : n * (w1 / sh * cpp) + w2 / sh * cpp = width) :
    Cr2.arrange d raw width height cpp (slices img height 0 (List.replicate n (w1 / sh * cpp) ++ [w2 / sh * cpp]) ++ rest) = .ok (raster width height img) := by
  have hmap : (List.replicate n w1 ++ [w2]).map (fun w => w / sh * cpp) = List.replicate n (w1 / sh * cpp) ++ [w2 / sh * cpp] := by simp
  unfold Cr2.arrange
  rw [he]
  dsimp only
  rw [h0, ok_bind, if_neg hn, h1, ok_bind, h2, ok_bind, hsv, ok_bind, if_neg hsv2, hsh, ok_bind, ← hmap]
  exact cr2_slices_restored img rest _ width height cpp sh hsh0 (by rw [hmap, List.sum_append]; simpa using hsum)

/-! ## Cases -/

/-- A 5 by 2 image in slices of 2, 2 and 1. -/
example : slices (fun row col => 10 * row + col) 2 0 [2, 2, 1] = [0, 1, 10, 11, 2, 3, 12, 13, 4, 14] := by decide
example : Cr2.copyFields [0, 1, 10, 11, 2, 3, 12, 13, 4, 14] 5 2 1 1 [2, 2, 1] = .ok [0, 1, 2, 3, 4, 10, 11, 12, 13, 14] := by decide +kernel

/-- A stream of four lines of six samples: two slices of three samples in four rows. -/
example : Cr2.copyPairs (List.range 24) 6 6 4 [3, 3] =
    .ok [0, 1, 2, 12, 13, 14,  6, 7, 8, 18, 19, 20,  3, 4, 5, 15, 16, 17,  9, 10, 11, 21, 22, 23] := by decide +kernel

end Props

import Verif.Spec.Rotation
import Verif.Model.Dec.Raf
import Verif.Lemmas.LoopsMore
/-!
# C45: the rotation of Fuji images
-/

namespace Props
open Rust Spec Model

/-- The pixels of an `n` wide image whose rows and columns are known. -/
private theorem place_inj {n r c r' c' : Nat} (hc : c < n) (hc' : c' < n) (h : r * n + c = r' * n + c') : r = r' ∧ c = c' := by
  have h1 : (r * n + c) / n = r := by rw [Nat.mul_comm, Nat.mul_add_div (by omega), Nat.div_eq_of_lt hc, Nat.add_zero]
  have h2 : (r' * n + c') / n = r' := by rw [Nat.mul_comm, Nat.mul_add_div (by omega), Nat.div_eq_of_lt hc', Nat.add_zero]
  have : r = r' := by rw [← h1, h, h2]
  subst this
  exact ⟨rfl, by omega⟩

private theorem place_lt {n m r c : Nat} (hr : r < m) (hc : c < n) : r * n + c < n * m := by
  have : (r + 1) * n ≤ m * n := Nat.mul_le_mul_right n hr
  rw [Nat.add_mul, Nat.one_mul, Nat.mul_comm m n] at this
  omega

/-- Reading the cropped area. -/
private theorem src_read {src : List Nat} {x y c1 c2 width height row col cw ch : Nat} (hs : src.length = width * height) (hw : cw + c1 + x = width) (hh : ch + c2 + y = height)
    (hr : row < ch) (hc : col < cw) :
    sliceFrom src ((row + y) * width + x) = .ok (src.drop ((row + y) * width + x)) ∧
      idx (src.drop ((row + y) * width + x)) col = .ok (src.getD ((row + y) * width + (x + col)) 0) := by
  have := place_lt (n := width) (m := height) (r := row + y) (c := x + col) (by omega) (by omega)
  refine ⟨sliceFrom_le (by omega), idx_eq_ok.mpr ?_⟩
  rw [List.getElem?_drop, List.getD_eq_getElem?_getD, show (row + y) * width + x + col = (row + y) * width + (x + col) by omega,
    List.getElem?_eq_getElem (by omega)]
  rfl

/-- Moving to distinct places inside the output. -/
private theorem move_ok {src out : List Nat} {x y c1 c2 width height rw cw ch : Nat} {t : Nat → Nat → M (Nat × Nat)} {R C : Nat → Nat → Nat}
    (hs : src.length = width * height) (hw : cw + c1 + x = width) (hh : ch + c2 + y = height)
    (ht : ∀ row col, row < ch → col < cw → t row col = .ok (R row col, C row col))
    (hp : ∀ row col, row < ch → col < cw → R row col * rw + C row col < out.length)
    (hi : ∀ r c r' c', r < ch → c < cw → r' < ch → c' < cw → R r c * rw + C r c = R r' c' * rw + C r' c' → r = r' ∧ c = c') :
    ∃ res, Raf.move src x y width rw cw ch t out = .ok res ∧
      Wrote out (fun row col => R row col * rw + C row col) (fun row col => src.getD ((row + y) * width + (x + col)) 0) (fun r c => r < ch ∧ c < cw) res := by
  unfold Raf.move
  refine forRange2_write hp hi (fun row s hr hl => ?_)
  by_cases hcw : cw = 0
  · subst hcw
    have hle : (row + y) * width + x ≤ src.length := by
      have : (row + y + 1) * width ≤ height * width := Nat.mul_le_mul_right _ (by omega)
      rw [Nat.add_mul, Nat.one_mul, Nat.mul_comm height] at this
      omega
    rw [sliceFrom_le hle, ok_bind]
    exact ⟨_, rfl, fun col s hc => by omega⟩
  · rw [(src_read hs hw hh hr (by omega : 0 < cw)).1, ok_bind]
    refine ⟨_, rfl, fun col s hc hl => ?_⟩
    rw [ht row col hr hc, ok_bind]
    dsimp only
    rw [(src_read hs hw hh hr hc).2, ok_bind, setIdx_lt (by rw [hl]; exact hp row col hr hc)]

/-- Moving a pixel out of the image panics. -/
private theorem move_crash {src out : List Nat} {x y c1 c2 width height rw cw ch : Nat} {t : Nat → Nat → M (Nat × Nat)} {R C : Nat → Nat → Nat} (row0 col0 : Nat)
    (hs : src.length = width * height) (hw : cw + c1 + x = width) (hh : ch + c2 + y = height) (hr0 : row0 < ch) (hc0 : col0 < cw)
    (ht : ∀ row col, (row < row0 ∧ col < cw) ∨ (row = row0 ∧ col < col0) → t row col = .ok (R row col, C row col) ∧ R row col * rw + C row col < out.length)
    (hx : t row0 col0 = crash ∨ ∃ r c, t row0 col0 = .ok (r, c) ∧ out.length ≤ r * rw + c) :
    Raf.move src x y width rw cw ch t out = crash := by
  unfold Raf.move
  have step : ∀ row col (s : List Nat), row < ch → col < cw → s.length = out.length →
      (row < row0 ∧ col < cw) ∨ (row = row0 ∧ col < col0) → ∃ s', (do
        let (r, c) ← t row col
        let v ← idx (src.drop ((row + y) * width + x)) col
        setIdx s (r * rw + c) v) = .ok s' ∧ s'.length = out.length := by
    intro row col s hr hc hl h
    obtain ⟨h1, h2⟩ := ht row col h
    rw [h1, ok_bind]
    dsimp only
    rw [(src_read hs hw hh hr hc).2, ok_bind, setIdx_lt (by omega)]
    exact ⟨_, rfl, by simpa using hl⟩
  refine forRange_stop (P := fun _ (s : List Nat) => s.length = out.length) (Nat.zero_le row0) hr0 rfl ?_ ?_
  · intro row s _ hr hl
    rw [(src_read hs hw hh (by omega : row < ch) hc0).1, ok_bind]
    refine forRange_inv (P := fun _ (s : List Nat) => s.length = out.length) (Nat.zero_le cw) hl (fun col s _ hc hl => ?_)
    exact step row col s (by omega) hc hl (Or.inl ⟨hr, hc⟩)
  · intro s hl
    rw [(src_read hs hw hh hr0 hc0).1, ok_bind]
    refine forRange_stop (P := fun _ (s : List Nat) => s.length = out.length) (Nat.zero_le col0) hc0 hl (fun col s _ hc hl => ?_) (fun s hl => ?_)
    · exact step row0 col s hr0 (by omega) hl (Or.inr ⟨rfl, hc⟩)
    · rcases hx with hx | ⟨r, c, hx, hge⟩
      · rw [hx]; rfl
      · rw [hx, ok_bind]
        dsimp only
        rw [(src_read hs hw hh hr0 hc0).2, ok_bind, setIdx_ge (by omega)]
        rfl

/-- What a lossless rotation is: an image of the given size in which every pixel of the cropped area has its own place, the one the
specification names; all other pixels are 0. -/
def Rotated (law : Nat → Nat → Nat → Nat → Nat → Prop) (src : List Nat) (x y width cw ch : Nat) (img : Nat × Nat × List Nat) : Prop :=
  ∃ R C : Nat → Nat → Nat, img.2.2.length = img.1 * img.2.1 ∧
    (∀ row col, row < ch → col < cw → law cw row col (R row col) (C row col) ∧ R row col < img.2.1 ∧ C row col < img.1 ∧
      img.2.2[R row col * img.1 + C row col]? = src[(row + y) * width + (x + col)]?) ∧
    (∀ row col row' col', row < ch → col < cw → row' < ch → col' < cw → (R row col, C row col) = (R row' col', C row' col') → row = row' ∧ col = col') ∧
    ∀ k, k < img.2.2.length → (∀ row col, row < ch → col < cw → R row col * img.1 + C row col ≠ k) → img.2.2[k]? = some 0

private theorem rotated_of {law : Nat → Nat → Nat → Nat → Nat → Prop} {src out : List Nat} {x y c1 c2 width height cw ch w h : Nat} {R C : Nat → Nat → Nat}
    (hs : src.length = width * height) (hw : cw + c1 + x = width) (hh : ch + c2 + y = height)
    (hl : ∀ row col, row < ch → col < cw → law cw row col (R row col) (C row col) ∧ R row col < h ∧ C row col < w)
    (hi : ∀ row col row' col', row < ch → col < cw → row' < ch → col' < cw → R row col = R row' col' → C row col = C row' col' → row = row' ∧ col = col')
    (ho : Wrote (List.replicate (w * h) 0) (fun row col => R row col * w + C row col) (fun row col => src.getD ((row + y) * width + (x + col)) 0)
      (fun r c => r < ch ∧ c < cw) out) : Rotated law src x y width cw ch (w, h, out) := by
  refine ⟨R, C, by simpa using ho.1, fun row col hr hc => ?_, fun row col row' col' h1 h2 h3 h4 e => ?_, fun k hk hn => ?_⟩
  · obtain ⟨a, b, c⟩ := hl row col hr hc
    refine ⟨a, b, c, ?_⟩
    have := ho.2.1 row col ⟨hr, hc⟩
    dsimp only at this ⊢
    have hlt := place_lt (n := width) (m := height) (r := row + y) (c := x + col) (by omega) (by omega)
    rw [List.getD_eq_getElem?_getD, List.getElem?_eq_getElem (l := src) (by omega), Option.getD_some] at this
    rw [List.getElem?_eq_getElem (l := src) (by omega)]
    exact this
  · injection e with e1 e2
    exact hi row col row' col' h1 h2 h3 h4 e1 e2
  · rw [ho.2.2 k (fun row col hd => hn row col hd.1 hd.2), List.getElem?_replicate, if_pos (by have := ho.1; simp at this; dsimp only at hk; omega)]

/-- The sizes the rotation starts with. -/
private theorem rotate_sizes {b : Build} {src : List Nat} {camera : Camera} {x y c1 c2 width height cw ch : Nat} (hcrop : camera.crops = [y, c1, c2, x])
    (hw : cw + c1 + x = width) (hh : ch + c2 + y = height) :
    Raf.rotateImage b src camera width height = (
      if camera.findHint (b! "fuji_rotation_alt") = true then do
        let rotatedwidth ← addU 64 b ch (cw / 2)
        let rotatedheight ← subU 64 b rotatedwidth 1
        let n ← mulU 64 b rotatedwidth rotatedheight
        let out ← Raf.move src x y width rotatedwidth cw ch (Raf.targetAlt b rotatedwidth ch) (List.replicate n 0)
        .ok (rotatedwidth, rotatedheight, out)
      else do
        let rotatedwidth ← addU 64 b cw (ch / 2)
        let rotatedheight ← subU 64 b rotatedwidth 1
        let n ← mulU 64 b rotatedwidth rotatedheight
        let out ← Raf.move src x y width rotatedwidth cw ch (Raf.target cw) (List.replicate n 0)
        .ok (rotatedwidth, rotatedheight, out)) := by
  unfold Raf.rotateImage
  rw [hcrop]
  rw [idx_eq_ok.mpr (show _ = some x from rfl), ok_bind, idx_eq_ok.mpr (show _ = some y from rfl), ok_bind, idx_eq_ok.mpr (show _ = some c1 from rfl), ok_bind,
    idx_eq_ok.mpr (show _ = some c2 from rfl), ok_bind, subU_ok (by omega), ok_bind, subU_ok (by omega), ok_bind, subU_ok (by omega), ok_bind, subU_ok (by omega), ok_bind,
    show width - c1 - x = cw by omega, show height - c2 - y = ch by omega]

/-- C45. The plain rotation keeps every pixel if the cropped area has an even height; with an odd height it panics. The crops
leave at least one pixel and the sizes fit a `usize`. -/
theorem fuji_rotation_plain_partial (b : Build) (src : List Nat) (camera : Camera) (x y c1 c2 width height cw ch : Nat) (hcrop : camera.crops = [y, c1, c2, x])
    (hw : cw + c1 + x = width) (hh : ch + c2 + y = height) (hs : src.length = width * height) (hcw : 0 < cw) (hch : 0 < ch)
    (hfit : (cw + ch / 2) * (cw + ch / 2) < 2 ^ 64) (hhint : camera.findHint (b! "fuji_rotation_alt") = false) :
    (ch % 2 = 0 → ∃ out, Raf.rotateImage b src camera width height = .ok (cw + ch / 2, cw + ch / 2 - 1, out) ∧
      Rotated fujiPlain src x y width cw ch (cw + ch / 2, cw + ch / 2 - 1, out)) ∧
    (ch % 2 = 1 → Raf.rotateImage b src camera width height = crash) := by
  rw [rotate_sizes hcrop hw hh, hhint]
  have hfit1 : cw + ch / 2 < 2 ^ 64 := Nat.lt_of_le_of_lt (Nat.le_mul_of_pos_right _ (by omega)) hfit
  have hfit2 : (cw + ch / 2) * (cw + ch / 2 - 1) < 2 ^ 64 := Nat.lt_of_le_of_lt (Nat.mul_le_mul_left _ (by omega)) hfit
  simp only [Bool.false_eq_true, if_false]
  rw [addU_ok hfit1, ok_bind, subU_ok (by omega), ok_bind, mulU_ok hfit2, ok_bind]
  constructor
  · intro hev
    obtain ⟨out, e1, e2⟩ := move_ok (out := List.replicate ((cw + ch / 2) * (cw + ch / 2 - 1)) 0) (rw := cw + ch / 2) (t := Raf.target cw)
      (R := fun row col => cw - 1 - col + row / 2) (C := fun row col => (row + 1) / 2 + col) hs hw hh
      (fun row col _ _ => by unfold Raf.target; rw [Nat.shiftRight_eq_div_pow, Nat.shiftRight_eq_div_pow])
      (fun row col hr hc => by rw [List.length_replicate]; exact place_lt (by omega) (by omega))
      (fun r c r' c' h1 h2 h3 h4 e => by have := place_inj (by omega) (by omega) e; omega)
    rw [e1, ok_bind]
    refine ⟨out, rfl, rotated_of hs hw hh (fun row col hr hc => ⟨?_, ?_, ?_⟩) ?_ e2⟩
    · unfold fujiPlain; omega
    · omega
    · omega
    · intro row col row' col' h1 h2 h3 h4 e1 e2; omega
  · intro hodd
    have hm := move_crash (out := List.replicate ((cw + ch / 2) * (cw + ch / 2 - 1)) 0) (rw := cw + ch / 2) (t := Raf.target cw)
      (R := fun row col => cw - 1 - col + row / 2) (C := fun row col => (row + 1) / 2 + col) (ch - 1) 0 hs hw hh (by omega) hcw
      (fun row col h => ⟨by unfold Raf.target; rw [Nat.shiftRight_eq_div_pow, Nat.shiftRight_eq_div_pow],
        by rw [List.length_replicate]; exact place_lt (by omega) (by omega)⟩)
      (Or.inr ⟨_, _, rfl, by
        rw [List.length_replicate, Nat.shiftRight_eq_div_pow, show cw - 1 - 0 + (ch - 1) / 2 ^ 1 = cw + ch / 2 - 1 by omega, Nat.mul_comm]
        exact Nat.le_add_right _ _⟩)
    rw [hm]
    rfl

/-- C45. The alternative rotation keeps every pixel if the cropped area has an even width; with an odd width it panics. -/
theorem fuji_rotation_alt_partial (b : Build) (src : List Nat) (camera : Camera) (x y c1 c2 width height cw ch : Nat) (hcrop : camera.crops = [y, c1, c2, x])
    (hw : cw + c1 + x = width) (hh : ch + c2 + y = height) (hs : src.length = width * height) (hcw : 0 < cw) (hch : 0 < ch)
    (hfit : (ch + cw / 2) * (ch + cw / 2) < 2 ^ 64) (hhint : camera.findHint (b! "fuji_rotation_alt") = true) :
    (cw % 2 = 0 → ∃ out, Raf.rotateImage b src camera width height = .ok (ch + cw / 2, ch + cw / 2 - 1, out) ∧
      Rotated fujiAlt src x y width cw ch (ch + cw / 2, ch + cw / 2 - 1, out)) ∧
    (cw % 2 = 1 → Raf.rotateImage b src camera width height = crash) := by
  rw [rotate_sizes hcrop hw hh, hhint]
  have hfit1 : ch + cw / 2 < 2 ^ 64 := Nat.lt_of_le_of_lt (Nat.le_mul_of_pos_right _ (by omega)) hfit
  have hfit2 : (ch + cw / 2) * (ch + cw / 2 - 1) < 2 ^ 64 := Nat.lt_of_le_of_lt (Nat.mul_le_mul_left _ (by omega)) hfit
  simp only [if_true]
  rw [addU_ok hfit1, ok_bind, subU_ok (by omega), ok_bind, mulU_ok hfit2, ok_bind]
  have ht : ∀ row col, row < ch → col / 2 + 1 ≤ cw / 2 + row → Raf.targetAlt b (ch + cw / 2) ch row col = .ok (cw / 2 + row - 1 - col / 2, (col + 1) / 2 + row) := by
    intro row col hr hc
    unfold Raf.targetAlt
    rw [Nat.shiftRight_eq_div_pow, Nat.shiftRight_eq_div_pow, subU_ok (by omega), ok_bind, show ch + cw / 2 - (ch + 1 - row + col / 2 ^ 1) = cw / 2 + row - 1 - col / 2 by omega]
  constructor
  · intro hev
    obtain ⟨out, e1, e2⟩ := move_ok (out := List.replicate ((ch + cw / 2) * (ch + cw / 2 - 1)) 0) (rw := ch + cw / 2) (t := Raf.targetAlt b (ch + cw / 2) ch)
      (R := fun row col => cw / 2 + row - 1 - col / 2) (C := fun row col => (col + 1) / 2 + row) hs hw hh
      (fun row col hr hc => ht row col hr (by omega))
      (fun row col hr hc => by rw [List.length_replicate]; exact place_lt (by omega) (by omega))
      (fun r c r' c' h1 h2 h3 h4 e => by have := place_inj (by omega) (by omega) e; omega)
    rw [e1, ok_bind]
    refine ⟨out, rfl, rotated_of hs hw hh (fun row col hr hc => ⟨?_, ?_, ?_⟩) ?_ e2⟩
    · unfold fujiAlt; omega
    · omega
    · omega
    · intro row col row' col' h1 h2 h3 h4 e1 e2; omega
  · intro hodd
    have hm := move_crash (out := List.replicate ((ch + cw / 2) * (ch + cw / 2 - 1)) 0) (rw := ch + cw / 2) (t := Raf.targetAlt b (ch + cw / 2) ch)
      (R := fun row col => cw / 2 + row - 1 - col / 2) (C := fun row col => (col + 1) / 2 + row) 0 (cw - 1) hs hw hh hch (by omega)
      (fun row col h => ⟨ht row col (by omega) (by omega), by rw [List.length_replicate]; exact place_lt (by omega) (by omega)⟩) (by
        unfold Raf.targetAlt
        rw [Nat.shiftRight_eq_div_pow]
        unfold subU
        rw [if_neg (by omega)]
        cases b with
        | debug => exact Or.inl rfl
        | release =>
          refine Or.inr ⟨_, _, rfl, ?_⟩
          rw [List.length_replicate, show 2 ^ 64 + (ch + cw / 2) - (ch + 1 - 0 + (cw - 1) / 2 ^ 1) = 2 ^ 64 - 1 by omega]
          have : (ch + cw / 2) * (ch + cw / 2 - 1) ≤ (2 ^ 64 - 1) * (ch + cw / 2) := by
            rw [Nat.mul_comm]; exact Nat.mul_le_mul_right _ (by omega)
          omega)
    rw [hm]
    rfl

/-! ## Cases -/

/-- A camera with the given crops and hints. -/
private def cam (crops : List Nat) (hints : List Bytes) : M Camera := do
  let c ← Camera.new
  .ok { c with crops := crops, hints := hints }

/-- A 3 by 3 image without its first row and its last column: a 2 by 2 area in a 3 by 2 image. -/
example : (cam [1, 1, 0, 0] [] >>= fun c => Raf.rotateImage .debug [1, 2, 3, 4, 5, 6, 7, 8, 9] c 3 3) = .ok (3, 2, [0, 5, 8, 4, 7, 0]) := by decide +kernel

/-- The same with the other variant. -/
example : (cam [1, 1, 0, 0] [b! "fuji_rotation_alt"] >>= fun c => Raf.rotateImage .debug [1, 2, 3, 4, 5, 6, 7, 8, 9] c 3 3) =
    .ok (3, 2, [4, 5, 0, 0, 7, 8]) := by decide +kernel

/-- The whole image has an odd height and an odd width. -/
example : (cam [0, 0, 0, 0] [] >>= fun c => Raf.rotateImage .release [1, 2, 3, 4, 5, 6, 7, 8, 9] c 3 3) = crash := by decide +kernel
example : (cam [0, 0, 0, 0] [b! "fuji_rotation_alt"] >>= fun c => Raf.rotateImage .release [1, 2, 3, 4, 5, 6, 7, 8, 9] c 3 3) = crash := by decide +kernel

end Props

import Verif.Props.Gamma
import Verif.Lemmas.Loops
/-!
# Lemmas for the scaling demosaic: indices stay inside the source
-/

namespace Model
open Rust Spec

variable {α : Type}

/-- A line function that always succeeds and keeps the length makes the whole image succeed. -/
theorem mutateLines_total (z : α) {w h k : Nat} (hw : 0 < w) (hk : 0 < k) (p : Nat → Nat → Nat → α) {f : List α → Nat → M (List α)}
    (hf : ∀ line r, r < h → line.length = w * k → ∃ l, f line r = .ok l ∧ l.length = w * k) :
    ∃ q, (ofPix w h k p).mutateLines f = .ok (ofPix w h k q) := by
  have hline : ∀ r, r < h → ∃ q : Nat → Nat → α, f (pixLine w k (p r)) r = .ok (pixLine w k q) := by
    intro r hr
    obtain ⟨l, h1, h2⟩ := hf (pixLine w k (p r)) r hr (pixLine_length _ _ _)
    refine ⟨fun c ch => (l[c * k + ch]?).getD z, ?_⟩
    rw [h1]
    congr 1
    apply eq_pixLine h2
    intro c ch hc hch
    rw [List.getElem?_eq_getElem (by rw [h2]; exact pix_lt hc hch), Option.getD_some]
  refine ⟨fun r => if hr : r < h then Classical.choose (hline r hr) else fun _ _ => z, ?_⟩
  apply mutateLines_ofPix hw hk
  intro r hr
  have := Classical.choose_spec (hline r hr)
  simp only [hr, dif_pos]
  exact this

theorem min_cases (x y : F32) (hx : x ≠ .nan) : x.min y = x ∨ (x.min y = y ∧ y.lt x = true) := by
  unfold F32.min
  split
  · exact absurd rfl hx
  · exact Or.inl rfl
  · by_cases h : y.lt x = true
    · rw [if_pos h]; exact Or.inr ⟨rfl, h⟩
    · rw [if_neg h]; exact Or.inl rfl

theorem calcSkips_le (i imax : Nat) (skip : F32) (h : imax ≤ 2 ^ 24) : (calcSkips i imax skip).2.1 ≤ imax := by
  unfold calcSkips
  simp only
  generalize ((F32.ofNat (i + 1)).mul skip).ceil = y
  rcases Nat.eq_zero_or_pos imax with h0 | h0
  · subst h0
    rw [F32.ofNat_zero]
    rcases min_cases (.zero false) y (by simp) with e | ⟨e, hlt⟩
    · rw [e]; exact Nat.le_refl _
    · rw [e]
      cases y with
      | nan => exact Nat.le_refl _
      | inf s => simp only [F32.lt] at hlt; subst hlt; exact Nat.le_refl _
      | zero s => exact Nat.le_refl _
      | fin q =>
        simp only [F32.lt, decide_eq_true_eq] at hlt
        exact Props.toUsize_le (fun r hr => by cases hr; exact_mod_cast le_of_lt hlt) (by simp)
  · rw [F32.ofNat_pos h0 h]
    rcases min_cases (.fin (imax : ℚ)) y (by simp) with e | ⟨e, hlt⟩
    · rw [e]; exact Props.toUsize_le (fun r hr => by cases hr; exact le_refl _) (by simp)
    · rw [e]
      cases y with
      | nan => exact Nat.zero_le _
      | inf s => simp only [F32.lt] at hlt; subst hlt; exact Nat.zero_le _
      | zero s => exact Nat.zero_le _
      | fin q =>
        simp only [F32.lt, decide_eq_true_eq] at hlt
        exact Props.toUsize_le (fun r hr => by cases hr; exact le_of_lt hlt) (by simp)

/-- An invariant kept by every step makes a loop succeed. -/
theorem forRange_total {σ : Type} (P : σ → Prop) {f : Nat → σ → M σ} {lo hi : Nat} {s : σ} (h0 : P s)
    (hf : ∀ j s, lo ≤ j → j < hi → P s → ∃ s', f j s = .ok s' ∧ P s') : ∃ s', forRange lo hi f s = .ok s' ∧ P s' := by
  by_cases hle : lo ≤ hi
  · exact forRange_inv (P := fun _ s => P s) hle h0 hf
  · rw [forRange_nil (by omega)]; exact ⟨s, rfl, h0⟩

/-- Loop state: four sums and four counts. -/
def Four (s : List F32 × List F32) : Prop := s.1.length = 4 ∧ s.2.length = 4

theorem four_zero : Four (List.replicate 4 (F32.zero false), List.replicate 4 (F32.zero false)) := ⟨rfl, rfl⟩

theorem four_add {s : List F32 × List F32} (hs : Four s) {c : Nat} (hc : c < 4) (v n : F32) :
    ∃ s', (do
      let sum ← idx s.1 c
      let sums ← setIdx s.1 c (sum.add v)
      let m ← idx s.2 c
      let counts ← setIdx s.2 c (m.add n)
      .ok (sums, counts) : M (List F32 × List F32)) = .ok s' ∧ Four s' := by
  have h1 : c < s.1.length := by rw [hs.1]; exact hc
  have h2 : c < s.2.length := by rw [hs.2]; exact hc
  rw [idx_lt h1, ok_bind, setIdx_lt h1, ok_bind, idx_lt h2, ok_bind, setIdx_lt h2, ok_bind]
  exact ⟨_, rfl, by simp [hs.1], by simp [hs.2]⟩

theorem scaledChannel_total {s : List F32 × List F32} (hs : Four s) {k col c w : Nat} {line : List F32} (hl : line.length = w * k)
    (hcol : col < w) (hc : c < k) (hc4 : c < 4) : ∃ l, scaledChannel k col s c line = .ok l ∧ l.length = w * k := by
  unfold scaledChannel
  have h1 : c < s.1.length := by rw [hs.1]; exact hc4
  have h2 : c < s.2.length := by rw [hs.2]; exact hc4
  rw [idx_lt h2, ok_bind]
  split
  · rw [idx_lt h1, ok_bind, setIdx_lt (by rw [hl]; exact pix_lt hcol hc)]
    exact ⟨_, rfl, by simp [hl]⟩
  · exact ⟨_, rfl, hl⟩

theorem data_lt {buf : OpBuffer α} (hwf : buf.wf) {y x c : Nat} (hy : y < buf.height) (hx : x < buf.width) (hc : c < buf.colors) :
    (y * buf.width + x) * buf.colors + c < buf.data.length := by
  rw [hwf]
  have h1 : y * buf.width + x < buf.width * buf.height := by
    have : (y + 1) * buf.width ≤ buf.height * buf.width := Nat.mul_le_mul_right _ hy
    rw [Nat.add_mul, Nat.mul_comm buf.height] at this; omega
  exact pix_lt h1 hc

/-- Every output pixel of `scale_down` is computed without leaving the source. -/
theorem downPixel_total {buf : OpBuffer F32} (hwf : buf.wf) (hk : buf.colors ≤ 4) (hw : buf.width ≤ 2 ^ 24) (hh : buf.height ≤ 2 ^ 24)
    (rs cs : F32) {row col nw : Nat} (hcol : col < nw) {line : List F32} (hl : line.length = nw * buf.colors) :
    ∃ l, downPixel buf rs cs row col line = .ok l ∧ l.length = nw * buf.colors := by
  unfold downPixel
  simp only
  have hr := calcSkips_le row buf.height rs hh
  have hc := calcSkips_le col buf.width cs hw
  obtain ⟨s, h1, h2⟩ := forRange_total Four (lo := (calcSkips row buf.height rs).1) (hi := (calcSkips row buf.height rs).2.1) four_zero
    (f := fun y s => forRange (calcSkips col buf.width cs).1 (calcSkips col buf.width cs).2.1 (fun x s =>
      forRange 0 buf.colors (fun c s => downChannel buf (skipFactor y x (calcSkips row buf.height rs) (calcSkips col buf.width cs)) y x c s) s) s)
    (fun y s _ hy hs => forRange_total Four hs (fun x s _ hx hs => forRange_total Four hs (fun c s _ hc' hs => by
      unfold downChannel
      rw [idx_lt (data_lt hwf (by omega) (by omega) hc'), ok_bind]
      exact four_add hs (by omega) _ _)))
  rw [h1, ok_bind]
  exact forRange_total (fun l : List F32 => l.length = nw * buf.colors) hl (fun c l _ hc' hl' => scaledChannel_total h2 hl' hcol hc' (by omega))

theorem scaledPixel_total {b : Build} {cfa : CFA} {buf : OpBuffer F32} (hwf : buf.wf) (hk : buf.colors = 1) (hw : buf.width ≤ 2 ^ 24)
    (hh : buf.height ≤ 2 ^ 24) (hcfa : ∀ r c, r < buf.height → c < buf.width → ∃ k, cfa.colorAt b r c = .ok k ∧ k < 4)
    (rs cs : F32) {row col nw : Nat} (hcol : col < nw) {line : List F32} (hl : line.length = nw * 4) :
    ∃ l, scaledPixel b cfa buf rs cs row col line = .ok l ∧ l.length = nw * 4 := by
  unfold scaledPixel
  simp only
  have hr := calcSkips_le row buf.height rs hh
  have hc := calcSkips_le col buf.width cs hw
  obtain ⟨s, h1, h2⟩ := forRange_total Four (lo := (calcSkips row buf.height rs).1) (hi := (calcSkips row buf.height rs).2.1) four_zero
    (f := fun y s => forRange (calcSkips col buf.width cs).1 (calcSkips col buf.width cs).2.1 (fun x s =>
      scaledSource b cfa buf (calcSkips row buf.height rs) (calcSkips col buf.width cs) y x s) s)
    (fun y s _ hy hs => forRange_total Four hs (fun x s _ hx hs => by
      unfold scaledSource
      obtain ⟨k, hk1, hk2⟩ := hcfa y x (by omega) (by omega)
      have := data_lt hwf (y := y) (x := x) (c := 0) (by omega) (by omega) (by omega)
      rw [hk] at this
      simp only
      rw [hk1, ok_bind, idx_lt (by omega), ok_bind]
      exact four_add hs hk2 _ _))
  rw [h1, ok_bind]
  exact forRange_total (fun l : List F32 => l.length = nw * 4) hl (fun c l _ hc' hl' => scaledChannel_total h2 hl' hcol hc' hc')

theorem scaleDown_total {buf : OpBuffer F32} (hwf : buf.wf) (hk0 : 0 < buf.colors) (hk : buf.colors ≤ 4) (hw : buf.width ≤ 2 ^ 24)
    (hh : buf.height ≤ 2 ^ 24) {nw nh : Nat} (hn : 0 < nw) : ∃ q, scaleDown buf nw nh = .ok (ofPix nw nh buf.colors q) := by
  unfold scaleDown
  simp only
  rw [new_eq_ofPix]
  exact mutateLines_total (F32.zero false) hn hk0 _ (fun line r _ hl =>
    forRange_total (fun l : List F32 => l.length = nw * buf.colors) hl (fun col l _ hcol hl' => downPixel_total hwf hk hw hh _ _ hcol hl'))

theorem scaled_total {b : Build} {img : RawImage} {cfa : CFA} {buf : OpBuffer F32} (hcrop : img.croppedCfa b = .ok cfa) (hwf : buf.wf)
    (hk : buf.colors = 1) (hw : buf.width ≤ 2 ^ 24) (hh : buf.height ≤ 2 ^ 24)
    (hcfa : ∀ r c, r < buf.height → c < buf.width → ∃ k, cfa.colorAt b r c = .ok k ∧ k < 4) {nw nh : Nat} (hn : 0 < nw) :
    ∃ q, scaled b img buf nw nh = .ok (ofPix nw nh 4 q) := by
  unfold scaled
  rw [hcrop, ok_bind]
  simp only
  rw [new_eq_ofPix]
  exact mutateLines_total (F32.zero false) hn (by decide) _ (fun line r _ hl =>
    forRange_total (fun l : List F32 => l.length = nw * 4) hl (fun col l _ hcol hl' => scaledPixel_total hwf hk hw hh hcfa _ _ hcol hl'))

end Model

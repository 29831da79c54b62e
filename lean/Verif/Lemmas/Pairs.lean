import Verif.Lemmas.Codes
import Verif.Spec.Pairs
import Verif.Model.Dec.Pef
/-!
# Pairs of columns
-/

namespace Props
open Rust Spec Model Model.HuffTable Model.Ljpeg

variable {st : Nat → Nat} {limit : Option Nat} {at_ : Pump → Nat → Nat → Prop}

theorem encodeUp_le (tab : Nat → TableSpec) (init : Nat → Nat → Nat) (w h : Nat) (img : Nat → Nat → Nat → Nat) : ∀ x ∈ encodeUp tab init w h img, x ≤ 1 := by
  intro x hx
  unfold encodeUp encodeUpPair encodeDiff at hx
  simp only [List.mem_flatMap, List.mem_append] at hx
  obtain ⟨_, _, _, _, (hx | hx) | (hx | hx)⟩ := hx <;> exact bitsOf_le _ _ x hx

/-- `twoDiffs` reads one pair. -/
theorem twoDiffs_ok {b : Build} {t : TableSpec} {precision : Nat} {dngBug : Bool} (h : UsableTable t precision dngBug) {T : HuffTable}
    (hT : HuffTable.new b (0 :: t.counts) (padded t) precision dngBug = .ok T) (hR : Reads (pumpMSB b) (fieldMSB st) limit at_)
    {init : Nat → Nat → Nat} {img : Nat → Nat → Nat → Nat} {r p : Nat} (himg : ∀ k, k < 2 → img r p k < 65536)
    (hres : ∀ k, k < 2 → -32768 ≤ upResidual init img r p k ∧ upResidual init img r p k ≤ 32767 ∧ category (upResidual init img r p k) ∈ t.vals)
    {s : Pump} {c a : Nat} {rest : List Nat} (hs : at_ s c a) (hf : Follows st c (encodeUpPair t init img r p ++ rest)) (hw : within limit (c + (encodeUpPair t init img r p ++ rest).length + 12)) :
    ∃ s' c' a', Nef.twoDiffs b T ((upPredict init img r p 0 : Int), (upPredict init img r p 1 : Int), s) = .ok ((img r p 0 : Int), (img r p 1 : Int), s') ∧ at_ s' c' a' ∧ Follows st c' rest ∧
      within limit (c' + rest.length + 12) := by
  unfold encodeUpPair at hf hw
  rw [List.append_assoc] at hf hw
  obtain ⟨r1, r2, r3⟩ := hres 0 (by omega)
  obtain ⟨r4, r5, r6⟩ := hres 1 (by omega)
  have i0 := himg 0 (by omega)
  have i1 := himg 1 (by omega)
  obtain ⟨s1, c1, a1, g1, h1, f1, w1⟩ := h.decode_ok hT hR r1 r2 r3 hs hf hw
  obtain ⟨s2, c2, a2, g2, h2, f2, w2⟩ := h.decode_ok hT hR r4 r5 r6 h1 f1 w1
  refine ⟨s2, c2, a2, ?_, h2, f2, w2⟩
  have e0 : (upPredict init img r p 0 : Int) + upResidual init img r p 0 = img r p 0 := by unfold upResidual; omega
  have e1 : (upPredict init img r p 1 : Int) + upResidual init img r p 1 = img r p 1 := by unfold upResidual; omega
  unfold Nef.twoDiffs
  dsimp only
  rw [g1, ok_bind]; dsimp only
  rw [e0, i32_small (by omega) (by omega), ok_bind, g2, ok_bind]; dsimp only
  rw [e1, i32_small (by omega) (by omega), ok_bind]

end Props

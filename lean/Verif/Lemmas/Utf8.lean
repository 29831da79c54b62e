import Mathlib.Tactic.IntervalCases
import Verif.Model.Text
import Verif.Lemmas.Rust
import Verif.Spec.LeafFile
/-!
# UTF-8
-/

namespace Props
open Rust Spec Model

deriving instance DecidableEq for Utf8State

private theorem from_rest (x y : UInt8) (l : Bytes) : utf8From ⟨0, x, y⟩ l = utf8From ⟨0, 0, 0⟩ l := by
  cases l with
  | nil => rfl
  | cons a t => unfold utf8From utf8Step; rfl

private theorem from_cons {s s' : Utf8State} {a : UInt8} {l : Bytes} (h : utf8Step s a = some s') : utf8From s (a :: l) = utf8From s' l := by
  rw [utf8From, h]

private theorem from_next (m : Nat) (lo hi : UInt8) {k : Nat} {l : Bytes} (a b : Nat) (ha : lo.toNat = a) (hb : hi.toNat = b) (h1 : a ≤ k) (h2 : k ≤ b) :
    utf8From ⟨m + 1, lo, hi⟩ (UInt8.ofNat k :: l) = utf8From ⟨m, 0x80, 0xBF⟩ l := by
  refine from_cons ?_
  unfold utf8Step
  dsimp only
  have := hi.toNat_lt
  rw [if_neg (by omega), if_pos]
  · rfl
  · rw [UInt8.le_iff_toNat_le, UInt8.le_iff_toNat_le, UInt8.toNat_ofNat']
    omega

private theorem lead2 : ∀ k, k < 256 → 0xC2 ≤ k → k ≤ 0xDF → utf8Step ⟨0, 0, 0⟩ (UInt8.ofNat k) = some ⟨1, 0x80, 0xBF⟩ := by decide +kernel
private theorem lead3 : ∀ k, k < 256 → 0xE1 ≤ k → k ≤ 0xEF → k ≠ 0xED → utf8Step ⟨0, 0, 0⟩ (UInt8.ofNat k) = some ⟨2, 0x80, 0xBF⟩ := by decide +kernel
private theorem lead4 : ∀ k, k < 256 → 0xF1 ≤ k → k ≤ 0xF3 → utf8Step ⟨0, 0, 0⟩ (UInt8.ofNat k) = some ⟨3, 0x80, 0xBF⟩ := by decide +kernel

/-- One character. -/
private theorem from_char (c : Char) (l : Bytes) : utf8From ⟨0, 0, 0⟩ (String.utf8EncodeChar c ++ l) = utf8From ⟨0, 0, 0⟩ l := by
  have hv' : c.val.toNat < 0xd800 ∨ 0xdfff < c.val.toNat ∧ c.val.toNat < 0x110000 := c.valid
  unfold String.utf8EncodeChar
  dsimp only
  generalize c.val.toNat = v at hv'
  by_cases h1 : v ≤ 0x7f
  · rw [if_pos h1, List.singleton_append]
    refine from_cons ?_
    unfold utf8Step
    rw [if_pos rfl, if_pos]
    rw [UInt8.lt_iff_toNat_lt, UInt8.toNat_ofNat', show (0x80 : UInt8).toNat = 128 from rfl]
    omega
  rw [if_neg h1]
  by_cases h2 : v ≤ 0x7ff
  · rw [if_pos h2]
    refine (from_cons (lead2 _ (by omega) (by omega) (by omega))).trans ?_
    refine (from_next 0 0x80 0xBF 0x80 0xBF rfl rfl (by omega) (by omega)).trans ?_
    exact from_rest _ _ _
  rw [if_neg h2]
  by_cases h3 : v ≤ 0xffff
  · rw [if_pos h3]
    by_cases e0 : v / 4096 = 0
    · refine (from_cons (s' := ⟨2, 0xA0, 0xBF⟩) (by rw [e0]; rfl)).trans ?_
      refine (from_next 1 0xA0 0xBF 0xA0 0xBF rfl rfl (by omega) (by omega)).trans ?_
      refine (from_next 0 0x80 0xBF 0x80 0xBF rfl rfl (by omega) (by omega)).trans ?_
      exact from_rest _ _ _
    by_cases ed : v / 4096 = 13
    · refine (from_cons (s' := ⟨2, 0x80, 0x9F⟩) (by rw [ed]; rfl)).trans ?_
      refine (from_next 1 0x80 0x9F 0x80 0x9F rfl rfl (by omega) (by omega)).trans ?_
      refine (from_next 0 0x80 0xBF 0x80 0xBF rfl rfl (by omega) (by omega)).trans ?_
      exact from_rest _ _ _
    refine (from_cons (lead3 _ (by omega) (by omega) (by omega) (by omega))).trans ?_
    refine (from_next 1 0x80 0xBF 0x80 0xBF rfl rfl (by omega) (by omega)).trans ?_
    refine (from_next 0 0x80 0xBF 0x80 0xBF rfl rfl (by omega) (by omega)).trans ?_
    exact from_rest _ _ _
  rw [if_neg h3]
  by_cases f0 : v / 262144 = 0
  · refine (from_cons (s' := ⟨3, 0x90, 0xBF⟩) (by rw [f0]; rfl)).trans ?_
    refine (from_next 2 0x90 0xBF 0x90 0xBF rfl rfl (by omega) (by omega)).trans ?_
    refine (from_next 1 0x80 0xBF 0x80 0xBF rfl rfl (by omega) (by omega)).trans ?_
    refine (from_next 0 0x80 0xBF 0x80 0xBF rfl rfl (by omega) (by omega)).trans ?_
    exact from_rest _ _ _
  by_cases f4 : v / 262144 = 4
  · refine (from_cons (s' := ⟨3, 0x80, 0x8F⟩) (by rw [f4]; rfl)).trans ?_
    refine (from_next 2 0x80 0x8F 0x80 0x8F rfl rfl (by omega) (by omega)).trans ?_
    refine (from_next 1 0x80 0xBF 0x80 0xBF rfl rfl (by omega) (by omega)).trans ?_
    refine (from_next 0 0x80 0xBF 0x80 0xBF rfl rfl (by omega) (by omega)).trans ?_
    exact from_rest _ _ _
  refine (from_cons (lead4 _ (by omega) (by omega) (by omega))).trans ?_
  refine (from_next 2 0x80 0xBF 0x80 0xBF rfl rfl (by omega) (by omega)).trans ?_
  refine (from_next 1 0x80 0xBF 0x80 0xBF rfl rfl (by omega) (by omega)).trans ?_
  refine (from_next 0 0x80 0xBF 0x80 0xBF rfl rfl (by omega) (by omega)).trans ?_
  exact from_rest _ _ _

theorem utf8_append {l : Bytes} (h : IsUtf8 l) (rest : Bytes) : utf8From ⟨0, 0, 0⟩ (l ++ rest) = utf8Valid rest := by
  obtain ⟨cs, rfl⟩ := h
  induction cs with
  | nil => rfl
  | cons c t ih => rw [List.flatMap_cons, List.append_assoc, from_char, ih]

/-- Encoded characters are accepted. -/
theorem utf8_valid {l : Bytes} (h : IsUtf8 l) : utf8Valid l = true := by
  have := utf8_append h []
  rw [List.append_nil] at this
  exact this

end Props

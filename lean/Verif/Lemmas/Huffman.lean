import Verif.Model.Huffman
import Verif.Spec.Huffman
import Verif.Lemmas.Loops
import Verif.Lemmas.Pumps
import Mathlib.Tactic.Ring
import Mathlib.Tactic.ByContra
import Mathlib.Tactic.Linarith
/-!
# Lemmas about canonical codes and the tables built from them
-/

namespace Spec

/-- Number of symbols with codes of at most `n` bits. -/
def cum (counts : Nat → Nat) : Nat → Nat
  | 0 => 0
  | n + 1 => cum counts n + counts (n + 1)

/-- The lengths up to `n`. -/
def upTo (counts : Nat → Nat) (n : Nat) : List Nat := (List.range n).flatMap fun i => List.replicate (counts (i + 1)) (i + 1)

theorem upTo_succ (counts : Nat → Nat) (n : Nat) : upTo counts (n + 1) = upTo counts n ++ List.replicate (counts (n + 1)) (n + 1) := by
  simp [upTo, List.range_succ, List.flatMap_append]

theorem upTo_length (counts : Nat → Nat) (n : Nat) : (upTo counts n).length = cum counts n := by
  induction n with
  | zero => rfl
  | succ n ih => rw [upTo_succ, List.length_append, ih, List.length_replicate]; rfl

theorem codeLengths_eq (counts : Nat → Nat) : codeLengths counts = upTo counts 16 := rfl

theorem codeLengths_length (counts : Nat → Nat) : (codeLengths counts).length = cum counts 16 := upTo_length counts 16

theorem cum_mono (counts : Nat → Nat) {a b : Nat} (h : a ≤ b) : cum counts a ≤ cum counts b := by
  induction h with
  | refl => exact Nat.le_refl _
  | step _ ih => exact Nat.le_trans ih (Nat.le_add_right _ _)

theorem cum_pred (counts : Nat → Nat) {l : Nat} (h : 1 ≤ l) : cum counts l = cum counts (l - 1) + counts l := by
  obtain ⟨n, rfl⟩ : ∃ n, l = n + 1 := ⟨l - 1, by omega⟩
  rfl

theorem upTo_get (counts : Nat → Nat) (n k l : Nat) :
    (upTo counts n)[k]? = some l ↔ 1 ≤ l ∧ l ≤ n ∧ cum counts (l - 1) ≤ k ∧ k < cum counts l := by
  induction n with
  | zero =>
    constructor
    · intro h; simp [upTo] at h
    · intro h; omega
  | succ n ih =>
    rw [upTo_succ]
    by_cases hk : k < cum counts n
    · rw [List.getElem?_append_left (by rw [upTo_length]; exact hk), ih]
      constructor
      · intro h; omega
      · intro h
        refine ⟨h.1, ?_, h.2.2⟩
        by_contra hc
        have : l = n + 1 := by omega
        subst this
        simp at h
        omega
    · rw [List.getElem?_append_right (by rw [upTo_length]; omega), upTo_length, List.getElem?_replicate]
      by_cases h2 : k - cum counts n < counts (n + 1)
      · rw [if_pos h2]
        constructor
        · intro h
          cases h
          exact ⟨by omega, Nat.le_refl _, by simp; omega, by show k < cum counts n + counts (n + 1); omega⟩
        · intro h
          have : ¬ l ≤ n := fun hl => by have := cum_mono counts hl; omega
          have : l = n + 1 := by omega
          rw [this]
      · rw [if_neg h2]
        constructor
        · intro h; simp at h
        · intro h
          have h1 := cum_mono counts h.2.1
          have : cum counts (n + 1) = cum counts n + counts (n + 1) := rfl
          omega

/-! ## Codes as intervals of 16-bit patterns -/

/-- Lengths between 1 and 16 in rising order. -/
structure Lens (L : List Nat) : Prop where
  range : ∀ k, k < L.length → 1 ≤ L.getD k 0 ∧ L.getD k 0 ≤ 16
  sorted : ∀ k j, k ≤ j → j < L.length → L.getD k 0 ≤ L.getD j 0

/-- Where the patterns of symbol `k` begin. -/
def start (L : List Nat) (k : Nat) : Nat := kraft (L.take k)

theorem start_zero (L : List Nat) : start L 0 = 0 := by simp [start, kraft]

theorem getD_eq {L : List Nat} {k : Nat} (h : k < L.length) : L.getD k 0 = L[k] := by
  simp [List.getD_eq_getElem?_getD, h]

theorem start_succ {L : List Nat} {k : Nat} (h : k < L.length) : start L (k + 1) = start L k + 2 ^ (16 - L.getD k 0) := by
  unfold start kraft
  rw [List.take_succ_eq_append_getElem h, List.map_append, List.sum_append, getD_eq h]
  simp

theorem start_end {L : List Nat} {k : Nat} (h : L.length ≤ k) : start L k = kraft L := by
  unfold start; rw [List.take_of_length_le h]

theorem start_mono {L : List Nat} {a b : Nat} (h : a ≤ b) : start L a ≤ start L b := by
  induction h with
  | refl => exact Nat.le_refl _
  | @step m _ ih =>
    by_cases hm : m < L.length
    · rw [start_succ hm]; exact Nat.le_trans ih (Nat.le_add_right _ _)
    · rw [start_end (show L.length ≤ m + 1 by omega), ← start_end (show L.length ≤ m by omega)]; exact ih

theorem start_le_kraft (L : List Nat) (k : Nat) : start L k ≤ kraft L := by
  rcases Nat.lt_or_ge k L.length with h | h
  · rw [← start_end (Nat.le_refl L.length)]; exact start_mono (by omega)
  · rw [start_end h]

theorem canonical_start {L : List Nat} (hL : Lens L) : ∀ {k : Nat}, k < L.length → canonical L k * 2 ^ (16 - L.getD k 0) = start L k := by
  intro k
  induction k with
  | zero => intro _; rw [start_zero]; simp [canonical]
  | succ k ih =>
    intro hk
    have h1 := ih (by omega)
    have h2 := hL.sorted k (k + 1) (by omega) hk
    have h3 := hL.range (k + 1) hk
    rw [start_succ (by omega), ← h1, canonical, Nat.mul_assoc, ← Nat.pow_add,
      show L.getD (k + 1) 0 - L.getD k 0 + (16 - L.getD (k + 1) 0) = 16 - L.getD k 0 by omega]
    ring

theorem starts_iff {L : List Nat} (hL : Lens L) {k : Nat} (hk : k < L.length) (V : Nat) :
    V / 2 ^ (16 - L.getD k 0) = canonical L k ↔ start L k ≤ V ∧ V < start L (k + 1) := by
  have hq : 0 < 2 ^ (16 - L.getD k 0) := Nat.pow_pos (by omega)
  rw [start_succ hk, ← canonical_start hL hk]
  generalize 2 ^ (16 - L.getD k 0) = q at *
  rw [Nat.div_eq_iff hq]
  generalize canonical L k * q = x
  omega

theorem locate {L : List Nat} {V : Nat} : ∀ {n : Nat}, n ≤ L.length → V < start L n → ∃ k, k < n ∧ start L k ≤ V ∧ V < start L (k + 1) := by
  intro n
  induction n with
  | zero => intro _ h; rw [start_zero] at h; omega
  | succ n ih =>
    intro hn h
    by_cases hc : V < start L n
    · obtain ⟨k, h1, h2⟩ := ih (by omega) hc
      exact ⟨k, by omega, h2⟩
    · exact ⟨n, by omega, by omega, h⟩

theorem locate_unique {L : List Nat} {V a b : Nat} (ha : start L a ≤ V ∧ V < start L (a + 1)) (hb : start L b ≤ V ∧ V < start L (b + 1)) : a = b := by
  by_contra hne
  rcases Nat.lt_or_ge a b with h | h
  · have := start_mono (L := L) (show a + 1 ≤ b by omega); omega
  · have := start_mono (L := L) (show b + 1 ≤ a by omega); omega

theorem codeLengths_lens (counts : Nat → Nat) : Lens (codeLengths counts) := by
  have key : ∀ k, k < (codeLengths counts).length → ∃ l, (codeLengths counts).getD k 0 = l ∧ 1 ≤ l ∧ l ≤ 16 ∧ cum counts (l - 1) ≤ k ∧ k < cum counts l := by
    intro k hk
    refine ⟨_, rfl, ?_⟩
    rw [getD_eq hk]
    exact (upTo_get counts 16 k _).mp (List.getElem?_eq_getElem hk)
  constructor
  · intro k hk
    obtain ⟨l, e, h⟩ := key k hk
    omega
  · intro k j hkj hj
    obtain ⟨l, e, h⟩ := key k (by omega)
    obtain ⟨l', e', h'⟩ := key j hj
    rw [e, e']
    by_contra hc
    have := cum_mono counts (show l' ≤ l - 1 by omega)
    omega

/-- Which symbols have length `l`. -/
theorem codeLengths_get (counts : Nat → Nat) {k l : Nat} (h1 : 1 ≤ l) (h16 : l ≤ 16) (h2 : cum counts (l - 1) ≤ k) (h3 : k < cum counts l) :
    k < (codeLengths counts).length ∧ (codeLengths counts).getD k 0 = l := by
  have := (upTo_get counts 16 k l).mpr ⟨h1, h16, h2, h3⟩
  rw [← codeLengths_eq] at this
  obtain ⟨hk, e⟩ := List.getElem?_eq_some_iff.mp this
  exact ⟨hk, by rw [getD_eq hk, e]⟩

theorem codeLengths_place (counts : Nat → Nat) {k : Nat} (hk : k < (codeLengths counts).length) :
    cum counts ((codeLengths counts).getD k 0 - 1) ≤ k ∧ k < cum counts ((codeLengths counts).getD k 0) := by
  have := (upTo_get counts 16 k _).mp (List.getElem?_eq_getElem hk)
  rw [getD_eq hk]
  exact this.2.2

/-- Codes of the same length follow each other. -/
theorem canonical_run {L : List Nat} {k : Nat} : ∀ (d : Nat), (∀ j, j ≤ d → L.getD (k + j) 0 = L.getD k 0) → canonical L (k + d) = canonical L k + d := by
  intro d
  induction d with
  | zero => intro _; rfl
  | succ d ih =>
    intro h
    rw [← Nat.add_assoc, canonical, ih (fun j hj => h j (by omega)), Nat.add_assoc k d 1, h (d + 1) (by omega), h d (by omega)]
    simp [Nat.add_assoc]

end Spec

import Verif.Model.Curves
import Verif.Lemmas.Loops
/-!
# What the curve constructor and the interval search compute
-/

namespace Rust

/-- A loop that appends one element per iteration. -/
theorem forRange_push {α : Type} {n : Nat} {f : Nat → List α → M (List α)} {g : Nat → α} (s0 : List α)
    (hf : ∀ i s, i < n → f i s = .ok (s ++ [g i])) : forRange 0 n f s0 = .ok (s0 ++ (List.range n).map g) := by
  obtain ⟨r, hr, hp⟩ := forRange_inv (fun i s => s = s0 ++ (List.range i).map g) (f := f) (s := s0) (Nat.zero_le n) (by simp) (by
    intro i s _ hi hs
    refine ⟨_, hf i s hi, ?_⟩
    rw [hs, List.range_succ]
    simp)
  rw [hr, hp]

/-- A loop that appends one element to each of two lists per iteration. -/
theorem forRange_push2 {α β : Type} {n : Nat} {f : Nat → List α × List β → M (List α × List β)} {g : Nat → α} {h : Nat → β}
    (hf : ∀ i s, i < n → f i s = .ok (s.1 ++ [g i], s.2 ++ [h i])) :
    forRange 0 n f ([], []) = .ok ((List.range n).map g, (List.range n).map h) := by
  obtain ⟨r, hr, hp⟩ := forRange_inv (fun i s => s = ((List.range i).map g, (List.range i).map h)) (f := f) (s := ([], []))
    (Nat.zero_le n) (by simp) (by
    intro i s _ hi hs
    refine ⟨_, hf i s hi, ?_⟩
    rw [hs, List.range_succ]
    simp)
  rw [hr, hp]

end Rust

namespace Model
open Rust

variable {α : Type} (A : OrdArith α)

theorem idx_map_range' {α : Type} {f : Nat → α} {n i : Nat} (h : i < n) : idx ((List.range n).map f) i = .ok (f i) := by
  rw [idx_eq_ok]; simp [h]

section
variable (X Y : Nat → α) (n : Nat)

/-- Interval widths. -/
def dxOf (i : Nat) : α := A.sub (X (i + 1)) (X i)
/-- Slopes. -/
def slopeOf (i : Nat) : α := A.div (A.sub (Y (i + 1)) (Y i)) (dxOf A X i)
/-- Tangents. -/
def c1Of (i : Nat) : α :=
  if i = 0 then slopeOf A X Y 0
  else if i = n - 1 then slopeOf A X Y (n - 2)
  else splineTangent A (slopeOf A X Y (i - 1)) (slopeOf A X Y i) (dxOf A X (i - 1)) (dxOf A X i)
/-- The quantity called `common` in the last loop. -/
def commonOf (i : Nat) : α :=
  A.sub (A.sub (A.add (c1Of A X Y n i) (c1Of A X Y n (i + 1))) (slopeOf A X Y i)) (slopeOf A X Y i)
def c2Of (i : Nat) : α :=
  A.mul (A.sub (A.sub (slopeOf A X Y i) (c1Of A X Y n i)) (commonOf A X Y n i)) (A.div A.one (dxOf A X i))
def c3Of (i : Nat) : α := A.mul (A.mul (commonOf A X Y n i) (A.div A.one (dxOf A X i))) (A.div A.one (dxOf A X i))

theorem splineNew_eq (hn : 2 ≤ n) :
    SplineFunc.new A ((List.range n).map X) ((List.range n).map Y) =
      .ok ⟨(List.range n).map X, (List.range n).map Y, (List.range n).map (c1Of A X Y n), (List.range (n - 1)).map (c2Of A X Y n),
        (List.range (n - 1)).map (c3Of A X Y n)⟩ := by
  obtain ⟨m, rfl⟩ : ∃ m, n = m + 2 := ⟨n - 2, by omega⟩
  unfold SplineFunc.new
  rw [if_neg (by simp), if_neg (by simp)]
  have h1 : splineSlopes A ((List.range (m + 2)).map X) ((List.range (m + 2)).map Y) =
      .ok ((List.range (m + 1)).map (dxOf A X), (List.range (m + 1)).map (slopeOf A X Y)) := by
    unfold splineSlopes
    rw [List.length_map, List.length_range]
    apply forRange_push2
    intro i s hi
    rw [idx_map_range' (by omega), idx_map_range' (by omega), idx_map_range' (by omega), idx_map_range' (by omega)]
    rfl
  rw [h1]
  simp only [ok_bind]
  have h2 : splineC1s A ((List.range (m + 1)).map (dxOf A X)) ((List.range (m + 1)).map (slopeOf A X Y)) =
      .ok ((List.range (m + 2)).map (c1Of A X Y (m + 2))) := by
    unfold splineC1s
    rw [idx_map_range' (by omega)]
    simp only [ok_bind, List.length_map, List.length_range, Nat.add_sub_cancel]
    rw [forRange_push (g := fun i => c1Of A X Y (m + 2) (i + 1)), idx_map_range' (by omega)]
    · simp only [ok_bind]
      congr 1
      rw [List.range_succ_eq_map, List.range_succ]
      simp only [List.map_cons, List.map_append, List.map_map, List.map_nil, List.cons_append, List.nil_append]
      have e0 : c1Of A X Y (m + 2) 0 = slopeOf A X Y 0 := by simp [c1Of]
      have e1 : c1Of A X Y (m + 2) (m + 1) = slopeOf A X Y m := by simp [c1Of]
      rw [e0]
      simp [Function.comp_def, e1]
    · intro i s hi
      rw [idx_map_range' (by omega), idx_map_range' (by omega), idx_map_range' (by omega), idx_map_range' (by omega)]
      simp only [ok_bind]
      congr 3
      simp only [c1Of]
      rw [if_neg (by omega), if_neg (by omega)]
      simp
  rw [h2]
  simp only [ok_bind]
  have h3 : splineC23 A ((List.range (m + 1)).map (dxOf A X)) ((List.range (m + 1)).map (slopeOf A X Y))
      ((List.range (m + 2)).map (c1Of A X Y (m + 2))) =
      .ok ((List.range (m + 1)).map (c2Of A X Y (m + 2)), (List.range (m + 1)).map (c3Of A X Y (m + 2))) := by
    unfold splineC23
    rw [List.length_map, List.length_range]
    apply forRange_push2
    intro i s hi
    rw [idx_map_range' (by omega), idx_map_range' (by omega), idx_map_range' (by omega), idx_map_range' (by omega)]
    rfl
  rw [h3]
  rfl

variable {X n}

/-- The order used by the search is a strict order on the knots and the point. -/
structure StrictlyOrdered (lt : α → α → Bool) : Prop where
  trans : ∀ a b c, lt a b = true → lt b c = true → lt a c = true
  irrefl : ∀ a, lt a a = false

theorem StrictlyOrdered.asymm {lt : α → α → Bool} (h : StrictlyOrdered lt) {a b : α} (hab : lt a b = true) : lt b a = false := by
  cases hc : lt b a with
  | false => rfl
  | true =>
    have := h.trans a b a hab hc
    rw [h.irrefl] at this
    cases this

/-- Result of the search. -/
theorem splineSearch_spec (hlt : StrictlyOrdered A.lt) {N : Nat} (hX : ∀ i j, i < j → j < N → A.lt (X i) (X j) = true) (val : α) :
    ∀ (fuel : Nat) (low high : Int), 0 ≤ low → high < N → high - low + 1 < fuel → low ≤ high + 1 →
      (∀ i : Nat, (i : Int) < low → i < N → A.lt (X i) val = true) →
      (∀ i : Nat, high < (i : Int) → i < N → A.lt val (X i) = true) →
      (∃ i, i < N ∧ A.lt (X i) val = false ∧ A.lt val (X i) = false ∧
        splineSearch A ((List.range N).map X) val fuel low high = .ok (.knot i)) ∨
      (∃ h : Int, -1 ≤ h ∧ h < N ∧ (∀ i : Nat, (i : Int) ≤ h → A.lt (X i) val = true) ∧
        (∀ i : Nat, h < (i : Int) → i < N → A.lt val (X i) = true) ∧
        splineSearch A ((List.range N).map X) val fuel low high = .ok (.interval h)) := by
  intro fuel
  induction fuel with
  | zero => intro low high _ _ h1 h2; omega
  | succ fuel ih =>
    intro low high hl hh hf hle hbelow habove
    rw [splineSearch]
    by_cases hlh : low ≤ high
    · rw [if_pos hlh]
      simp only
      generalize hmid : (low + high) / 2 = mid
      have hm0 : low ≤ mid := by omega
      have hm1 : mid ≤ high := by omega
      obtain ⟨k, rfl⟩ : ∃ k : Nat, mid = (k : Int) := ⟨mid.toNat, by omega⟩
      rw [if_neg (by omega), Int.toNat_natCast, idx_map_range' (by omega)]
      simp only [ok_bind]
      by_cases h1 : A.lt (X k) val = true
      · rw [if_pos h1]
        apply ih
        · omega
        · omega
        · omega
        · omega
        · intro i hi hN
          by_cases hik : i = k
          · rw [hik]; exact h1
          · exact hlt.trans _ _ _ (hX i k (by omega) (by omega)) h1
        · exact habove
      · rw [if_neg h1]
        rw [Bool.not_eq_true] at h1
        by_cases h2 : A.lt val (X k) = true
        · rw [if_pos h2]
          apply ih
          · omega
          · omega
          · omega
          · omega
          · exact hbelow
          · intro i hi hN
            by_cases hik : i = k
            · rw [hik]; exact h2
            · exact hlt.trans _ _ _ h2 (hX k i (by omega) hN)
        · rw [if_neg h2]
          left
          exact ⟨k, by omega, h1, by simpa using h2, rfl⟩
    · rw [if_neg hlh]
      right
      exact ⟨high, by omega, hh, fun i hi => hbelow i (by omega) (by omega), habove, rfl⟩

end

/-- For any point, even one the order knows nothing about: the search ends inside the knots. -/
theorem splineSearch_total {X : Nat → α} {N : Nat} (val : α) :
    ∀ (fuel : Nat) (low high : Int), 0 ≤ low → high < N → high - low + 1 < fuel → low ≤ high + 1 →
      (∃ i, i < N ∧ splineSearch A ((List.range N).map X) val fuel low high = .ok (.knot i)) ∨
      (∃ h : Int, -1 ≤ h ∧ h ≤ high ∧ splineSearch A ((List.range N).map X) val fuel low high = .ok (.interval h)) := by
  intro fuel
  induction fuel with
  | zero => intro low high _ _ h1 h2; omega
  | succ fuel ih =>
    intro low high hl hh hf hle
    rw [splineSearch]
    by_cases hlh : low ≤ high
    · rw [if_pos hlh]
      simp only
      generalize hmid : (low + high) / 2 = mid
      have hm0 : low ≤ mid := by omega
      have hm1 : mid ≤ high := by omega
      obtain ⟨k, rfl⟩ : ∃ k : Nat, mid = (k : Int) := ⟨mid.toNat, by omega⟩
      rw [if_neg (by omega), Int.toNat_natCast, idx_map_range' (by omega)]
      simp only [ok_bind]
      by_cases h1 : A.lt (X k) val = true
      · rw [if_pos h1]
        exact ih _ _ (by omega) (by omega) (by omega) (by omega)
      · rw [if_neg h1]
        by_cases h2 : A.lt val (X k) = true
        · rw [if_pos h2]
          rcases ih low ((k : Int) - 1) (by omega) (by omega) (by omega) (by omega) with h | ⟨h, a1, a2, a3⟩
          · exact Or.inl h
          · exact Or.inr ⟨h, a1, by omega, a3⟩
        · rw [if_neg h2]
          left
          exact ⟨k, by omega, rfl⟩
    · rw [if_neg hlh]
      right
      exact ⟨high, by omega, Int.le_refl _, rfl⟩

end Model

import Verif.Lemmas.Between
import Verif.Lemmas.Stages
/-!
# A matrix times a pixel, and samples at the white level
-/

namespace Model
open Rust Spec F32

theorem roundQ_abs_error {q B : ℚ} (h : |q| ≤ B) (hB : 1 ≤ B) : |roundQ q - q| ≤ B / 2 ^ 24 := by
  have p24 : pow2 (-24) = 1 / 2 ^ 24 := by rw [pow2_eq]; norm_num
  by_cases hs : pow2 (-126) ≤ |q|
  · refine le_trans (roundQ_rel_error hs) ?_
    rw [p24, mul_one_div]
    exact div_le_div_of_nonneg_right h (by positivity)
  · have h1 := roundQ_nearest q 0 repr32_zero
    rw [zero_sub, abs_neg] at h1
    have h2 : pow2 (-126) ≤ pow2 (-24) := pow2_le (by decide)
    rw [p24] at h2
    have h3 : 1 / 2 ^ 24 ≤ B / 2 ^ 24 := div_le_div_of_nonneg_right hB (by positivity)
    linarith [not_le.mp hs]

theorem roundQ_near {q B : ℚ} (h : |q| ≤ B) (hB : 1 ≤ B) (hB' : B ≤ 100) : |roundQ q - q| ≤ B / 2 ^ 24 ∧ |roundQ q| < pow2 128 := by
  have h1 := roundQ_abs_error h hB
  refine ⟨h1, ?_⟩
  have h2 : B / 2 ^ 24 ≤ 1 := by rw [div_le_one (by positivity)]; linarith
  have h3 : |roundQ q| ≤ |roundQ q - q| + |q| := by
    have := abs_add_le (roundQ q - q) q
    rwa [sub_add_cancel] at this
  rw [pow2_128]
  linarith

/-- A row of the matrix times a pixel, when no product is above 3. -/
theorem dot4_error {M : Mat F32} {i : Nat} {r g b e : F32} {m p : Nat → ℚ} (hm : ∀ k, k < 4 → (M i k).val? = some (m k))
    (h0 : r.val? = some (p 0)) (h1 : g.val? = some (p 1)) (h2 : b.val? = some (p 2)) (h3 : e.val? = some (p 3)) (hs : ∀ k, k < 4 → |p k * m k| ≤ 3) :
    ∃ v, Val (dot4 M i r g b e) v ∧ |v - (m 0 * p 0 + m 1 * p 1 + m 2 * p 2 + m 3 * p 3)| ≤ 24 / 10000000 := by
  have prod : ∀ k, k < 4 → ∀ x : F32, x.val? = some (p k) → ∃ u, Val (x.mul (M i k)) u ∧ |u - p k * m k| ≤ 3 / 2 ^ 24 := by
    intro k hk x hx
    obtain ⟨e1, e2⟩ := roundQ_near (hs k hk) (by norm_num) (by norm_num)
    exact ⟨_, mul_val hx (hm k hk) e2, e1⟩
  obtain ⟨u0, v0, e0⟩ := prod 0 (by decide) r h0
  obtain ⟨u1, v1, e1⟩ := prod 1 (by decide) g h1
  obtain ⟨u2, v2, e2⟩ := prod 2 (by decide) b h2
  obtain ⟨u3, v3, e3⟩ := prod 3 (by decide) e h3
  have s0 := abs_le.mp (hs 0 (by decide))
  have s1 := abs_le.mp (hs 1 (by decide))
  have s2 := abs_le.mp (hs 2 (by decide))
  have s3 := abs_le.mp (hs 3 (by decide))
  have e0' := abs_le.mp e0
  have e1' := abs_le.mp e1
  have e2' := abs_le.mp e2
  have e3' := abs_le.mp e3
  norm_num at e0' e1' e2' e3'
  obtain ⟨f1, g1⟩ := roundQ_near (q := u0 + u1) (B := 601 / 100) (abs_le.mpr ⟨by linarith, by linarith⟩) (by norm_num) (by norm_num)
  have w1 := v0.add v1 g1
  have f1' := abs_le.mp f1
  norm_num at f1'
  obtain ⟨f2, g2⟩ := roundQ_near (q := roundQ (u0 + u1) + u2) (B := 902 / 100) (abs_le.mpr ⟨by linarith, by linarith⟩) (by norm_num) (by norm_num)
  have w2 := w1.add v2 g2
  have f2' := abs_le.mp f2
  norm_num at f2'
  obtain ⟨f3, g3⟩ := roundQ_near (q := roundQ (roundQ (u0 + u1) + u2) + u3) (B := 1203 / 100) (abs_le.mpr ⟨by linarith, by linarith⟩) (by norm_num) (by norm_num)
  have w3 := w2.add v3 g3
  have f3' := abs_le.mp f3
  norm_num at f3'
  refine ⟨_, w3, abs_le.mpr ⟨?_, ?_⟩⟩
  · linarith [mul_comm (p 0) (m 0), mul_comm (p 1) (m 1), mul_comm (p 2) (m 2), mul_comm (p 3) (m 3)]
  · linarith [mul_comm (p 0) (m 0), mul_comm (p 1) (m 1), mul_comm (p 2) (m 2), mul_comm (p 3) (m 3)]

/-- One or more, infinity included. -/
def AtLeastOne (x : F32) : Prop := x = .inf false ∨ ∃ v, x = .fin v ∧ 1 ≤ v

theorem repr32_one : Repr32 1 := by have := repr32_nat (n := 1) (by decide); exact_mod_cast this

theorem round_atLeastOne (s : Bool) {q : ℚ} (h : 1 ≤ q) : AtLeastOne (F32.round s q) := by
  have h1 : 1 ≤ roundQ q := le_roundQ_of_repr repr32_one h
  unfold F32.round
  rw [if_neg (by linarith), if_neg (by linarith)]
  split
  · left
    rw [decide_eq_false (by linarith)]
  · exact .inr ⟨_, rfl, h1⟩

theorem AtLeastOne.mul {x y : F32} (hx : AtLeastOne x) (hy : AtLeastOne y) : AtLeastOne (x.mul y) := by
  rcases hx with rfl | ⟨p, rfl, hp⟩ <;> rcases hy with rfl | ⟨q, rfl, hq⟩
  · left; rfl
  · left; simp only [F32.mul, signBit]; rw [decide_eq_false (by linarith)]; rfl
  · left; simp only [F32.mul, signBit]; rw [decide_eq_false (by linarith)]; rfl
  · simp only [F32.mul]
    exact round_atLeastOne _ (by nlinarith)

theorem AtLeastOne.min {x : F32} (hx : AtLeastOne x) : x.min (.fin 1) = .fin 1 := by
  rcases hx with rfl | ⟨p, rfl, hp⟩
  · decide +kernel
  · simp only [F32.min, F32.lt, decide_eq_true_eq]
    by_cases h : 1 < p
    · rw [if_pos h]
    · rw [if_neg h, le_antisymm (not_lt.mp h) hp]

end Model

import Verif.Lemmas.Matrix
import Mathlib.LinearAlgebra.Matrix.NonsingularInverse
import Mathlib.Algebra.Order.Field.Rat
import Mathlib.Algebra.BigOperators.Fin
/-!
# Colour matrices (C42, C51)

The elimination and cofactor code in exact arithmetic: every `f32` operation replaced by the field operation. The specification is
Mathlib's matrix algebra.
-/

namespace Props
open Model Rust Matrix

/-- The `n` by `m` array as a Mathlib matrix. -/
def arr {K : Type} (n m : Nat) (a : Mat K) : Matrix (Fin n) (Fin m) K := Matrix.of fun i j => a i j

section
variable {K : Type} [Field K] [DecidableEq K]

/-- `inverse` gives the inverse of every matrix that has one. -/
theorem inverse_exact_partial (a : Mat K) (h : (arr 3 3 a).det ≠ 0) :
    arr 3 3 (inverse (fieldArith K) a) * arr 3 3 a = 1 ∧ arr 3 3 a * arr 3 3 (inverse (fieldArith K) a) = 1 := by
  have hl : arr 3 3 (inverse (fieldArith K) a) * arr 3 3 a = 1 := by
    have hd : a 0 0 * (a 1 1 * a 2 2 - a 2 1 * a 1 2) - a 0 1 * (a 1 0 * a 2 2 - a 1 2 * a 2 0) + a 0 2 * (a 1 0 * a 2 1 - a 1 1 * a 2 0) ≠ 0 := by
      intro h0
      apply h
      rw [Matrix.det_fin_three, ← h0]
      simp [arr]
      ring
    have he := mul_inv_cancel₀ hd
    ext i j
    fin_cases i <;> fin_cases j <;>
      simp [arr, Matrix.mul_apply, Fin.sum_univ_three, inverse, fieldArith] <;> first | ring1 | linear_combination he
  exact ⟨hl, mul_eq_one_comm.mp hl⟩

end

/-- The hypothesis holds for the matrix the pipeline inverts (`xyz_to_rec709_matrix`). -/
example : (arr 3 3 (rgbToXyzTable (α := ℚ) id)).det ≠ 0 := by
  rw [Matrix.det_fin_three]
  simp [arr, rgbToXyzTable]
  norm_num

section
variable {K : Type} [Field K] [LinearOrder K] [IsStrictOrderedRing K]

theorem fullRank_of_injective (a : Mat K) (h : Function.Injective (arr 4 3 a).mulVec) : FullRank a := by
  intro x y z hz
  have : (arr 4 3 a).mulVec ![x, y, z] = (arr 4 3 a).mulVec 0 := by
    ext i
    fin_cases i <;> simp [Matrix.mulVec, dotProduct, Fin.sum_univ_three, arr]
    · have := hz 0 (by omega); linarith
    · have := hz 1 (by omega); linarith
    · have := hz 2 (by omega); linarith
    · have := hz 3 (by omega); linarith
  have := h this
  exact ⟨congrFun this 0, congrFun this 1, congrFun this 2⟩

/-- `pseudoinverse` is a left inverse of every camera matrix with independent columns. -/
theorem pseudoinverse_exact_partial (a : Mat K) (h : Function.Injective (arr 4 3 a).mulVec) :
    arr 3 4 (pseudoinverse (fieldArith K) a) * arr 4 3 a = 1 := by
  have hf := fullRank_of_injective a h
  ext i j
  have := pseudoinverse_left a hf i j i.2 j.2
  rw [Matrix.mul_apply, Fin.sum_univ_four, Matrix.one_apply]
  simp only [arr, Matrix.of_apply, Fin.ext_iff]
  exact this

/-- It solves the normal equations. -/
theorem pseudoinverse_normal_partial (a : Mat K) (h : Function.Injective (arr 4 3 a).mulVec) :
    (arr 4 3 a)ᵀ * arr 4 3 a * arr 3 4 (pseudoinverse (fieldArith K) a) = (arr 4 3 a)ᵀ := by
  set t := pureLoop (pinvStep (fieldArith K)) 3 (pinvSetup (fieldArith K) a) with ht
  set E : Matrix (Fin 3) (Fin 3) K := Matrix.of fun i j => t i (j + 3) with hE
  have hP : arr 3 4 (pseudoinverse (fieldArith K) a) = E * (arr 4 3 a)ᵀ := by
    ext i j
    rw [Matrix.mul_apply, Fin.sum_univ_three]
    simp only [arr, Matrix.of_apply, Matrix.transpose_apply, hE]
    exact pseudoinverse_eq a i j i.2 j.2
  have hone := pseudoinverse_exact_partial a h
  rw [hP, Matrix.mul_assoc] at hone
  rw [hP, ← Matrix.mul_assoc, mul_eq_one_comm.mp hone, Matrix.one_mul]

/-- It is the least squares inverse: no other colour explains a camera reading better than the one the matrix gives. -/
theorem pseudoinverse_least_squares_partial (a : Mat K) (h : Function.Injective (arr 4 3 a).mulVec) (cam : Fin 4 → K) (rgb : Fin 3 → K) :
    let best := (arr 3 4 (pseudoinverse (fieldArith K) a)).mulVec cam
    ∑ i, ((arr 4 3 a).mulVec best i - cam i) ^ 2 ≤ ∑ i, ((arr 4 3 a).mulVec rgb i - cam i) ^ 2 := by
  intro best
  set A := arr 4 3 a with hA
  have hn : Aᵀ.mulVec (A.mulVec best - cam) = 0 := by
    rw [Matrix.mulVec_sub, Matrix.mulVec_mulVec, Matrix.mulVec_mulVec, pseudoinverse_normal_partial a h, sub_self]
  have hd : ∀ u v : Fin 4 → K, ∑ i, (u i + v i) ^ 2 = ∑ i, u i ^ 2 + 2 * (u ⬝ᵥ v) + ∑ i, v i ^ 2 := by
    intro u v
    simp only [dotProduct, Fin.sum_univ_four]
    ring
  have hr : ∀ i, A.mulVec rgb i - cam i = (A.mulVec (rgb - best)) i + (A.mulVec best - cam) i := by
    intro i
    rw [Matrix.mulVec_sub]
    simp
  have horth : A.mulVec (rgb - best) ⬝ᵥ (A.mulVec best - cam) = 0 := by
    rw [dotProduct_comm, Matrix.dotProduct_mulVec, ← Matrix.mulVec_transpose, hn, zero_dotProduct]
  have hrhs : ∑ i, (A.mulVec rgb i - cam i) ^ 2 = ∑ i, (A.mulVec (rgb - best)) i ^ 2 + ∑ i, (A.mulVec best - cam) i ^ 2 := by
    rw [Finset.sum_congr rfl (fun i _ => by rw [hr i]), hd, horth]
    ring
  rw [hrhs]
  have : 0 ≤ ∑ i, (A.mulVec (rgb - best)) i ^ 2 := Finset.sum_nonneg (fun i _ => sq_nonneg _)
  have h2 : ∑ i, (A.mulVec best i - cam i) ^ 2 = ∑ i, (A.mulVec best - cam) i ^ 2 := rfl
  rw [h2]
  linarith

/-- Row sum of the camera matrix times the white of the RGB space: the response of one sensor colour to white. -/
def whiteResponse (xyzToCam rgbToXyz : Mat K) (i : Fin 4) : K := ∑ j, (arr 4 3 xyzToCam * arr 3 3 rgbToXyz) i j

/-- A camera reading in the proportions of `neutralwb` is white: white balanced white (`1` in each channel the camera has) is
mapped to the white of the RGB space divided by the table `white`, whatever the camera matrix. -/
theorem white_goes_to_white_partial (xyzToCam rgbToXyz : Mat K) (white : Nat → K) (hw : ∀ i < 3, white i ≠ 0)
    (h : Function.Injective (arr 4 3 xyzToCam).mulVec) (hs : (arr 3 3 rgbToXyz).det ≠ 0)
    (hres : ∀ i : Fin 4, (∀ j : Fin 3, xyzToCam i j = 0) ∨ whiteResponse xyzToCam rgbToXyz i ≠ 0) (i : Fin 3) :
    ((arr 3 4 (xyzMatrixAndNeutralwb (fieldArith K) xyzToCam rgbToXyz white).1).mulVec
      (fun j => if whiteResponse xyzToCam rgbToXyz j = 0 then 0 else 1)) i = (∑ k, rgbToXyz i (k : Fin 3)) / white i := by
  set m := rgbToCam (fieldArith K) xyzToCam rgbToXyz with hm
  set nm := (normaliseCam (fieldArith K) m).1 with hnm
  have hmm : arr 4 3 m = arr 4 3 xyzToCam * arr 3 3 rgbToXyz := by
    ext r c
    rw [Matrix.mul_apply, Fin.sum_univ_three]
    exact rgbToCam_eq xyzToCam rgbToXyz r c r.2 c.2
  have hsum : ∀ r : Fin 4, whiteResponse xyzToCam rgbToXyz r = m r 0 + m r 1 + m r 2 := by
    intro r
    rw [whiteResponse, ← hmm, Fin.sum_univ_three]
    rfl
  have hnz : ∀ r : Fin 4, ∀ c : Fin 3, nm r c = if whiteResponse xyzToCam rgbToXyz r = 0 then 0 else m r c / whiteResponse xyzToCam rgbToXyz r := by
    intro r c
    rw [hsum r]
    exact (normaliseCam_eq m).1 r c r.2 c.2
  have hmz : ∀ r : Fin 4, whiteResponse xyzToCam rgbToXyz r = 0 → ∀ c : Fin 3, m r c = 0 := by
    intro r hr c
    rcases hres r with h0 | h0
    · have := rgbToCam_eq xyzToCam rgbToXyz r c r.2 c.2
      rw [hm, this]
      have e0 := h0 0; have e1 := h0 1; have e2 := h0 2
      simp at e0 e1 e2
      rw [e0, e1, e2]; ring
    · exact absurd hr h0
  have hinj : Function.Injective (arr 4 3 nm).mulVec := by
    have hB : Function.Injective (arr 3 3 rgbToXyz).mulVec := by
      intro u v huv
      have hu : IsUnit (arr 3 3 rgbToXyz).det := isUnit_iff_ne_zero.mpr hs
      have := congrArg (arr 3 3 rgbToXyz)⁻¹.mulVec huv
      simpa [Matrix.mulVec_mulVec, Matrix.nonsing_inv_mul _ hu] using this
    intro u v huv
    apply hB
    apply h
    rw [Matrix.mulVec_mulVec, Matrix.mulVec_mulVec, ← hmm]
    ext r
    have := congrFun huv r
    simp only [Matrix.mulVec, dotProduct, Fin.sum_univ_three, arr, Matrix.of_apply] at this ⊢
    simp only [hnz] at this
    by_cases hz : whiteResponse xyzToCam rgbToXyz r = 0
    · simp only [hmz r hz, zero_mul]
    · simp only [if_neg hz] at this
      field_simp at this
      exact this
  have hone := pseudoinverse_exact_partial nm hinj
  have hwhite : (arr 3 4 (pseudoinverse (fieldArith K) nm)).mulVec (fun j => if whiteResponse xyzToCam rgbToXyz j = 0 then 0 else 1) = fun _ => 1 := by
    have : (fun j => if whiteResponse xyzToCam rgbToXyz j = 0 then (0 : K) else 1) = (arr 4 3 nm).mulVec (fun _ => 1) := by
      ext r
      simp only [Matrix.mulVec, dotProduct, Fin.sum_univ_three, arr, Matrix.of_apply, hnz]
      by_cases hz : whiteResponse xyzToCam rgbToXyz r = 0
      · simp [hz]
      · simp only [if_neg hz, mul_one]
        rw [← add_div, ← add_div]
        have := hsum r
        simp only [Fin.val_zero, Fin.val_one, Fin.val_two] at this ⊢
        rw [← this, div_self hz]
    rw [this, Matrix.mulVec_mulVec, hone, Matrix.one_mulVec]
  have hx : ∀ c : Fin 4, (xyzMatrixAndNeutralwb (fieldArith K) xyzToCam rgbToXyz white).1 i c =
      pseudoinverse (fieldArith K) nm 0 c * rgbToXyz i 0 / white i + pseudoinverse (fieldArith K) nm 1 c * rgbToXyz i 1 / white i +
      pseudoinverse (fieldArith K) nm 2 c * rgbToXyz i 2 / white i :=
    fun c => camToXyz_eq _ _ _ i c i.2 c.2
  have w0 := congrFun hwhite 0
  have w1 := congrFun hwhite 1
  have w2 := congrFun hwhite 2
  have hwi := hw i i.2
  simp only [Matrix.mulVec, dotProduct, Fin.sum_univ_four, Fin.sum_univ_three, arr, Matrix.of_apply, hx] at w0 w1 w2 ⊢
  simp only [Fin.val_zero, Fin.val_one, Fin.val_two] at w0 w1 w2 ⊢
  field_simp
  linear_combination (rgbToXyz i 0) * w0 + rgbToXyz i 1 * w1 + rgbToXyz i 2 * w2

end

/-- A matrix with independent columns, and the pseudoinverse the code computes for it. -/
def sampleCam : Mat ℚ := fun i j => if i = j then 1 else if i = 3 ∧ j = 1 then 1 else 0

example : Function.Injective (arr 4 3 sampleCam).mulVec := by
  intro u v h
  have := fun i => congrFun h i
  ext i
  have h0 := this 0; have h1 := this 1; have h2 := this 2
  simp [Matrix.mulVec, dotProduct, Fin.sum_univ_three, arr, sampleCam] at h0 h1 h2
  fin_cases i <;> assumption

example : (List.range 3).map (fun r => (List.range 4).map (pseudoinverse (fieldArith ℚ) sampleCam r)) =
    [[1, 0, 0, 0], [0, 1/2, 0, 1/2], [0, 0, 1, 0]] := by decide +kernel

end Props

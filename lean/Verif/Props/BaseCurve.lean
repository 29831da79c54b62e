import Verif.Lemmas.Stages
import Verif.Lemmas.F32Ops
import Verif.Props.Curves
import Mathlib.Tactic.NormNum
import Mathlib.Tactic.Linarith
import Mathlib.Tactic.Positivity
/-!
# The tone curve of the pipeline as it is computed (C52)

The base curve with its own knots, in `f32`: how far the rounding can take it from a rising curve.
-/

namespace Props
open Rust Model Spec

/-! ## Rounding errors -/

/-- A number within `e` of `q`. -/
def Near (x : F32) (q e : ℚ) : Prop := ∃ r, x.val? = some r ∧ |r - q| ≤ e

/-- The error of one operation with a result of at most 2. -/
private def eps : ℚ := 9 / 8 / 2 ^ 23

private theorem pow2_small : pow2 (-24) = 1 / 2 ^ 24 ∧ pow2 (-126) ≤ 1 / 2 ^ 60 ∧ (2 : ℚ) < pow2 128 ∧ pow2 1 = 2 := by decide +kernel

private theorem roundQ_near {q : ℚ} (h : |q| ≤ 2) : |roundQ q - q| ≤ eps := by
  by_cases hs : pow2 (-126) ≤ |q|
  · refine le_trans (roundQ_rel_error hs) ?_
    rw [pow2_small.1]
    unfold eps
    linarith
  · have h0 : Repr32 (0 : ℚ) := ⟨0, 0, by simp, by norm_num, by norm_num⟩
    have h1 := roundQ_nearest q 0 h0
    rw [zero_sub, abs_neg] at h1
    have h2 := pow2_small.2.1
    unfold eps
    have : (1 : ℚ) / 2 ^ 60 ≤ 9 / 8 / 2 ^ 23 := by norm_num
    linarith [not_le.mp hs]

private theorem round_val (s : Bool) {q : ℚ} (h : |q| ≤ 2) : (F32.round s q).val? = some (roundQ q) := by
  unfold F32.round
  by_cases h0 : q = 0
  · rw [if_pos h0, h0]; rfl
  · rw [if_neg h0]
    by_cases h1 : roundQ q = 0
    · rw [if_pos h1, h1]; rfl
    · rw [if_neg h1]
      have hr : Repr32 (2 : ℚ) := by rw [← pow2_small.2.2.2]; exact repr32_pow2 (by norm_num)
      have hr' : Repr32 (-2 : ℚ) := by
        obtain ⟨m, k, e, hm, hk⟩ := hr
        exact ⟨-m, k, by rw [e]; push_cast; ring, by rw [abs_neg]; exact hm, hk⟩
      obtain ⟨a1, a2⟩ := abs_le.mp h
      have b1 := roundQ_le_of_repr hr a2
      have b2 := le_roundQ_of_repr hr' a1
      have b3 : (roundQ q).abs ≤ 2 := by rw [ratAbs_eq]; exact abs_le.mpr ⟨b2, b1⟩
      rw [if_neg (not_le.mpr (lt_of_le_of_lt b3 pow2_small.2.2.1))]
      rfl

private theorem near_round {q r e : ℚ} (s : Bool) (h : |r - q| ≤ e) (hb : |q| + e ≤ 2) : Near (F32.round s r) q (e + eps) := by
  have hr : |r| ≤ 2 := by
    have := abs_sub_abs_le_abs_sub r q
    linarith
  refine ⟨_, round_val s hr, ?_⟩
  have h1 := roundQ_near hr
  calc |roundQ r - q| ≤ |roundQ r - r| + |r - q| := abs_sub_le _ _ _
    _ ≤ e + eps := by linarith

private theorem eps_nonneg : 0 ≤ eps := by unfold eps; norm_num

private theorem near_add {x y : F32} {p q d e : ℚ} (hx : Near x p d) (hy : Near y q e) (hb : |p + q| + (d + e) ≤ 2) : Near (x.add y) (p + q) (d + e + eps) := by
  obtain ⟨r, hr, h1⟩ := hx
  obtain ⟨s, hs, h2⟩ := hy
  have h3 : |r + s - (p + q)| ≤ d + e := by
    have : r + s - (p + q) = (r - p) + (s - q) := by ring
    rw [this]
    exact le_trans (abs_add_le _ _) (by linarith)
  have he := eps_nonneg
  cases x <;> simp [F32.val?] at hr <;> cases y <;> simp [F32.val?] at hs <;> subst hr <;> subst hs <;> unfold F32.add
  · exact ⟨0, rfl, by rw [zero_add] at h3; linarith⟩
  · exact ⟨_, rfl, by rw [zero_add] at h3; linarith⟩
  · exact ⟨_, rfl, by rw [add_zero] at h3; linarith⟩
  · exact near_round _ h3 hb

private theorem near_neg {x : F32} {p d : ℚ} (hx : Near x p d) : Near x.neg (-p) d := by
  obtain ⟨r, hr, h1⟩ := hx
  have h2 : |-r - -p| ≤ d := by rw [show -r - -p = -(r - p) by ring, abs_neg]; exact h1
  cases x <;> simp [F32.val?] at hr <;> subst hr
  · exact ⟨0, rfl, by simpa using h2⟩
  · exact ⟨_, rfl, h2⟩

private theorem near_sub {x y : F32} {p q d e : ℚ} (hx : Near x p d) (hy : Near y q e) (hb : |p - q| + (d + e) ≤ 2) : Near (x.sub y) (p - q) (d + e + eps) := by
  rw [sub_eq_add_neg] at hb ⊢
  exact near_add hx (near_neg hy) hb

private theorem near_mul {x y : F32} {p q d e P Q : ℚ} (hx : Near x p d) (hy : Near y q e) (hp : |p| ≤ P) (hq : |q| ≤ Q)
    (hb : P * Q + ((P + d) * e + Q * d) ≤ 2) : Near (x.mul y) (p * q) ((P + d) * e + Q * d + eps) := by
  obtain ⟨r, hr, h1⟩ := hx
  obtain ⟨s, hs, h2⟩ := hy
  have hd : 0 ≤ d := le_trans (abs_nonneg _) h1
  have he' : 0 ≤ e := le_trans (abs_nonneg _) h2
  have hP : 0 ≤ P := le_trans (abs_nonneg _) hp
  have hQ : 0 ≤ Q := le_trans (abs_nonneg _) hq
  have hr' : |r| ≤ P + d := by
    have := abs_sub_abs_le_abs_sub r p
    linarith
  have h3 : |r * s - p * q| ≤ (P + d) * e + Q * d := by
    have : r * s - p * q = r * (s - q) + (r - p) * q := by ring
    rw [this]
    refine le_trans (abs_add_le _ _) ?_
    rw [abs_mul, abs_mul]
    have a1 : |r| * |s - q| ≤ (P + d) * e := mul_le_mul hr' h2 (abs_nonneg _) (by linarith)
    have a2 : |r - p| * |q| ≤ d * Q := mul_le_mul h1 hq (abs_nonneg _) hd
    linarith
  have hpq : |p * q| ≤ P * Q := by rw [abs_mul]; exact mul_le_mul hp hq (abs_nonneg _) hP
  have he := eps_nonneg
  have hzero : r * s = 0 → Near (F32.zero true) (p * q) ((P + d) * e + Q * d + eps) ∧ Near (F32.zero false) (p * q) ((P + d) * e + Q * d + eps) := by
    intro h0
    rw [h0] at h3
    exact ⟨⟨0, rfl, by linarith⟩, ⟨0, rfl, by linarith⟩⟩
  have hz : ∀ b, r * s = 0 → Near (F32.zero b) (p * q) ((P + d) * e + Q * d + eps) := by
    intro b h0
    cases b
    · exact (hzero h0).2
    · exact (hzero h0).1
  cases x <;> simp [F32.val?] at hr <;> cases y <;> simp [F32.val?] at hs <;> subst hr <;> subst hs <;> unfold F32.mul
  · exact hz _ (by ring)
  · exact hz _ (by ring)
  · exact hz _ (by ring)
  · exact near_round _ h3 (by linarith)

private theorem near_self {x : F32} {q : ℚ} (h : x.val? = some q) : Near x q 0 := ⟨q, h, by simp⟩

/-! ## The pieces -/

/-- A cubic. -/
private def cubic (y k1 k2 k3 d : ℚ) : ℚ := y + k1 * d + k2 * d * d + k3 * d * d * d

/-- The error of a cubic with coefficients of at most `K1`, `K2` and `K3`, evaluated at most `D` from the knot. -/
private def cubicError (K1 K2 K3 D : ℚ) : ℚ :=
  let e2 := K2 * eps + eps
  let e3 := K3 * eps + eps
  let e2' := (K2 * D + e2) * eps + D * e2 + eps
  let e3' := (K3 * D + e3) * eps + D * e3 + eps
  let e3'' := (K3 * D * D + e3') * eps + D * e3' + eps
  K1 * eps + eps + eps + e2' + eps + e3'' + eps

private theorem Near.mono {x : F32} {q d e : ℚ} (h : Near x q d) (hde : d ≤ e) : Near x q e := by
  obtain ⟨r, h1, h2⟩ := h
  exact ⟨r, h1, le_trans h2 hde⟩

private theorem prod_le {a b A B : ℚ} (h1 : a ≤ A) (h2 : b ≤ B) (hb : 0 ≤ b) (ha : 0 ≤ a) : a * b ≤ A * B :=
  mul_le_mul h1 h2 hb (le_trans ha h1)

/-- The evaluation in `f32` of a piece of the curve. -/
private theorem cubic_near {y k1 k2 k3 x v : F32} {qy q1 q2 q3 qx q K1 K2 K3 D : ℚ} (hy : y.val? = some qy) (h1 : k1.val? = some q1) (h2 : k2.val? = some q2)
    (h3 : k3.val? = some q3) (hx : x.val? = some qx) (hv : v.val? = some q) (hd : |q - qx| ≤ D) (b1 : |q1| ≤ K1) (b2 : |q2| ≤ K2) (b3 : |q3| ≤ K3)
    (hD : D ≤ 1 / 3) (hK : K1 ≤ 3 / 2 ∧ K2 ≤ 3 ∧ K3 * D ≤ 3 / 2 ∧ K3 ≤ 6 ∧ K2 * D ≤ 1 / 2 ∧ K3 * D * D ≤ 1 / 4) (hyb : |qy| ≤ 3 / 4) :
    Near (((y.add (k1.mul (v.sub x))).add ((k2.mul (v.sub x)).mul (v.sub x))).add (((k3.mul (v.sub x)).mul (v.sub x)).mul (v.sub x)))
      (cubic qy q1 q2 q3 (q - qx)) (cubicError K1 K2 K3 D) := by
  obtain ⟨hK1, hK2, hK3D, hK3, hK2D, hK3DD⟩ := hK
  have n1 : 0 ≤ K1 := le_trans (abs_nonneg _) b1
  have n2 : 0 ≤ K2 := le_trans (abs_nonneg _) b2
  have n3 : 0 ≤ K3 := le_trans (abs_nonneg _) b3
  have nD : 0 ≤ D := le_trans (abs_nonneg _) hd
  have he0 := eps_nonneg
  have he1 : eps ≤ 1 / 1000 := by unfold eps; norm_num
  have d0 : Near (v.sub x) (q - qx) eps := by
    have := near_sub (near_self hv) (near_self hx) (by linarith)
    rwa [add_zero, zero_add] at this
  generalize q - qx = δ at *
  have s1 : K1 * eps ≤ 3 / 2 * (1 / 1000) := prod_le hK1 he1 he0 n1
  have s2 : K2 * eps ≤ 3 * (1 / 1000) := prod_le hK2 he1 he0 n2
  have s3 : K3 * eps ≤ 6 * (1 / 1000) := prod_le hK3 he1 he0 n3
  have t1 : K1 * D ≤ 3 / 2 * (1 / 3) := prod_le hK1 hD nD n1
  have m1 := near_mul (near_self h1) d0 b1 hd (by linarith)
  have m2 := near_mul (near_self h2) d0 b2 hd (by linarith)
  have m3 := near_mul (near_self h3) d0 b3 hd (by linarith)
  simp only [add_zero, mul_zero] at m1 m2 m3
  have c2 : |q2 * δ| ≤ K2 * D := by rw [abs_mul]; exact mul_le_mul b2 hd (abs_nonneg _) n2
  have c3 : |q3 * δ| ≤ K3 * D := by rw [abs_mul]; exact mul_le_mul b3 hd (abs_nonneg _) n3
  have z1 : 0 ≤ K1 * eps := mul_nonneg n1 he0
  have z2 : 0 ≤ K2 * D := mul_nonneg n2 nD
  have z3 : 0 ≤ K3 * D := mul_nonneg n3 nD
  unfold cubicError
  dsimp only
  have s2n : 0 ≤ K2 * eps + eps := by positivity
  have s3n : 0 ≤ K3 * eps + eps := by positivity
  replace s2 : K2 * eps + eps ≤ 4 / 1000 := by linarith
  replace s3 : K3 * eps + eps ≤ 7 / 1000 := by linarith
  generalize K2 * eps + eps = e2 at *
  generalize K3 * eps + eps = e3 at *
  have c1 : |q1 * δ| ≤ 1 / 2 := by
    rw [abs_mul]
    have := prod_le b1 hd (abs_nonneg δ) (abs_nonneg q1)
    linarith
  have c2' : |q2 * δ * δ| ≤ 1 / 6 := by
    rw [abs_mul]
    have := prod_le (le_trans c2 hK2D) (le_trans hd hD) (abs_nonneg δ) (abs_nonneg _)
    linarith
  have c3'' : |q3 * δ * δ * δ| ≤ 1 / 12 := by
    rw [abs_mul]
    have h : |q3 * δ * δ| ≤ 1 / 4 := by
      rw [abs_mul]
      have := prod_le c3 hd (abs_nonneg δ) (abs_nonneg _)
      linarith
    have := prod_le h (le_trans hd hD) (abs_nonneg δ) (abs_nonneg _)
    linarith
  have c3' : |q3 * δ * δ| ≤ K3 * D * D := by rw [abs_mul]; exact mul_le_mul c3 hd (abs_nonneg _) z3
  generalize K2 * D = KD2 at *
  generalize hKD3 : K3 * D = KD3 at *
  have u2 : KD2 * D ≤ 1 / 2 * (1 / 3) := prod_le hK2D hD nD z2
  have v2 : (KD2 + e2) * eps ≤ 1 * (1 / 1000) := prod_le (by linarith) he1 he0 (by linarith)
  have w2 : D * e2 ≤ 1 / 3 * (4 / 1000) := prod_le hD s2 s2n nD
  have v3 : (KD3 + e3) * eps ≤ 2 * (1 / 1000) := prod_le (by linarith) he1 he0 (by linarith)
  have w3 : D * e3 ≤ 1 / 3 * (7 / 1000) := prod_le hD s3 s3n nD
  have m2' := near_mul m2 d0 c2 hd (by linarith)
  have m3' := near_mul m3 d0 c3 hd (by linarith)
  have z3' : 0 ≤ KD3 * D := mul_nonneg z3 nD
  have p2 : (KD2 + e2) * eps + D * e2 + eps ≤ 1 / 100 := by linarith
  have p3 : (KD3 + e3) * eps + D * e3 + eps ≤ 1 / 100 := by linarith
  have p3n : 0 ≤ (KD3 + e3) * eps + D * e3 + eps := by positivity
  generalize (KD2 + e2) * eps + D * e2 + eps = e2' at *
  generalize (KD3 + e3) * eps + D * e3 + eps = e3' at *
  have u4 : KD3 * D * D ≤ 1 / 4 * (1 / 3) := prod_le hK3DD hD nD z3'
  have v4 : (KD3 * D + e3') * eps ≤ 1 * (1 / 1000) := prod_le (by linarith) he1 he0 (by linarith)
  have w4 : D * e3' ≤ 1 / 3 * (1 / 100) := prod_le hD p3 p3n nD
  have m3'' := near_mul m3' d0 c3' hd (by linarith)
  have a1 := near_add (near_self hy) m1 (by
    have := abs_add_le qy (q1 * δ)
    linarith)
  have a2 := near_add a1 m2' (by
    have := abs_add_le qy (q1 * δ)
    have := abs_add_le (qy + q1 * δ) (q2 * δ * δ)
    linarith)
  have a3 := near_add a2 m3'' (by
    have := abs_add_le qy (q1 * δ)
    have := abs_add_le (qy + q1 * δ) (q2 * δ * δ)
    have := abs_add_le (qy + q1 * δ + q2 * δ * δ) (q3 * δ * δ * δ)
    linarith)
  refine a3.mono ?_
  linarith

/-! ## The curve of the pipeline -/

/-- The tone curve that the pipeline applies to the lightness. -/
def baseTone (v : F32) : M F32 := SplineFunc.new OrdArith.f32 baseXs baseYs >>= fun f => f.interpolate OrdArith.f32 v

private def tabX (i : Nat) : ℚ := [0, 5033165 / 16777216, 1 / 2, 11744051 / 16777216, 1].getD i 0
private def tabY (i : Nat) : ℚ := [0, 1 / 4, 1 / 2, 3 / 4, 1].getD i 0
private def tab1 (i : Nat) : ℚ := [13981013 / 16777216, 8501967 / 8388608, 10485761 / 8388608, 8501967 / 8388608].getD i 0
private def tab2 (i : Nat) : ℚ := [-5038205 / 8388608, 9918971 / 4194304, 9918971 / 8388608, -5038203 / 4194304].getD i 0
private def tab3 (i : Nat) : ℚ := [524813 / 262144, -12398715 / 2097152, -12398715 / 2097152, 524813 / 262144].getD i 0

private def knotX (i : Nat) : F32 := baseXs.getD i (.zero false)
private def knotY (i : Nat) : F32 := baseYs.getD i (.zero false)

private theorem tone_curve (v : F32) : baseTone v = curve OrdArith.f32 knotX knotY 5 v := rfl

private theorem knots_ok : Knots knotX 5 where
  two := by omega
  increasing := by
    intro i hi
    have : i = 0 ∨ i = 1 ∨ i = 2 ∨ i = 3 := by omega
    rcases this with rfl | rfl | rfl | rfl <;> decide +kernel

private theorem knot_values : ∀ i : Fin 5, (knotX i).val? = some (tabX i) ∧ (knotY i).val? = some (tabY i) := by decide +kernel

private theorem coefficients : ∀ i : Fin 4, (c1Of OrdArith.f32 knotX knotY 5 i).val? = some (tab1 i) ∧ (c2Of OrdArith.f32 knotX knotY 5 i).val? = some (tab2 i) ∧
    (c3Of OrdArith.f32 knotX knotY 5 i).val? = some (tab3 i) := by decide +kernel

private theorem lt_val {a b : F32} {p q : ℚ} (ha : a.val? = some p) (hb : b.val? = some q) : F32.lt a b = decide (p < q) := by
  cases a <;> simp [F32.val?] at ha <;> cases b <;> simp [F32.val?] at hb <;> subst ha <;> subst hb <;> simp [F32.lt]

/-- The piece of the curve in `f32`. -/
private theorem piece_near (i : Nat) (hi : i < 4) {v : F32} {q : ℚ} (hv : v.val? = some q) (h0 : tabX i ≤ q) (h1 : q ≤ tabX (i + 1)) :
    Near (piece OrdArith.f32 knotX knotY 5 i v) (cubic (tabY i) (tab1 i) (tab2 i) (tab3 i) (q - tabX i)) (7 / 2 ^ 22) := by
  obtain ⟨x1, y1⟩ := knot_values ⟨i, by omega⟩
  obtain ⟨k1, k2, k3⟩ := coefficients ⟨i, hi⟩
  dsimp only at x1 y1 k1 k2 k3
  have hc : ∀ i : Fin 4, tabX (i + 1) - tabX i ≤ 1 / 3 ∧ (|tab1 i| ≤ 3 / 2 ∧ |tab2 i| ≤ 3 ∧ |tab3 i| * (tabX (i + 1) - tabX i) ≤ 3 / 2 ∧ |tab3 i| ≤ 6 ∧
      |tab2 i| * (tabX (i + 1) - tabX i) ≤ 1 / 2 ∧ |tab3 i| * (tabX (i + 1) - tabX i) * (tabX (i + 1) - tabX i) ≤ 1 / 4) ∧ |tabY i| ≤ 3 / 4 ∧
      cubicError |tab1 i| |tab2 i| |tab3 i| (tabX (i + 1) - tabX i) ≤ 7 / 2 ^ 22 := by decide +kernel
  obtain ⟨c1, c2, c3, c4⟩ := hc ⟨i, hi⟩
  exact Near.mono (cubic_near y1 k1 k2 k3 x1 hv (abs_le.mpr ⟨by linarith, by linarith⟩) le_rfl le_rfl le_rfl c1 c2 c3) c4

/-- The exact pieces rise. -/
private theorem cubic_rises (i : Nat) (hi : i < 4) {d e : ℚ} (hd : 0 ≤ d) (hde : d ≤ e) (he : e ≤ tabX (i + 1) - tabX i) :
    cubic (tabY i) (tab1 i) (tab2 i) (tab3 i) d ≤ cubic (tabY i) (tab1 i) (tab2 i) (tab3 i) e := by
  have key : ∀ y k1 k2 k3 D : ℚ, d ≤ D → e ≤ D → 0 ≤ k1 + min 0 k2 * (2 * D) + min 0 k3 * (3 * D * D) → cubic y k1 k2 k3 d ≤ cubic y k1 k2 k3 e := by
    intro y k1 k2 k3 D h1 h2 h3
    have hf : cubic y k1 k2 k3 e - cubic y k1 k2 k3 d = (e - d) * (k1 + k2 * (e + d) + k3 * (e * e + e * d + d * d)) := by unfold cubic; ring
    have hD : 0 ≤ D := le_trans hd h1
    have h0e : 0 ≤ e := le_trans hd hde
    have q1 : min 0 k2 * (2 * D) ≤ k2 * (e + d) := by
      calc min 0 k2 * (2 * D) ≤ min 0 k2 * (e + d) := by
            have : e + d ≤ 2 * D := by linarith
            exact mul_le_mul_of_nonpos_left this (min_le_left _ _)
        _ ≤ k2 * (e + d) := mul_le_mul_of_nonneg_right (min_le_right _ _) (by linarith)
    have q2 : min 0 k3 * (3 * D * D) ≤ k3 * (e * e + e * d + d * d) := by
      calc min 0 k3 * (3 * D * D) ≤ min 0 k3 * (e * e + e * d + d * d) := by
            have a1 := prod_le h2 h2 h0e h0e
            have a2 := prod_le h2 h1 hd h0e
            have a3 := prod_le h1 h1 hd hd
            have : e * e + e * d + d * d ≤ 3 * D * D := by linarith
            exact mul_le_mul_of_nonpos_left this (min_le_left _ _)
        _ ≤ k3 * (e * e + e * d + d * d) := mul_le_mul_of_nonneg_right (min_le_right _ _) (by positivity)
    have : 0 ≤ (e - d) * (k1 + k2 * (e + d) + k3 * (e * e + e * d + d * d)) := mul_nonneg (by linarith) (by linarith)
    linarith
  refine key _ _ _ _ (tabX (i + 1) - tabX i) (le_trans hde he) he ?_
  have : i = 0 ∨ i = 1 ∨ i = 2 ∨ i = 3 := by omega
  rcases this with rfl | rfl | rfl | rfl <;> decide +kernel

private theorem cubic_zero (y k1 k2 k3 : ℚ) : cubic y k1 k2 k3 0 = y := by unfold cubic; ring

private theorem cubic_end (i : Nat) (hi : i < 4) : cubic (tabY i) (tab1 i) (tab2 i) (tab3 i) (tabX (i + 1) - tabX i) ≤ tabY (i + 1) + 1 / 2 ^ 22 := by
  have : i = 0 ∨ i = 1 ∨ i = 2 ∨ i = 3 := by omega
  rcases this with rfl | rfl | rfl | rfl <;> decide +kernel

/-- Where the curve is evaluated, and what it gives. -/
private theorem tone_value {v : F32} {q : ℚ} (hv : v.val? = some q) (h0 : 0 ≤ q) :
    ∃ a r, baseTone v = .ok a ∧ a.val? = some r ∧ ((1 ≤ q ∧ r = 1) ∨
      ∃ i, i < 4 ∧ tabX i ≤ q ∧ q ≤ tabX (i + 1) ∧ |r - cubic (tabY i) (tab1 i) (tab2 i) (tab3 i) (q - tabX i)| ≤ 7 / 2 ^ 22) := by
  rw [tone_curve]
  by_cases h1 : 1 ≤ q
  · refine ⟨knotY 4, 1, curve_beyond knotX knotY 5 knots_ok v ?_, by decide +kernel, Or.inl ⟨h1, rfl⟩⟩
    have h4 : knotX 4 = .fin 1 := by decide +kernel
    rw [show 5 - 1 = 4 by rfl, h4]
    cases v <;> simp [F32.val?] at hv
    · subst hv; norm_num at h1
    · subst hv
      simp [F32.le, F32.lt, F32.feq]
      exact lt_or_eq_of_le h1
  · have hknot : ∀ i, i < 4 → tabX i = q → ∃ a r, curve OrdArith.f32 knotX knotY 5 v = .ok a ∧ a.val? = some r ∧ ((1 ≤ q ∧ r = 1) ∨
        ∃ i, i < 4 ∧ tabX i ≤ q ∧ q ≤ tabX (i + 1) ∧ |r - cubic (tabY i) (tab1 i) (tab2 i) (tab3 i) (q - tabX i)| ≤ 7 / 2 ^ 22) := by
      intro i hi he
      have hle : tabX i ≤ tabX (i + 1) := by
        have : i = 0 ∨ i = 1 ∨ i = 2 ∨ i = 3 := by omega
        rcases this with rfl | rfl | rfl | rfl <;> decide +kernel
      have hval : curve OrdArith.f32 knotX knotY 5 v = .ok (knotY i) := by
        by_cases hz : i = 0
        · subst hz
          have : q = 0 := by rw [← he]; rfl
          subst this
          cases v <;> simp [F32.val?] at hv
          · rename_i s
            cases s <;> decide +kernel
          · subst hv; decide +kernel
        · have hve : v = knotX i := by
            obtain ⟨x1, -⟩ := knot_values ⟨i, by omega⟩
            dsimp only at x1
            rw [he] at x1
            have hq0 : q ≠ 0 := by
              rw [← he]
              have : i = 1 ∨ i = 2 ∨ i = 3 := by omega
              rcases this with rfl | rfl | rfl <;> decide +kernel
            cases hk : knotX i <;> rw [hk] at x1 <;> simp [F32.val?] at x1
            · exact absurd x1.symm hq0
            · cases v <;> simp [F32.val?] at hv
              · exact absurd hv.symm hq0
              · rw [hv, x1]
          rw [hve]
          exact curve_at_knot knotX knotY 5 knots_ok i (by omega)
      obtain ⟨-, y1⟩ := knot_values ⟨i, by omega⟩
      refine ⟨_, _, hval, y1, Or.inr ⟨i, hi, le_of_eq he, by rw [← he]; exact hle, ?_⟩⟩
      rw [he, sub_self, cubic_zero, sub_self, abs_zero]
      norm_num
    have hpiece : ∀ i, i < 4 → tabX i < q → q < tabX (i + 1) → ∃ a r, curve OrdArith.f32 knotX knotY 5 v = .ok a ∧ a.val? = some r ∧ ((1 ≤ q ∧ r = 1) ∨
        ∃ i, i < 4 ∧ tabX i ≤ q ∧ q ≤ tabX (i + 1) ∧ |r - cubic (tabY i) (tab1 i) (tab2 i) (tab3 i) (q - tabX i)| ≤ 7 / 2 ^ 22) := by
      intro i hi a1 a2
      obtain ⟨x1, -⟩ := knot_values ⟨i, by omega⟩
      obtain ⟨x2, -⟩ := knot_values ⟨i + 1, by omega⟩
      obtain ⟨r, hr, hn⟩ := piece_near i hi hv (le_of_lt a1) (le_of_lt a2)
      refine ⟨_, r, curve_between knotX knotY 5 knots_ok i (by omega) v ?_ ?_, hr, Or.inr ⟨i, hi, le_of_lt a1, le_of_lt a2, hn⟩⟩
      · rw [lt_val x1 hv]; exact decide_eq_true a1
      · rw [lt_val hv x2]; exact decide_eq_true a2
    have hq1 : q < tabX 4 := not_le.mp h1
    rcases lt_trichotomy q (tabX 1) with c1 | c1 | c1
    · rcases lt_or_eq_of_le h0 with c0 | c0
      · exact hpiece 0 (by omega) c0 c1
      · exact hknot 0 (by omega) c0
    · exact hknot 1 (by omega) c1.symm
    · rcases lt_trichotomy q (tabX 2) with c2 | c2 | c2
      · exact hpiece 1 (by omega) c1 c2
      · exact hknot 2 (by omega) c2.symm
      · rcases lt_trichotomy q (tabX 3) with c3 | c3 | c3
        · exact hpiece 2 (by omega) c2 c3
        · exact hknot 3 (by omega) c3.symm
        · exact hpiece 3 (by omega) c3 hq1

/-- The tone curve of the pipeline, with its own knots and computed in `f32`: brighter lightness never comes out darker by more than `2^-18`, and nothing leaves the range
from 0 to 1 by more than that. An output value has eight bits. -/
theorem base_curve_nearly_monotone (u v : F32) (p q : ℚ) (hu : u.val? = some p) (hv : v.val? = some q) (h0 : 0 ≤ p) (hpq : p ≤ q) :
    ∃ a b y z, baseTone u = .ok a ∧ baseTone v = .ok b ∧ a.val? = some y ∧ b.val? = some z ∧
      y ≤ z + 1 / 2 ^ 18 ∧ -(1 / 2 ^ 18) ≤ y ∧ z ≤ 1 + 1 / 2 ^ 18 := by
  obtain ⟨a, y, ha, hy, hcu⟩ := tone_value hu h0
  obtain ⟨b, z, hb, hz, hcv⟩ := tone_value hv (le_trans h0 hpq)
  refine ⟨a, b, y, z, ha, hb, hy, hz, ?_⟩
  have hYY : ∀ i j, i ≤ j → j < 5 → tabY i ≤ tabY j := by
    have : ∀ i j : Fin 5, i ≤ j → tabY i ≤ tabY j := by decide +kernel
    intro i j hij hj
    exact this ⟨i, by omega⟩ ⟨j, hj⟩ hij
  have hXX : ∀ i j, i ≤ j → j < 5 → tabX i ≤ tabX j := by
    have : ∀ i j : Fin 5, i ≤ j → tabX i ≤ tabX j := by decide +kernel
    intro i j hij hj
    exact this ⟨i, by omega⟩ ⟨j, hj⟩ hij
  have hband : ∀ i q r, i < 4 → tabX i ≤ q → q ≤ tabX (i + 1) → |r - cubic (tabY i) (tab1 i) (tab2 i) (tab3 i) (q - tabX i)| ≤ 7 / 2 ^ 22 →
      tabY i - 7 / 2 ^ 22 ≤ r ∧ r ≤ tabY (i + 1) + 1 / 2 ^ 22 + 7 / 2 ^ 22 := by
    intro i q r hi h1 h2 h3
    obtain ⟨d1, d2⟩ := abs_le.mp h3
    have l := cubic_rises i hi (d := 0) (e := q - tabX i) (le_refl _) (by linarith) (by linarith)
    rw [cubic_zero] at l
    have m := cubic_rises i hi (d := q - tabX i) (e := tabX (i + 1) - tabX i) (by linarith) (by linarith) (le_refl _)
    have n := cubic_end i hi
    constructor <;> linarith
  have hnum : (8 : ℚ) / 2 ^ 22 + 7 / 2 ^ 22 ≤ 1 / 2 ^ 18 ∧ (0 : ℚ) < 1 / 2 ^ 22 := by norm_num
  have hY0 : tabY 0 = 0 := rfl
  have hY4 : tabY 4 = 1 := rfl
  rcases hcu with ⟨k1, k2⟩ | ⟨i, hi, k1, k2, k3⟩
  · rcases hcv with ⟨l1, l2⟩ | ⟨j, hj, l1, l2, l3⟩
    · rw [k2, l2]; norm_num
    · have hj4 := hXX (j + 1) 4 (by omega) (by omega)
      have hq : q = tabX 4 := le_antisymm (le_trans l2 hj4) (le_trans k1 hpq)
      have hj3 : j = 3 := by
        by_contra hne
        have := hXX (j + 1) 3 (by omega) (by omega)
        have h34 : tabX 3 < tabX 4 := by decide +kernel
        linarith
      subst hj3
      obtain ⟨d1, d2⟩ := abs_le.mp l3
      have n := cubic_end 3 (by omega)
      have n' : tabY 4 - 1 / 2 ^ 22 ≤ cubic (tabY 3) (tab1 3) (tab2 3) (tab3 3) (tabX 4 - tabX 3) := by decide +kernel
      rw [hq] at d1 d2
      rw [k2]
      have hnum2 : (1 : ℚ) / 2 ^ 22 + 7 / 2 ^ 22 ≤ 1 / 2 ^ 18 := by norm_num
      refine ⟨?_, by norm_num, ?_⟩ <;> linarith
  · obtain ⟨u1, u2⟩ := hband i p y hi k1 k2 k3
    have hi0 := hYY 0 i (by omega) (by omega)
    rcases hcv with ⟨l1, l2⟩ | ⟨j, hj, l1, l2, l3⟩
    · have := hYY (i + 1) 4 (by omega) (by omega)
      rw [l2]
      refine ⟨?_, ?_, by norm_num⟩ <;> linarith
    · obtain ⟨v1, v2⟩ := hband j q z hj l1 l2 l3
      have hj4 := hYY (j + 1) 4 (by omega) (by omega)
      refine ⟨?_, by linarith, by linarith⟩
      rcases Nat.lt_trichotomy i j with h | h | h
      · have := hYY (i + 1) j (by omega) (by omega)
        linarith
      · subst h
        have := cubic_rises i hi (d := p - tabX i) (e := q - tabX i) (by linarith) (by linarith) (by linarith)
        obtain ⟨d1, d2⟩ := abs_le.mp k3
        obtain ⟨d3, d4⟩ := abs_le.mp l3
        linarith
      · have hx := hXX (j + 1) i (by omega) (by omega)
        have hp : p = tabX i := by linarith
        have hq : q = tabX (j + 1) := by linarith
        have hij : i = j + 1 := by
          by_contra hne
          have hs : ∀ i j : Fin 5, j < i → tabX j < tabX i := by decide +kernel
          have := hs ⟨i, by omega⟩ ⟨j + 1, by omega⟩ (by show j + 1 < i; omega)
          dsimp only at this
          linarith
        subst hij
        have he : ∀ i : Fin 4, tabY (i + 1) - 1 / 2 ^ 22 ≤ cubic (tabY i) (tab1 i) (tab2 i) (tab3 i) (tabX (i + 1) - tabX i) := by decide +kernel
        have he := he ⟨j, hj⟩
        dsimp only at he
        rw [hp, sub_self, cubic_zero] at k3
        rw [hq] at l3
        obtain ⟨d1, d2⟩ := abs_le.mp k3
        obtain ⟨d3, d4⟩ := abs_le.mp l3
        linarith

/-- In the last place the curve does go down: two neighbouring numbers around 0.7154. -/
theorem base_curve_dips : ∃ u v : F32, u.Valid ∧ v.Valid ∧ F32.lt u v = true ∧
    ∃ a b, baseTone u = .ok a ∧ baseTone v = .ok b ∧ F32.lt b a = true := by
  refine ⟨.fin (12003015 / 16777216), .fin (12003016 / 16777216), ?_, ?_, by decide +kernel, .fin (12840699 / 16777216), .fin (12840698 / 16777216), ?_, ?_, ?_⟩
  · exact ⟨by decide +kernel, by decide +kernel, by decide +kernel⟩
  · exact ⟨by decide +kernel, by decide +kernel, by decide +kernel⟩
  · decide +kernel
  · decide +kernel
  · decide +kernel

/-- The stage of the pipeline: the lightness of every pixel goes through the tone curve, the two colour components stay. -/
theorem base_stage {w h : Nat} (hw : 0 < w) (p : Nat → Nat → Nat → F32) :
    ∃ q, baseCurve (ofPix w h 3 p) = .ok (ofPix w h 3 q) ∧ ∀ r c, baseTone (p r c 0) = .ok (q r c 0) ∧ q r c 1 = p r c 1 ∧ q r c 2 = p r c 2 := by
  have ht : ∀ v, ∃ y, baseTone v = .ok y := fun v => Props.curve_total knotX knotY 5 (by decide) v
  obtain ⟨func, hf⟩ : ∃ func, SplineFunc.new OrdArith.f32 baseXs baseYs = .ok func := by
    obtain ⟨y, hy⟩ := ht (.zero false)
    unfold baseTone at hy
    rw [bind_eq_ok] at hy
    exact ⟨_, hy.choose_spec.1⟩
  obtain ⟨g, hg⟩ := Classical.axiomOfChoice ht
  refine ⟨fun r c k => if k = 0 then g (p r c 0) else p r c k, ?_, fun r c => ⟨hg _, rfl, rfl⟩⟩
  unfold baseTone at hg
  unfold baseCurve
  rw [hf] at hg
  simp only [ok_bind] at hg
  rw [hf, ok_bind]
  apply mutateLines_ofPix hw (by decide)
  intro r _
  apply mapChunks_pix (by decide)
  intro c _
  rw [range3, range3]
  simp only [idx, List.getElem?_cons_zero, ok_bind]
  rw [hg (p r c 0), ok_bind]
  rfl

/-- Mid-grey and a shadow, as computed. -/
example : baseTone (.fin (1 / 2)) = .ok (.fin (1 / 2)) ∧ baseTone (.fin (1 / 8)) = .ok (.fin (13246275 / 134217728)) := by decide +kernel

end Props

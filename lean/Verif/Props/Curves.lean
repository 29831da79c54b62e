import Verif.Lemmas.Curves
import Verif.Lemmas.Matrix
import Verif.Spec.Curve
import Mathlib.Algebra.Order.Field.Rat
/-!
# The tone curve (C41, C52)
-/

namespace Props
open Rust Model Spec

variable {α : Type}

/-- The curve through the points `(X 0, Y 0), ..., (X (n-1), Y (n-1))`, evaluated at `val`. -/
def curve (A : OrdArith α) (X Y : Nat → α) (n : Nat) (val : α) : M α := do
  let f ← SplineFunc.new A ((List.range n).map X) ((List.range n).map Y)
  f.interpolate A val

/-- The cubic of interval `i` as the code evaluates it. -/
def piece (A : OrdArith α) (X Y : Nat → α) (n i : Nat) (val : α) : α :=
  let diff := A.sub val (X i)
  A.add (A.add (A.add (Y i) (A.mul (c1Of A X Y n i) diff)) (A.mul (A.mul (c2Of A X Y n i) diff) diff))
    (A.mul (A.mul (A.mul (c3Of A X Y n i) diff) diff) diff)

theorem curve_end (A : OrdArith α) (X Y : Nat → α) (n : Nat) (hn : 2 ≤ n) (val : α) (h : A.le (X (n - 1)) val = true) :
    curve A X Y n val = .ok (Y (n - 1)) := by
  unfold curve SplineFunc.interpolate
  rw [splineNew_eq A X Y n hn]
  simp only [ok_bind, List.length_map, List.length_range]
  rw [idx_map_range' (by omega)]
  simp only [ok_bind]
  rw [if_pos h, idx_map_range' (by omega)]

theorem curve_inside (A : OrdArith α) (hlt : StrictlyOrdered A.lt) (X Y : Nat → α) (n : Nat) (hn : 2 ≤ n)
    (hX : ∀ i j, i < j → j < n → A.lt (X i) (X j) = true) (val : α) (h : A.le (X (n - 1)) val = false)
    (hv : A.lt val (X (n - 1)) = true) :
    (∃ i, i < n - 1 ∧ A.lt (X i) val = false ∧ A.lt val (X i) = false ∧ curve A X Y n val = .ok (Y i)) ∨
    (A.lt val (X 0) = true ∧ curve A X Y n val = .ok (piece A X Y n 0 val)) ∨
    (∃ i, i < n - 1 ∧ A.lt (X i) val = true ∧ A.lt val (X (i + 1)) = true ∧ curve A X Y n val = .ok (piece A X Y n i val)) := by
  have hs := splineSearch_spec (X := X) A hlt hX val (n - 1 + 1) 0 (((n - 1 : Nat) : Int) - 1) (by omega) (by omega) (by omega) (by omega)
    (by intro i hi; omega)
    (by
      intro i hi hN
      have : i = n - 1 := by omega
      rw [this]; exact hv)
  have hcurve : ∀ found, splineSearch A ((List.range n).map X) val (n - 1 + 1) 0 (((n - 1 : Nat) : Int) - 1) = .ok found →
      curve A X Y n val = (match found with
        | .knot i => idx ((List.range n).map Y) i
        | .interval high => splineEval A ⟨(List.range n).map X, (List.range n).map Y, (List.range n).map (c1Of A X Y n),
            (List.range (n - 1)).map (c2Of A X Y n), (List.range (n - 1)).map (c3Of A X Y n)⟩ (max 0 high).toNat val) := by
    intro found hfound
    unfold curve SplineFunc.interpolate
    rw [splineNew_eq A X Y n hn]
    simp only [ok_bind, List.length_map, List.length_range]
    rw [idx_map_range' (by omega)]
    simp only [ok_bind]
    rw [if_neg (by rw [h]; simp), hfound]
    rfl
  have heval : ∀ i, i < n - 1 → splineEval A ⟨(List.range n).map X, (List.range n).map Y, (List.range n).map (c1Of A X Y n),
            (List.range (n - 1)).map (c2Of A X Y n), (List.range (n - 1)).map (c3Of A X Y n)⟩ i val = .ok (piece A X Y n i val) := by
    intro i hi
    unfold splineEval
    simp only
    rw [idx_map_range' (by omega), idx_map_range' (by omega), idx_map_range' (by omega), idx_map_range' (by omega),
      idx_map_range' (by omega)]
    rfl
  rcases hs with ⟨i, hi, h1, h2, h3⟩ | ⟨k, h1, h2, h3, h4, h5⟩
  · left
    refine ⟨i, ?_, h1, h2, ?_⟩
    · by_contra hc
      have : i = n - 1 := by omega
      rw [this, hv] at h2
      cases h2
    · rw [hcurve _ h3]
      exact idx_map_range' hi
  · right
    by_cases hk : k = -1
    · left
      refine ⟨h4 0 (by omega) (by omega), ?_⟩
      rw [hcurve _ h5, hk]
      exact heval 0 (by omega)
    · right
      obtain ⟨i, rfl⟩ : ∃ i : Nat, k = (i : Int) := ⟨k.toNat, by omega⟩
      have hin : i < n - 1 := by
        by_contra hc
        have : i = n - 1 := by omega
        have := h3 (n - 1) (by omega)
        rw [hlt.asymm hv] at this
        cases this
      refine ⟨i, hin, h3 i (by omega), h4 (i + 1) (by omega) (by omega), ?_⟩
      rw [hcurve _ h5]
      have : (max (0 : Int) (i : Int)).toNat = i := by omega
      simp only [this]
      exact heval i hin

/-! ## The code: 32 bit floats -/

theorem f32_strict : StrictlyOrdered F32.lt := by
  constructor
  · intro a b c
    show F32.lt a b = true → F32.lt b c = true → F32.lt a c = true
    cases a <;> cases b <;> cases c <;> simp [F32.lt] <;> intros <;>
      first | assumption | (exact lt_trans ‹_› ‹_›) | (exact le_of_lt ‹_›) | simp_all
  · intro a
    show F32.lt a a = false
    cases a <;> simp [F32.lt]

/-- Numbers are comparable. -/
theorem f32_comparable (a b : F32) (ha : a ≠ .nan) (hb : b ≠ .nan) (va : a.Valid) (vb : b.Valid) :
    F32.lt a b = true ∨ F32.le b a = true := by
  cases a <;> cases b <;> simp_all [F32.lt, F32.le, F32.feq, F32.Valid]
  · rename_i s t; cases s <;> cases t <;> simp
  · rename_i s t; exact fun h => vb.1 h.symm
  · rename_i p q
    rcases lt_trichotomy p q with h | h | h
    · exact Or.inl h
    · exact Or.inr (Or.inr h.symm)
    · exact Or.inr (Or.inl h)

theorem f32_lt_not_le (a b : F32) (h : F32.lt a b = true) : F32.le b a = false := by
  cases a <;> cases b <;> simp_all [F32.lt, F32.le, F32.feq]
  · exact le_of_lt h
  · exact le_of_lt h
  · exact ⟨le_of_lt h, fun e => by rw [e] at h; exact lt_irrefl _ h⟩

theorem f32_le_refl (a : F32) (h : a ≠ .nan) : F32.le a a = true := by
  cases a <;> simp_all [F32.lt, F32.le, F32.feq]

/-- The knots: at least two, in increasing order. -/
structure Knots (X : Nat → F32) (n : Nat) : Prop where
  two : 2 ≤ n
  increasing : ∀ i, i + 1 < n → F32.lt (X i) (X (i + 1)) = true

theorem Knots.lt {X : Nat → F32} {n : Nat} (h : Knots X n) : ∀ i j, i < j → j < n → F32.lt (X i) (X j) = true := by
  intro i j hij
  induction j with
  | zero => omega
  | succ j ih =>
    intro hj
    by_cases he : i = j
    · rw [he]; exact h.increasing j hj
    · exact f32_strict.trans _ _ _ (ih (by omega) (by omega)) (h.increasing j hj)

theorem f32_lt_ne_nan {a b : F32} (h : F32.lt a b = true) : a ≠ .nan ∧ b ≠ .nan := by
  cases a <;> cases b <;> simp_all [F32.lt]

/-- At a knot the curve has exactly the knot's value. -/
theorem curve_at_knot (X Y : Nat → F32) (n : Nat) (hk : Knots X n) (i : Nat) (hi : i < n) :
    curve OrdArith.f32 X Y n (X i) = .ok (Y i) := by
  have hn := hk.two
  by_cases hlast : i = n - 1
  · rw [hlast]
    apply curve_end _ _ _ _ hn
    have := hk.lt 0 (n - 1) (by omega) (by omega)
    exact f32_le_refl _ (f32_lt_ne_nan this).2
  · have hv := hk.lt i (n - 1) (by omega) (by omega)
    have hne := f32_lt_not_le _ _ hv
    rcases curve_inside OrdArith.f32 f32_strict X Y n hn hk.lt (X i) hne hv with ⟨j, hj, h1, h2, h3⟩ | ⟨h1, _⟩ | ⟨j, hj, h1, h2, _⟩
    · rcases Nat.lt_trichotomy j i with h | h | h
      · have := hk.lt j i h hi
        have h1' : F32.lt (X j) (X i) = false := h1
        rw [this] at h1'; cases h1'
      · rw [h3, h]
      · have := hk.lt i j h (by omega)
        have h2' : F32.lt (X i) (X j) = false := h2
        rw [this] at h2'; cases h2'
    · have h1' : F32.lt (X i) (X 0) = true := h1
      by_cases h0 : i = 0
      · rw [h0] at h1'; rw [f32_strict.irrefl (X 0)] at h1'; cases h1'
      · have := hk.lt 0 i (by omega) hi
        rw [f32_strict.asymm this] at h1'; cases h1'
    · have h1' : F32.lt (X j) (X i) = true := h1
      have h2' : F32.lt (X i) (X (j + 1)) = true := h2
      rcases Nat.lt_trichotomy j i with h | h | h
      · by_cases he : i = j + 1
        · rw [he] at h2'; rw [f32_strict.irrefl (X (j + 1))] at h2'; cases h2'
        · have := hk.lt (j + 1) i (by omega) hi
          rw [f32_strict.asymm this] at h2'; cases h2'
      · rw [h] at h1'; rw [f32_strict.irrefl (X i)] at h1'; cases h1'
      · have := hk.lt i j h (by omega)
        rw [f32_strict.asymm this] at h1'; cases h1'

/-- At and above the last knot the curve has the last value; this includes positive infinity. -/
theorem curve_beyond (X Y : Nat → F32) (n : Nat) (hk : Knots X n) (v : F32) (h : F32.le (X (n - 1)) v = true) :
    curve OrdArith.f32 X Y n v = .ok (Y (n - 1)) := curve_end _ _ _ _ hk.two v h

/-- Between two knots the cubic of that interval is used. -/
theorem curve_between (X Y : Nat → F32) (n : Nat) (hk : Knots X n) (i : Nat) (hi : i + 1 < n) (v : F32)
    (h0 : F32.lt (X i) v = true) (h1 : F32.lt v (X (i + 1)) = true) :
    curve OrdArith.f32 X Y n v = .ok (piece OrdArith.f32 X Y n i v) := by
  have hn := hk.two
  have hv : F32.lt v (X (n - 1)) = true := by
    by_cases he : i + 1 = n - 1
    · rw [← he]; exact h1
    · exact f32_strict.trans _ _ _ h1 (hk.lt (i + 1) (n - 1) (by omega) (by omega))
  rcases curve_inside OrdArith.f32 f32_strict X Y n hn hk.lt v (f32_lt_not_le _ _ hv) hv with ⟨j, hj, e1, e2, e3⟩ | ⟨e1, _⟩ | ⟨j, hj, e1, e2, e3⟩
  · exfalso
    by_cases hji : j ≤ i
    · have e1' : F32.lt (X j) v = false := e1
      by_cases he : j = i
      · rw [he, h0] at e1'; cases e1'
      · rw [f32_strict.trans _ _ _ (hk.lt j i (by omega) (by omega)) h0] at e1'; cases e1'
    · have e2' : F32.lt v (X j) = false := e2
      by_cases he : j = i + 1
      · rw [he, h1] at e2'; cases e2'
      · rw [f32_strict.trans _ _ _ h1 (hk.lt (i + 1) j (by omega) (by omega))] at e2'; cases e2'
  · exfalso
    have e1' : F32.lt v (X 0) = true := e1
    by_cases he : i = 0
    · rw [he] at h0; rw [f32_strict.asymm h0] at e1'; cases e1'
    · rw [f32_strict.asymm (f32_strict.trans _ _ _ (hk.lt 0 i (by omega) (by omega)) h0)] at e1'; cases e1'
  · have e1' : F32.lt (X j) v = true := e1
    have e2' : F32.lt v (X (j + 1)) = true := e2
    rcases Nat.lt_trichotomy j i with h | h | h
    · exfalso
      have : F32.lt (X (j + 1)) v = true := by
        by_cases he : j + 1 = i
        · rw [he]; exact h0
        · exact f32_strict.trans _ _ _ (hk.lt (j + 1) i (by omega) (by omega)) h0
      rw [f32_strict.asymm this] at e2'; cases e2'
    · rw [e3, h]
    · exfalso
      have : F32.lt v (X j) = true := by
        by_cases he : i + 1 = j
        · rw [← he]; exact h1
        · exact f32_strict.trans _ _ _ h1 (hk.lt (i + 1) j (by omega) (by omega))
      rw [f32_strict.asymm this] at e1'; cases e1'

/-- Below the first knot the first cubic is extended. -/
theorem curve_below (X Y : Nat → F32) (n : Nat) (hk : Knots X n) (v : F32) (h : F32.lt v (X 0) = true) :
    curve OrdArith.f32 X Y n v = .ok (piece OrdArith.f32 X Y n 0 v) := by
  have hn := hk.two
  have hv : F32.lt v (X (n - 1)) = true := f32_strict.trans _ _ _ h (hk.lt 0 (n - 1) (by omega) (by omega))
  rcases curve_inside OrdArith.f32 f32_strict X Y n hn hk.lt v (f32_lt_not_le _ _ hv) hv with ⟨j, hj, e1, e2, e3⟩ | ⟨e1, e3⟩ | ⟨j, hj, e1, e2, e3⟩
  · exfalso
    have e2' : F32.lt v (X j) = false := e2
    by_cases he : j = 0
    · rw [he, h] at e2'; cases e2'
    · rw [f32_strict.trans _ _ _ h (hk.lt 0 j (by omega) (by omega))] at e2'; cases e2'
  · exact e3
  · exfalso
    have e1' : F32.lt (X j) v = true := e1
    have : F32.lt v (X j) = true := by
      by_cases he : j = 0
      · rw [he]; exact h
      · exact f32_strict.trans _ _ _ h (hk.lt 0 j (by omega) (by omega))
    rw [f32_strict.asymm this] at e1'; cases e1'

/-- No point makes the curve panic, not even a NaN, and no knots need be in order for that. -/
theorem curve_total (X Y : Nat → F32) (n : Nat) (hn : 2 ≤ n) (v : F32) : ∃ y, curve OrdArith.f32 X Y n v = .ok y := by
  unfold curve SplineFunc.interpolate
  rw [splineNew_eq _ X Y n hn]
  simp only [ok_bind, List.length_map, List.length_range]
  rw [idx_map_range' (by omega)]
  simp only [ok_bind]
  by_cases h : OrdArith.f32.le (X (n - 1)) v = true
  · rw [if_pos h, idx_map_range' (by omega)]
    exact ⟨_, rfl⟩
  · rw [if_neg h]
    rcases splineSearch_total (X := X) OrdArith.f32 v (N := n) (n - 1 + 1) 0 (((n - 1 : Nat) : Int) - 1) (by omega) (by omega)
      (by omega) (by omega) with ⟨i, hi, hs⟩ | ⟨k, h1, h2, hs⟩
    · rw [hs]
      simp only [ok_bind]
      rw [idx_map_range' hi]
      exact ⟨_, rfl⟩
    · rw [hs]
      simp only [ok_bind]
      have : (max 0 k).toNat < n - 1 := by omega
      unfold splineEval
      simp only
      rw [idx_map_range' (by omega), idx_map_range' (by omega), idx_map_range' (by omega), idx_map_range' (by omega),
        idx_map_range' (by omega)]
      exact ⟨_, rfl⟩

/-! ## The exact curve -/

section
variable {K : Type} [Field K] [LinearOrder K] [IsStrictOrderedRing K]

/-- Exact arithmetic with its order. -/
def fieldOrd (K : Type) [Field K] [LinearOrder K] : OrdArith K :=
  { fieldArith K with lt := fun x y => decide (x < y), le := fun x y => decide (x ≤ y), three := 3 }

theorem fieldOrd_strict : StrictlyOrdered (fieldOrd K).lt := by
  constructor
  · intro a b c hab hbc
    simp only [fieldOrd, decide_eq_true_eq] at *
    exact lt_trans hab hbc
  · intro a
    simp [fieldOrd]

theorem c1_tangent (X Y : Nat → K) (n i : Nat) : c1Of (fieldOrd K) X Y n i = tangent X Y n i := by
  unfold c1Of tangent
  split
  · rfl
  · split
    · rfl
    · rename_i h0 h1
      have hi : i - 1 + 1 = i := by omega
      simp only [splineTangent, slopeOf, dxOf, chord, fieldOrd, fieldArith, hi, decide_eq_true_eq]
      split
      · rfl
      · congr 1
        · ring
        · ring_nf

/-- Each piece is the Hermite cubic of its interval with the specified tangents. -/
theorem piece_hermite (X Y : Nat → K) (n i : Nat) (hX : X i < X (i + 1)) (v : K) :
    piece (fieldOrd K) X Y n i v = hermite (X i) (X (i + 1)) (Y i) (Y (i + 1)) (tangent X Y n i) (tangent X Y n (i + 1)) v := by
  have hd : X (i + 1) - X i ≠ 0 := by
    have := sub_pos.mpr hX
    exact ne_of_gt this
  unfold piece hermite c2Of c3Of commonOf
  simp only [c1_tangent, slopeOf, dxOf]
  generalize tangent X Y n i = m0
  generalize tangent X Y n (i + 1) = m1
  simp only [fieldOrd, fieldArith]
  field_simp
  ring

/-- A rising Hermite cubic in its own interval, when both tangents are between zero and three times the chord. -/
theorem hermite_mono {x0 x1 y0 y1 m0 m1 u v : K} (hx : x0 < x1) (hy : y0 ≤ y1) (h00 : 0 ≤ m0) (h01 : m0 ≤ 3 * ((y1 - y0) / (x1 - x0)))
    (h10 : 0 ≤ m1) (h11 : m1 ≤ 3 * ((y1 - y0) / (x1 - x0))) (hu : x0 ≤ u) (huv : u ≤ v) (hv : v ≤ x1) :
    hermite x0 x1 y0 y1 m0 m1 u ≤ hermite x0 x1 y0 y1 m0 m1 v := by
  have hd : 0 < x1 - x0 := sub_pos.mpr hx
  unfold hermite
  simp only
  set h := x1 - x0 with hh
  have hs0 : 0 ≤ (u - x0) / h := div_nonneg (by linarith) hd.le
  have hst : (u - x0) / h ≤ (v - x0) / h := by
    apply (div_le_div_iff_of_pos_right hd).mpr; linarith
  have ht1 : (v - x0) / h ≤ 1 := by
    rw [div_le_one hd]; linarith
  generalize (u - x0) / h = s at *
  generalize (v - x0) / h = t at *
  have hD : 0 ≤ y1 - y0 := by linarith
  have ha0 : 0 ≤ h * m0 := mul_nonneg hd.le h00
  have hb0 : 0 ≤ h * m1 := mul_nonneg hd.le h10
  have ha1 : h * m0 ≤ 3 * (y1 - y0) := by
    have := mul_le_mul_of_nonneg_left h01 hd.le
    have e : h * (3 * ((y1 - y0) / h)) = 3 * (y1 - y0) := by field_simp
    rwa [e] at this
  have hb1 : h * m1 ≤ 3 * (y1 - y0) := by
    have := mul_le_mul_of_nonneg_left h11 hd.le
    have e : h * (3 * ((y1 - y0) / h)) = 3 * (y1 - y0) := by field_simp
    rwa [e] at this
  set a := h * m0 with ha
  set b := h * m1 with hb
  have e00 : 0 ≤ (3 * t ^ 2 - 2 * t ^ 3) - (3 * s ^ 2 - 2 * s ^ 3) := by
    have : (3 * t ^ 2 - 2 * t ^ 3) - (3 * s ^ 2 - 2 * s ^ 3) = (t - s) * (s * (3 - 2 * s - t) + t * (3 - 2 * t - s)) := by ring
    rw [this]
    apply mul_nonneg (by linarith)
    apply add_nonneg
    · apply mul_nonneg hs0; linarith
    · apply mul_nonneg (by linarith); linarith
  have e10 : 0 ≤ (1 - s) ^ 3 - (1 - t) ^ 3 := by
    have := pow_le_pow_left₀ (show 0 ≤ 1 - t by linarith) (show 1 - t ≤ 1 - s by linarith) 3
    linarith
  have e01 : 0 ≤ t ^ 3 - s ^ 3 := by
    have := pow_le_pow_left₀ hs0 hst 3
    linarith
  have e11 : 0 ≤ (4 * t ^ 3 - 6 * t ^ 2 + 3 * t) - (4 * s ^ 3 - 6 * s ^ 2 + 3 * s) := by
    have : (4 * t ^ 3 - 6 * t ^ 2 + 3 * t) - (4 * s ^ 3 - 6 * s ^ 2 + 3 * s) =
        (t - s) * ((t + s) * (t + s) * 3 + (t - s) ^ 2 - 6 * (t + s) + 3) := by ring
    rw [this]
    apply mul_nonneg (by linarith)
    nlinarith [sq_nonneg (t + s - 1), sq_nonneg (t - s)]
  by_cases hDz : y1 - y0 = 0
  · have hA : a = 0 := by linarith
    have hB : b = 0 := by linarith
    have : y1 = y0 := by linarith
    have r : ∀ x : K, (2 * x ^ 3 - 3 * x ^ 2 + 1) * y0 + (x ^ 3 - 2 * x ^ 2 + x) * h * m0 + (-2 * x ^ 3 + 3 * x ^ 2) * y1 + (x ^ 3 - x ^ 2) * h * m1
        = y0 + (x ^ 3 - 2 * x ^ 2 + x) * a + (x ^ 3 - x ^ 2) * b := by
      intro x
      rw [this, ha, hb]; ring
    rw [r, r, hA, hB]
    simp
  · set D := y1 - y0 with hDdef
    have hDp : 0 < D := lt_of_le_of_ne hD (Ne.symm hDz)
    have key : 9 * D * (((2 * t ^ 3 - 3 * t ^ 2 + 1) * y0 + (t ^ 3 - 2 * t ^ 2 + t) * h * m0 + (-2 * t ^ 3 + 3 * t ^ 2) * y1 + (t ^ 3 - t ^ 2) * h * m1) -
        ((2 * s ^ 3 - 3 * s ^ 2 + 1) * y0 + (s ^ 3 - 2 * s ^ 2 + s) * h * m0 + (-2 * s ^ 3 + 3 * s ^ 2) * y1 + (s ^ 3 - s ^ 2) * h * m1)) =
        (3 * D - a) * (3 * D - b) * ((3 * t ^ 2 - 2 * t ^ 3) - (3 * s ^ 2 - 2 * s ^ 3)) +
        a * (3 * D - b) * ((1 - s) ^ 3 - (1 - t) ^ 3) + (3 * D - a) * b * (t ^ 3 - s ^ 3) +
        a * b * ((4 * t ^ 3 - 6 * t ^ 2 + 3 * t) - (4 * s ^ 3 - 6 * s ^ 2 + 3 * s)) := by
      rw [hDdef, ha, hb]; ring
    have hpos : 0 ≤ 9 * D * (((2 * t ^ 3 - 3 * t ^ 2 + 1) * y0 + (t ^ 3 - 2 * t ^ 2 + t) * h * m0 + (-2 * t ^ 3 + 3 * t ^ 2) * y1 + (t ^ 3 - t ^ 2) * h * m1) -
        ((2 * s ^ 3 - 3 * s ^ 2 + 1) * y0 + (s ^ 3 - 2 * s ^ 2 + s) * h * m0 + (-2 * s ^ 3 + 3 * s ^ 2) * y1 + (s ^ 3 - s ^ 2) * h * m1)) := by
      rw [key]
      have g1 : 0 ≤ 3 * D - a := by linarith
      have g2 : 0 ≤ 3 * D - b := by linarith
      have := mul_nonneg (mul_nonneg g1 g2) e00
      have := mul_nonneg (mul_nonneg ha0 g2) e10
      have := mul_nonneg (mul_nonneg g1 hb0) e01
      have := mul_nonneg (mul_nonneg ha0 hb0) e11
      linarith
    have := nonneg_of_mul_nonneg_right hpos (by linarith)
    linarith

theorem hermite_left (x0 x1 y0 y1 m0 m1 : K) : hermite x0 x1 y0 y1 m0 m1 x0 = y0 := by
  simp [hermite]

theorem hermite_right {x0 x1 : K} (y0 y1 m0 m1 : K) (hx : x0 < x1) : hermite x0 x1 y0 y1 m0 m1 x1 = y1 := by
  have hd : x1 - x0 ≠ 0 := ne_of_gt (sub_pos.mpr hx)
  simp only [hermite, div_self hd]
  ring

/-- The tangents stay in the monotonicity region on both sides of every knot. -/
theorem tangent_bounds (X Y : Nat → K) (n : Nat) (hn : 2 ≤ n) (hX : ∀ i, i + 1 < n → X i < X (i + 1))
    (hY : ∀ i, i + 1 < n → Y i ≤ Y (i + 1)) (i : Nat) (hi : i + 1 < n) :
    (0 ≤ tangent X Y n i ∧ tangent X Y n i ≤ 3 * chord X Y i) ∧
    (0 ≤ tangent X Y n (i + 1) ∧ tangent X Y n (i + 1) ≤ 3 * chord X Y i) := by
  have hc : ∀ j, j + 1 < n → 0 ≤ chord X Y j := by
    intro j hj
    exact div_nonneg (by have := hY j hj; linarith) (by have := hX j hj; linarith)
  -- the harmonic mean of two positive slopes
  have hm : ∀ h0 h1 s0 s1 : K, 0 < h0 → 0 < h1 → 0 < s0 → 0 < s1 →
      0 ≤ ((h0 + 2 * h1) + (2 * h0 + h1)) / ((h0 + 2 * h1) / s0 + (2 * h0 + h1) / s1) ∧
      ((h0 + 2 * h1) + (2 * h0 + h1)) / ((h0 + 2 * h1) / s0 + (2 * h0 + h1) / s1) ≤ 3 * s0 ∧
      ((h0 + 2 * h1) + (2 * h0 + h1)) / ((h0 + 2 * h1) / s0 + (2 * h0 + h1) / s1) ≤ 3 * s1 := by
    intro h0 h1 s0 s1 p0 p1 q0 q1
    have w0 : 0 < (h0 + 2 * h1) / s0 := div_pos (by linarith) q0
    have w1 : 0 < (2 * h0 + h1) / s1 := div_pos (by linarith) q1
    refine ⟨by positivity, ?_, ?_⟩
    · rw [div_le_iff₀ (by linarith)]
      have : 3 * s0 * ((h0 + 2 * h1) / s0 + (2 * h0 + h1) / s1) = 3 * (h0 + 2 * h1) + 3 * s0 * ((2 * h0 + h1) / s1) := by
        field_simp
      rw [this]
      have : 0 ≤ 3 * s0 * ((2 * h0 + h1) / s1) := by positivity
      linarith
    · rw [div_le_iff₀ (by linarith)]
      have : 3 * s1 * ((h0 + 2 * h1) / s0 + (2 * h0 + h1) / s1) = 3 * (2 * h0 + h1) + 3 * s1 * ((h0 + 2 * h1) / s0) := by
        field_simp
        ring
      rw [this]
      have : 0 ≤ 3 * s1 * ((h0 + 2 * h1) / s0) := by positivity
      linarith
  -- an inner knot
  have inner : ∀ j, 0 < j → j + 1 < n → 0 ≤ tangent X Y n j ∧ tangent X Y n j ≤ 3 * chord X Y (j - 1) ∧ tangent X Y n j ≤ 3 * chord X Y j := by
    intro j hj hj1
    have c0 := hc (j - 1) (by omega)
    have c1 := hc j hj1
    have d0 := hX (j - 1) (by omega)
    have d1 := hX j hj1
    rw [show j - 1 + 1 = j by omega] at d0
    unfold tangent
    rw [if_neg (by omega), if_neg (by omega)]
    simp only
    split
    · exact ⟨le_refl _, by linarith, by linarith⟩
    · rename_i hpos
      have hne0 : chord X Y (j - 1) ≠ 0 := by intro e; rw [e] at hpos; simp at hpos
      have hne1 : chord X Y j ≠ 0 := by intro e; rw [e] at hpos; simp at hpos
      exact hm _ _ _ _ (by linarith) (by linarith) (lt_of_le_of_ne c0 (Ne.symm hne0)) (lt_of_le_of_ne c1 (Ne.symm hne1))
  have ci := hc i hi
  constructor
  · by_cases h0 : i = 0
    · have : tangent X Y n i = chord X Y i := by rw [h0]; simp [tangent]
      rw [this]
      exact ⟨ci, by linarith⟩
    · have := inner i (by omega) hi
      exact ⟨this.1, this.2.2⟩
  · by_cases h1 : i + 1 = n - 1
    · have : tangent X Y n (i + 1) = chord X Y i := by
        unfold tangent
        rw [if_neg (by omega), if_pos h1, show n - 2 = i by omega]
      rw [this]
      exact ⟨ci, by linarith⟩
    · have := inner (i + 1) (by omega) (by omega)
      simpa using ⟨this.1, this.2.1⟩

/-- Where a point is evaluated. -/
theorem curve_locate (X Y : Nat → K) (n : Nat) (hn : 2 ≤ n) (hX : ∀ i, i + 1 < n → X i < X (i + 1)) (v : K) (hv : X 0 ≤ v) :
    (X (n - 1) ≤ v ∧ curve (fieldOrd K) X Y n v = .ok (Y (n - 1))) ∨
    (∃ i, i + 1 < n ∧ X i ≤ v ∧ v < X (i + 1) ∧ curve (fieldOrd K) X Y n v =
      .ok (hermite (X i) (X (i + 1)) (Y i) (Y (i + 1)) (tangent X Y n i) (tangent X Y n (i + 1)) v)) := by
  have hXX : ∀ i j, i < j → j < n → X i < X j := by
    intro i j hij
    induction j with
    | zero => omega
    | succ j ih =>
      intro hj
      by_cases he : i = j
      · rw [he]; exact hX j hj
      · exact lt_trans (ih (by omega) (by omega)) (hX j hj)
  by_cases hend : X (n - 1) ≤ v
  · left
    exact ⟨hend, curve_end _ _ _ _ hn v (by simpa [fieldOrd] using hend)⟩
  · right
    have hvlt : v < X (n - 1) := lt_of_not_ge hend
    rcases curve_inside (fieldOrd K) fieldOrd_strict X Y n hn (by intro i j hij hj; simpa [fieldOrd] using hXX i j hij hj) v
      (by simpa [fieldOrd] using hvlt) (by simpa [fieldOrd] using hvlt) with ⟨i, hi, h1, h2, h3⟩ | ⟨h1, _⟩ | ⟨i, hi, h1, h2, h3⟩
    · simp [fieldOrd] at h1 h2
      have he : v = X i := le_antisymm h1 h2
      refine ⟨i, by omega, h2, ?_, ?_⟩
      · rw [he]; exact hX i (by omega)
      · rw [h3, he, hermite_left]
    · simp [fieldOrd] at h1
      exact absurd hv (not_le.mpr h1)
    · simp [fieldOrd] at h1 h2
      refine ⟨i, by omega, le_of_lt h1, h2, ?_⟩
      rw [h3, piece_hermite X Y n i (hX i (by omega))]

/-- For rising knots the exact curve is a monotone function of the input from the first knot on: the tone curve never inverts
brightness. -/
theorem curve_monotone_partial (X Y : Nat → K) (n : Nat) (hn : 2 ≤ n) (hX : ∀ i, i + 1 < n → X i < X (i + 1))
    (hY : ∀ i, i + 1 < n → Y i ≤ Y (i + 1)) (u v : K) (hu : X 0 ≤ u) (huv : u ≤ v) :
    ∃ yu yv, curve (fieldOrd K) X Y n u = .ok yu ∧ curve (fieldOrd K) X Y n v = .ok yv ∧ Y 0 ≤ yu ∧ yu ≤ yv ∧ yv ≤ Y (n - 1) := by
  have hYY : ∀ i j, i ≤ j → j < n → Y i ≤ Y j := by
    intro i j hij
    induction j with
    | zero => intro _; rw [show i = 0 by omega]
    | succ j ih =>
      intro hj
      by_cases he : i = j + 1
      · rw [he]
      · exact le_trans (ih (by omega) (by omega)) (hY j hj)
  have hXX : ∀ i j, i ≤ j → j < n → X i ≤ X j := by
    intro i j hij
    induction j with
    | zero => intro _; rw [show i = 0 by omega]
    | succ j ih =>
      intro hj
      by_cases he : i = j + 1
      · rw [he]
      · exact le_trans (ih (by omega) (by omega)) (le_of_lt (hX j hj))
  have hmono : ∀ i, i + 1 < n → ∀ a b, X i ≤ a → a ≤ b → b ≤ X (i + 1) →
      hermite (X i) (X (i + 1)) (Y i) (Y (i + 1)) (tangent X Y n i) (tangent X Y n (i + 1)) a ≤
      hermite (X i) (X (i + 1)) (Y i) (Y (i + 1)) (tangent X Y n i) (tangent X Y n (i + 1)) b := by
    intro i hi a b ha hab hb
    have t := tangent_bounds X Y n hn hX hY i hi
    exact hermite_mono (hX i hi) (hY i hi) t.1.1 t.1.2 t.2.1 t.2.2 ha hab hb
  have hlo : ∀ i, i + 1 < n → ∀ a, X i ≤ a → a ≤ X (i + 1) →
      Y i ≤ hermite (X i) (X (i + 1)) (Y i) (Y (i + 1)) (tangent X Y n i) (tangent X Y n (i + 1)) a ∧
      hermite (X i) (X (i + 1)) (Y i) (Y (i + 1)) (tangent X Y n i) (tangent X Y n (i + 1)) a ≤ Y (i + 1) := by
    intro i hi a ha hb
    constructor
    · have := hmono i hi (X i) a (le_refl _) ha hb
      rwa [hermite_left] at this
    · have := hmono i hi a (X (i + 1)) ha hb (le_refl _)
      rwa [hermite_right _ _ _ _ (hX i hi)] at this
  rcases curve_locate X Y n hn hX u hu with ⟨h1, h2⟩ | ⟨i, hi, h1, h2, h3⟩
  · have hend : X (n - 1) ≤ v := le_trans h1 huv
    refine ⟨Y (n - 1), Y (n - 1), h2, curve_end _ _ _ _ hn v (by simpa [fieldOrd] using hend), hYY 0 (n - 1) (by omega) (by omega), le_refl _, le_refl _⟩
  · have l1 := hlo i hi u h1 (le_of_lt h2)
    rcases curve_locate X Y n hn hX v (le_trans hu huv) with ⟨k1, k2⟩ | ⟨j, hj, k1, k2, k3⟩
    · exact ⟨_, _, h3, k2, le_trans (hYY 0 i (by omega) (by omega)) l1.1, le_trans l1.2 (hYY (i + 1) (n - 1) (by omega) (by omega)), le_refl _⟩
    · have l2 := hlo j hj v k1 (le_of_lt k2)
      refine ⟨_, _, h3, k3, le_trans (hYY 0 i (by omega) (by omega)) l1.1, ?_, le_trans l2.2 (hYY (j + 1) (n - 1) (by omega) (by omega))⟩
      rcases Nat.lt_trichotomy i j with h | h | h
      · exact le_trans l1.2 (le_trans (hYY (i + 1) j (by omega) (by omega)) l2.1)
      · subst h
        exact hmono i hi u v h1 huv (le_of_lt k2)
      · exfalso
        have := hXX (j + 1) i (by omega) (by omega)
        linarith

end

/-! ## The base curve of the pipeline -/

/-- The knots of `base` (`curves.rs:6-7`) are in order, so all of the above applies to it. -/
example : Knots (fun i => F32.ofRat ([0, 3/10, 1/2, 7/10, 1].getD i 0)) 5 where
  two := by omega
  increasing := by
    intro i hi
    have : i = 0 ∨ i = 1 ∨ i = 2 ∨ i = 3 := by omega
    rcases this with rfl | rfl | rfl | rfl <;> decide +kernel

/-- A value between knots: exact, and as computed in `f32`. -/
example : curve (fieldOrd ℚ) (fun i => [0, 3/10, 1/2, 7/10, 1].getD i 0) (fun i => [0, 1/4, 1/2, 3/4, 1].getD i 0) 5 (2/5) = .ok (437/1184 : ℚ) ∧
    curve OrdArith.f32 (fun i => F32.ofRat ([0, 3/10, 1/2, 7/10, 1].getD i 0)) (fun i => F32.ofRat ([0, 1/4, 1/2, 3/4, 1].getD i 0)) 5
      (F32.ofRat (2/5)) = .ok (.fin (12384533/33554432)) := by decide +kernel

end Props

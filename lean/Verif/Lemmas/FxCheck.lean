import Verif.Lemmas.FxMatrix
import Verif.Spec.Colour
/-!
# Checking the matrix computed for a camera
-/

namespace Fast
open Rust Model Spec

noncomputable section

/-- The elements of the matrix of a camera. -/
def camera (c : List Int) : Nat → Nat → ℚ := fun i j => (c.getD (3 * i + j) 0 : Int)

def toQ : Fx → ℚ
  | .bad => 0
  | .val s k => bo s (-mkRat k (nat_lit 713623846352979940529142984724747568191373312)) (mkRat k (nat_lit 713623846352979940529142984724747568191373312))

def isVal : Fx → Bool
  | .bad => false
  | .val _ _ => true

/-- At most 3. -/
def isSmall : Fx → Bool
  | .bad => false
  | .val _ k => Nat.ble k (nat_lit 2140871539058939821587428954174242704574119936)

def isNought : Fx → Bool
  | .bad => false
  | .val _ k => Nat.beq k 0

/-- The camera does not have the channel. -/
def missing (c : List Int) (i : Nat) : Bool := c.getD (3 * i) 0 == 0 && c.getD (3 * i + 1) 0 == 0 && c.getD (3 * i + 2) 0 == 0

/-- By how much the colour `k` gets into the coordinate `r`, and should not. -/
def deviation (c : List Int) (x : Mat Fx) (r k : Nat) : ℚ :=
  Rat.abs (toQ (x r 0) * camera c 0 k / response (camera c) whiteXyz 0 + toQ (x r 1) * camera c 1 k / response (camera c) whiteXyz 1 +
    toQ (x r 2) * camera c 2 k / response (camera c) whiteXyz 2 + toQ (x r 3) * camera c 3 k / response (camera c) whiteXyz 3 -
    if r = k then 1 / referenceWhite r else 0)

def goodRow (c : List Int) (x : Mat Fx) (r : Nat) : Bool :=
  isSmall (x r 0) && isSmall (x r 1) && isSmall (x r 2) && isSmall (x r 3) && decide (deviation c x r 0 + deviation c x r 1 + deviation c x r 2 ≤ 2 / 1000000)

/-- The channel is missing, or its balance is as good as right. -/
def goodWhite (c : List Int) (w : Mat Fx) (i : Nat) : Bool :=
  missing c i ||
  (isVal (w 0 i) && decide (0 < response (camera c) whiteXyz i) &&
    decide (Rat.abs (toQ (w 0 i) * response (camera c) whiteXyz i - response (camera c) whiteXyz 1) ≤ 1 / 1000000 * response (camera c) whiteXyz 1))

/-- The channel is there, or nothing is taken from it. -/
def goodColumn (c : List Int) (x : Mat Fx) (i : Nat) : Bool := !missing c i || (isNought (x 0 i) && isNought (x 1 i) && isNought (x 2 i))

def accurate (c : List Int) : Bool :=
  run c fun x w => goodRow c x 0 && goodRow c x 1 && goodRow c x 2 && goodWhite c w 0 && goodWhite c w 1 && goodWhite c w 2 && goodWhite c w 3 &&
    goodColumn c x 0 && goodColumn c x 1 && goodColumn c x 2 && goodColumn c x 3

end

theorem toQ_eq (a : Fx) : toQ a = a.value := by
  cases a with
  | bad => rfl
  | val s k =>
    obtain ⟨D, h0, h1, h2⟩ := unit_eq
    unfold toQ Fx.value
    dsimp only
    rw [pow149]
    show bo s (-mkRat (k : Int) (2 ^ 149)) (mkRat (k : Int) (2 ^ 149)) = _
    rw [Rat.mkRat_eq_div, h2, h1]
    cases s <;> simp [bo, div_eq_mul_inv]

theorem isSmall_ok {a : Fx} (h : isSmall a = true) : a ≠ .bad ∧ |a.value| ≤ 3 := by
  cases a with
  | bad => cases h
  | val s k =>
    refine ⟨by simp, ?_⟩
    have hk : k ≤ 3 * 2 ^ 149 := le_trans (Nat.le_of_ble_eq_true h) (by decide +kernel)
    have hq : (k : ℚ) ≤ 3 * ((2 ^ 149 : Nat) : ℚ) := by exact_mod_cast hk
    obtain ⟨D, h0, h1, h2⟩ := unit_eq
    have hp := pow2_pos (-149)
    rw [h1] at hq
    have hD : (k : ℚ) * pow2 (-149) ≤ 3 := by
      have := mul_le_mul_of_nonneg_right hq (le_of_lt hp)
      rw [h2] at this ⊢
      rwa [mul_assoc, mul_one_div_cancel h0, mul_one] at this
    have hn : 0 ≤ (k : ℚ) * pow2 (-149) := mul_nonneg (Nat.cast_nonneg k) (le_of_lt hp)
    unfold Fx.value
    cases s
    · simp only [Bool.false_eq_true, if_false]
      rwa [one_mul, abs_of_nonneg hn]
    · simp only [if_true]
      rw [neg_mul, abs_neg]
      rwa [one_mul, abs_of_nonneg hn]

theorem isNought_ok {a : Fx} (h : isNought a = true) : a.value = 0 := by
  cases a with
  | bad => cases h
  | val s k =>
    have hk : k = 0 := Nat.eq_of_beq_eq_true h
    subst hk
    unfold Fx.value
    simp

theorem missing_iff {c : List Int} {i : Nat} : missing c i = true ↔ ∀ k, k < 3 → camera c i k = 0 := by
  unfold missing camera
  simp only [Bool.and_eq_true, beq_iff_eq]
  constructor
  · rintro ⟨⟨h0, h1⟩, h2⟩ k hk
    interval_cases k
    · rw [Nat.add_zero, h0]; rfl
    · rw [h1]; rfl
    · rw [h2]; rfl
  · intro h
    have h0 := h 0 (by decide)
    have h1 := h 1 (by decide)
    have h2 := h 2 (by decide)
    rw [Nat.add_zero] at h0
    exact ⟨⟨by exact_mod_cast h0, by exact_mod_cast h1⟩, by exact_mod_cast h2⟩

/-- What the check means. -/
theorem accurate_ok {c : List Int} (h : accurate c = true) {cam : Mat F32} (hc : ∀ i j, i < 4 → j < 3 → cam i j = F32.ofRat ((c.getD (3 * i + j) 0 : Int) : ℚ)) :
    (∃ m : Nat → Nat → ℚ,
      (∀ r i, r < 3 → i < 4 → ((xyzMatrixAndNeutralwb Arith.f32 cam (rgbToXyzTable F32.ofRat) (d65White F32.ofRat)).1 r i).val? = some (m r i)) ∧
      (∀ r i, r < 3 → i < 4 → |m r i| ≤ 3 ∧ ((∀ k, k < 3 → camera c i k = 0) → m r i = 0)) ∧
      ∀ (x : Nat → ℚ) (bound : ℚ), (∀ k, k < 3 → |x k| ≤ bound) → ∀ r, r < 3 →
        |m r 0 * reading (camera c) x 0 + m r 1 * reading (camera c) x 1 + m r 2 * reading (camera c) x 2 + m r 3 * reading (camera c) x 3 - x r / referenceWhite r| ≤
          2 / 1000000 * bound) ∧
    ∀ i, i < 4 → (∀ k, k < 3 → camera c i k = 0) ∨ 0 < response (camera c) whiteXyz i ∧ ∃ w,
      (((xyzMatrixAndNeutralwb Arith.f32 cam (rgbToXyzTable F32.ofRat) (d65White F32.ofRat)).2 i).div
        ((xyzMatrixAndNeutralwb Arith.f32 cam (rgbToXyzTable F32.ofRat) (d65White F32.ofRat)).2 1)).val? = some w ∧
      |w * response (camera c) whiteXyz i - response (camera c) whiteXyz 1| ≤ 1 / 1000000 * response (camera c) whiteXyz 1 := by
  revert h
  unfold accurate
  refine run_rel (P := fun (b : Bool) => b = true → _) hc fun x w hx hw h => ?_
  simp only [Bool.and_eq_true] at h
  obtain ⟨⟨⟨⟨⟨⟨⟨⟨⟨⟨g0, g1⟩, g2⟩, w0⟩, w1⟩, w2⟩, w3⟩, k0⟩, k1⟩, k2⟩, k3⟩ := h
  have hrow : ∀ r, r < 3 → goodRow c x r = true := by
    intro r hr
    interval_cases r <;> assumption
  have hwhite : ∀ i, i < 4 → goodWhite c w i = true := by
    intro i hi
    interval_cases i <;> assumption
  have hval : ∀ {a : Fx}, isVal a = true → a ≠ .bad := by
    intro a ha h
    rw [h] at ha
    cases ha
  have hcol : ∀ i, i < 4 → goodColumn c x i = true := by
    intro i hi
    interval_cases i <;> assumption
  have hsmall : ∀ r i, r < 3 → i < 4 → isSmall (x r i) = true := by
    intro r i hr hi
    have := hrow r hr
    unfold goodRow at this
    simp only [Bool.and_eq_true] at this
    obtain ⟨⟨⟨⟨a0, a1⟩, a2⟩, a3⟩, -⟩ := this
    interval_cases i <;> assumption
  refine ⟨⟨fun r i => (x r i).value, fun r i hr hi => (hx r i hr hi).val (isSmall_ok (hsmall r i hr hi)).1,
    fun r i hr hi => ⟨(isSmall_ok (hsmall r i hr hi)).2, fun hm => ?_⟩, fun p bound hp r hr => ?_⟩, fun i hi => ?_⟩
  · have := hcol i hi
    unfold goodColumn at this
    rw [missing_iff.mpr hm] at this
    simp only [Bool.not_true, Bool.false_or, Bool.and_eq_true] at this
    obtain ⟨⟨a0, a1⟩, a2⟩ := this
    interval_cases r
    · exact isNought_ok a0
    · exact isNought_ok a1
    · exact isNought_ok a2
  · have := hrow r hr
    unfold goodRow at this
    rw [Bool.and_eq_true, decide_eq_true_eq] at this
    have hd := this.2
    unfold deviation at hd
    simp only [ratAbs_eq, toQ_eq] at hd
    unfold reading
    dsimp only
    generalize hS0 : response (camera c) whiteXyz 0 = S0 at *
    generalize hS1 : response (camera c) whiteXyz 1 = S1 at *
    generalize hS2 : response (camera c) whiteXyz 2 = S2 at *
    generalize hS3 : response (camera c) whiteXyz 3 = S3 at *
    generalize hA0 : (x r 0).value = A0 at *
    generalize hA1 : (x r 1).value = A1 at *
    generalize hA2 : (x r 2).value = A2 at *
    generalize hA3 : (x r 3).value = A3 at *
    set e0 := A0 * camera c 0 0 / S0 + A1 * camera c 1 0 / S1 + A2 * camera c 2 0 / S2 + A3 * camera c 3 0 / S3 - (if r = 0 then 1 / referenceWhite r else 0) with he0
    set e1 := A0 * camera c 0 1 / S0 + A1 * camera c 1 1 / S1 + A2 * camera c 2 1 / S2 + A3 * camera c 3 1 / S3 - (if r = 1 then 1 / referenceWhite r else 0) with he1
    set e2 := A0 * camera c 0 2 / S0 + A1 * camera c 1 2 / S1 + A2 * camera c 2 2 / S2 + A3 * camera c 3 2 / S3 - (if r = 2 then 1 / referenceWhite r else 0) with he2
    have key : A0 * (response (camera c) p 0 / S0) + A1 * (response (camera c) p 1 / S1) + A2 * (response (camera c) p 2 / S2) + A3 * (response (camera c) p 3 / S3) -
        p r / referenceWhite r = e0 * p 0 + e1 * p 1 + e2 * p 2 := by
      rw [he0, he1, he2]
      unfold response
      interval_cases r <;> simp <;> ring
    rw [key]
    have hb : 0 ≤ bound := le_trans (abs_nonneg _) (hp 0 (by decide))
    have t : ∀ (e : ℚ) k, k < 3 → |e * p k| ≤ |e| * bound := by
      intro e k hk
      rw [abs_mul]
      exact mul_le_mul_of_nonneg_left (hp k hk) (abs_nonneg _)
    calc |e0 * p 0 + e1 * p 1 + e2 * p 2| ≤ |e0 * p 0| + |e1 * p 1| + |e2 * p 2| := abs_add_three _ _ _
      _ ≤ |e0| * bound + |e1| * bound + |e2| * bound := by linarith [t e0 0 (by decide), t e1 1 (by decide), t e2 2 (by decide)]
      _ = (|e0| + |e1| + |e2|) * bound := by ring
      _ ≤ 2 / 1000000 * bound := mul_le_mul_of_nonneg_right hd hb
  · have := hwhite i hi
    unfold goodWhite at this
    simp only [Bool.or_eq_true, Bool.and_eq_true, decide_eq_true_eq, ratAbs_eq, toQ_eq] at this
    rcases this with h0 | ⟨⟨h0, h1⟩, h2⟩
    · exact Or.inl (missing_iff.mp h0)
    · exact Or.inr ⟨h1, _, (hw i hi).val (hval h0), h2⟩

end Fast

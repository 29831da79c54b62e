import Verif.Lemmas.F32
import Mathlib.Tactic.GCongr
/-!
# Operations on binary32 values
-/

namespace Rust
namespace F32

theorem ofRat_of_repr {q : ℚ} (hq : Repr32 q) (h0 : q ≠ 0) (hlt : |q| < pow2 128) : ofRat q = fin q := by
  unfold ofRat round
  rw [if_neg h0, roundQ_of_repr hq, if_neg h0, ratAbs_eq, if_neg (not_le.mpr hlt)]

theorem ofRat_zero : ofRat 0 = zero false := by unfold ofRat round; rw [if_pos rfl]

theorem ofNat_zero : ofNat 0 = zero false := by unfold ofNat; rw [Nat.cast_zero]; exact ofRat_zero

theorem pow2_128 : pow2 128 = 340282366920938463463374607431768211456 := by
  rw [pow2_eq]; norm_num

theorem nat_lt_128 {n : Nat} (h : n ≤ 2 ^ 24) : |(n : ℚ)| < pow2 128 := by
  rw [Nat.abs_cast, pow2_128]
  have : (n : ℚ) ≤ ((2 ^ 24 : Nat) : ℚ) := by exact_mod_cast h
  refine lt_of_le_of_lt this ?_
  norm_num

theorem ofNat_pos {n : Nat} (h0 : 0 < n) (h : n ≤ 2 ^ 24) : ofNat n = fin (n : ℚ) :=
  ofRat_of_repr (repr32_nat h) (by exact_mod_cast Nat.pos_iff_ne_zero.mp h0) (nat_lt_128 h)

/-- Integers up to `2^24` are exact: adding them is adding integers. -/
theorem add_ofNat {a b : Nat} (h : a + b ≤ 2 ^ 24) : (ofNat a).add (ofNat b) = ofNat (a + b) := by
  rcases Nat.eq_zero_or_pos a with ha | ha
  · subst ha
    rw [ofNat_zero, Nat.zero_add]
    rcases Nat.eq_zero_or_pos b with hb | hb
    · subst hb; rw [ofNat_zero]; rfl
    · rw [ofNat_pos hb (by omega)]; rfl
  · rcases Nat.eq_zero_or_pos b with hb | hb
    · subst hb; rw [ofNat_zero, Nat.add_zero, ofNat_pos ha (by omega)]; rfl
    · rw [ofNat_pos ha (by omega), ofNat_pos hb (by omega)]
      show round false _ = _
      rw [← Nat.cast_add]; rfl

/-- A quotient of integers up to `2^24` is the exact quotient rounded once. -/
theorem div_ofNat {a b : Nat} (ha : a ≤ 2 ^ 24) (hb0 : 0 < b) (hb : b ≤ 2 ^ 24) : (ofNat a).div (ofNat b) = ofRat ((a : ℚ) / b) := by
  rcases Nat.eq_zero_or_pos a with h | h
  · subst h
    rw [ofNat_zero, ofNat_pos hb0 hb]
    simp only [div, signBit]
    have : ¬ ((b : ℚ) < 0) := not_lt.mpr (Nat.cast_nonneg b)
    rw [decide_eq_false this, Nat.cast_zero, zero_div, ofRat_zero]
    rfl
  · rw [ofNat_pos h ha, ofNat_pos hb0 hb]
    rfl

/-! ### Values that are zero or positive -/

/-- The value of a float known to be nonnegative and finite. -/
theorem ofRat_val {q : ℚ} (h0 : 0 ≤ q) (hlt : roundQ q < pow2 128) : (ofRat q).val? = some (roundQ q) := by
  unfold ofRat round
  by_cases hz : q = 0
  · subst hz; rw [if_pos rfl]; rfl
  · rw [if_neg hz]
    by_cases hr : roundQ q = 0
    · rw [if_pos hr, hr]; rfl
    · rw [if_neg hr, ratAbs_eq, abs_of_nonneg (roundQ_nonneg h0), if_neg (not_le.mpr hlt)]; rfl

theorem ofRat_pos {q : ℚ} (h0 : 0 < roundQ q) (hlt : roundQ q < pow2 128) : ofRat q = fin (roundQ q) := by
  have hz : q ≠ 0 := by rintro rfl; rw [roundQ_zero] at h0; exact lt_irrefl _ h0
  unfold ofRat round
  rw [if_neg hz, if_neg (ne_of_gt h0), ratAbs_eq, abs_of_pos h0, if_neg (not_le.mpr hlt)]

theorem toUsize_fin {q : ℚ} (h0 : 0 ≤ q) (hlt : q < 2 ^ 64) : (fin q).toUsize = ⌊q⌋.toNat := by
  unfold toUsize toUnsigned
  have h1 : 0 ≤ ⌊q⌋ := Int.floor_nonneg.mpr h0
  have h2 : ⌊q⌋ < 2 ^ 64 := Int.floor_lt.mpr (by push_cast; exact hlt)
  simp only
  rw [if_neg (not_lt.mpr h0), ratFloor_eq]
  exact Nat.min_eq_left (by omega)

end F32
end Rust

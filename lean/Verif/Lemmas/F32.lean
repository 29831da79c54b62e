import Verif.F32
import Mathlib.Data.Rat.Floor
import Mathlib.Algebra.Order.Field.Power
import Mathlib.Tactic.Linarith
import Mathlib.Tactic.Positivity
import Mathlib.Tactic.NormNum
import Mathlib.Tactic.FieldSimp
import Mathlib.Tactic.Ring
/-!
# Rounding to binary32
-/

namespace Rust

theorem pow2_eq (e : Int) : pow2 e = (2 : ℚ) ^ e := by
  unfold pow2
  split
  · rename_i h
    obtain ⟨n, rfl⟩ := Int.eq_ofNat_of_zero_le h
    simp
  · rename_i h
    obtain ⟨n, hn⟩ := Int.eq_ofNat_of_zero_le (a := -e) (by omega)
    have : e = -(n : Int) := by omega
    subst this
    simp only [neg_neg, Int.toNat_natCast, zpow_neg, zpow_natCast]
    rw [Rat.mkRat_eq_div]
    push_cast
    rw [one_div]

theorem pow2_pos (e : Int) : 0 < pow2 e := by rw [pow2_eq]; positivity

theorem pow2_add (a b : Int) : pow2 (a + b) = pow2 a * pow2 b := by
  simp only [pow2_eq]; rw [zpow_add₀ (by norm_num)]

theorem pow2_le {a b : Int} (h : a ≤ b) : pow2 a ≤ pow2 b := by
  simp only [pow2_eq]; exact zpow_le_zpow_right₀ (by norm_num) h

theorem pow2_lt {a b : Int} (h : a < b) : pow2 a < pow2 b := by
  simp only [pow2_eq]; exact zpow_lt_zpow_right₀ (by norm_num) h

theorem pow2_lt_iff {a b : Int} : pow2 a < pow2 b ↔ a < b := by
  constructor
  · intro h
    by_contra hc
    exact absurd (pow2_le (by omega : b ≤ a)) (not_le.mpr h)
  · exact pow2_lt

theorem pow2_zero : pow2 0 = 1 := by rw [pow2_eq]; simp

theorem pow2_ofNat (n : Nat) : pow2 (n : Int) = ((2 ^ n : Nat) : ℚ) := by rw [pow2_eq]; simp

theorem pow2_int {k : Int} (hk : 0 ≤ k) : ∃ z : Int, pow2 k = (z : ℚ) := by
  obtain ⟨n, rfl⟩ := Int.eq_ofNat_of_zero_le hk
  exact ⟨(2 ^ n : Nat), by rw [Int.cast_natCast]; exact pow2_ofNat n⟩

theorem ratAbs_eq (q : ℚ) : Rat.abs q = |q| := by
  unfold Rat.abs
  split
  · rename_i h; rw [abs_of_nonneg]; exact_mod_cast h
  · rename_i h; rw [abs_of_neg]; exact not_le.mp h

theorem ratFloor_eq (q : ℚ) : Rat.floor q = ⌊q⌋ := rfl

theorem ratCeil_eq (q : ℚ) : Rat.ceil q = ⌈q⌉ := by rw [Rat.ceil_eq_neg_floor_neg, ratFloor_eq]; rfl

theorem log2Rat_spec {q : ℚ} (hq : 0 < q) : pow2 (log2Rat q) ≤ q ∧ q < pow2 (log2Rat q + 1) := by
  have hnum : 0 < q.num := Rat.num_pos.mpr hq
  obtain ⟨a, ha⟩ := Int.eq_ofNat_of_zero_le (le_of_lt hnum)
  have ha0 : a ≠ 0 := by rintro rfl; rw [ha] at hnum; simp at hnum
  have hb0 : q.den ≠ 0 := q.den_nz
  have hq' : q = (a : ℚ) / (q.den : ℚ) := by
    conv_lhs => rw [← Rat.num_div_den q, ha]
    simp
  have h1 := Nat.log2_self_le ha0
  have h2 : a < 2 ^ (Nat.log2 a + 1) := Nat.lt_log2_self
  have h3 := Nat.log2_self_le hb0
  have h4 : q.den < 2 ^ (Nat.log2 q.den + 1) := Nat.lt_log2_self
  have hden : (0 : ℚ) < q.den := by exact_mod_cast Nat.pos_of_ne_zero hb0
  have e1 : pow2 (Nat.log2 a : Int) ≤ (a : ℚ) := by rw [pow2_ofNat]; exact_mod_cast h1
  have e2 : (a : ℚ) < pow2 ((Nat.log2 a : Int) + 1) := by
    rw [show (Nat.log2 a : Int) + 1 = ((Nat.log2 a + 1 : Nat) : Int) by simp, pow2_ofNat]; exact_mod_cast h2
  have e3 : pow2 (Nat.log2 q.den : Int) ≤ (q.den : ℚ) := by rw [pow2_ofNat]; exact_mod_cast h3
  have e4 : (q.den : ℚ) < pow2 ((Nat.log2 q.den : Int) + 1) := by
    rw [show (Nat.log2 q.den : Int) + 1 = ((Nat.log2 q.den + 1 : Nat) : Int) by simp, pow2_ofNat]; exact_mod_cast h4
  have hna : q.num.natAbs = a := by rw [ha]; simp
  unfold log2Rat
  simp only [hna]
  generalize (Nat.log2 a : Int) = x at *
  generalize (Nat.log2 q.den : Int) = y at *
  have up : q < pow2 (x - y + 1) := by
    rw [hq', div_lt_iff₀ hden]
    calc (a : ℚ) < pow2 (x + 1) := e2
      _ = pow2 (x - y + 1) * pow2 y := by rw [← pow2_add]; congr 1; omega
      _ ≤ pow2 (x - y + 1) * q.den := mul_le_mul_of_nonneg_left e3 (le_of_lt (pow2_pos _))
  have low : pow2 (x - y - 1) ≤ q := by
    rw [hq', le_div_iff₀ hden]
    calc pow2 (x - y - 1) * q.den ≤ pow2 (x - y - 1) * pow2 (y + 1) :=
          mul_le_mul_of_nonneg_left (le_of_lt e4) (le_of_lt (pow2_pos _))
      _ = pow2 x := by rw [← pow2_add]; congr 1; omega
      _ ≤ a := e1
  split
  · rename_i h; exact ⟨h, up⟩
  · rename_i h
    refine ⟨low, ?_⟩
    rw [show x - y - 1 + 1 = x - y by omega]
    exact not_le.mp h

theorem log2Rat_eq {q : ℚ} {e : Int} (h1 : pow2 e ≤ q) (h2 : q < pow2 (e + 1)) : log2Rat q = e := by
  have hq : 0 < q := lt_of_lt_of_le (pow2_pos e) h1
  obtain ⟨h3, h4⟩ := log2Rat_spec hq
  have a1 := pow2_lt_iff.mp (lt_of_le_of_lt h1 h4)
  have a2 := pow2_lt_iff.mp (lt_of_le_of_lt h3 h2)
  omega

theorem log2Rat_mono {p q : ℚ} (hp : 0 < p) (h : p ≤ q) : log2Rat p ≤ log2Rat q := by
  obtain ⟨h1, _⟩ := log2Rat_spec hp
  obtain ⟨_, h4⟩ := log2Rat_spec (lt_of_lt_of_le hp h)
  have := pow2_lt_iff.mp (lt_of_le_of_lt h1 (lt_of_le_of_lt h h4))
  omega

/-! ### Rounding to integers -/

theorem rne_eq {q : ℚ} {f : Int} (hf : ⌊q⌋ = f) : rne q =
    if q - (f : ℚ) < 1 / 2 then f else if 1 / 2 < q - (f : ℚ) then f + 1 else if f % 2 = 0 then f else f + 1 := by
  subst hf; rfl

theorem rne_cases (q : ℚ) : (rne q = ⌊q⌋ ∧ q - ⌊q⌋ ≤ 1 / 2) ∨ (rne q = ⌊q⌋ + 1 ∧ 1 / 2 ≤ q - ⌊q⌋) := by
  rw [rne_eq rfl]
  split
  · left; exact ⟨rfl, le_of_lt (by assumption)⟩
  · rename_i h1
    split
    · right; exact ⟨rfl, le_of_lt (by assumption)⟩
    · rename_i h2
      have : q - ⌊q⌋ = 1 / 2 := le_antisymm (not_lt.mp h2) (not_lt.mp h1)
      split
      · left; exact ⟨rfl, le_of_eq this⟩
      · right; exact ⟨rfl, le_of_eq this.symm⟩

theorem rne_error (q : ℚ) : |(rne q : ℚ) - q| ≤ 1 / 2 := by
  have f1 := Int.floor_le q
  have f2 := Int.lt_floor_add_one q
  rw [abs_le]
  rcases rne_cases q with ⟨h, h'⟩ | ⟨h, h'⟩ <;> rw [h] <;> push_cast <;> constructor <;> linarith

theorem rne_int (n : Int) : rne (n : ℚ) = n := by
  rcases rne_cases (n : ℚ) with ⟨h, h'⟩ | ⟨h, h'⟩
  · rw [h]; simp
  · simp at h'; norm_num at h'

theorem rne_mono {p q : ℚ} (h : p ≤ q) : rne p ≤ rne q := by
  have hf := Int.floor_le_floor h
  have hp := rne_cases p
  have hq := rne_cases q
  by_cases he : ⌊p⌋ = ⌊q⌋
  · rcases lt_or_eq_of_le h with hlt | heq
    · rcases hp with ⟨a, a'⟩ | ⟨a, a'⟩ <;> rcases hq with ⟨b, b'⟩ | ⟨b, b'⟩
      · omega
      · omega
      · rw [he] at a'; linarith
      · omega
    · rw [heq]
  · rcases hp with ⟨a, a'⟩ | ⟨a, a'⟩ <;> rcases hq with ⟨b, b'⟩ | ⟨b, b'⟩ <;> omega

theorem rne_neg (q : ℚ) : rne (-q) = - rne q := by
  by_cases hz : (⌊q⌋ : ℚ) = q
  · rw [← hz, ← Int.cast_neg, rne_int, rne_int]
  · have f1 := Int.floor_le q
    have f2 := Int.lt_floor_add_one q
    have f1' : (⌊q⌋ : ℚ) < q := lt_of_le_of_ne f1 hz
    have hfl : ⌊-q⌋ = -⌊q⌋ - 1 := by
      rw [Int.floor_eq_iff]; push_cast; constructor <;> linarith
    rw [rne_eq hfl, rne_eq (rfl : ⌊q⌋ = _)]
    push_cast
    by_cases c1 : q - (⌊q⌋ : ℚ) < 1 / 2
    · rw [if_pos c1, if_neg (by linarith), if_pos (by linarith)]; omega
    · rw [if_neg c1]
      by_cases c2 : 1 / 2 < q - (⌊q⌋ : ℚ)
      · rw [if_pos c2, if_pos (by linarith)]; omega
      · rw [if_neg c2, if_neg (by linarith), if_neg (by linarith)]
        by_cases c3 : ⌊q⌋ % 2 = 0
        · rw [if_pos c3, if_neg (by omega)]; omega
        · rw [if_neg c3, if_pos (by omega)]; omega

/-- The nearest integer is at least as near as any other. -/
theorem rne_nearest (q : ℚ) (n : Int) : |(rne q : ℚ) - q| ≤ |(n : ℚ) - q| := by
  by_cases h : n = rne q
  · rw [h]
  · have h1 := rne_error q
    have h2 : (1 : ℚ) ≤ |(n : ℚ) - rne q| := by
      rw [← Int.cast_sub, ← Int.cast_abs]
      exact_mod_cast Int.one_le_abs (by omega)
    have h3 : |(n : ℚ) - rne q| ≤ |(n : ℚ) - q| + |(rne q : ℚ) - q| := by
      have := abs_sub_le (n : ℚ) q (rne q)
      rwa [abs_sub_comm q] at this
    linarith

/-! ### Rounding to binary32 -/

/-- Representable with 24 significant bits and last place at least `2^-149`, ignoring the upper end of the exponent range. -/
def Repr32 (v : ℚ) : Prop := ∃ (m k : Int), v = m * pow2 k ∧ |m| ≤ 2 ^ 24 ∧ -149 ≤ k

theorem ulpExp_ge (q : ℚ) : -149 ≤ ulpExp q := le_max_right _ _

theorem roundQ_zero : roundQ 0 = 0 := rfl

theorem roundQ_of_ne {q : ℚ} (hq : q ≠ 0) : roundQ q = rne (q / pow2 (ulpExp q)) * pow2 (ulpExp q) := by
  unfold roundQ; rw [if_neg hq]

theorem ulpExp_neg (q : ℚ) : ulpExp (-q) = ulpExp q := by
  unfold ulpExp; rw [ratAbs_eq, ratAbs_eq, abs_neg]

theorem roundQ_neg (q : ℚ) : roundQ (-q) = - roundQ q := by
  by_cases hq : q = 0
  · subst hq; simp [roundQ_zero]
  · rw [roundQ_of_ne hq, roundQ_of_ne (neg_ne_zero.mpr hq), ulpExp_neg, neg_div, rne_neg]
    push_cast; ring

theorem abs_lt_ulp {q : ℚ} (hq : q ≠ 0) : |q| < 2 ^ 24 * pow2 (ulpExp q) := by
  obtain ⟨_, h⟩ := log2Rat_spec (abs_pos.mpr hq)
  calc |q| < pow2 (log2Rat |q| + 1) := h
    _ ≤ pow2 (24 + ulpExp q) := pow2_le (by unfold ulpExp; rw [ratAbs_eq]; omega)
    _ = 2 ^ 24 * pow2 (ulpExp q) := by rw [pow2_add]; congr 1

/-- A representable number is a multiple of the last place at its magnitude or above. -/
theorem repr32_multiple {v q : ℚ} (hv : Repr32 v) (hq : q ≠ 0) (hge : |q| ≤ |v|) : ∃ n : Int, v = n * pow2 (ulpExp q) := by
  obtain ⟨m, k, h1, h2, h3⟩ := hv
  by_cases hk : ulpExp q ≤ k
  · obtain ⟨z, hz⟩ := pow2_int (k := k - ulpExp q) (by omega)
    refine ⟨m * z, ?_⟩
    rw [h1]; push_cast
    rw [← hz, mul_assoc, ← pow2_add]; congr 2; omega
  · -- the exponent of `q` is larger: then |m| = 2^24 exactly
    have hu : ulpExp q = log2Rat |q| - 23 := by unfold ulpExp at *; rw [ratAbs_eq] at *; omega
    have h5 : pow2 (log2Rat |q|) ≤ |q| := (log2Rat_spec (abs_pos.mpr hq)).1
    have h4 : |v| = |(m : ℚ)| * pow2 k := by rw [h1, abs_mul, abs_of_pos (pow2_pos k)]
    have hm : |(m : ℚ)| ≤ 2 ^ 24 := by rw [← Int.cast_abs]; exact_mod_cast h2
    have h6 : pow2 (log2Rat |q|) ≤ pow2 (24 + k) := by
      calc pow2 (log2Rat |q|) ≤ |v| := le_trans h5 hge
        _ ≤ 2 ^ 24 * pow2 k := by rw [h4]; exact mul_le_mul_of_nonneg_right hm (le_of_lt (pow2_pos k))
        _ = pow2 (24 + k) := by rw [pow2_add]; congr 1
    have h7 : log2Rat |q| ≤ 24 + k := by
      by_contra hc
      exact absurd h6 (not_le.mpr (pow2_lt (by omega)))
    have h8 : ulpExp q = k + 1 := by omega
    have h9 : (2 : ℚ) ^ 24 ≤ |(m : ℚ)| := by
      have : pow2 (24 + k) ≤ |(m : ℚ)| * pow2 k := by
        rw [← h4]
        calc pow2 (24 + k) = pow2 (log2Rat |q|) := by congr 1; omega
          _ ≤ |v| := le_trans h5 hge
      rw [pow2_add] at this
      exact le_of_mul_le_mul_right this (pow2_pos k)
    have h10 : |m| = 2 ^ 24 := by
      apply le_antisymm h2
      rw [← Int.cast_abs] at h9; exact_mod_cast h9
    rcases abs_choice m with hc | hc
    · refine ⟨2 ^ 23, ?_⟩
      rw [h1, h8, pow2_add, show m = 2 ^ 24 by omega]
      push_cast
      rw [show pow2 1 = 2 by rw [pow2_eq]; norm_num]; ring
    · refine ⟨-2 ^ 23, ?_⟩
      rw [h1, h8, pow2_add, show m = -2 ^ 24 by omega]
      push_cast
      rw [show pow2 1 = 2 by rw [pow2_eq]; norm_num]; ring

/-- The result of rounding is representable. -/
theorem roundQ_repr (q : ℚ) : Repr32 (roundQ q) := by
  by_cases hq : q = 0
  · subst hq; exact ⟨0, 0, by simp [roundQ_zero], by norm_num, by norm_num⟩
  · refine ⟨rne (q / pow2 (ulpExp q)), ulpExp q, roundQ_of_ne hq, ?_, ulpExp_ge q⟩
    have h := abs_lt_ulp hq
    have hp := pow2_pos (ulpExp q)
    have h1 : |q / pow2 (ulpExp q)| ≤ ((2 ^ 24 : Int) : ℚ) := by
      rw [abs_div, abs_of_pos hp, div_le_iff₀ hp]; push_cast; exact le_of_lt h
    rw [abs_le] at h1 ⊢
    constructor
    · have := rne_mono h1.1
      rw [← Int.cast_neg, rne_int] at this; exact this
    · have := rne_mono h1.2
      rw [rne_int] at this; exact this

/-- Representable numbers are not changed by rounding. -/
theorem roundQ_of_repr {v : ℚ} (hv : Repr32 v) : roundQ v = v := by
  by_cases h0 : v = 0
  · subst h0; exact roundQ_zero
  · obtain ⟨n, hn⟩ := repr32_multiple hv h0 (le_refl _)
    have hp := ne_of_gt (pow2_pos (ulpExp v))
    rw [roundQ_of_ne h0]
    have : v / pow2 (ulpExp v) = n := by rw [div_eq_iff hp]; exact hn
    rw [this, rne_int]; exact hn.symm

theorem repr32_int {n : Int} (h : |n| ≤ 2 ^ 24) : Repr32 (n : ℚ) := ⟨n, 0, by rw [pow2_zero, mul_one], h, by norm_num⟩

theorem repr32_nat {n : Nat} (h : n ≤ 2 ^ 24) : Repr32 (n : ℚ) := by
  have := repr32_int (n := (n : Int)) (by rw [Nat.abs_cast]; exact_mod_cast h)
  simpa using this

theorem repr32_pow2 {k : Int} (h : -149 ≤ k) : Repr32 (pow2 k) := ⟨1, k, by simp, by norm_num, h⟩

theorem roundQ_error_ulp {q : ℚ} (hq : q ≠ 0) : |roundQ q - q| ≤ pow2 (ulpExp q) / 2 := by
  have hp := pow2_pos (ulpExp q)
  rw [roundQ_of_ne hq]
  have := rne_error (q / pow2 (ulpExp q))
  calc |(rne (q / pow2 (ulpExp q)) : ℚ) * pow2 (ulpExp q) - q|
      = |((rne (q / pow2 (ulpExp q)) : ℚ) - q / pow2 (ulpExp q)) * pow2 (ulpExp q)| := by
        congr 1; field_simp
    _ = |(rne (q / pow2 (ulpExp q)) : ℚ) - q / pow2 (ulpExp q)| * pow2 (ulpExp q) := by rw [abs_mul, abs_of_pos hp]
    _ ≤ 1 / 2 * pow2 (ulpExp q) := mul_le_mul_of_nonneg_right this (le_of_lt hp)
    _ = pow2 (ulpExp q) / 2 := by ring

/-- No representable number is nearer than the rounded one. -/
theorem roundQ_nearest (q v : ℚ) (hv : Repr32 v) : |roundQ q - q| ≤ |v - q| := by
  by_cases hq : q = 0
  · subst hq; simp [roundQ_zero]
  · have hp := pow2_pos (ulpExp q)
    by_cases hge : |q| ≤ |v|
    · obtain ⟨n, hn⟩ := repr32_multiple hv hq hge
      have := rne_nearest (q / pow2 (ulpExp q)) n
      rw [roundQ_of_ne hq, hn]
      have e1 : ∀ z : ℚ, z * pow2 (ulpExp q) - q = (z - q / pow2 (ulpExp q)) * pow2 (ulpExp q) := by
        intro z; field_simp
      rw [e1, e1, abs_mul, abs_mul]
      exact mul_le_mul_of_nonneg_right this (abs_nonneg _)
    · have hlt : |v| < |q| := not_le.mp hge
      -- either `v` is on the same grid, or `v` is at most `2^log2 |q|`, a point of the grid between `v` and `q`
      by_cases hbig : pow2 (log2Rat |q|) ≤ |v|
      · have hv0 : v ≠ 0 := by rintro rfl; simp at hbig; exact absurd (pow2_pos _) (not_lt.mpr hbig)
        have hl : log2Rat |v| = log2Rat |q| :=
          log2Rat_eq hbig (lt_trans hlt (log2Rat_spec (abs_pos.mpr hq)).2)
        obtain ⟨n, hn⟩ := repr32_multiple hv hv0 (le_refl _)
        have hu : ulpExp v = ulpExp q := by unfold ulpExp; rw [ratAbs_eq, ratAbs_eq, hl]
        rw [hu] at hn
        have := rne_nearest (q / pow2 (ulpExp q)) n
        rw [roundQ_of_ne hq, hn]
        have e1 : ∀ z : ℚ, z * pow2 (ulpExp q) - q = (z - q / pow2 (ulpExp q)) * pow2 (ulpExp q) := by
          intro z; field_simp
        rw [e1, e1, abs_mul, abs_mul]
        exact mul_le_mul_of_nonneg_right this (abs_nonneg _)
      · by_cases hsmall : log2Rat |q| - 23 ≤ -149
        · -- all representable numbers are multiples of the last place
          have hu : ulpExp q = -149 := by unfold ulpExp; rw [ratAbs_eq]; omega
          obtain ⟨m, k, h1, h2, h3⟩ := hv
          obtain ⟨z, hz⟩ := pow2_int (k := k + 149) (by omega)
          have hn : v = ((m * z : Int) : ℚ) * pow2 (ulpExp q) := by
            rw [h1, hu]; push_cast; rw [← hz, mul_assoc, ← pow2_add]; congr 2; omega
          have := rne_nearest (q / pow2 (ulpExp q)) (m * z)
          rw [roundQ_of_ne hq, hn]
          have e1 : ∀ z : ℚ, z * pow2 (ulpExp q) - q = (z - q / pow2 (ulpExp q)) * pow2 (ulpExp q) := by
            intro z; field_simp
          rw [e1, e1, abs_mul, abs_mul]
          exact mul_le_mul_of_nonneg_right this (abs_nonneg _)
        · -- the grid point `±2^log2 |q|` is nearer to `q` than `v`
          have hu : ulpExp q = log2Rat |q| - 23 := by unfold ulpExp; rw [ratAbs_eq]; omega
          have h5 : pow2 (log2Rat |q|) ≤ |q| := (log2Rat_spec (abs_pos.mpr hq)).1
          have h23 : pow2 (log2Rat |q|) = 2 ^ 23 * pow2 (ulpExp q) := by
            rw [hu, show log2Rat |q| = 23 + (log2Rat |q| - 23) by omega, pow2_add]
            congr 2; omega
          have e1 : ∀ z : ℚ, z * pow2 (ulpExp q) - q = (z - q / pow2 (ulpExp q)) * pow2 (ulpExp q) := by
            intro z; field_simp
          have key : ∀ s : Int, |roundQ q - q| ≤ |(s : ℚ) * pow2 (ulpExp q) - q| := by
            intro s
            rw [roundQ_of_ne hq, e1, e1, abs_mul, abs_mul]
            exact mul_le_mul_of_nonneg_right (rne_nearest _ _) (abs_nonneg _)
          rcases le_total 0 q with h0 | h0
          · refine le_trans (key (2 ^ 23)) ?_
            rw [show (((2 ^ 23 : Int)) : ℚ) = 2 ^ 23 by norm_num, ← h23]
            rw [abs_of_nonneg h0] at *
            rw [abs_of_nonpos (by linarith)]
            have : v < pow2 (log2Rat q) := lt_of_le_of_lt (le_abs_self v) (not_le.mp hbig)
            rw [abs_of_nonpos (by linarith)]
            linarith
          · refine le_trans (key (-2 ^ 23)) ?_
            rw [show (((-2 ^ 23 : Int)) : ℚ) = - 2 ^ 23 by norm_num, neg_mul, ← h23]
            rw [abs_of_nonpos h0] at *
            rw [abs_of_nonneg (by linarith)]
            have : -v < pow2 (log2Rat (-q)) := lt_of_le_of_lt (neg_le_abs v) (not_le.mp hbig)
            rw [abs_of_nonneg (by linarith)]
            linarith

theorem roundQ_nonneg {q : ℚ} (h : 0 ≤ q) : 0 ≤ roundQ q := by
  by_cases hq : q = 0
  · subst hq; exact le_of_eq roundQ_zero.symm
  · rw [roundQ_of_ne hq]
    apply mul_nonneg _ (le_of_lt (pow2_pos _))
    have := rne_mono (p := ((0 : Int) : ℚ)) (q := q / pow2 (ulpExp q)) (by
      push_cast; exact div_nonneg h (le_of_lt (pow2_pos _)))
    rw [rne_int] at this
    exact_mod_cast this

/-- Rounding keeps order. -/
theorem roundQ_mono {p q : ℚ} (h : p ≤ q) : roundQ p ≤ roundQ q := by
  -- enough for positive numbers
  have pos : ∀ {p q : ℚ}, 0 < p → p ≤ q → roundQ p ≤ roundQ q := by
    intro p q hp h
    have hq : 0 < q := lt_of_lt_of_le hp h
    have hl := log2Rat_mono hp h
    by_cases hu : ulpExp p = ulpExp q
    · rw [roundQ_of_ne (ne_of_gt hp), roundQ_of_ne (ne_of_gt hq), hu]
      apply mul_le_mul_of_nonneg_right _ (le_of_lt (pow2_pos _))
      exact_mod_cast rne_mono (div_le_div_of_nonneg_right h (le_of_lt (pow2_pos _)))
    · have hlt : ulpExp p < ulpExp q := by
        have : ulpExp p ≤ ulpExp q := by
          unfold ulpExp; rw [ratAbs_eq, ratAbs_eq, abs_of_pos hp, abs_of_pos hq]; omega
        omega
      have huq : ulpExp q = log2Rat q - 23 := by
        unfold ulpExp at *; rw [ratAbs_eq, ratAbs_eq, abs_of_pos hp, abs_of_pos hq] at hlt
        rw [ratAbs_eq, abs_of_pos hq]; omega
      have h1 : p < 2 ^ 24 * pow2 (ulpExp p) := by have := abs_lt_ulp (ne_of_gt hp); rwa [abs_of_pos hp] at this
      have h2 : roundQ p ≤ 2 ^ 24 * pow2 (ulpExp p) := by
        rw [roundQ_of_ne (ne_of_gt hp)]
        apply mul_le_mul_of_nonneg_right _ (le_of_lt (pow2_pos _))
        have := rne_mono (p := p / pow2 (ulpExp p)) (q := ((2 ^ 24 : Int) : ℚ)) (by
          rw [div_le_iff₀ (pow2_pos _)]; push_cast; exact le_of_lt h1)
        rw [rne_int] at this
        exact_mod_cast this
      have h3 : 2 ^ 23 * pow2 (ulpExp q) ≤ roundQ q := by
        rw [roundQ_of_ne (ne_of_gt hq)]
        apply mul_le_mul_of_nonneg_right _ (le_of_lt (pow2_pos _))
        have := rne_mono (p := ((2 ^ 23 : Int) : ℚ)) (q := q / pow2 (ulpExp q)) (by
          rw [le_div_iff₀ (pow2_pos _)]
          push_cast
          calc (2 : ℚ) ^ 23 * pow2 (ulpExp q) = pow2 (23 + ulpExp q) := by rw [pow2_add]; congr 1
            _ = pow2 (log2Rat q) := by congr 1; omega
            _ ≤ q := (log2Rat_spec hq).1)
        rw [rne_int] at this
        exact_mod_cast this
      calc roundQ p ≤ 2 ^ 24 * pow2 (ulpExp p) := h2
        _ = pow2 (24 + ulpExp p) := by rw [pow2_add]; congr 1
        _ ≤ pow2 (23 + ulpExp q) := pow2_le (by omega)
        _ = 2 ^ 23 * pow2 (ulpExp q) := by rw [pow2_add]; congr 1
        _ ≤ roundQ q := h3
  rcases lt_trichotomy p 0 with hp | hp | hp
  · rcases lt_or_ge q 0 with hq | hq
    · have := pos (p := -q) (q := -p) (by linarith) (by linarith)
      rw [roundQ_neg, roundQ_neg] at this; linarith
    · have h1 : roundQ p ≤ 0 := by
        have := roundQ_nonneg (q := -p) (by linarith)
        rw [roundQ_neg] at this; linarith
      exact le_trans h1 (roundQ_nonneg hq)
  · subst hp; rw [roundQ_zero]; exact roundQ_nonneg h
  · exact pos hp h

theorem roundQ_le_of_repr {q v : ℚ} (hv : Repr32 v) (h : q ≤ v) : roundQ q ≤ v := by
  have := roundQ_mono h; rwa [roundQ_of_repr hv] at this

theorem le_roundQ_of_repr {q v : ℚ} (hv : Repr32 v) (h : v ≤ q) : v ≤ roundQ q := by
  have := roundQ_mono h; rwa [roundQ_of_repr hv] at this

/-- Relative error of rounding in the normal range. -/
theorem roundQ_rel_error {q : ℚ} (h : pow2 (-126) ≤ |q|) : |roundQ q - q| ≤ |q| * pow2 (-24) := by
  have hq : q ≠ 0 := by rintro rfl; simp at h; exact absurd (pow2_pos _) (not_lt.mpr h)
  have hu : ulpExp q = log2Rat |q| - 23 := by
    have h2 := (log2Rat_spec (abs_pos.mpr hq)).2
    have := pow2_lt_iff.mp (lt_of_le_of_lt h h2)
    unfold ulpExp; rw [ratAbs_eq]; omega
  refine le_trans (roundQ_error_ulp hq) ?_
  have h5 : pow2 (log2Rat |q|) ≤ |q| := (log2Rat_spec (abs_pos.mpr hq)).1
  calc pow2 (ulpExp q) / 2 = pow2 (log2Rat |q|) * pow2 (-24) := by
        rw [hu, ← pow2_add, show log2Rat |q| + -24 = (log2Rat |q| - 23) + (-1) by omega, pow2_add]
        rw [show pow2 (-1) = 1 / 2 by rw [pow2_eq]; norm_num]; ring
    _ ≤ |q| * pow2 (-24) := mul_le_mul_of_nonneg_right h5 (le_of_lt (pow2_pos _))

end Rust

import Verif.Lemmas.F32Val
import Verif.Lemmas.Scale
import Verif.Spec.Scale
/-!
# The source pixels of one output line, and their weights
-/

namespace Model
open Rust Spec F32

theorem floor_toUsize {x : F32} {q : ℚ} (hx : Is x q) (hlt : q < 2 ^ 64) : x.floor.toUsize = ⌊q⌋.toNat := by
  rcases hx.cases with ⟨s, e, z⟩ | e <;> subst e
  · subst z; simp [F32.floor, F32.toUsize, toUnsigned]
  · simp only [F32.floor]
    by_cases h : q.floor = 0
    · rw [if_pos h]
      have : ⌊q⌋ = 0 := h
      rw [this]; rfl
    · rw [if_neg h]
      have h1 : 0 ≤ ⌊q⌋ := Int.floor_nonneg.mpr hx.2.1
      have h2 := Int.floor_le q
      rw [ratFloor_eq, toUsize_fin (by exact_mod_cast h1) (lt_of_le_of_lt h2 hlt), Int.floor_intCast]

theorem ceil_toUsize {x : F32} {q : ℚ} (hx : Is x q) {imax : Nat} (h0 : 0 < imax) (hi : imax ≤ 2 ^ 24) :
    ((ofNat imax).min x.ceil).toUsize = min imax ⌈q⌉.toNat := by
  have hn := ofNat_pos h0 hi
  have i24 : (imax : ℚ) ≤ 16777216 := by exact_mod_cast hi
  have i0 : (0 : ℚ) < imax := by exact_mod_cast h0
  have c0 : 0 ≤ ⌈q⌉ := Int.ceil_nonneg hx.2.1
  have self : (fin (imax : ℚ)).toUsize = imax := by
    rw [toUsize_fin (le_of_lt i0) (by norm_num; linarith), Int.floor_natCast]; rfl
  rcases hx.cases with ⟨s, e, z⟩ | e <;> subst e
  · subst z
    rw [hn]
    simp only [F32.ceil, F32.min, F32.lt, decide_eq_true_eq.mpr i0, if_true]
    simp [F32.toUsize, toUnsigned]
  · rw [hn]
    simp only [F32.ceil]
    by_cases h : q.ceil = 0
    · rw [if_pos h]
      rw [ratCeil_eq] at h
      simp only [F32.min, F32.lt, decide_eq_true_eq.mpr i0, if_true, h]
      simp [F32.toUsize, toUnsigned]
    · rw [if_neg h, ratCeil_eq]
      simp only [F32.min, F32.lt, decide_eq_true_eq]
      by_cases hlt : ((⌈q⌉ : ℤ) : ℚ) < imax
      · rw [if_pos hlt, toUsize_fin (by exact_mod_cast c0) (by norm_num; linarith), Int.floor_intCast]
        have : ⌈q⌉ < (imax : ℤ) := by exact_mod_cast hlt
        omega
      · rw [if_neg hlt, self]
        have : (imax : ℤ) ≤ ⌈q⌉ := by exact_mod_cast not_lt.mp hlt
        omega

/-- What one output line reads and with which weight. -/
theorem calcSkips_facts {n m imax i : Nat} (n0 : 0 < n) (n20 : n ≤ 2 ^ 20) (m0 : 0 < m) (m20 : m ≤ 2 ^ 20) (h0 : 0 < imax)
    (h20 : imax ≤ 2 ^ 20) (i20 : i < 2 ^ 20) :
    (∀ y, (calcSkips i imax ((ofNat n).div (ofNat m))).1 ≤ y → y < (calcSkips i imax ((ofNat n).div (ofNat m))).2.1 → NearTo n m i y ∧ y < imax) ∧
    (∀ y, y < imax → CentreIn n m i y →
      (calcSkips i imax ((ofNat n).div (ofNat m))).1 ≤ y ∧ y < (calcSkips i imax ((ofNat n).div (ofNat m))).2.1) ∧
    ((calcSkips i imax ((ofNat n).div (ofNat m))).1 < (calcSkips i imax ((ofNat n).div (ofNat m))).2.1 →
      ∃ f, Is (calcSkips i imax ((ofNat n).div (ofNat m))).2.2.1 f ∧ pow2 (-24) ≤ f ∧ f ≤ 1) := by
  obtain ⟨e, s1, s2⟩ := Props.ratio_fin n0 (Nat.le_trans n20 (by decide)) m0 (Nat.le_trans m20 (by decide))
  have nq : (n : ℚ) ≤ 1048576 := by exact_mod_cast n20
  have mq : (m : ℚ) ≤ 1048576 := by exact_mod_cast m20
  have mp : (0 : ℚ) < m := by exact_mod_cast m0
  have np : (0 : ℚ) < n := by exact_mod_cast n0
  have m1 : (1 : ℚ) ≤ m := by exact_mod_cast m0
  have n1 : (1 : ℚ) ≤ n := by exact_mod_cast n0
  have iq : (i : ℚ) + 1 ≤ 1048576 := by exact_mod_cast i20
  have ip : (0 : ℚ) ≤ i := Nat.cast_nonneg i
  have hq : (imax : ℚ) ≤ 1048576 := by exact_mod_cast h20
  have e24 : pow2 (-24) = 1 / 16777216 := by rw [pow2_eq]; norm_num
  have e22 : pow2 22 = 4194304 := by rw [pow2_eq]; norm_num
  have hrel : |roundQ ((n : ℚ) / m) - (n : ℚ) / m| ≤ (n : ℚ) / m * (1 / 16777216) := by
    have x0 : (0 : ℚ) < (n : ℚ) / m := div_pos np mp
    have := roundQ_rel_error (q := (n : ℚ) / m) (by
      rw [abs_of_pos x0]
      refine le_trans (pow2_le (by decide : (-126 : Int) ≤ -22)) ?_
      rw [pow2_eq, le_div_iff₀ mp]; norm_num; linarith)
    rwa [abs_of_pos x0, e24] at this
  rw [e]
  set s := roundQ ((n : ℚ) / m) with hs
  set t := (n : ℚ) / m with ht
  have t0 : 0 < t := div_pos np mp
  have sp : 0 < s := lt_of_lt_of_le (pow2_pos _) s1
  have hsi : Is (fin s) s := ⟨rfl, le_of_lt sp, by rw [hs]; exact roundQ_repr _⟩
  rw [abs_le] at hrel
  have lo : ∀ j : ℚ, 0 ≤ j → j * t * (1 - 1 / 16777216) ≤ j * s := by
    intro j hj
    rw [mul_assoc]
    exact mul_le_mul_of_nonneg_left (by linarith [hrel.1]) hj
  have hi : ∀ j : ℚ, 0 ≤ j → j * s ≤ j * t * (1 + 1 / 16777216) := by
    intro j hj
    rw [mul_assoc]
    exact mul_le_mul_of_nonneg_left (by linarith [hrel.2]) hj
  -- the two ends
  have ends : ∀ j : Nat, (j : ℚ) ≤ 1048576 → Is ((ofNat j).mul (fin s)) (roundQ (j * s)) ∧ roundQ (j * s) < 2 ^ 64 := by
    intro j hj
    have hj2 : j ≤ 2 ^ 24 := by
      have : j ≤ 1048576 := by exact_mod_cast hj
      omega
    have hb : roundQ (j * s) ≤ pow2 42 := by
      apply roundQ_le_of_repr (repr32_pow2 (by decide))
      have : (j : ℚ) * s ≤ 1048576 * 4194304 := mul_le_mul hj (by linarith) (le_of_lt sp) (by norm_num)
      refine le_trans this ?_
      rw [pow2_eq]; norm_num
    have h64 : pow2 42 < 2 ^ 64 := by rw [pow2_eq]; norm_num
    exact ⟨(ofNat_is hj2).mul hsi (lt_of_le_of_lt hb (pow2_lt (by decide))), lt_of_le_of_lt hb h64⟩
  obtain ⟨a1, a2⟩ := ends i (by linarith)
  obtain ⟨b1, b2⟩ := ends (i + 1) (by push_cast; exact iq)
  have hfrom : (calcSkips i imax (fin s)).1 = ⌊roundQ (i * s)⌋.toNat := floor_toUsize a1 a2
  have hto : (calcSkips i imax (fin s)).2.1 = min imax ⌈roundQ (((i + 1 : Nat) : ℚ) * s)⌉.toNat :=
    ceil_toUsize b1 h0 (Nat.le_trans h20 (by decide))
  have hx0 : 0 ≤ roundQ ((i : ℚ) * s) := a1.2.1
  have hfl : 0 ≤ ⌊roundQ ((i : ℚ) * s)⌋ := Int.floor_nonneg.mpr hx0
  have hcl : 0 ≤ ⌈roundQ (((i + 1 : Nat) : ℚ) * s)⌉ := Int.ceil_nonneg b1.2.1
  -- quarter steps are representable
  have quarter : ∀ (y c : Nat), y ≤ 2 ^ 20 → c < 4 → Repr32 ((y : ℚ) + c / 4) := by
    intro y c hy hc
    refine ⟨4 * y + c, -2, ?_, ?_, by decide⟩
    · rw [pow2_eq]; push_cast; norm_num; ring
    · rw [abs_of_nonneg (by omega)]; omega
  have cross : ∀ j : Nat, (j : ℚ) * t = (j * n : ℚ) / m := by intro j; rw [ht]; ring
  refine ⟨?_, ?_, ?_⟩
  · intro y h1 h2
    rw [hfrom] at h1
    rw [hto] at h2
    have hy : y < imax := by omega
    have yq : (y : ℚ) + 1 ≤ 1048576 := by
      have : ((y + 1 : Nat) : ℚ) ≤ imax := by exact_mod_cast hy
      push_cast at this; linarith
    refine ⟨⟨?_, ?_⟩, hy⟩
    · have f1 : ⌊roundQ ((i : ℚ) * s)⌋ < (y : ℤ) + 1 := by omega
      rw [Int.floor_lt] at f1
      push_cast at f1
      have f2 := Props.lt_of_roundQ_lt (by have := repr32_nat (n := y + 1) (by omega); push_cast at this; exact this) f1
      have f3 : (i : ℚ) * t ≤ y + 3 / 2 := by
        have : (i : ℚ) * t * (1 - 1 / 16777216) ≤ i * s := lo _ ip
        have y0 : (0 : ℚ) ≤ y := Nat.cast_nonneg y
        linarith
      rw [cross, div_le_iff₀ mp] at f3
      have : (2 * (i * n) : ℚ) ≤ (2 * y + 3) * m := by linarith
      exact_mod_cast this
    · have f1 : (y : ℤ) < ⌈roundQ (((i + 1 : Nat) : ℚ) * s)⌉ := by omega
      rw [Int.lt_ceil] at f1
      push_cast at f1
      have f2 : (y : ℚ) < ((i : ℚ) + 1) * s := by
        by_contra hc
        exact absurd (roundQ_le_of_repr (repr32_nat (n := y) (by omega)) (not_lt.mp hc)) (not_le.mpr f1)
      have f3 : (y : ℚ) ≤ ((i : ℚ) + 1) * t + 1 / 2 := by
        have h3 : ((i : ℚ) + 1) * s ≤ ((i : ℚ) + 1) * t * (1 + 1 / 16777216) := hi _ (by linarith)
        by_contra hc
        have := not_le.mp hc
        linarith
      have h4 := cross (i + 1)
      push_cast at h4
      rw [h4] at f3
      have h5 : ((y : ℚ) - 1 / 2) * m ≤ (i + 1) * n := by
        rw [← le_div_iff₀ mp]; linarith
      have : (2 * (y * m) : ℚ) ≤ 2 * ((i + 1) * n) + m := by linarith
      exact_mod_cast this
  · intro y hy ⟨c1, c2⟩
    rw [hfrom, hto]
    have yq : (y : ℚ) + 1 ≤ 1048576 := by
      have : ((y + 1 : Nat) : ℚ) ≤ imax := by exact_mod_cast hy
      push_cast at this; linarith
    have y0 : (0 : ℚ) ≤ y := Nat.cast_nonneg y
    have d1 : (2 * (i * n) : ℚ) ≤ (2 * y + 1) * m := by exact_mod_cast c1
    have d2 : ((2 * y + 1) * m : ℚ) ≤ 2 * ((i + 1) * n) := by exact_mod_cast c2
    constructor
    · have f1 : (i : ℚ) * t ≤ y + 1 / 2 := by rw [cross, div_le_iff₀ mp]; linarith
      have f2 : (i : ℚ) * s ≤ y + (3 : Nat) / 4 := by
        have : (i : ℚ) * s ≤ i * t * (1 + 1 / 16777216) := hi _ ip
        push_cast
        linarith
      have f3 := roundQ_le_of_repr (quarter y 3 (by omega) (by decide)) f2
      push_cast at f3
      have f4 : ⌊roundQ ((i : ℚ) * s)⌋ < (y : ℤ) + 1 := by rw [Int.floor_lt]; push_cast; linarith
      omega
    · have f1 : (y : ℚ) + 1 / 2 ≤ ((i : ℚ) + 1) * t := by
        have h4 := cross (i + 1)
        push_cast at h4
        rw [h4, le_div_iff₀ mp]; linarith
      have f2 : (y : ℚ) + (1 : Nat) / 4 ≤ ((i + 1 : Nat) : ℚ) * s := by
        have : ((i : ℚ) + 1) * t * (1 - 1 / 16777216) ≤ (i + 1) * s := lo _ (by linarith)
        push_cast
        linarith
      have f3 := le_roundQ_of_repr (quarter y 1 (by omega) (by decide)) f2
      push_cast at f3
      have f4 : (y : ℤ) < ⌈roundQ (((i + 1 : Nat) : ℚ) * s)⌉ := by rw [Int.lt_ceil]; push_cast; linarith
      omega
  · intro hlt
    rw [hfrom, hto] at hlt
    have f1 : ⌊roundQ ((i : ℚ) * s)⌋ < 1048576 := by omega
    have hrf : Repr32 ((⌊roundQ ((i : ℚ) * s)⌋ : ℤ) : ℚ) := repr32_int (by rw [abs_of_nonneg hfl]; omega)
    have g1 := a1.floor hrf
    have fl1 := Int.floor_le (roundQ ((i : ℚ) * s))
    have fl2 := Int.lt_floor_add_one (roundQ ((i : ℚ) * s))
    have hd : roundQ (roundQ ((i : ℚ) * s) - ⌊roundQ ((i : ℚ) * s)⌋) ≤ 1 :=
      roundQ_le_of_repr (by rw [← pow2_zero]; exact repr32_pow2 (by decide)) (by linarith)
    exact (a1.sub g1 fl1 (lt_of_le_of_lt hd (by rw [pow2_128]; norm_num))).weight hd

end Model

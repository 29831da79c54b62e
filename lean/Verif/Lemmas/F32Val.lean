import Verif.Lemmas.F32Ops
import Verif.Props.Scale
/-!
# Values of sums, products and quotients of nonnegative numbers
-/

namespace Rust
namespace F32

/-- A finite nonnegative number with a representable value. -/
def Is (x : F32) (q : ℚ) : Prop := x.val? = some q ∧ 0 ≤ q ∧ Repr32 q

theorem round_is (s : Bool) {q : ℚ} (h0 : 0 ≤ q) (hlt : roundQ q < pow2 128) : Is (F32.round s q) (roundQ q) := by
  refine ⟨?_, roundQ_nonneg h0, roundQ_repr q⟩
  unfold F32.round
  by_cases hz : q = 0
  · subst hz; rw [if_pos rfl]; rfl
  · rw [if_neg hz]
    by_cases hr : roundQ q = 0
    · rw [if_pos hr, hr]; rfl
    · rw [if_neg hr, ratAbs_eq, abs_of_nonneg (roundQ_nonneg h0), if_neg (not_le.mpr hlt)]; rfl

theorem Is.cases {x : F32} {q : ℚ} (h : Is x q) : (∃ s, x = .zero s ∧ q = 0) ∨ x = .fin q := by
  cases x with
  | nan => exact absurd h.1 (by simp [val?])
  | inf s => exact absurd h.1 (by simp [val?])
  | zero s => exact Or.inl ⟨s, rfl, by have := h.1; simp only [val?, Option.some.injEq] at this; exact this.symm⟩
  | fin r => right; have := h.1; simp only [val?, Option.some.injEq] at this; rw [this]

theorem repr32_zero : Repr32 0 := by have := repr32_nat (n := 0) (by decide); simpa using this

theorem zero_is (s : Bool) : Is (.zero s) 0 := ⟨rfl, le_refl _, repr32_zero⟩

theorem ofNat_is {n : Nat} (h : n ≤ 2 ^ 24) : Is (ofNat n) n := by
  rcases Nat.eq_zero_or_pos n with h0 | h0
  · subst h0; rw [ofNat_zero]; exact_mod_cast zero_is false
  · rw [ofNat_pos h0 h]; exact ⟨rfl, Nat.cast_nonneg _, repr32_nat h⟩

theorem Is.add {x y : F32} {p q : ℚ} (hx : Is x p) (hy : Is y q) (hlt : roundQ (p + q) < pow2 128) : Is (x.add y) (roundQ (p + q)) := by
  rcases hx.cases with ⟨s, e, z⟩ | e <;> rcases hy.cases with ⟨t, f, w⟩ | f <;> subst e <;> subst f
  · subst z; subst w; simp only [F32.add, add_zero]; rw [roundQ_zero]; exact zero_is _
  · subst z; simp only [F32.add, zero_add]; rw [roundQ_of_repr hy.2.2]; exact hy
  · subst w; simp only [F32.add, add_zero]; rw [roundQ_of_repr hx.2.2]; exact hx
  · exact round_is _ (add_nonneg hx.2.1 hy.2.1) hlt

theorem Is.mul {x y : F32} {p q : ℚ} (hx : Is x p) (hy : Is y q) (hlt : roundQ (p * q) < pow2 128) : Is (x.mul y) (roundQ (p * q)) := by
  rcases hx.cases with ⟨s, e, z⟩ | e <;> rcases hy.cases with ⟨t, f, w⟩ | f <;> subst e <;> subst f
  · subst z; subst w; simp only [F32.mul, mul_zero]; rw [roundQ_zero]; exact zero_is _
  · subst z; simp only [F32.mul, zero_mul]; rw [roundQ_zero]; exact zero_is _
  · subst w; simp only [F32.mul, mul_zero]; rw [roundQ_zero]; exact zero_is _
  · exact round_is _ (mul_nonneg hx.2.1 hy.2.1) hlt

theorem Is.div {x y : F32} {p q : ℚ} (hx : Is x p) (hy : Is y q) (hq : 0 < q) (hlt : roundQ (p / q) < pow2 128) : Is (x.div y) (roundQ (p / q)) := by
  rcases hx.cases with ⟨s, e, z⟩ | e <;> rcases hy.cases with ⟨t, f, w⟩ | f <;> subst e <;> subst f
  · exact absurd w (ne_of_gt hq)
  · subst z; simp only [F32.div, zero_div]; rw [roundQ_zero]; exact zero_is _
  · exact absurd w (ne_of_gt hq)
  · exact round_is _ (div_nonneg hx.2.1 hy.2.1) hlt

/-- Subtraction with a nonnegative result. -/
theorem Is.sub {x y : F32} {p q : ℚ} (hx : Is x p) (hy : Is y q) (hle : q ≤ p) (hlt : roundQ (p - q) < pow2 128) : Is (x.sub y) (roundQ (p - q)) := by
  rcases hx.cases with ⟨s, e, z⟩ | e <;> rcases hy.cases with ⟨t, f, w⟩ | f <;> subst e <;> subst f
  · subst z; subst w; simp only [F32.sub, F32.neg, F32.add, sub_zero]; rw [roundQ_zero]; exact zero_is _
  · have : q = 0 := le_antisymm (z ▸ hle) hy.2.1
    subst z; subst this
    simp only [F32.sub, F32.neg, F32.add, sub_zero, neg_zero]; rw [roundQ_zero]
    exact ⟨rfl, le_refl _, repr32_zero⟩
  · subst w; simp only [F32.sub, F32.neg, F32.add, sub_zero]; rw [roundQ_of_repr hx.2.2]; exact hx
  · simp only [F32.sub, F32.neg, F32.add, ← sub_eq_add_neg]
    exact round_is _ (sub_nonneg.mpr hle) hlt

theorem Is.floor {x : F32} {q : ℚ} (hx : Is x q) (hr : Repr32 (⌊q⌋ : ℚ)) : Is x.floor (⌊q⌋ : ℚ) := by
  have h1 : 0 ≤ ⌊q⌋ := Int.floor_nonneg.mpr hx.2.1
  rcases hx.cases with ⟨s, e, z⟩ | e <;> subst e
  · subst z; simp only [F32.floor, Int.floor_zero, Int.cast_zero]; exact zero_is _
  · simp only [F32.floor]
    by_cases h : q.floor = 0
    · rw [if_pos h]
      have : ⌊q⌋ = 0 := h
      rw [this, Int.cast_zero]; exact zero_is _
    · rw [if_neg h]; exact ⟨rfl, by exact_mod_cast h1, hr⟩

theorem Is.toUsize {x : F32} {q : ℚ} (hx : Is x q) (hlt : q < 2 ^ 64) : x.toUsize = ⌊q⌋.toNat := by
  rcases hx.cases with ⟨s, e, z⟩ | e <;> subst e
  · subst z; simp [F32.toUsize, toUnsigned]
  · exact toUsize_fin hx.2.1 hlt

theorem Is.lt {x y : F32} {p q : ℚ} (hx : Is x p) (hy : Is y q) : x.lt y = decide (p < q) := by
  rcases hx.cases with ⟨s, e, z⟩ | e <;> rcases hy.cases with ⟨t, f, w⟩ | f <;> subst e <;> subst f
  · subst z; subst w; simp [F32.lt]
  · subst z; simp [F32.lt]
  · subst w; simp [F32.lt]
  · simp [F32.lt]

/-- `1 - fract` of a number from 0 to 1 lies above 0. -/
theorem Is.weight {x : F32} {q : ℚ} (hx : Is x q) (h1 : q ≤ 1) :
    ∃ f, Is ((ofNat 1).sub x.fract) f ∧ pow2 (-24) ≤ f ∧ f ≤ 1 := by
  have one : Is (ofNat 1) 1 := by exact_mod_cast ofNat_is (n := 1) (by decide)
  have r1 : Repr32 (1 : ℚ) := one.2.2
  have p24 : pow2 (-24) = 1 / 16777216 := by rw [pow2_eq]; norm_num
  have fr : ∃ g, Is x.fract g ∧ g < 1 := by
    rcases hx.cases with ⟨s, e, z⟩ | e
    · subst e
      refine ⟨0, ?_, one_pos⟩
      cases s <;> exact ⟨rfl, le_refl _, repr32_zero⟩
    · subst e
      have hsb : (fin q).signBit = false := by simp [signBit, hx.2.1]
      unfold fract trunc
      rw [if_neg (by rw [hsb]; decide)]
      rcases lt_or_eq_of_le h1 with h | h
      · have hf : ⌊q⌋ = 0 := by rw [Int.floor_eq_iff]; push_cast; exact ⟨hx.2.1, by linarith⟩
        refine ⟨q, ?_, h⟩
        have e : (fin q).floor = zero (decide (q < 0)) := if_pos hf
        rw [e]
        simp only [F32.sub, F32.neg, F32.add]
        exact hx
      · subst h
        refine ⟨0, ?_, one_pos⟩
        have : (fin (1 : ℚ)).floor = fin 1 := by simp [F32.floor, ratFloor_eq]
        rw [this]
        have := Is.sub hx hx (le_refl _) (by rw [sub_self, roundQ_zero]; exact pow2_pos _)
        rw [sub_self, roundQ_zero] at this
        exact this
  obtain ⟨g, hg, hg1⟩ := fr
  have hle : roundQ (1 - g) ≤ 1 := roundQ_le_of_repr r1 (by linarith [hg.2.1])
  refine ⟨roundQ (1 - g), one.sub hg (le_of_lt hg1) (lt_of_le_of_lt hle (by rw [pow2_128]; norm_num)), ?_, hle⟩
  apply le_roundQ_of_repr (repr32_pow2 (by decide))
  have hp : Repr32 (1 - pow2 (-24)) := ⟨16777215, -24, by rw [p24]; norm_num, by norm_num, by decide⟩
  by_contra hc
  -- a representable number above `1 - 2^-24` and below 1 does not exist
  have hlt : 1 - pow2 (-24) < g := by linarith [not_le.mp hc]
  obtain ⟨n, hn⟩ := repr32_multiple hg.2.2 (q := 1 / 2) (by norm_num) (by
    rw [abs_of_pos (by norm_num), abs_of_nonneg hg.2.1]; rw [p24] at hlt; linarith)
  have hu : ulpExp (1 / 2 : ℚ) = -24 := by decide +kernel
  rw [hu, p24] at hn
  rw [p24] at hlt
  have a1 : (16777215 : ℚ) < n := by rw [hn] at hlt; linarith
  have a2 : (n : ℚ) < 16777216 := by rw [hn] at hg1; linarith
  have b1 : (16777215 : ℤ) < n := by exact_mod_cast a1
  have b2 : n < (16777216 : ℤ) := by exact_mod_cast a2
  omega

end F32

/-- Scaling a normal number by a power of two commutes with rounding. -/
theorem roundQ_scale {q : ℚ} {k : Nat} (h : pow2 (-126) ≤ q) : roundQ (q * pow2 k) = roundQ q * pow2 k := by
  have hq : 0 < q := lt_of_lt_of_le (pow2_pos _) h
  have hk := pow2_pos (k : Int)
  obtain ⟨l1, l2⟩ := log2Rat_spec hq
  have hlog : log2Rat (q * pow2 k) = log2Rat q + k := by
    apply log2Rat_eq
    · rw [pow2_add]; exact mul_le_mul_of_nonneg_right l1 (le_of_lt hk)
    · rw [show log2Rat q + (k : Int) + 1 = log2Rat q + 1 + k by ring, pow2_add]; exact mul_lt_mul_of_pos_right l2 hk
  have hge : -126 ≤ log2Rat q := by
    have := pow2_lt_iff.mp (lt_of_le_of_lt h l2)
    omega
  have hu : ulpExp (q * pow2 k) = ulpExp q + k := by
    unfold ulpExp
    rw [ratAbs_eq, ratAbs_eq, abs_of_pos hq, abs_of_pos (mul_pos hq hk), hlog]
    omega
  rw [roundQ_of_ne (ne_of_gt (mul_pos hq hk)), roundQ_of_ne (ne_of_gt hq), hu, pow2_add]
  have hp := pow2_pos (ulpExp q)
  rw [show q * pow2 k / (pow2 (ulpExp q) * pow2 k) = q / pow2 (ulpExp q) by field_simp]
  ring

end Rust

import Verif.Props.Gamma
import Verif.Props.Curves
import Mathlib.Tactic.FieldSimp
import Mathlib.Tactic.Ring
/-!
# Property C39: the size of the output
-/

namespace Props
open Rust Spec Model

/-! ## The new size -/

theorem ratio_fin {a b : Nat} (ha0 : 0 < a) (ha : a ≤ 2 ^ 22) (hb0 : 0 < b) (hb : b ≤ 2 ^ 22) :
    (F32.ofNat a).div (F32.ofNat b) = .fin (roundQ ((a : ℚ) / b)) ∧ pow2 (-22) ≤ roundQ ((a : ℚ) / b) ∧ roundQ ((a : ℚ) / b) ≤ pow2 22 := by
  have a1 : (1 : ℚ) ≤ a := by exact_mod_cast ha0
  have b1 : (1 : ℚ) ≤ b := by exact_mod_cast hb0
  have a2 : (a : ℚ) ≤ 4194304 := by exact_mod_cast ha
  have b2 : (b : ℚ) ≤ 4194304 := by exact_mod_cast hb
  have h1 : pow2 (-22) ≤ roundQ ((a : ℚ) / b) := by
    apply le_roundQ_of_repr (repr32_pow2 (by decide))
    rw [pow2_eq, le_div_iff₀ (by linarith)]
    norm_num
    linarith
  have h2 : roundQ ((a : ℚ) / b) ≤ pow2 22 := by
    apply roundQ_le_of_repr (repr32_pow2 (by decide))
    rw [pow2_eq, div_le_iff₀ (by linarith)]
    norm_num
    linarith
  refine ⟨?_, h1, h2⟩
  rw [F32.div_ofNat (Nat.le_trans ha (by decide)) hb0 (Nat.le_trans hb (by decide))]
  exact F32.ofRat_pos (lt_of_lt_of_le (pow2_pos _) h1) (lt_of_le_of_lt h2 (pow2_lt (by decide)))

/-- The other side: the rounded quotient of a size by a scale, cut to an integer. -/
theorem quotient_floor {a : Nat} {s : ℚ} (ha0 : 0 < a) (ha : a ≤ 2 ^ 22) (hs : pow2 (-22) ≤ s) (hs2 : s ≤ pow2 22) :
    ((F32.ofNat a).div (.fin s)).toUsize = ⌊roundQ ((a : ℚ) / s)⌋.toNat := by
  have s0 : 0 < s := lt_of_lt_of_le (pow2_pos _) hs
  have a1 : (1 : ℚ) ≤ a := by exact_mod_cast ha0
  have a2 : (a : ℚ) ≤ 4194304 := by exact_mod_cast ha
  have p1 : pow2 (-22) = 1 / 4194304 := by rw [pow2_eq]; norm_num
  have p2 : pow2 22 = 4194304 := by rw [pow2_eq]; norm_num
  have h1 : pow2 (-22) ≤ roundQ ((a : ℚ) / s) := by
    apply le_roundQ_of_repr (repr32_pow2 (by decide))
    rw [le_div_iff₀ s0, p1]
    rw [p2] at hs2
    linarith
  have h2 : roundQ ((a : ℚ) / s) ≤ pow2 44 := by
    apply roundQ_le_of_repr (repr32_pow2 (by decide))
    rw [div_le_iff₀ s0]
    have : pow2 44 = 17592186044416 := by rw [pow2_eq]; norm_num
    rw [this]
    rw [p1] at hs
    linarith
  rw [F32.ofNat_pos ha0 (Nat.le_trans ha (by decide))]
  simp only [F32.div]
  rw [round_pos (lt_of_lt_of_le (pow2_pos _) h1) (lt_of_le_of_lt h2 (pow2_lt (by decide)))]
  have : pow2 44 < 2 ^ 64 := by rw [pow2_eq]; norm_num
  exact F32.toUsize_fin (le_trans (le_of_lt (pow2_pos _)) h1) (lt_of_le_of_lt h2 this)

theorem one_lt_round {a b : Nat} (ha : a ≤ 2 ^ 22) (hb0 : 0 < b) : 1 < roundQ ((a : ℚ) / b) ↔ b < a := by
  have b1 : (0 : ℚ) < b := by exact_mod_cast hb0
  constructor
  · intro h
    by_contra hc
    have : roundQ ((a : ℚ) / b) ≤ 1 := roundQ_le_of_repr (by rw [← pow2_zero]; exact repr32_pow2 (by decide)) (by
      rw [div_le_one b1]; exact_mod_cast not_lt.mp hc)
    linarith
  · intro h
    have hr : Repr32 (1 + pow2 (-22)) := ⟨4194305, -22, by rw [pow2_eq]; norm_num, by norm_num, by decide⟩
    have h1 : 1 + pow2 (-22) ≤ roundQ ((a : ℚ) / b) := by
      apply le_roundQ_of_repr hr
      rw [le_div_iff₀ b1]
      have e : pow2 (-22) = 1 / 4194304 := by rw [pow2_eq]; norm_num
      have ab : (b : ℚ) + 1 ≤ a := by exact_mod_cast h
      have a2 : (a : ℚ) ≤ 4194304 := by exact_mod_cast ha
      rw [e]
      linarith
    have := pow2_pos (-22)
    linarith

/-- A rounded value below a representable value was below it before rounding. -/
theorem lt_of_roundQ_lt {q v : ℚ} (hv : Repr32 v) (h : roundQ q < v) : q < v := by
  by_contra hc
  exact absurd (le_roundQ_of_repr hv (not_lt.mp hc)) (not_le.mpr h)

theorem half_repr {n : Nat} (h : n ≤ 2 ^ 22) : Repr32 ((n : ℚ) + 1 / 2) :=
  ⟨2 * n + 1, -1, by rw [pow2_eq]; push_cast; norm_num; ring, by
    rw [abs_of_nonneg (by omega)]; omega, by decide⟩

/-- The quotient by a rounded scale `c/b` stays within the rounding errors of the exact quotient `a * b / c`. -/
theorem quotient_bounds {a b c m : Nat} (ha0 : 0 < a) (hb0 : 0 < b) (hb : b ≤ 2 ^ 22) (hc0 : 0 < c) (hc : c ≤ 2 ^ 22)
    (hm : m ≤ 2 ^ 22) (hbig : (a : ℚ) / roundQ ((c : ℚ) / b) ≤ m + 1 / 2) :
    |roundQ ((a : ℚ) / roundQ ((c : ℚ) / b)) - (a : ℚ) * b / c| ≤ 3 / 4 := by
  have a1 : (1 : ℚ) ≤ a := by exact_mod_cast ha0
  have b1 : (1 : ℚ) ≤ b := by exact_mod_cast hb0
  have c1 : (1 : ℚ) ≤ c := by exact_mod_cast hc0
  have m2 : (m : ℚ) ≤ 4194304 := by exact_mod_cast hm
  obtain ⟨_, s1, s2⟩ := ratio_fin hc0 hc hb0 hb
  have e24 : pow2 (-24) = 1 / 16777216 := by rw [pow2_eq]; norm_num
  have x0 : (0 : ℚ) < (c : ℚ) / b := by positivity
  have hx : pow2 (-126) ≤ |(c : ℚ) / b| := by
    have b2 : (b : ℚ) ≤ 4194304 := by exact_mod_cast hb
    rw [abs_of_pos x0]
    refine le_trans (pow2_le (by decide : (-126 : Int) ≤ -22)) ?_
    rw [pow2_eq, le_div_iff₀ (by linarith)]
    norm_num
    linarith
  have r1 := roundQ_rel_error hx
  rw [abs_of_pos x0, e24] at r1
  set s := roundQ ((c : ℚ) / b) with hs
  have s0 : 0 < s := lt_of_lt_of_le (pow2_pos _) s1
  have y0 : (0 : ℚ) < (a : ℚ) / s := by positivity
  have hy : pow2 (-126) ≤ |(a : ℚ) / s| := by
    rw [abs_of_pos y0]
    refine le_trans (pow2_le (by decide : (-126 : Int) ≤ -22)) ?_
    rw [le_div_iff₀ s0]
    have : pow2 (-22) * s ≤ pow2 (-22) * pow2 22 := mul_le_mul_of_nonneg_left s2 (le_of_lt (pow2_pos _))
    rw [← pow2_add] at this
    norm_num at this
    rw [pow2_zero] at this
    linarith
  have r2 := roundQ_rel_error hy
  rw [abs_of_pos y0, e24] at r2
  have r3 : |(a : ℚ) / s - (a : ℚ) * b / c| ≤ (a : ℚ) / s * (1 / 16777216) := by
    have e : (a : ℚ) / s - (a : ℚ) * b / c = (a : ℚ) / s * (((c : ℚ) / b - s) / ((c : ℚ) / b)) := by
      field_simp
    rw [e, abs_mul, abs_of_pos y0]
    apply mul_le_mul_of_nonneg_left _ (le_of_lt y0)
    rw [abs_div, abs_of_pos x0, div_le_iff₀ x0, abs_sub_comm]
    linarith
  have := abs_add_le (roundQ ((a : ℚ) / s) - (a : ℚ) / s) ((a : ℚ) / s - (a : ℚ) * b / c)
  rw [sub_add_sub_cancel] at this
  linarith

/-- The new size for a source that does not fit. -/
structure GoodSize (w h mw mh nw nh : Nat) : Prop where
  width_le : nw ≤ mw
  height_le : nh ≤ mh
  width_src : nw ≤ w
  height_src : nh ≤ h
  touches : nw = mw ∨ nh = mh
  aspect : (nh = mh ∧ |(nw : ℚ) - (w : ℚ) * mh / h| < 2) ∨ (nw = mw ∧ |(nh : ℚ) - (h : ℚ) * mw / w| < 2)

theorem floor_near {q t : ℚ} (h0 : 0 ≤ q) (h : |q - t| ≤ 3 / 4) : |((⌊q⌋.toNat : Nat) : ℚ) - t| < 2 := by
  have f1 := Int.floor_le q
  have f2 := Int.lt_floor_add_one q
  have e : ((⌊q⌋.toNat : Nat) : ℚ) = (⌊q⌋ : ℚ) := by
    have := Int.toNat_of_nonneg (Int.floor_nonneg.mpr h0)
    exact_mod_cast congrArg (Int.cast : Int → ℚ) this
  rw [e]
  rw [abs_le] at h
  rw [abs_lt]
  constructor <;> linarith

theorem floor_toNat_le {q : ℚ} {n : Nat} (h : q < n + 1) : ⌊q⌋.toNat ≤ n := by
  rw [Int.toNat_le]
  have : ⌊q⌋ < (n : Int) + 1 := Int.floor_lt.mpr (by push_cast; exact h)
  omega

theorem targetSize_small {w h mw mh : Nat} (hw0 : 0 < w) (hw : w ≤ 2 ^ 22) (hh0 : 0 < h) (hh : h ≤ 2 ^ 22)
    (hmw0 : 0 < mw) (hmw : mw ≤ 2 ^ 22) (hmh0 : 0 < mh) (hmh : mh ≤ 2 ^ 22) :
    ∃ s nw nh, targetSize w h mw mh = (.fin s, nw, nh) ∧ (1 < s ↔ (mw < w ∨ mh < h)) ∧
      (1 < s → GoodSize w h mw mh nw nh ∧ (h ≤ w * mh → 0 < nw) ∧ (w ≤ h * mw → 0 < nh)) := by
  obtain ⟨ex, x1, x2⟩ := ratio_fin hw0 hw hmw0 hmw
  obtain ⟨ey, y1, y2⟩ := ratio_fin hh0 hh hmh0 hmh
  have ox := one_lt_round hw hmw0
  have oy := one_lt_round hh hmh0
  have qw0 : (0 : ℚ) < w := by exact_mod_cast hw0
  have qh0 : (0 : ℚ) < h := by exact_mod_cast hh0
  have qmw0 : (0 : ℚ) < mw := by exact_mod_cast hmw0
  have qmh0 : (0 : ℚ) < mh := by exact_mod_cast hmh0
  have rx := roundQ_repr ((w : ℚ) / mw)
  have ry := roundQ_repr ((h : ℚ) / mh)
  unfold targetSize
  rw [if_neg (by omega), ex, ey]
  simp only [F32.lt, decide_eq_true_eq]
  by_cases hlt : roundQ ((w : ℚ) / mw) < roundQ ((h : ℚ) / mh)
  · rw [if_pos hlt, quotient_floor hw0 hw y1 y2]
    have ys0 : 0 < roundQ ((h : ℚ) / mh) := lt_of_lt_of_le (pow2_pos _) y1
    have hq : (w : ℚ) / roundQ ((h : ℚ) / mh) < mw := by
      have := lt_of_roundQ_lt ry hlt
      rw [div_lt_iff₀ qmw0] at this
      rw [div_lt_iff₀ ys0]
      linarith
    have hn : roundQ ((w : ℚ) / roundQ ((h : ℚ) / mh)) ≤ mw := roundQ_le_of_repr (repr32_nat (Nat.le_trans hmw (by decide))) (le_of_lt hq)
    have hn0 : 0 ≤ roundQ ((w : ℚ) / roundQ ((h : ℚ) / mh)) := roundQ_nonneg (by positivity)
    refine ⟨_, _, _, rfl, ?_, ?_⟩
    · constructor
      · intro h1; exact Or.inr (oy.mp h1)
      · rintro (h1 | h1)
        · exact lt_trans (ox.mpr h1) hlt
        · exact oy.mpr h1
    · intro h1
      have hmhh := oy.mp h1
      have hw' : roundQ ((w : ℚ) / roundQ ((h : ℚ) / mh)) ≤ w := roundQ_le_of_repr (repr32_nat (Nat.le_trans hw (by decide))) (by
        rw [div_le_iff₀ ys0]; nlinarith)
      refine ⟨⟨floor_toNat_le (by linarith), le_refl _, floor_toNat_le (by linarith), by omega, Or.inr rfl, Or.inl ⟨rfl, ?_⟩⟩, ?_, fun _ => hmh0⟩
      · exact floor_near hn0 (quotient_bounds hw0 hmh0 hmh hh0 hh hmw (by linarith))
      · intro hasp
        have : roundQ ((h : ℚ) / mh) ≤ w := roundQ_le_of_repr (repr32_nat (Nat.le_trans hw (by decide))) (by
          rw [div_le_iff₀ qmh0]; exact_mod_cast hasp)
        have h2 : 1 ≤ roundQ ((w : ℚ) / roundQ ((h : ℚ) / mh)) := le_roundQ_of_repr (by rw [← pow2_zero]; exact repr32_pow2 (by decide)) (by
          rw [le_div_iff₀ ys0]; linarith)
        have h3 : (1 : Int) ≤ ⌊roundQ ((w : ℚ) / roundQ ((h : ℚ) / mh))⌋ := Int.le_floor.mpr (by push_cast; exact h2)
        omega
  · rw [if_neg hlt, quotient_floor hh0 hh x1 x2]
    have hle := not_lt.mp hlt
    have xs0 : 0 < roundQ ((w : ℚ) / mw) := lt_of_lt_of_le (pow2_pos _) x1
    have e24 : pow2 (-24) = 1 / 16777216 := by rw [pow2_eq]; norm_num
    have qmh2 : (mh : ℚ) ≤ 4194304 := by exact_mod_cast hmh
    have hxr : (h : ℚ) / mh * (1 - 1 / 16777216) ≤ roundQ ((w : ℚ) / mw) := by
      have hxx : pow2 (-126) ≤ |(h : ℚ) / mh| := by
        rw [abs_of_pos (by positivity)]
        refine le_trans (pow2_le (by decide : (-126 : Int) ≤ -22)) ?_
        rw [pow2_eq, le_div_iff₀ (by linarith)]
        have : (1 : ℚ) ≤ h := by exact_mod_cast hh0
        norm_num
        linarith
      have r1 := roundQ_rel_error hxx
      rw [abs_of_pos (by positivity : (0 : ℚ) < (h : ℚ) / mh), e24, abs_le] at r1
      linarith [r1.1]
    have hq : (h : ℚ) / roundQ ((w : ℚ) / mw) ≤ mh + 1 / 2 := by
      rw [div_le_iff₀ xs0]
      have h1 : (mh + 1 / 2) * ((h : ℚ) / mh * (1 - 1 / 16777216)) ≤ (mh + 1 / 2) * roundQ ((w : ℚ) / mw) :=
        mul_le_mul_of_nonneg_left hxr (by positivity)
      have h2 : (mh + 1 / 2) * ((h : ℚ) / mh * (1 - 1 / 16777216)) = (h : ℚ) + ((h : ℚ) / mh) * (1 / 2 - (mh + 1 / 2) / 16777216) := by
        field_simp; ring
      have h3 : (0 : ℚ) ≤ ((h : ℚ) / mh) * (1 / 2 - (mh + 1 / 2) / 16777216) := mul_nonneg (by positivity) (by linarith)
      linarith
    have hn : roundQ ((h : ℚ) / roundQ ((w : ℚ) / mw)) ≤ mh + 1 / 2 := roundQ_le_of_repr (half_repr hmh) hq
    have hn0 : 0 ≤ roundQ ((h : ℚ) / roundQ ((w : ℚ) / mw)) := roundQ_nonneg (by positivity)
    refine ⟨_, _, _, rfl, ?_, ?_⟩
    · constructor
      · intro h1; exact Or.inl (ox.mp h1)
      · rintro (h1 | h1)
        · exact ox.mpr h1
        · exact lt_of_lt_of_le (oy.mpr h1) hle
    · intro h1
      have hmww := ox.mp h1
      have hh' : roundQ ((h : ℚ) / roundQ ((w : ℚ) / mw)) ≤ h := roundQ_le_of_repr (repr32_nat (Nat.le_trans hh (by decide))) (by
        rw [div_le_iff₀ xs0]; nlinarith)
      refine ⟨⟨le_refl _, floor_toNat_le (by linarith), by omega, floor_toNat_le (by linarith), Or.inl rfl, Or.inr ⟨rfl, ?_⟩⟩, fun _ => hmw0, ?_⟩
      · exact floor_near hn0 (quotient_bounds hh0 hmw0 hmw hw0 hw hmh hq)
      · intro hasp
        have : roundQ ((w : ℚ) / mw) ≤ h := roundQ_le_of_repr (repr32_nat (Nat.le_trans hh (by decide))) (by
          rw [div_le_iff₀ qmw0]; exact_mod_cast hasp)
        have h2 : 1 ≤ roundQ ((h : ℚ) / roundQ ((w : ℚ) / mw)) := le_roundQ_of_repr (by rw [← pow2_zero]; exact repr32_pow2 (by decide)) (by
          rw [le_div_iff₀ xs0]; linarith)
        have h3 : (1 : Int) ≤ ⌊roundQ ((h : ℚ) / roundQ ((w : ℚ) / mw))⌋ := Int.le_floor.mpr (by push_cast; exact h2)
        omega

/-- A limit beyond every supported size. -/
theorem ratio_big {a b : Nat} (ha0 : 0 < a) (ha : a ≤ 2 ^ 22) (hb : 2 ^ 22 < b) (hb2 : b < 2 ^ 64) :
    ∃ x, (F32.ofNat a).div (F32.ofNat b) = .fin x ∧ 0 < x ∧ x ≤ 1 := by
  have a1 : (1 : ℚ) ≤ a := by exact_mod_cast ha0
  have a2 : (a : ℚ) ≤ 4194304 := by exact_mod_cast ha
  have p1 : pow2 22 = 4194304 := by rw [pow2_eq]; norm_num
  have p2 : pow2 64 = 18446744073709551616 := by rw [pow2_eq]; norm_num
  have b1 : pow2 22 ≤ roundQ (b : ℚ) := le_roundQ_of_repr (repr32_pow2 (by decide)) (by
    rw [p1]; exact_mod_cast le_of_lt hb)
  have b2 : roundQ (b : ℚ) ≤ pow2 64 := roundQ_le_of_repr (repr32_pow2 (by decide)) (by
    rw [p2]; exact_mod_cast le_of_lt hb2)
  have eb : F32.ofNat b = .fin (roundQ b) := F32.ofRat_pos (lt_of_lt_of_le (pow2_pos _) b1) (lt_of_le_of_lt b2 (pow2_lt (by decide)))
  have b0 : 0 < roundQ (b : ℚ) := lt_of_lt_of_le (pow2_pos _) b1
  have q1 : pow2 (-64) ≤ roundQ ((a : ℚ) / roundQ b) := le_roundQ_of_repr (repr32_pow2 (by decide)) (by
    rw [le_div_iff₀ b0]
    have : pow2 (-64) * roundQ (b : ℚ) ≤ pow2 (-64) * pow2 64 := mul_le_mul_of_nonneg_left b2 (le_of_lt (pow2_pos _))
    rw [← pow2_add] at this
    norm_num at this
    rw [pow2_zero] at this
    linarith)
  have q2 : roundQ ((a : ℚ) / roundQ b) ≤ 1 := roundQ_le_of_repr (by rw [← pow2_zero]; exact repr32_pow2 (by decide)) (by
    rw [div_le_one b0]; rw [p1] at b1; linarith)
  refine ⟨roundQ ((a : ℚ) / roundQ b), ?_, lt_of_lt_of_le (pow2_pos _) q1, q2⟩
  rw [F32.ofNat_pos ha0 (Nat.le_trans ha (by decide)), eb]
  simp only [F32.div]
  exact round_pos (lt_of_lt_of_le (pow2_pos _) q1) (by rw [F32.pow2_128]; linarith)

/-- One side limited, the other free: the rounded quotient is at most the source. -/
theorem one_side {a b c : Nat} (ha0 : 0 < a) (ha : a ≤ 2 ^ 22) (hb0 : 0 < b) (hb : b ≤ 2 ^ 22) (hc0 : 0 < c) (hc : c ≤ 2 ^ 22)
    (h1 : 1 < roundQ ((c : ℚ) / b)) :
    ⌊roundQ ((a : ℚ) / roundQ ((c : ℚ) / b))⌋.toNat ≤ a ∧
    |((⌊roundQ ((a : ℚ) / roundQ ((c : ℚ) / b))⌋.toNat : Nat) : ℚ) - (a : ℚ) * b / c| < 2 ∧
    (c ≤ a * b → 0 < ⌊roundQ ((a : ℚ) / roundQ ((c : ℚ) / b))⌋.toNat) := by
  have qa0 : (0 : ℚ) < a := by exact_mod_cast ha0
  have qb0 : (0 : ℚ) < b := by exact_mod_cast hb0
  have s0 : 0 < roundQ ((c : ℚ) / b) := by linarith
  have hle : (a : ℚ) / roundQ ((c : ℚ) / b) ≤ a := by rw [div_le_iff₀ s0]; nlinarith
  have hn : roundQ ((a : ℚ) / roundQ ((c : ℚ) / b)) ≤ a := roundQ_le_of_repr (repr32_nat (Nat.le_trans ha (by decide))) hle
  have hn0 : 0 ≤ roundQ ((a : ℚ) / roundQ ((c : ℚ) / b)) := roundQ_nonneg (by positivity)
  refine ⟨floor_toNat_le (by linarith), floor_near hn0 (quotient_bounds ha0 hb0 hb hc0 hc ha (by linarith)), ?_⟩
  intro hasp
  have : roundQ ((c : ℚ) / b) ≤ a := roundQ_le_of_repr (repr32_nat (Nat.le_trans ha (by decide))) (by
    rw [div_le_iff₀ qb0]; exact_mod_cast hasp)
  have h2 : 1 ≤ roundQ ((a : ℚ) / roundQ ((c : ℚ) / b)) := le_roundQ_of_repr (by rw [← pow2_zero]; exact repr32_pow2 (by decide)) (by
    rw [le_div_iff₀ s0]; linarith)
  have h3 : (1 : Int) ≤ ⌊roundQ ((a : ℚ) / roundQ ((c : ℚ) / b))⌋ := Int.le_floor.mpr (by push_cast; exact h2)
  omega

theorem targetSize_spec {w h mw mh : Nat} (hw0 : 0 < w) (hw : w ≤ 2 ^ 22) (hh0 : 0 < h) (hh : h ≤ 2 ^ 22)
    (hmw0 : 0 < mw) (hmw : mw < 2 ^ 64) (hmh0 : 0 < mh) (hmh : mh < 2 ^ 64) :
    ∃ s nw nh, targetSize w h mw mh = (.fin s, nw, nh) ∧ (1 < s ↔ (mw < w ∨ mh < h)) ∧
      (1 < s → GoodSize w h mw mh nw nh ∧ (h ≤ w * mh → 0 < nw) ∧ (w ≤ h * mw → 0 < nh)) := by
  by_cases cw : mw ≤ 2 ^ 22
  · by_cases ch : mh ≤ 2 ^ 22
    · exact targetSize_small hw0 hw hh0 hh hmw0 cw hmh0 ch
    · obtain ⟨ex, x1, x2⟩ := ratio_fin hw0 hw hmw0 cw
      obtain ⟨y, ey, y0, y1⟩ := ratio_big hh0 hh (by omega) hmh
      have ox := one_lt_round hw hmw0
      unfold targetSize
      rw [if_neg (by omega), ex, ey]
      simp only [F32.lt, decide_eq_true_eq]
      by_cases hlt : roundQ ((w : ℚ) / mw) < y
      · rw [if_pos hlt]
        refine ⟨_, _, _, rfl, ⟨fun h => absurd h (not_lt.mpr y1), ?_⟩, fun h => absurd h (not_lt.mpr y1)⟩
        rintro (h1 | h1)
        · have := ox.mpr h1; linarith
        · omega
      · rw [if_neg hlt, quotient_floor hh0 hh x1 x2]
        refine ⟨_, _, _, rfl, ⟨fun h => Or.inl (ox.mp h), ?_⟩, fun h1 => ?_⟩
        · rintro (h1 | h1)
          · exact ox.mpr h1
          · omega
        · have hmww := ox.mp h1
          obtain ⟨a1, a2, a3⟩ := one_side hh0 hh hmw0 cw hw0 hw h1
          exact ⟨⟨le_refl _, by omega, by omega, a1, Or.inl rfl, Or.inr ⟨rfl, a2⟩⟩, fun _ => hmw0, a3⟩
  · obtain ⟨x, ex, x0, x1⟩ := ratio_big hw0 hw (by omega) hmw
    by_cases ch : mh ≤ 2 ^ 22
    · obtain ⟨ey, y1, y2⟩ := ratio_fin hh0 hh hmh0 ch
      have oy := one_lt_round hh hmh0
      unfold targetSize
      rw [if_neg (by omega), ex, ey]
      simp only [F32.lt, decide_eq_true_eq]
      by_cases hlt : x < roundQ ((h : ℚ) / mh)
      · rw [if_pos hlt, quotient_floor hw0 hw y1 y2]
        refine ⟨_, _, _, rfl, ⟨fun h => Or.inr (oy.mp h), ?_⟩, fun h1 => ?_⟩
        · rintro (h1 | h1)
          · omega
          · exact oy.mpr h1
        · have hmhh := oy.mp h1
          obtain ⟨a1, a2, a3⟩ := one_side hw0 hw hmh0 ch hh0 hh h1
          exact ⟨⟨by omega, le_refl _, a1, by omega, Or.inr rfl, Or.inl ⟨rfl, a2⟩⟩, a3, fun _ => hmh0⟩
      · rw [if_neg hlt]
        refine ⟨_, _, _, rfl, ⟨fun h => absurd h (not_lt.mpr x1), ?_⟩, fun h => absurd h (not_lt.mpr x1)⟩
        rintro (h1 | h1)
        · omega
        · have := oy.mpr h1; linarith
    · obtain ⟨y, ey, y0, y1⟩ := ratio_big hh0 hh (by omega) hmh
      unfold targetSize
      rw [if_neg (by omega), ex, ey]
      simp only [F32.lt, decide_eq_true_eq]
      split
      · exact ⟨_, _, _, rfl, ⟨fun h => absurd h (not_lt.mpr y1), by rintro (h1 | h1) <;> omega⟩, fun h => absurd h (not_lt.mpr y1)⟩
      · exact ⟨_, _, _, rfl, ⟨fun h => absurd h (not_lt.mpr x1), by rintro (h1 | h1) <;> omega⟩, fun h => absurd h (not_lt.mpr x1)⟩

/-! ## Concrete sizes -/

/-- 6000 by 4000 into 800 by 800. -/
example : (targetSize 6000 4000 800 800).2 = (800, 533) := by decide +kernel
/-- 4000 by 6000 into 100 by 100. -/
example : (targetSize 4000 6000 100 100).2 = (66, 100) := by decide +kernel
/-- A limit on the height only. -/
example : (targetSize 6000 4000 (2 ^ 64 - 1) 1000).2 = (1500, 1000) := by decide +kernel

end Props

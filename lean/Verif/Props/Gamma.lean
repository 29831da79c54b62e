import Verif.Lemmas.Process
import Mathlib.Tactic.Linarith
import Mathlib.Tactic.NormNum
import Mathlib.Algebra.Order.Round
/-!
# Properties C40 and C53: the lookup tables of the gamma and Lab conversions, the range of the output
-/

namespace Props
open Rust Spec Model

/-! ## The index -/

theorem ofNat_steps : F32.ofNat tableSteps = .fin 65536 := by
  rw [F32.ofNat_pos (by decide) (by decide)]; norm_num

theorem lit_zero : lit 0 = .zero false := F32.ofRat_zero

theorem toUsize_le {x : F32} {n : Nat} (h : ∀ q, x = .fin q → q ≤ n) (hinf : x ≠ .inf false) : x.toUsize ≤ n := by
  unfold F32.toUsize F32.toUnsigned
  cases x with
  | nan => exact Nat.zero_le _
  | inf s => cases s <;> simp_all
  | zero s => exact Nat.zero_le _
  | fin q =>
    simp only
    split
    · exact Nat.zero_le _
    · refine Nat.le_trans (Nat.min_le_left _ _) ?_
      rw [ratFloor_eq, Int.toNat_le]
      have := Int.floor_le_floor (h q rfl)
      simpa using this

theorem min_fin_le (x : F32) (m : ℚ) : (∀ q, x.min (.fin m) = .fin q → q ≤ m) ∧ x.min (.fin m) ≠ .inf false := by
  cases x with
  | nan => simp [F32.min]
  | inf s => cases s <;> simp [F32.min, F32.lt]
  | zero s =>
    simp only [F32.min, F32.lt, decide_eq_true_eq]
    split <;> simp
  | fin p =>
    simp only [F32.min, F32.lt, decide_eq_true_eq]
    split
    · simp
    · rename_i h
      simp
      exact le_of_not_gt h

/-- **C40.** Whatever the value is, the index lies inside the table of 65537 entries. -/
theorem gamma_index_in_table (v : F32) : gammaIndex v ≤ 65536 := by
  unfold gammaIndex
  rw [ofNat_steps]
  obtain ⟨h1, h2⟩ := min_fin_le ((v.max (lit 0)).mul (.fin 65536)) 65536
  exact toUsize_le (fun q hq => by have := h1 q hq; exact_mod_cast this) h2

theorem repr32_mul_pow2 {q : ℚ} (h : Repr32 q) {k : Int} (hk : 0 ≤ k) : Repr32 (q * pow2 k) := by
  obtain ⟨m, e, h1, h2, h3⟩ := h
  exact ⟨m, e + k, by rw [h1, pow2_add, mul_assoc], h2, by omega⟩

theorem valid_repr {q : ℚ} (h : (F32.fin q).Valid) : Repr32 q := by
  have := roundQ_repr q
  rwa [h.2.1] at this

theorem pow2_16 : pow2 16 = 65536 := by rw [pow2_eq]; norm_num

theorem zero_index (s : Bool) : (((F32.zero s).mul (.fin 65536)).min (.fin 65536)).toUsize = 0 := by
  cases s <;> decide +kernel

theorem toUsize_steps : (F32.fin 65536).toUsize = 65536 := by decide +kernel

theorem index_finite {q : ℚ} (hv : (F32.fin q).Valid) : gammaIndex (.fin q) = ⌊max 0 (min q 1) * 65536⌋.toNat := by
  unfold gammaIndex
  rw [ofNat_steps, lit_zero]
  by_cases hneg : q < 0
  · have : (F32.fin q).max (.zero false) = .zero false := by simp [F32.max, F32.lt, hneg]
    rw [this, min_eq_left (by linarith), max_eq_left (le_of_lt hneg)]
    rw [zero_index]; norm_num
  · have h0 : 0 ≤ q := not_lt.mp hneg
    have hpos : 0 < q := lt_of_le_of_ne h0 (Ne.symm hv.1)
    have : (F32.fin q).max (.zero false) = .fin q := by simp [F32.max, F32.lt, hneg]
    rw [this]
    have hr : roundQ (q * 65536) = q * 65536 := by
      apply roundQ_of_repr
      rw [← pow2_16]
      exact repr32_mul_pow2 (valid_repr hv) (by decide)
    have hne : q * 65536 ≠ 0 := by positivity
    have hmul : (F32.fin q).mul (.fin 65536) = if pow2 128 ≤ q * 65536 then .inf false else .fin (q * 65536) := by
      simp only [F32.mul, F32.round]
      rw [if_neg hne, hr, if_neg hne, ratAbs_eq, abs_of_nonneg (by positivity)]
      simp only [show decide (q * 65536 < 0) = false from decide_eq_false (not_lt.mpr (by positivity))]
    rw [hmul]
    by_cases h1 : 1 ≤ q
    · rw [min_eq_right h1, max_eq_right (by norm_num : (0 : ℚ) ≤ 1)]
      have hfl : ⌊(1 : ℚ) * 65536⌋.toNat = 65536 := by norm_num; rfl
      rw [hfl]
      have h65 : (F32.fin 65536).toUsize = 65536 := toUsize_steps
      split
      · simpa [F32.min, F32.lt] using h65
      · simp only [F32.min, F32.lt, decide_eq_true_eq]
        split
        · exact h65
        · have : q = 1 := by linarith
          subst this
          norm_num at h65 ⊢
          exact h65
    · have h1' : q < 1 := not_le.mp h1
      rw [if_neg (by rw [F32.pow2_128]; linarith), min_eq_left (le_of_lt h1'), max_eq_right h0]
      simp only [F32.min, F32.lt, decide_eq_true_eq]
      rw [if_neg (by linarith)]
      exact F32.toUsize_fin (by positivity) (by linarith)

/-- The index is exactly the value, limited to 0..1, in units of the table: multiplying by 65536 loses nothing. A NaN selects
the first entry. -/
theorem gamma_index_exact (v : F32) (hv : v.Valid) :
    gammaIndex v = match v with
      | .nan => 0
      | .inf neg => if neg then 0 else 65536
      | .zero _ => 0
      | .fin q => ⌊max 0 (min q 1) * 65536⌋.toNat := by
  cases v with
  | nan => unfold gammaIndex; rw [ofNat_steps, lit_zero]; exact zero_index false
  | inf s =>
    unfold gammaIndex; rw [ofNat_steps, lit_zero]
    cases s
    · have h65 : (F32.fin 65536).toUsize = 65536 := toUsize_steps
      simpa [F32.max, F32.lt, F32.mul, F32.signBit, F32.min] using h65
    · exact zero_index false
  | zero s =>
    unfold gammaIndex; rw [ofNat_steps, lit_zero]
    cases s <;> exact zero_index _
  | fin q => exact index_finite hv

example : gammaIndex (.fin (1 / 2)) = 32768 ∧ gammaIndex (.fin (-7)) = 0 ∧ gammaIndex (.fin (pow2 100)) = 65536 := by decide +kernel
example : gammaIndex .nan = 0 ∧ gammaIndex (.inf false) = 65536 := by decide +kernel

theorem gammaLookup_length (m : Libm) : (gammaLookup m).length = 65537 := by
  unfold gammaLookup; rw [List.length_map, List.length_range]

theorem gammaLookup_idx (m : Libm) {i : Nat} (h : i ≤ 65536) : idx (gammaLookup m) i = .ok (gammaEntry m i) := by
  unfold gammaLookup
  exact idx_map_range _ (Nat.lt_succ_of_le h)

theorem gamma_ofPix (m : Libm) {w h k : Nat} (hw : 0 < w) (hk : 0 < k) (p : Nat → Nat → Nat → F32) :
    gamma m (ofPix w h k p) = .ok (ofPix w h k (fun r c ch => gammaEntry m (gammaIndex (p r c ch)))) := by
  unfold gamma
  apply mutateLines_ofPix hw hk
  intro r _
  have e : ∀ q : Nat → Nat → F32, pixLine w k q = pixLine (w * k) 1 (fun i _ => q (i / k) (i % k)) := by
    intro q
    unfold pixLine
    rw [Nat.mul_one]
    apply List.map_congr_left
    intro i _
    rw [Nat.div_one]
  rw [e, e]
  apply mapChunks_pix (by decide)
  intro c _
  simp only [List.range_one, List.map_cons, List.map_nil, idx, List.getElem?_cons_zero, ok_bind]
  have := gammaLookup_idx m (gamma_index_in_table (p r (c / k) (c % k)))
  unfold idx at this
  rw [this, ok_bind]
  rfl

/-- **C40.** The gamma stage succeeds for every image with at least one column, whatever the values are, keeps the size, and each
output value is the table entry for the input value at the same place. -/
theorem gamma_total (m : Libm) (buf : OpBuffer F32) (hwf : buf.wf) (hw : 0 < buf.width) (hk : 0 < buf.colors) :
    ∃ out, gamma m buf = .ok out ∧ out.width = buf.width ∧ out.height = buf.height ∧ out.colors = buf.colors ∧ out.wf ∧
      ∀ r c ch v, r < buf.height → c < buf.width → ch < buf.colors → buf.at? r c ch = some v →
        out.at? r c ch = some (gammaEntry m (gammaIndex v)) := by
  have e := wf_eq_ofPix (F32.zero false) buf hwf
  refine ⟨_, (congrArg (gamma m) e).trans (gamma_ofPix m hw hk _), rfl, rfl, rfl, ofPix_wf _ _ _ _, ?_⟩
  intro r c ch v h1 h2 h3 hv
  rw [ofPix_at h1 h2 h3, hv, Option.getD_some]

/-! ## The range of the output -/

/-- What is asked of the platform's `powf(v, 0.45)` for the arguments the table uses, above 0.018 and at most 1: finite, between
0.1638 and 1 (the exact values lie between 0.1640 and 1). -/
def PowRange (m : Libm) : Prop :=
  ∀ q : ℚ, (F32.fin q).Valid → (lit (18 / 1000)).lt (.fin q) = true → q ≤ 1 →
    ∃ r, m.powf (.fin q) (lit (45 / 100)) = .fin r ∧ 1638 / 10000 ≤ r ∧ r ≤ 1

/-- It does not decrease. -/
def PowMono (m : Libm) : Prop :=
  ∀ q q' r r' : ℚ, (F32.fin q).Valid → (F32.fin q').Valid → (lit (18 / 1000)).lt (.fin q) = true → q ≤ q' → q' ≤ 1 →
    m.powf (.fin q) (lit (45 / 100)) = .fin r → m.powf (.fin q') (lit (45 / 100)) = .fin r' → r ≤ r'

theorem repr32_step {i : Nat} (h : i ≤ 65536) : Repr32 ((i : ℚ) / 65536) :=
  ⟨i, -16, by rw [pow2_eq]; push_cast; norm_num; ring, by
    rw [Nat.abs_cast]; exact_mod_cast Nat.le_trans h (by decide), by decide⟩

theorem step_eq {i : Nat} (h0 : 0 < i) (h : i ≤ 65536) : (F32.ofNat i).div (F32.ofNat tableSteps) = .fin ((i : ℚ) / 65536) := by
  rw [F32.div_ofNat (Nat.le_trans h (by decide)) (by decide) (by decide)]
  have hi : (0 : ℚ) < i := by exact_mod_cast h0
  have hi' : (i : ℚ) ≤ 65536 := by exact_mod_cast h
  have e : ((tableSteps : Nat) : ℚ) = 65536 := by norm_num
  rw [e]
  apply F32.ofRat_of_repr (repr32_step h) (by positivity)
  rw [abs_of_nonneg (by positivity), F32.pow2_128]
  rw [div_lt_iff₀ (by norm_num)]; linarith

theorem step_valid {i : Nat} (h0 : 0 < i) (h : i ≤ 65536) : (F32.fin ((i : ℚ) / 65536)).Valid := by
  have hi : (0 : ℚ) < i := by exact_mod_cast h0
  have hi' : (i : ℚ) ≤ 65536 := by exact_mod_cast h
  refine ⟨by positivity, roundQ_of_repr (repr32_step h), ?_⟩
  rw [ratAbs_eq, abs_of_nonneg (by positivity), F32.pow2_128, div_lt_iff₀ (by norm_num)]; linarith

theorem lit_018 : lit (18 / 1000) = .fin (2415919 / 134217728) := by decide +kernel
theorem lit_45 : lit (45 / 10) = .fin (9 / 2) := by decide +kernel
theorem lit_1099 : (lit 1).add (lit (99 / 1000)) = .fin (1152385 / 1048576) := by decide +kernel
theorem lit_099 : lit (99 / 1000) = .fin (13287555 / 134217728) := by decide +kernel

theorem round_pos {q : ℚ} (h0 : 0 < roundQ q) (h1 : roundQ q < pow2 128) : F32.round false q = .fin (roundQ q) := F32.ofRat_pos h0 h1

/-- The linear part. -/
theorem entry_low (m : Libm) {i : Nat} (h0 : 0 < i) (h : i ≤ 65536) (hl : (i : ℚ) / 65536 ≤ 2415919 / 134217728) :
    gammaEntry m i = .fin (roundQ (9 / 2 * ((i : ℚ) / 65536))) ∧ 0 ≤ roundQ (9 / 2 * ((i : ℚ) / 65536)) ∧
      roundQ (9 / 2 * ((i : ℚ) / 65536)) ≤ 2717909 / 33554432 := by
  have hi : (1 : ℚ) ≤ i := by exact_mod_cast h0
  have hlow : (1 : ℚ) / 65536 ≤ roundQ (9 / 2 * ((i : ℚ) / 65536)) := by
    apply le_roundQ_of_repr (by have := repr32_step (i := 1) (by decide); push_cast at this; exact this)
    rw [div_le_iff₀ (by norm_num)]
    have : 9 / 2 * ((i : ℚ) / 65536) * 65536 = 9 / 2 * i := by ring
    rw [this]; linarith
  have hhigh : roundQ (9 / 2 * ((i : ℚ) / 65536)) ≤ 2717909 / 33554432 := by
    have h1 : roundQ (9 / 2 * ((i : ℚ) / 65536)) ≤ roundQ (9 / 2 * (2415919 / 134217728)) := roundQ_mono (by linarith)
    have h2 : roundQ (9 / 2 * (2415919 / 134217728)) = 2717909 / 33554432 := by decide +kernel
    rwa [h2] at h1
  refine ⟨?_, le_trans (by norm_num) hlow, hhigh⟩
  unfold gammaEntry
  simp only
  rw [step_eq h0 h, lit_018, lit_45]
  have hle : (F32.fin ((i : ℚ) / 65536)).le (.fin (2415919 / 134217728)) = true := by
    simp only [F32.le, F32.lt, F32.feq, Bool.or_eq_true, decide_eq_true_eq]
    exact lt_or_eq_of_le hl
  rw [if_pos hle]
  simp only [F32.mul]
  apply round_pos (lt_of_lt_of_le (by norm_num) hlow)
  rw [F32.pow2_128]; linarith

/-- The curved part, with the power the platform computes. -/
theorem entry_high (m : Libm) {i : Nat} (h0 : 0 < i) (h : i ≤ 65536) (hl : ¬ (i : ℚ) / 65536 ≤ 2415919 / 134217728) (r : ℚ)
    (hr : m.powf (.fin ((i : ℚ) / 65536)) (lit (45 / 100)) = .fin r) (hr0 : 1638 / 10000 ≤ r) (hr1 : r ≤ 1) :
    gammaEntry m i = .fin (roundQ (roundQ (1152385 / 1048576 * r) - 13287555 / 134217728)) ∧
      2717909 / 33554432 ≤ roundQ (roundQ (1152385 / 1048576 * r) - 13287555 / 134217728) ∧
      roundQ (roundQ (1152385 / 1048576 * r) - 13287555 / 134217728) ≤ 1 := by
  have a1 : roundQ (1152385 / 1048576 * (1638 / 10000)) ≤ roundQ (1152385 / 1048576 * r) := roundQ_mono (by linarith)
  have a2 : roundQ (1152385 / 1048576 * r) ≤ roundQ (1152385 / 1048576 * 1) := roundQ_mono (by linarith)
  have e2 : roundQ (1152385 / 1048576 * 1) = 1152385 / 1048576 := by decide +kernel
  have e1 : (18 : ℚ) / 100 ≤ roundQ (1152385 / 1048576 * (1638 / 10000)) := by decide +kernel
  have b1 : roundQ (roundQ (1152385 / 1048576 * (1638 / 10000)) - 13287555 / 134217728) ≤
      roundQ (roundQ (1152385 / 1048576 * r) - 13287555 / 134217728) := roundQ_mono (by linarith)
  have b2 : roundQ (roundQ (1152385 / 1048576 * r) - 13287555 / 134217728) ≤ roundQ (1152385 / 1048576 - 13287555 / 134217728) :=
    roundQ_mono (by rw [e2] at a2; linarith)
  have e3 : roundQ (1152385 / 1048576 - 13287555 / 134217728) = 1 := by decide +kernel
  have e4 : (2717909 : ℚ) / 33554432 ≤ roundQ (roundQ (1152385 / 1048576 * (1638 / 10000)) - 13287555 / 134217728) := by decide +kernel
  rw [e3] at b2
  rw [e2] at a2
  have c1 := le_trans e4 b1
  refine ⟨?_, c1, b2⟩
  unfold gammaEntry
  simp only
  rw [step_eq h0 h, lit_018, lit_1099, lit_099, hr]
  have hle : ¬ (F32.fin ((i : ℚ) / 65536)).le (.fin (2415919 / 134217728)) = true := by
    simp only [F32.le, F32.lt, F32.feq, Bool.or_eq_true, decide_eq_true_eq]
    intro hh; exact hl (le_of_lt_or_eq hh)
  rw [if_neg hle]
  simp only [F32.mul]
  rw [round_pos (lt_of_lt_of_le (by norm_num) (le_trans e1 a1)) (by rw [F32.pow2_128]; linarith)]
  simp only [F32.sub, F32.neg, F32.add]
  rw [show roundQ (1152385 / 1048576 * r) + -(13287555 / 134217728) = roundQ (1152385 / 1048576 * r) - 13287555 / 134217728 by ring]
  exact round_pos (lt_of_lt_of_le (by norm_num) c1) (by rw [F32.pow2_128]; linarith)

theorem entry_zero (m : Libm) : gammaEntry m 0 = .zero false := by
  unfold gammaEntry
  simp only
  rw [ofNat_steps, F32.ofNat_zero, lit_018, lit_45]
  have h1 : (F32.zero false).div (.fin 65536) = .zero false := by decide +kernel
  rw [h1, if_pos (by decide +kernel)]
  decide +kernel

theorem high_lt {q : ℚ} (hl : ¬ q ≤ 2415919 / 134217728) : (lit (18 / 1000)).lt (.fin q) = true := by
  rw [lit_018]; simp only [F32.lt, decide_eq_true_eq]; exact not_le.mp hl

theorem step_le_one {i : Nat} (h : i ≤ 65536) : (i : ℚ) / 65536 ≤ 1 := by
  have : (i : ℚ) ≤ 65536 := by exact_mod_cast h
  rw [div_le_one (by norm_num)]; exact this

/-- **C53.** Every value written by the gamma stage is a number between 0 and 1, whatever the input was (negative, above 1,
infinite or NaN). -/
theorem gamma_range (m : Libm) (hm : PowRange m) (v : F32) :
    ∃ g, (gammaEntry m (gammaIndex v)).val? = some g ∧ 0 ≤ g ∧ g ≤ 1 := by
  have h := gamma_index_in_table v
  generalize gammaIndex v = i at h
  rcases Nat.eq_zero_or_pos i with h0 | h0
  · subst h0; rw [entry_zero]; exact ⟨0, rfl, le_refl _, by norm_num⟩
  · by_cases hl : (i : ℚ) / 65536 ≤ 2415919 / 134217728
    · obtain ⟨e, h1, h2⟩ := entry_low m h0 h hl
      rw [e]; exact ⟨_, rfl, h1, le_trans h2 (by norm_num)⟩
    · obtain ⟨r, hr, hr0, hr1⟩ := hm _ (step_valid h0 h) (high_lt hl) (step_le_one h)
      obtain ⟨e, h1, h2⟩ := entry_high m h0 h hl r hr hr0 hr1
      rw [e]; exact ⟨_, rfl, le_trans (by norm_num) h1, h2⟩

/-- The table does not decrease. -/
theorem entry_mono (m : Libm) (hm : PowRange m) (hmono : PowMono m) {i j : Nat} (hij : i ≤ j) (hj : j ≤ 65536) :
    ∃ a b, (gammaEntry m i).val? = some a ∧ (gammaEntry m j).val? = some b ∧ a ≤ b := by
  rcases Nat.eq_zero_or_pos i with h0 | h0
  · subst h0
    rw [entry_zero]
    rcases Nat.eq_zero_or_pos j with j0 | j0
    · subst j0; rw [entry_zero]; exact ⟨0, 0, rfl, rfl, le_refl _⟩
    · by_cases hl : (j : ℚ) / 65536 ≤ 2415919 / 134217728
      · obtain ⟨e, h1, h2⟩ := entry_low m j0 hj hl
        rw [e]; exact ⟨_, _, rfl, rfl, h1⟩
      · obtain ⟨r, hr, hr0, hr1⟩ := hm _ (step_valid j0 hj) (high_lt hl) (step_le_one hj)
        obtain ⟨e, h1, h2⟩ := entry_high m j0 hj hl r hr hr0 hr1
        rw [e]; exact ⟨_, _, rfl, rfl, le_trans (by norm_num) h1⟩
  · have j0 : 0 < j := by omega
    have hi : i ≤ 65536 := by omega
    have hq : (i : ℚ) / 65536 ≤ (j : ℚ) / 65536 := by
      apply div_le_div_of_nonneg_right _ (by norm_num); exact_mod_cast hij
    by_cases li : (i : ℚ) / 65536 ≤ 2415919 / 134217728
    · obtain ⟨ei, i1, i2⟩ := entry_low m h0 hi li
      by_cases lj : (j : ℚ) / 65536 ≤ 2415919 / 134217728
      · obtain ⟨ej, j1, j2⟩ := entry_low m j0 hj lj
        rw [ei, ej]; exact ⟨_, _, rfl, rfl, roundQ_mono (by linarith)⟩
      · obtain ⟨r, hr, hr0, hr1⟩ := hm _ (step_valid j0 hj) (high_lt lj) (step_le_one hj)
        obtain ⟨ej, j1, j2⟩ := entry_high m j0 hj lj r hr hr0 hr1
        rw [ei, ej]; exact ⟨_, _, rfl, rfl, le_trans i2 j1⟩
    · have lj : ¬ (j : ℚ) / 65536 ≤ 2415919 / 134217728 := fun h => li (le_trans hq h)
      obtain ⟨r, hr, hr0, hr1⟩ := hm _ (step_valid h0 hi) (high_lt li) (step_le_one hi)
      obtain ⟨r', hr', hr0', hr1'⟩ := hm _ (step_valid j0 hj) (high_lt lj) (step_le_one hj)
      obtain ⟨ei, i1, i2⟩ := entry_high m h0 hi li r hr hr0 hr1
      obtain ⟨ej, j1, j2⟩ := entry_high m j0 hj lj r' hr' hr0' hr1'
      have hrr := hmono _ _ r r' (step_valid h0 hi) (step_valid j0 hj) (high_lt li) hq (step_le_one hj) hr hr'
      rw [ei, ej]
      refine ⟨_, _, rfl, rfl, roundQ_mono ?_⟩
      have := roundQ_mono (p := 1152385 / 1048576 * r) (q := 1152385 / 1048576 * r') (by linarith)
      linarith

/-- The index does not decrease with the value. -/
theorem index_mono (u v : F32) (hu : u.Valid) (hv : v.Valid) (h : u.le v = true) : gammaIndex u ≤ gammaIndex v := by
  rw [gamma_index_exact u hu, gamma_index_exact v hv]
  cases u with
  | nan => exact Nat.zero_le _
  | inf s =>
    cases s
    · cases v <;> simp_all [F32.le, F32.lt, F32.feq]
    · exact Nat.zero_le _
  | zero s => exact Nat.zero_le _
  | fin p =>
    cases v with
    | nan => simp [F32.le, F32.lt, F32.feq] at h
    | inf s =>
      cases s
      · have := gamma_index_in_table (.fin p)
        rwa [gamma_index_exact _ hu] at this
      · simp [F32.le, F32.lt, F32.feq] at h
    | zero s =>
      simp only [F32.le, F32.lt, F32.feq, Bool.or_false, decide_eq_true_eq] at h
      simp only
      rw [max_eq_left (le_trans (min_le_left _ _) (le_of_lt h))]
      norm_num
    | fin q =>
      simp only [F32.le, F32.lt, F32.feq, Bool.or_eq_true, decide_eq_true_eq] at h
      have hpq := le_of_lt_or_eq h
      simp only
      apply Int.toNat_le_toNat
      apply Int.floor_le_floor
      have : max 0 (min p 1) ≤ max 0 (min q 1) := max_le_max_left _ (min_le_min_right _ hpq)
      linarith

/-- **C53, order.** A brighter linear value never gives a darker output value. -/
theorem gamma_monotone (m : Libm) (hm : PowRange m) (hmono : PowMono m) (u v : F32) (hu : u.Valid) (hv : v.Valid) (h : u.le v = true) :
    ∃ a b, (gammaEntry m (gammaIndex u)).val? = some a ∧ (gammaEntry m (gammaIndex v)).val? = some b ∧ a ≤ b :=
  entry_mono m hm hmono (index_mono u v hu hv h) (gamma_index_in_table v)

/-- The hypotheses on `powf` can be met. -/
example : let m : Libm := ⟨id, fun _ _ => .fin 1⟩; PowRange m ∧ PowMono m := by
  refine ⟨fun q _ _ _ => ⟨1, rfl, by norm_num, le_refl _⟩, ?_⟩
  intro q q' r r' _ _ _ _ _ h1 h2
  cases h1; cases h2; exact le_refl _

/-- 0.01 is in the linear part: table entry 655 is 4.5 * 655 / 65536. -/
example (m : Libm) : gammaIndex (lit (1 / 100)) = 655 ∧ gammaEntry m 655 = .fin (5895 / 131072) := by
  refine ⟨by decide +kernel, ?_⟩
  rw [(entry_low m (by decide) (by decide) (by norm_num)).1]
  exact congrArg F32.fin (by decide +kernel)

/-! ## The Lab table -/

/-- **C40, cube roots.** The forward Lab function succeeds for every value, NaN and infinities included: values strictly between
0 and 1 index the table of 65537 entries, rounding included, all others do not use it. -/
theorem labf_total (m : Libm) (v : F32) : ∃ y, labf m v = .ok y := by
  unfold labf
  simp only
  split
  · split
    · rename_i h
      simp only [Bool.and_eq_true] at h
      obtain ⟨h1, h2⟩ := h
      have hle : (v.mul (F32.ofNat tableSteps)).toUsize ≤ 65536 := by
        rw [ofNat_steps]
        rw [lit_zero] at h1
        have hone : lit 1 = .fin 1 := by decide +kernel
        rw [hone] at h2
        cases v with
        | nan => simp [F32.lt] at h1
        | inf s => cases s <;> simp [F32.lt] at h1 h2
        | zero s => simp [F32.lt] at h1
        | fin q =>
          simp only [F32.lt, decide_eq_true_eq] at h1 h2
          have hr : roundQ (q * 65536) ≤ 65536 := roundQ_le_of_repr (by rw [← pow2_16]; exact repr32_pow2 (by decide)) (by linarith)
          have hr0 : 0 ≤ roundQ (q * 65536) := roundQ_nonneg (by positivity)
          apply toUsize_le
          · intro r
            simp only [F32.mul, F32.round]
            rw [if_neg (by positivity)]
            split
            · simp
            · split
              · simp
              · intro h; cases h; exact_mod_cast hr
          · simp only [F32.mul, F32.round]
            rw [if_neg (by positivity)]
            split
            · simp
            · rw [if_neg]
              · simp
              · rw [ratAbs_eq, abs_of_nonneg hr0, F32.pow2_128]; linarith
      exact ⟨_, idx_map_range _ (Nat.lt_succ_of_le hle)⟩
    · exact ⟨_, rfl⟩
  · exact ⟨_, rfl⟩

/-- The largest value below 1 uses the last but one entry. -/
example : let v := F32.fin (1 - pow2 (-24)); v.Valid ∧ (v.mul (F32.ofNat tableSteps)).toUsize = 65535 := by
  refine ⟨⟨by decide +kernel, by decide +kernel, by decide +kernel⟩, by decide +kernel⟩

end Props

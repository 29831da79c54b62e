import Verif.Model.Matrix
import Mathlib.Algebra.Order.Field.Basic
import Mathlib.Tactic.FieldSimp
import Mathlib.Tactic.Ring
import Mathlib.Tactic.Linarith
import Mathlib.Tactic.LinearCombination
import Mathlib.Tactic.IntervalCases
import Mathlib.Tactic.Positivity
/-!
# The matrix code over an exact field
-/

namespace Model
open Rust

/-- Exact arithmetic. -/
def fieldArith (K : Type) [Field K] [DecidableEq K] : Arith K where
  zero := 0
  one := 1
  add := (· + ·)
  sub := (· - ·)
  mul := (· * ·)
  div := (· / ·)
  neg := (- ·)
  isZero := fun x => decide (x = 0)

variable {α : Type}

/-- A loop over the columns of row `i` that changes each element on its own. -/
theorem pureLoop_row (i : Nat) (f : Nat → α → α) (n : Nat) (t : Mat α) :
    pureLoop (fun j (t : Mat α) => t.set i j (f j (t i j))) n t = fun r c => if r = i ∧ c < n then f c (t r c) else t r c := by
  induction n with
  | zero => simp [pureLoop]
  | succ n ih =>
    rw [pureLoop, ih]
    funext r c
    simp only [Mat.set]
    by_cases hr : r = i
    · subst hr
      by_cases hc : c = n
      · subst hc; simp
      · by_cases hlt : c < n
        · simp [hc, hlt, Nat.lt_succ_of_lt hlt]
        · have : ¬ c < n + 1 := by omega
          simp [hc, hlt, this]
    · simp [hr]

/-- A loop over the columns of row `k` that also reads another row. -/
theorem pureLoop_row2 (i k : Nat) (hik : k ≠ i) (f : Nat → α → α → α) (n : Nat) (t : Mat α) :
    pureLoop (fun j (t : Mat α) => t.set k j (f j (t k j) (t i j))) n t = fun r c => if r = k ∧ c < n then f c (t r c) (t i c) else t r c := by
  induction n with
  | zero => simp [pureLoop]
  | succ n ih =>
    rw [pureLoop, ih]
    funext r c
    simp only [Mat.set]
    by_cases hr : r = k
    · subst hr
      by_cases hc : c = n
      · subst hc; simp [Ne.symm hik]
      · by_cases hlt : c < n
        · simp [hc, hlt, Nat.lt_succ_of_lt hlt]
        · have : ¬ c < n + 1 := by omega
          simp [hc, hlt, this]
    · simp [hr]

section
variable {K : Type} [Field K] [DecidableEq K]

theorem pinvStep_eq (i : Nat) (t : Mat K) (r c : Nat) (hr : r < 3) (hc : c < 6) :
    pinvStep (fieldArith K) i t r c = if r = i then t i c / t i i else t r c - t i c / t i i * t r i := by
  unfold pinvStep
  simp only [fieldArith]
  rw [pureLoop_row i (fun _ x => x / t i i) 6 t]
  have inner : ∀ (n : Nat) (u : Mat K), pureLoop (fun k (temp : Mat K) =>
      if k = i then temp else pureLoop (fun j (temp' : Mat K) => temp'.set k j (temp' k j - temp' i j * temp k i)) 6 temp) n u =
      fun r c => if r < n ∧ r ≠ i ∧ c < 6 then u r c - u i c * u r i else u r c := by
    intro n u
    induction n with
    | zero => simp [pureLoop]
    | succ n ih =>
      rw [pureLoop, ih]
      by_cases hn : n = i
      · rw [if_pos hn]
        funext r c
        have : (r < n ∧ r ≠ i ∧ c < 6) ↔ (r < n + 1 ∧ r ≠ i ∧ c < 6) := by omega
        simp only [this]
      · rw [if_neg hn]
        rw [pureLoop_row2 i n hn (fun _ x y => x - y * (if n < n ∧ n ≠ i ∧ i < 6 then u n i - u i i * u n i else u n i))]
        funext r c
        simp only [Nat.lt_irrefl, false_and, if_false, ne_eq, not_true_eq_false, and_false]
        by_cases hrn : r = n
        · subst hrn
          by_cases hc6 : c < 6
          · simp [hc6, hn]
          · simp [hc6]
        · have : r < n + 1 ↔ r < n := by omega
          simp [hrn, this]
  rw [inner]
  by_cases hri : r = i
  · subst hri; simp [hc]
  · simp only [hri, ne_eq, not_false_eq_true, hc, and_true, true_and, hr, false_and, if_false, if_true]

/-- `G = inmᵀ inm`, the normal matrix. -/
def gram (a : Mat K) (i j : Nat) : K := a 0 i * a 0 j + a 1 i * a 1 j + a 2 i * a 2 j + a 3 i * a 3 j

theorem pinvSetup_eq (a : Mat K) (r c : Nat) (hr : r < 3) (hc : c < 6) :
    pinvSetup (fieldArith K) a r c = if c < 3 then gram a r c else if c = r + 3 then 1 else 0 := by
  have hadd : ∀ (i j n : Nat) (t : Mat K), pureLoop (fun k (t : Mat K) => t.set i j (t i j + a k i * a k j)) n t =
      fun r c => if r = i ∧ c = j then t r c + pureLoop (fun k s => s + a k i * a k j) n 0 else t r c := by
    intro i j n t
    induction n with
    | zero => funext r c; simp [pureLoop]
    | succ n ih =>
      rw [pureLoop, ih]
      funext r c
      simp only [Mat.set, pureLoop]
      by_cases h : r = i ∧ c = j
      · obtain ⟨rfl, rfl⟩ := h
        simp [add_assoc]
      · simp [h]
  have hcol : ∀ (i n : Nat) (t : Mat K), pureLoop (fun j (t : Mat K) => pureLoop (fun k (t : Mat K) => t.set i j (t i j + a k i * a k j)) 4 t) n t =
      fun r c => if r = i ∧ c < n then t r c + gram a i c else t r c := by
    intro i n t
    induction n with
    | zero => funext r c; simp [pureLoop]
    | succ n ih =>
      rw [pureLoop, ih, hadd]
      funext r c
      by_cases hri : r = i
      · subst hri
        by_cases hcn : c = n
        · subst hcn
          simp [pureLoop, gram]
        · have : c < n + 1 ↔ c < n := by omega
          simp [hcn, this]
      · simp [hri]
  have hrow : ∀ n (t : Mat K), pureLoop (fun i (temp : Mat K) =>
      pureLoop (fun j (t : Mat K) => pureLoop (fun k (t : Mat K) => t.set i j (t i j + a k i * a k j)) 4 t) 3
        (pureLoop (fun j (temp : Mat K) => temp.set i j (if j = i + 3 then 1 else 0)) 6 temp)) n t =
      fun r c => if r < n ∧ c < 6 then (if c < 3 then gram a r c else if c = r + 3 then 1 else 0) else t r c := by
    intro n t
    induction n with
    | zero => simp [pureLoop]
    | succ n ih =>
      rw [pureLoop, ih, hcol, pureLoop_row n (fun j _ => if j = n + 3 then 1 else 0)]
      funext r c
      by_cases hrn : r = n
      · subst hrn
        by_cases h3 : c < 3
        · have h6 : c < 6 := by omega
          have hne : c ≠ r + 3 := by omega
          simp [h3, h6, hne]
        · by_cases h6 : c < 6
          · simp [h3, h6]
          · simp [h3, h6]
      · have : r < n + 1 ↔ r < n := by omega
        simp [hrn, this]
  have := congrFun (congrFun (hrow 3 (fun _ _ => 0)) r) c
  rw [if_pos ⟨hr, hc⟩] at this
  exact this

/-- An accumulation into one element. -/
theorem pureLoop_acc (i j : Nat) (g : Nat → K) (n : Nat) (t : Mat K) :
    pureLoop (fun k (t : Mat K) => t.set i j (t i j + g k)) n t =
      fun r c => if r = i ∧ c = j then t r c + pureLoop (fun k s => s + g k) n 0 else t r c := by
  induction n with
  | zero => funext r c; simp [pureLoop]
  | succ n ih =>
    rw [pureLoop, ih]
    funext r c
    simp only [Mat.set, pureLoop]
    by_cases h : r = i ∧ c = j
    · obtain ⟨rfl, rfl⟩ := h
      simp [add_assoc]
    · simp [h]

/-- A product loop that stores `Σ_k g i j k` in element `(i, j)`. -/
theorem pureLoop_product (g : Nat → Nat → Nat → K) (n m : Nat) (t : Mat K) :
    pureLoop (fun i (t : Mat K) => pureLoop (fun j (t : Mat K) =>
      pureLoop (fun k (t : Mat K) => t.set i j (t i j + g i j k)) 3 (t.set i j 0)) m t) n t =
    fun r c => if r < n ∧ c < m then g r c 0 + g r c 1 + g r c 2 else t r c := by
  have hin : ∀ (i : Nat) (m : Nat) (t : Mat K), pureLoop (fun j (t : Mat K) =>
      pureLoop (fun k (t : Mat K) => t.set i j (t i j + g i j k)) 3 (t.set i j 0)) m t =
      fun r c => if r = i ∧ c < m then g r c 0 + g r c 1 + g r c 2 else t r c := by
    intro i m t
    induction m with
    | zero => funext r c; simp [pureLoop]
    | succ m ih =>
      rw [pureLoop, ih, pureLoop_acc]
      funext r c
      by_cases hri : r = i
      · subst hri
        by_cases hcm : c = m
        · subst hcm; simp [Mat.set, pureLoop]
        · have : c < m + 1 ↔ c < m := by omega
          simp [Mat.set, hcm, this]
      · simp [Mat.set, hri]
  induction n with
  | zero => funext r c; simp [pureLoop]
  | succ n ih =>
    rw [pureLoop, ih, hin]
    funext r c
    by_cases hrn : r = n
    · subst hrn
      by_cases hc : c < m <;> simp [hc]
    · have : r < n + 1 ↔ r < n := by omega
      simp [hrn, this]

/-- The same with the roles of the loop variables exchanged, as in the last loop of `pseudoinverse`. -/
theorem pureLoop_product_swap (g : Nat → Nat → Nat → K) (n m : Nat) (t : Mat K) :
    pureLoop (fun i (t : Mat K) => pureLoop (fun j (t : Mat K) =>
      pureLoop (fun k (t : Mat K) => t.set j i (t j i + g j i k)) 3 (t.set j i 0)) m t) n t =
    fun r c => if c < n ∧ r < m then g r c 0 + g r c 1 + g r c 2 else t r c := by
  have hin : ∀ (i : Nat) (m : Nat) (t : Mat K), pureLoop (fun j (t : Mat K) =>
      pureLoop (fun k (t : Mat K) => t.set j i (t j i + g j i k)) 3 (t.set j i 0)) m t =
      fun r c => if c = i ∧ r < m then g r c 0 + g r c 1 + g r c 2 else t r c := by
    intro i m t
    induction m with
    | zero => funext r c; simp [pureLoop]
    | succ m ih =>
      rw [pureLoop, ih, pureLoop_acc]
      funext r c
      by_cases hri : c = i
      · subst hri
        by_cases hcm : r = m
        · subst hcm; simp [Mat.set, pureLoop]
        · have : r < m + 1 ↔ r < m := by omega
          simp [Mat.set, hcm, this]
      · simp [Mat.set, hri]
  induction n with
  | zero => funext r c; simp [pureLoop]
  | succ n ih =>
    rw [pureLoop, ih, hin]
    funext r c
    by_cases hrn : c = n
    · subst hrn
      by_cases hc : r < m <;> simp [hc]
    · have : c < n + 1 ↔ c < n := by omega
      simp [hrn, this]

theorem pseudoinverse_eq (a : Mat K) (r c : Nat) (hr : r < 3) (hc : c < 4) :
    pseudoinverse (fieldArith K) a r c =
      (let t := pureLoop (pinvStep (fieldArith K)) 3 (pinvSetup (fieldArith K) a)
       t r 3 * a c 0 + t r 4 * a c 1 + t r 5 * a c 2) := by
  have := pureLoop_product_swap (fun r c k => (pureLoop (pinvStep (fieldArith K)) 3 (pinvSetup (fieldArith K) a)) r (k + 3) * a c k) 4 3 (fun _ _ => 0)
  have h := congrFun (congrFun this r) c
  rw [if_pos ⟨hc, hr⟩] at h
  exact h

theorem rgbToCam_eq (x m : Mat K) (r c : Nat) (hr : r < 4) (hc : c < 3) :
    rgbToCam (fieldArith K) x m r c = x r 0 * m 0 c + x r 1 * m 1 c + x r 2 * m 2 c := by
  have := pureLoop_product (fun r c k => x r k * m k c) 4 3 (fun _ _ => 0)
  have h := congrFun (congrFun this r) c
  rw [if_pos ⟨hr, hc⟩] at h
  exact h

theorem camToXyz_eq (p m : Mat K) (w : Nat → K) (r c : Nat) (hr : r < 3) (hc : c < 4) :
    camToXyz (fieldArith K) p m w r c = p 0 c * m r 0 / w r + p 1 c * m r 1 / w r + p 2 c * m r 2 / w r := by
  have := pureLoop_product (fun r c k => p k c * m r k / w r) 3 4 (fun _ _ => 0)
  have h := congrFun (congrFun this r) c
  rw [if_pos ⟨hr, hc⟩] at h
  exact h

theorem normaliseCam_eq (m : Mat K) :
    (∀ r c, r < 4 → c < 3 → (normaliseCam (fieldArith K) m).1 r c =
      if m r 0 + m r 1 + m r 2 = 0 then 0 else m r c / (m r 0 + m r 1 + m r 2)) ∧
    (∀ r, r < 4 → (normaliseCam (fieldArith K) m).2 r = 1 / (m r 0 + m r 1 + m r 2)) := by
  have key : ∀ n, pureLoop (fun i (s : Mat K × (Nat → K)) =>
      let num := rowSum (fieldArith K) s.1 i
      let m := pureLoop (fun j (m : Mat K) => m.set i j (if (fieldArith K).isZero num then (fieldArith K).zero else (fieldArith K).div (m i j) num)) 3 s.1
      (m, fun r => if r = i then (fieldArith K).div (fieldArith K).one num else s.2 r)) n (m, fun _ => (fieldArith K).zero) =
      ((fun r c => if r < n ∧ c < 3 then (if m r 0 + m r 1 + m r 2 = 0 then 0 else m r c / (m r 0 + m r 1 + m r 2)) else m r c),
       (fun r => if r < n then 1 / (m r 0 + m r 1 + m r 2) else 0)) := by
    intro n
    induction n with
    | zero => simp [pureLoop, fieldArith]
    | succ n ih =>
      rw [pureLoop, ih]
      have hs : rowSum (fieldArith K) (fun r c => if r < n ∧ c < 3 then (if m r 0 + m r 1 + m r 2 = 0 then 0 else m r c / (m r 0 + m r 1 + m r 2)) else m r c) n
          = m n 0 + m n 1 + m n 2 := by
        simp [rowSum, pureLoop, fieldArith]
      simp only [fieldArith] at hs ⊢
      simp only [hs]
      rw [pureLoop_row n (fun _ x => if decide (m n 0 + m n 1 + m n 2 = 0) then 0 else x / (m n 0 + m n 1 + m n 2))]
      refine Prod.ext ?_ ?_
      · funext r c
        by_cases hrn : r = n
        · subst hrn
          by_cases hc : c < 3 <;> simp [hc]
        · have : r < n + 1 ↔ r < n := by omega
          simp [hrn, this]
      · funext r
        by_cases hrn : r = n
        · subst hrn; simp
        · have : r < n + 1 ↔ r < n := by omega
          simp [hrn, this]
  have h4 := key 4
  constructor
  · intro r c hr hc
    have := congrFun (congrFun (congrArg Prod.fst h4) r) c
    simp only [if_pos (And.intro hr hc)] at this
    exact this
  · intro r hr
    have := congrFun (congrArg Prod.snd h4) r
    simp only [if_pos hr] at this
    exact this

/-- The left half is the right half times the normal matrix. -/
def Linked (a : Mat K) (t : Mat K) : Prop :=
  ∀ r < 3, ∀ c < 3, t r c = t r 3 * gram a 0 c + t r 4 * gram a 1 c + t r 5 * gram a 2 c

theorem setup_linked (a : Mat K) : Linked a (pinvSetup (fieldArith K) a) := by
  intro r hr c hc
  rw [pinvSetup_eq a r c hr (by omega), pinvSetup_eq a r 3 hr (by omega), pinvSetup_eq a r 4 hr (by omega),
    pinvSetup_eq a r 5 hr (by omega), if_pos hc]
  interval_cases r <;> simp

theorem step_linked (a t : Mat K) (i : Nat) (hi : i < 3) (h : Linked a t) : Linked a (pinvStep (fieldArith K) i t) := by
  intro r hr c hc
  rw [pinvStep_eq i t r c hr (by omega), pinvStep_eq i t r 3 hr (by omega), pinvStep_eq i t r 4 hr (by omega),
    pinvStep_eq i t r 5 hr (by omega)]
  by_cases hri : r = i
  · simp only [if_pos hri]
    rw [h i hi c hc]
    ring
  · simp only [if_neg hri]
    rw [h r hr c hc, h i hi c hc]
    ring

end

section
variable {K : Type} [Field K] [LinearOrder K] [IsStrictOrderedRing K]

/-- The columns of the 4x3 matrix are linearly independent. -/
def FullRank (a : Mat K) : Prop :=
  ∀ x y z : K, (∀ r < 4, a r 0 * x + a r 1 * y + a r 2 * z = 0) → x = 0 ∧ y = 0 ∧ z = 0

theorem gram_pos (a : Mat K) (h : FullRank a) (x y z : K) (hx : x ≠ 0 ∨ y ≠ 0 ∨ z ≠ 0) :
    x * (x * gram a 0 0 + y * gram a 1 0 + z * gram a 2 0) + y * (x * gram a 0 1 + y * gram a 1 1 + z * gram a 2 1) +
      z * (x * gram a 0 2 + y * gram a 1 2 + z * gram a 2 2) ≠ 0 := by
  intro h0
  have hs : (a 0 0 * x + a 0 1 * y + a 0 2 * z) ^ 2 + (a 1 0 * x + a 1 1 * y + a 1 2 * z) ^ 2 +
      (a 2 0 * x + a 2 1 * y + a 2 2 * z) ^ 2 + (a 3 0 * x + a 3 1 * y + a 3 2 * z) ^ 2 = 0 := by
    rw [← h0]; unfold gram; ring
  have p0 := sq_nonneg (a 0 0 * x + a 0 1 * y + a 0 2 * z)
  have p1 := sq_nonneg (a 1 0 * x + a 1 1 * y + a 1 2 * z)
  have p2 := sq_nonneg (a 2 0 * x + a 2 1 * y + a 2 2 * z)
  have p3 := sq_nonneg (a 3 0 * x + a 3 1 * y + a 3 2 * z)
  have := h x y z (by
    intro r hr
    have key : ∀ u : K, u ^ 2 = 0 → u = 0 := fun u hu => pow_eq_zero_iff (two_ne_zero) |>.mp hu
    interval_cases r <;> apply key <;> linarith)
  simp_all

theorem pinv_left (a : Mat K) (h : FullRank a) :
    ∀ r < 3, ∀ c < 3, pureLoop (pinvStep (fieldArith K)) 3 (pinvSetup (fieldArith K) a) r c = if r = c then 1 else 0 := by
  rw [show pureLoop (pinvStep (fieldArith K)) 3 (pinvSetup (fieldArith K) a) =
    pinvStep (fieldArith K) 2 (pinvStep (fieldArith K) 1 (pinvStep (fieldArith K) 0 (pinvSetup (fieldArith K) a))) from by
      simp only [pureLoop]]
  set t0 := pinvSetup (fieldArith K) a with ht0
  set t1 := pinvStep (fieldArith K) 0 t0 with ht1
  set t2 := pinvStep (fieldArith K) 1 t1 with ht2
  set t3 := pinvStep (fieldArith K) 2 t2 with ht3
  have l0 : Linked a t0 := setup_linked a
  have l1 : Linked a t1 := step_linked a t0 0 (by omega) l0
  have l2 : Linked a t2 := step_linked a t1 1 (by omega) l1
  have e0 : ∀ r c, r < 3 → 3 ≤ c → c < 6 → t0 r c = if c = r + 3 then 1 else 0 := by
    intro r c hr h3 hc
    rw [ht0, pinvSetup_eq a r c hr hc, if_neg (by omega)]
  have n0 : t0 0 0 ≠ 0 := by
    have g := gram_pos a h 1 0 0 (by simp)
    have := l0 0 (by omega) 0 (by omega)
    rw [e0 0 3, e0 0 4, e0 0 5] at this <;> try omega
    simp at this g
    rw [this]; exact g
  have s1 : ∀ r c, r < 3 → c < 6 → t1 r c = if r = 0 then t0 0 c / t0 0 0 else t0 r c - t0 0 c / t0 0 0 * t0 r 0 :=
    fun r c hr hc => pinvStep_eq 0 t0 r c hr hc
  have s2 : ∀ r c, r < 3 → c < 6 → t2 r c = if r = 1 then t1 1 c / t1 1 1 else t1 r c - t1 1 c / t1 1 1 * t1 r 1 :=
    fun r c hr hc => pinvStep_eq 1 t1 r c hr hc
  have s3 : ∀ r c, r < 3 → c < 6 → t3 r c = if r = 2 then t2 2 c / t2 2 2 else t2 r c - t2 2 c / t2 2 2 * t2 r 2 :=
    fun r c hr hc => pinvStep_eq 2 t2 r c hr hc
  have a00 : t1 0 0 = 1 := by rw [s1 0 0 (by omega) (by omega), if_pos rfl, div_self n0]
  have a10 : t1 1 0 = 0 := by rw [s1 1 0 (by omega) (by omega), if_neg (by omega), div_self n0]; ring
  have a20 : t1 2 0 = 0 := by rw [s1 2 0 (by omega) (by omega), if_neg (by omega), div_self n0]; ring
  have f14 : t1 1 4 = 1 := by rw [s1 1 4 (by omega) (by omega), if_neg (by omega), e0 1 4, e0 0 4] <;> simp
  have f15 : t1 1 5 = 0 := by rw [s1 1 5 (by omega) (by omega), if_neg (by omega), e0 1 5, e0 0 5] <;> simp
  have f24 : t1 2 4 = 0 := by rw [s1 2 4 (by omega) (by omega), if_neg (by omega), e0 2 4, e0 0 4] <;> simp
  have f25 : t1 2 5 = 1 := by rw [s1 2 5 (by omega) (by omega), if_neg (by omega), e0 2 5, e0 0 5] <;> simp
  have n1 : t1 1 1 ≠ 0 := by
    have g := gram_pos a h (t1 1 3) (t1 1 4) (t1 1 5) (by rw [f14]; simp)
    rw [← l1 1 (by omega) 0 (by omega), ← l1 1 (by omega) 1 (by omega), ← l1 1 (by omega) 2 (by omega), a10, f14, f15] at g
    simpa using g
  have b00 : t2 0 0 = 1 := by rw [s2 0 0 (by omega) (by omega), if_neg (by omega), a00, a10]; simp
  have b10 : t2 1 0 = 0 := by rw [s2 1 0 (by omega) (by omega), if_pos rfl, a10]; simp
  have b20 : t2 2 0 = 0 := by rw [s2 2 0 (by omega) (by omega), if_neg (by omega), a20, a10]; simp
  have b01 : t2 0 1 = 0 := by rw [s2 0 1 (by omega) (by omega), if_neg (by omega), div_self n1]; ring
  have b11 : t2 1 1 = 1 := by rw [s2 1 1 (by omega) (by omega), if_pos rfl, div_self n1]
  have b21 : t2 2 1 = 0 := by rw [s2 2 1 (by omega) (by omega), if_neg (by omega), div_self n1]; ring
  have g25 : t2 2 5 = 1 := by rw [s2 2 5 (by omega) (by omega), if_neg (by omega), f25, f15]; simp
  have n2 : t2 2 2 ≠ 0 := by
    have g := gram_pos a h (t2 2 3) (t2 2 4) (t2 2 5) (by rw [g25]; simp)
    rw [← l2 2 (by omega) 0 (by omega), ← l2 2 (by omega) 1 (by omega), ← l2 2 (by omega) 2 (by omega), b20, b21, g25] at g
    simpa using g
  intro r hr c hc
  rw [s3 r c hr (by omega)]
  have hrs : r = 0 ∨ r = 1 ∨ r = 2 := by omega
  have hcs : c = 0 ∨ c = 1 ∨ c = 2 := by omega
  rcases hrs with rfl | rfl | rfl <;> rcases hcs with rfl | rfl | rfl <;>
    simp [b00, b10, b20, b01, b11, b21, div_self n2]

/-- The left inverse law, elementwise. -/
theorem pseudoinverse_left (a : Mat K) (h : FullRank a) (r c : Nat) (hr : r < 3) (hc : c < 3) :
    pseudoinverse (fieldArith K) a r 0 * a 0 c + pseudoinverse (fieldArith K) a r 1 * a 1 c +
      pseudoinverse (fieldArith K) a r 2 * a 2 c + pseudoinverse (fieldArith K) a r 3 * a 3 c = if r = c then 1 else 0 := by
  have hl : Linked a (pureLoop (pinvStep (fieldArith K)) 3 (pinvSetup (fieldArith K) a)) :=
    step_linked a _ 2 (by omega) (step_linked a _ 1 (by omega) (step_linked a _ 0 (by omega) (setup_linked a)))
  have := hl r hr c hc
  rw [pinv_left a h r hr c hc] at this
  rw [this, pseudoinverse_eq a r 0 hr (by omega), pseudoinverse_eq a r 1 hr (by omega), pseudoinverse_eq a r 2 hr (by omega),
    pseudoinverse_eq a r 3 hr (by omega)]
  simp only [gram]
  ring

end

end Model

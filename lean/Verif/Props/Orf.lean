import Verif.Spec.Orf
import Verif.Model.Dec.Orf
import Verif.Lemmas.Seq
import Mathlib.Tactic.Linarith
/-!
# C67: the compressed images of Olympus
-/

namespace Props
open Rust Spec Model Model.Ljpeg Model.HuffTable

/-! ## The number of low bits -/

private theorem digits_lt {a : Nat} {k : Nat} : digits a ≤ k ↔ a < 2 ^ k := by
  unfold digits
  by_cases h : a = 0
  · subst h
    rw [if_pos rfl]
    exact ⟨fun _ => Nat.two_pow_pos k, fun _ => Nat.zero_le k⟩
  · rw [if_neg h, Nat.add_one_le_iff, Nat.log2_lt h]

private theorem findNbits_ok (b : Build) {a i n : Nat} (ha : a < 65536) (hn : n + i < 32) (h1 : a < 2 ^ (n + i)) :
    ∀ (fuel m : Nat), m ≤ n → n - m < fuel → (∀ j, m ≤ j → j < n → 2 ^ (j + i) ≤ a) → Orf.findNbits b a i fuel m = .ok n := by
  intro fuel
  induction fuel with
  | zero => intro m _ h _; omega
  | succ fuel ih =>
    intro m hm hf h2
    unfold Orf.findNbits Orf.carryShift
    have hdiv : sarI (a : Int) (m + i) = ((a / 2 ^ (m + i) : Nat) : Int) := by unfold sarI; push_cast; rfl
    rw [if_pos (by omega), ok_bind, hdiv]
    have hle : a / 2 ^ (m + i) ≤ a := Nat.div_le_self ..
    by_cases he : m = n
    · subst he
      rw [Nat.div_eq_of_lt h1]
      rfl
    · have hpos : 0 < a / 2 ^ (m + i) := Nat.div_pos (h2 m (Nat.le_refl _) (by omega)) (Nat.two_pow_pos _)
      rw [if_pos (by omega)]
      exact ih (m + 1) (by omega) (by omega) (fun j hj hjn => h2 j (by omega) hjn)

private theorem bits_ok (b : Build) {m : OrfMemory} (hm : m.mag < 32768) :
    Orf.findNbits b m.mag (if (m.small : Int) < 3 then 2 else 0) 40 (2 + (if (m.small : Int) < 3 then 2 else 0)) = .ok m.bits ∧ m.bits ≤ 15 ∧ 2 ≤ m.bits := by
  have h15 : digits m.mag ≤ 15 := digits_lt.mpr hm
  unfold OrfMemory.bits
  by_cases hs : m.small < 3
  · rw [if_pos hs, if_pos (by omega)]
    refine ⟨findNbits_ok b (by omega) (by omega) (digits_lt.mp (by omega)) 40 _ (by omega) (by omega) ?_, by omega, by omega⟩
    intro j h1 h2
    rw [← Nat.not_lt, ← digits_lt]
    omega
  · rw [if_neg hs, if_neg (by omega)]
    refine ⟨findNbits_ok b (by omega) (by omega) (digits_lt.mp (by omega)) 40 _ (by omega) (by omega) ?_, by omega, by omega⟩
    intro j h1 h2
    rw [← Nat.not_lt, ← digits_lt]
    omega

/-! ## The upper part -/

private theorem bittable_ok {x k : Nat} (hk : k < 12) (hx : x / 2 ^ (11 - k) = 1) : Orf.bittable x = k := by
  unfold Orf.bittable
  have : (List.range 12).find? (fun high => (x >>> (11 - high)) &&& 1 ≠ 0) = some k := by
    rw [List.find?_eq_some_iff_getElem]
    refine ⟨?_, k, by simpa using hk, by simp, ?_⟩
    · rw [Nat.shiftRight_eq_div_pow, hx]; rfl
    · intro j hj
      rw [List.getElem_range, Nat.shiftRight_eq_div_pow]
      have : x < 2 ^ (11 - j) := by
        have h1 : x < 2 ^ (11 - k) * 2 := by
          rw [Nat.div_eq_iff (Nat.two_pow_pos _)] at hx
          have := Nat.two_pow_pos (11 - k)
          omega
        rw [← Nat.pow_succ] at h1
        exact Nat.lt_of_lt_of_le h1 (Nat.pow_le_pow_right (by omega) (by omega))
      rw [Nat.div_eq_of_lt this]
      rfl
  rw [this]
  rfl

private theorem bittable_zero : Orf.bittable 0 = 12 := by decide

private theorem unary_bits : ∀ k : Fin 12, List.replicate k 0 ++ [1] = bitsOf (k + 1) 1 := by decide

variable {limit : Option Nat} {st : Nat → Nat} {at_ : Pump → Nat → Nat → Prop}

private theorem highBits_ok {b : Build} (hR : Reads (pumpMSB b) (fieldMSB st) limit at_) {p : Pump} {c a n high : Nat} (hs : at_ p c a) (ha : 15 ≤ a)
    (hn : n ≤ 15) (hh : high < 2 ^ (15 - n)) (hf : Follows st (c + 3) (orfHigh n high)) (hw : within limit (c + 3 + (orfHigh n high).length)) :
    ∃ p' a', Orf.highBits b n (fieldMSB st c 15) p = .ok (high, p') ∧ at_ p' (c + 3 + (orfHigh n high).length) a' := by
  unfold Orf.highBits
  have h12 : fieldMSB st c 15 &&& 4095 = fieldMSB st (c + 3) 12 := by
    rw [show (4095 : Nat) = 2 ^ 12 - 1 by rfl, Nat.and_two_pow_sub_one_eq_mod, fieldMSB_add st c 3 12]
    have := fieldMSB_lt st (c + 3) 12
    omega
  rw [h12]
  dsimp only
  unfold orfHigh at hf hw ⊢
  by_cases hlt : high < 12
  · rw [if_pos hlt] at hf hw ⊢
    rw [unary_bits ⟨high, hlt⟩] at hf hw ⊢
    dsimp only at hf hw ⊢
    rw [bitsOf_length] at hw ⊢
    have h1 := follows_bitsOf hf (by have := Nat.two_pow_pos high; rw [Nat.pow_succ]; omega)
    have hb : Orf.bittable (fieldMSB st (c + 3) 12) = high := by
      refine bittable_ok hlt ?_
      rw [show 11 - high = 12 - (high + 1) by omega, field_div st (c + 3) (by omega), h1]
    rw [hb, if_neg (by omega)]
    obtain ⟨p', g1, g2⟩ := hR.consume p c a (high + 4) hs (by omega)
    exact ⟨p', _, by rw [g1]; rfl, by rw [show c + 3 + (high + 1) = c + (high + 4) by omega]; exact g2⟩
  · rw [if_neg hlt] at hf hw ⊢
    rw [show List.replicate 12 0 = bitsOf 12 0 by decide] at hf hw ⊢
    rw [List.length_append, bitsOf_length, bitsOf_length] at hw ⊢
    rw [follows_append, bitsOf_length] at hf
    have h1 := follows_bitsOf hf.1 (by omega)
    rw [h1, bittable_zero, if_pos rfl]
    obtain ⟨p1, g1, g2⟩ := hR.consume p c a 15 hs ha
    have hv : 2 * high < 2 ^ (16 - n) := by rw [show 16 - n = 15 - n + 1 by omega, Nat.pow_succ]; omega
    obtain ⟨p2, a2, g3, g4⟩ := reads_bits hR g2 (n := 16 - n) (v := 2 * high) (by omega) hv hf.2 (within_mono hw (by omega))
    refine ⟨p2, a2, ?_, by rw [show c + 3 + (12 + (16 - n)) = c + 15 + (16 - n) by omega]; exact g4⟩
    rw [g1, ok_bind, g3, ok_bind]
    dsimp only
    rw [Nat.shiftRight_eq_div_pow]
    congr 2
    omega

/-! ## A difference -/

private def ofMemory (m : OrfMemory) : Orf.Carry := ⟨m.mag, m.mean, m.small⟩

private theorem signed_mag {x e : Int} {M : Nat} (hM : orfMag (x - e) = M) (hmag : M < 32768) (he : -2000 < e ∧ e < 2000) :
    (if (if x < e then 1 else 0) = 0 then (M : Int) else -(M : Int) - 1) = x - e ∧ -40000 < x ∧ x < 40000 := by
  unfold orfMag at hM
  by_cases h : x < e
  · rw [if_pos h, if_neg (by omega)]
    rw [if_pos (by omega)] at hM
    omega
  · rw [if_neg h, if_pos rfl]
    rw [if_neg (by omega)] at hM
    omega

private theorem small_next (M n : Nat) : (if (M : Int) > 16 then (0 : Int) else (n : Int) + 1) = ((if M > 16 then 0 else n + 1 : Nat) : Int) := by
  split
  · rw [if_pos (by omega)]; rfl
  · rw [if_neg (by omega)]; rfl

private theorem difference_ok {b : Build} (hR : Reads (pumpMSB b) (fieldMSB st) limit at_) {p : Pump} {c a : Nat} {m : OrfMemory} {d : Int} {rest : List Nat}
    (hs : at_ p c a) (hm : m.mag < 32768) (hmag : orfMag (d / 4 - m.mean) < 32768) (hmean : -2000 < m.mean ∧ m.mean < 2000)
    (hf : Follows st c (orfCode m d ++ rest)) (hw : within limit (c + (orfCode m d ++ rest).length + 9)) :
    ∃ p' c' a', Orf.difference b (ofMemory m) p = .ok (d / 4, d % 4, ofMemory (m.next (d / 4)), p') ∧ at_ p' c' a' ∧ Follows st c' rest ∧
      within limit (c' + rest.length + 9) := by
  obtain ⟨hb, hb15, hb2⟩ := bits_ok b hm
  unfold orfCode at hf hw
  generalize hM : orfMag (d / 4 - m.mean) = M at hf hw hmag
  generalize hH : M / 2 ^ m.bits = H at hf hw
  have hH15 : H < 2 ^ (15 - m.bits) := by
    rw [← hH, Nat.div_lt_iff_lt_mul (Nat.two_pow_pos _), ← Nat.pow_add, show 15 - m.bits + m.bits = 15 by omega]
    exact hmag
  have hlen1 : 1 ≤ (orfHigh m.bits H).length := by
    unfold orfHigh
    split <;> simp
  simp only [List.length_append, bitsOf_length, List.length_cons, List.length_nil] at hw
  simp only [follows_append, List.length_append, bitsOf_length, List.length_cons, List.length_nil] at hf
  obtain ⟨⟨⟨⟨f1, f2⟩, f3⟩, f4⟩, f5⟩ := hf
  have hlowlt : (d % 4).toNat < 2 ^ 2 := by omega
  have f2 := follows_bitsOf f2 hlowlt
  have hsgn : fieldMSB st c 1 = if d / 4 < m.mean then 1 else 0 := by
    refine follows_bitsOf (v := if d / 4 < m.mean then 1 else 0) (n := 1) ?_ (by split <;> omega)
    by_cases h : d / 4 < m.mean
    · rw [if_pos h] at f1 ⊢; exact f1
    · rw [if_neg h] at f1 ⊢; exact f1
  obtain ⟨s1, a1, g1, g2, g3, -⟩ := hR.peek p c a 15 hs (by omega) (within_mono hw (by omega))
  obtain ⟨s2, a2, g4, g5⟩ := highBits_ok hR g2 g3 hb15 hH15 (by rw [show c + 3 = c + (0 + 1 + 2) by omega]; exact f3) (within_mono hw (by omega))
  obtain ⟨s3, a3, g6, g7⟩ := reads_bits hR g5 (n := m.bits) (v := M % 2 ^ m.bits) (by omega) (Nat.mod_lt _ (Nat.two_pow_pos _))
    (by rw [show c + 3 + (orfHigh m.bits H).length = c + (0 + 1 + 2 + (orfHigh m.bits H).length) by omega]; exact f4) (within_mono hw (by omega))
  refine ⟨s3, _, a3, ?_, g7, by
    rw [show c + 3 + (orfHigh m.bits H).length + m.bits = c + (0 + 1 + 2 + (orfHigh m.bits H).length + m.bits) by omega]; exact f5, within_mono hw (by omega)⟩
  have hsplit : fieldMSB st c 15 = (fieldMSB st c 1 * 4 + fieldMSB st (c + 1) 2) * 4096 + fieldMSB st (c + 3) 12 := by
    rw [fieldMSB_add st c 3 12, fieldMSB_add st c 1 2]
  have h12 := fieldMSB_lt st (c + 3) 12
  have h2 := fieldMSB_lt st (c + 1) 2
  rw [Nat.zero_add] at f2
  have hsign : fieldMSB st c 15 >>> 14 = if d / 4 < m.mean then 1 else 0 := by
    rw [Nat.shiftRight_eq_div_pow, ← hsgn]
    omega
  have hlow : (fieldMSB st c 15 >>> 12) &&& 3 = (d % 4).toNat := by
    rw [show (3 : Nat) = 2 ^ 2 - 1 by rfl, Nat.and_two_pow_sub_one_eq_mod, Nat.shiftRight_eq_div_pow]
    omega
  have hsum : shlI32 (H : Int) m.bits + ((M % 2 ^ m.bits : Nat) : Int) = (M : Int) := by
    have hmul : 2 ^ m.bits * H + M % 2 ^ m.bits = M := by rw [← hH]; exact Nat.div_add_mod M _
    have : shlI32 (H : Int) m.bits = ((2 ^ m.bits * H : Nat) : Int) := by
      unfold shlI32
      have hp : (H : Int) * 2 ^ m.bits = ((2 ^ m.bits * H : Nat) : Int) := by push_cast; rw [Int.mul_comm]
      rw [hp]
      exact toI32_small (v := 2 ^ m.bits * H) (by omega)
    rw [this]
    omega
  unfold Orf.difference ofMemory
  dsimp only
  rw [hb, ok_bind]
  show ((pumpMSB b).peek p 15 >>= _) = _
  rw [g1, ok_bind]
  dsimp only
  rw [show Nat.min m.bits 16 = m.bits from Nat.min_eq_left (by omega), g4, ok_bind]
  dsimp only
  rw [g6, ok_bind]
  dsimp only
  rw [hsum, hsign, hlow]
  obtain ⟨hsigned, hbound⟩ := signed_mag hM hmag hmean
  rw [hsigned, show d / 4 - m.mean + m.mean = d / 4 by omega, i32_small (by omega) (by omega), ok_bind, i32_small (by omega) (by omega), ok_bind,
    i32_small (by omega) (by omega), ok_bind]
  unfold OrfMemory.next
  rw [hM]
  dsimp only
  rw [small_next, show ((d % 4).toNat : Int) = d % 4 by omega, Int.mul_comm]
  rfl

/-! ## Predictions -/

private theorem gradient_range {left nw up B : Int} (h1 : 0 ≤ left ∧ left ≤ B) (h2 : 0 ≤ nw ∧ nw ≤ B) (h3 : 0 ≤ up ∧ up ≤ B) :
    0 ≤ orfGradient left nw up ∧ orfGradient left nw up ≤ B := by
  unfold orfGradient
  split
  · split <;> omega
  · split <;> omega

private theorem predict_ok (b : Build) {left nw up : Int} (h1 : 0 ≤ left ∧ left ≤ 46340) (h2 : 0 ≤ nw ∧ nw ≤ 46340) (h3 : 0 ≤ up ∧ up ≤ 46340) :
    Orf.predict b left nw up = .ok (orfGradient left nw up) := by
  have hprod : ∀ x y : Int, -46340 ≤ x → x ≤ 46340 → -46340 ≤ y → y ≤ 46340 → -2147483648 ≤ x * y ∧ x * y < 2147483648 := by
    intro x y a1 a2 a3 a4
    constructor <;> nlinarith
  obtain ⟨p1, p2⟩ := hprod (left - nw) (up - nw) (by omega) (by omega) (by omega) (by omega)
  have hneg : (left - nw) * (up - nw) < 0 ↔ (left < nw ∧ nw < up) ∨ (up < nw ∧ nw < left) := by
    rw [mul_neg_iff]
    omega
  unfold Orf.predict orfGradient
  rw [i32_small (by omega) (by omega), ok_bind, i32_small (by omega) (by omega), ok_bind, i32_small p1 p2, ok_bind,
    i32_small (by split <;> omega) (by split <;> omega), ok_bind, i32_small (by split <;> omega) (by split <;> omega), ok_bind]
  have a1 : (if left - nw < 0 then -(left - nw) else left - nw) = ((left - nw).natAbs : Int) := by split <;> omega
  have a2 : (if up - nw < 0 then -(up - nw) else up - nw) = ((up - nw).natAbs : Int) := by split <;> omega
  rw [a1, a2]
  by_cases hp : (left - nw) * (up - nw) < 0
  · rw [if_pos hp, if_pos (hneg.mp hp)]
    by_cases h32 : (left - nw).natAbs > 32 ∨ (up - nw).natAbs > 32
    · rw [if_pos h32, if_pos (by omega), i32_small (by omega) (by omega)]
      congr 1
      omega
    · rw [if_neg h32, if_neg (by omega), i32_small (by omega) (by omega)]
      rfl
  · rw [if_neg hp, if_neg (fun h => hp (hneg.mpr h))]
    by_cases hg : (left - nw).natAbs > (up - nw).natAbs
    · rw [if_pos hg, if_pos (by omega)]
    · rw [if_neg hg, if_neg (by omega)]

section
variable {img : Nat → Nat → Nat} {w h : Nat} (hi : ∀ r c, r < h → c < w → img r c ≤ 46340)
include hi

private theorem pred_range {r c : Nat} (hr : r < h) (hc : c < w) : 0 ≤ orfPred img r c ∧ orfPred img r c ≤ 46340 := by
  unfold orfPred
  by_cases h1 : r < 2
  · rw [if_pos h1]
    by_cases h2 : c < 2
    · rw [if_pos h2]; omega
    · rw [if_neg h2]; have := hi r (c - 2) hr (by omega); omega
  · rw [if_neg h1]
    by_cases h2 : c < 2
    · rw [if_pos h2]; have := hi (r - 2) c (by omega) hc; omega
    · rw [if_neg h2]
      have a1 := hi r (c - 2) hr (by omega)
      have a2 := hi (r - 2) (c - 2) (by omega) (by omega)
      have a3 := hi (r - 2) c (by omega) (by omega)
      exact gradient_range (by omega) (by omega) (by omega)

private theorem step_range {r c : Nat} (hr : r < h) (hc : c < w) : -11585 ≤ orfStep img r c ∧ orfStep img r c ≤ 11585 := by
  have h1 := pred_range hi hr hc
  have h2 := hi r c hr hc
  unfold orfStep
  omega

private theorem memory_range {r : Nat} (hr : r < h) : ∀ c, c < w + 2 → (orfMemory img r c).mag < 32768 ∧ -1200 ≤ (orfMemory img r c).mean ∧ (orfMemory img r c).mean ≤ 1200 := by
  intro c
  induction c using Nat.strongRecOn with
  | _ c ih =>
    intro hc
    rw [orfMemory]
    by_cases h2 : c < 2
    · rw [if_pos h2]; decide
    · rw [if_neg h2]
      obtain ⟨-, m1, m2⟩ := ih (c - 2) (by omega) (by omega)
      obtain ⟨s1, s2⟩ := step_range hi hr (show c - 2 < w by omega)
      unfold OrfMemory.next orfMag
      dsimp only
      refine ⟨?_, by omega, by omega⟩
      split <;> omega

end

private theorem newLeft_ok (b : Build) {pred d x : Int} (h : x = pred + d) (h1 : 0 ≤ x ∧ x ≤ 46340) (h2 : 0 ≤ pred ∧ pred ≤ 46340) :
    Orf.newLeft b pred (d / 4) (d % 4) = .ok x := by
  unfold Orf.newLeft
  have : shlI32 (d / 4) 2 = d / 4 * 4 := by
    unfold shlI32 toI32
    rw [show (2 : Int) ^ 2 = 4 by rfl, Int.bmod_eq_of_le] <;> omega
  rw [this, show pred + (d / 4 * 4 + d % 4) = x by omega]
  exact i32_small (by omega) (by omega)

/-! ## Pixels -/

/-- The image that is written: a last odd column is not. -/
private def orfPix (w : Nat) (img : Nat → Nat → Nat) (r c : Nat) : Nat := if c < 2 * (w / 2) then img r c else 0

/-- What is left to decode before column `c` of row `r`. -/
private def orfRest (n h : Nat) (img : Nat → Nat → Nat) (r c : Nat) : List Nat :=
  ((List.range (2 * n)).drop c).flatMap (fun c => orfCode (orfMemory img r c) (img r c - orfPred img r c)) ++
    ((List.range h).drop (r + 1)).flatMap fun r => (List.range (2 * n)).flatMap fun c => orfCode (orfMemory img r c) (img r c - orfPred img r c)

/-- A pair of predictors, of which the earlier pixels of a row have been set. -/
private structure Pair (row : Nat → Nat) (c : Nat) (l : List Int) : Prop where
  len : l.length = 2
  one : 1 ≤ c → l[(c - 1) % 2]? = some (row (c - 1) : Int)
  two : 2 ≤ c → l[c % 2]? = some (row (c - 2) : Int)

private theorem Pair.set {row : Nat → Nat} {c : Nat} {l : List Int} (h : Pair row c l) :
    setIdx l (c % 2) (row c : Int) = .ok (l.set (c % 2) (row c)) ∧ Pair row (c + 1) (l.set (c % 2) (row c)) := by
  have hlt : c % 2 < l.length := by rw [h.len]; omega
  refine ⟨setIdx_lt hlt, by rw [List.length_set]; exact h.len, ?_, ?_⟩
  · intro _
    rw [Nat.add_sub_cancel, List.getElem?_set_self hlt]
  · intro h2
    rw [List.getElem?_set_ne (by omega), show (c + 1) % 2 = (c - 1) % 2 by omega, h.one (by omega), show c + 1 - 2 = c - 1 by omega]

private structure OrfAt (at_ : Pump → Nat → Nat → Prop) (limit : Option Nat) (st : Nat → Nat) (w h : Nat) (img : Nat → Nat → Nat) (r c : Nat) (s : Orf.State) : Prop where
  out : s.out = filled w (w * h) (orfPix w img) (r * w + c)
  left : Pair (img r) c s.left
  nw : s.nw.length = 2 ∧ (2 ≤ r → Pair (img (r - 2)) c s.nw)
  carry : s.carry = [ofMemory (orfMemory img r (c + c % 2)), ofMemory (orfMemory img r (c + 1 - c % 2))]
  pos : ∃ p a, at_ s.pump p a ∧ Follows st p (orfRest (w / 2) h img r c) ∧ within limit (p + (orfRest (w / 2) h img r c).length + 9)

private theorem memory_next (img : Nat → Nat → Nat) (r c : Nat) : orfMemory img r (c + 2) = (orfMemory img r c).next (orfStep img r c) := by
  rw [orfMemory, if_neg (by omega)]
  rfl

private theorem pixel_ok {b : Build} (hR : Reads (pumpMSB b) (fieldMSB st) limit at_) {w h r k x : Nat} {img : Nat → Nat → Nat} {s : Orf.State}
    (hr : r < h) (hk : k < w / 2) (hx : x < 2) (hi : ∀ r c, r < h → c < w → img r c ≤ 46340) (hs : OrfAt at_ limit st w h img r (k * 2 + x) s) :
    ∃ s', Orf.pixel b w r (k * 2) x s = .ok s' ∧ OrfAt at_ limit st w h img r (k * 2 + (x + 1)) s' := by
  obtain ⟨out, left, nw, carry, pump⟩ := s
  obtain ⟨e1, e2, ⟨e3, e4⟩, e5, p, a, g1, g2, g3⟩ := hs
  dsimp only at e1 e2 e3 e4 e5 g1
  generalize hc : k * 2 + x = c at *
  have hcw2 : c < 2 * (w / 2) := by omega
  have hcw : c < w := by omega
  have hx2 : c % 2 = x := by omega
  have hcell := cell_lt hr hcw
  generalize hd : (img r c : Int) - orfPred img r c = d
  have hrest : orfRest (w / 2) h img r c = orfCode (orfMemory img r c) d ++ orfRest (w / 2) h img r (c + 1) := by
    unfold orfRest
    rw [drop_range_flatMap hcw2, List.append_assoc, hd]
  rw [hrest] at g2 g3
  obtain ⟨m1, m2, m3⟩ := memory_range hi hr c (by omega)
  obtain ⟨q1, q2⟩ := pred_range hi hr hcw
  have hxv := hi r c hr hcw
  have hstep : orfStep img r c = d / 4 := by unfold orfStep; rw [hd]
  obtain ⟨s1, s2⟩ := step_range hi hr hcw
  rw [hstep] at s1 s2
  obtain ⟨p', c', a', k1, k2, k3, k4⟩ := difference_ok hR g1 m1 (by unfold orfMag; split <;> omega) (by omega) g2 g3
  have hcar : idx carry x = .ok (ofMemory (orfMemory img r c)) := by
    rw [e5]
    have : x = 0 ∨ x = 1 := by omega
    rcases this with h | h
    · rw [h, hx2, h]; rfl
    · rw [h, hx2, h]; rfl
  have hset : setIdx carry x (ofMemory ((orfMemory img r c).next (d / 4))) =
      .ok [ofMemory (orfMemory img r (c + 1 + (c + 1) % 2)), ofMemory (orfMemory img r (c + 1 + 1 - (c + 1) % 2))] := by
    rw [e5, ← hstep, ← memory_next]
    have : x = 0 ∨ x = 1 := by omega
    rcases this with h | h
    · rw [h, show (c + 1) % 2 = 1 by omega, hx2, h]; rfl
    · rw [h, show (c + 1) % 2 = 0 by omega, hx2, h]; rfl
  have hnew : ∀ pred, pred = orfPred img r c → Orf.newLeft b pred (d / 4) (d % 4) = .ok (img r c : Int) := by
    intro pred hp
    refine newLeft_ok b ?_ ⟨by omega, by omega⟩ ⟨by omega, by omega⟩
    omega
  have hu16 : toU16 ((img r c : Nat) : Int) = orfPix w img r c := by unfold toU16 orfPix; rw [if_pos hcw2]; omega
  have hout : setIdx out (r * w + c) (toU16 ((img r c : Nat) : Int)) = .ok (filled w (w * h) (orfPix w img) (r * w + (c + 1))) := by
    rw [hu16, e1]; exact filled_set hcw hcell
  have hup : 2 ≤ r → idx out ((r - 2) * w + c) = .ok (img (r - 2) c) := by
    intro h2
    have : (r - 2) * w + c < r * w + c := by
      have : (r - 2) * w < r * w := Nat.mul_lt_mul_of_pos_right (by omega) (by omega)
      omega
    rw [e1, filled_idx hcw this]
    unfold orfPix
    rw [if_pos hcw2]
  obtain ⟨l1, l2⟩ := e2.set
  rw [hx2] at l1 l2
  rw [show k * 2 + (x + 1) = c + 1 by omega]
  unfold Orf.pixel
  dsimp only
  rw [hcar, ok_bind, k1, ok_bind]
  dsimp only
  rw [hset, ok_bind, hc]
  by_cases hborder : r < 2 ∨ k * 2 < 2
  · rw [if_pos hborder]
    by_cases h1 : r < 2
    · refine ⟨⟨filled w (w * h) (orfPix w img) (r * w + (c + 1)), left.set x (img r c), nw, [ofMemory (orfMemory img r (c + 1 + (c + 1) % 2)),
        ofMemory (orfMemory img r (c + 1 + 1 - (c + 1) % 2))], p'⟩, ?_, rfl, l2, ⟨e3, fun h => by omega⟩, rfl, _, _, k2, k3, k4⟩
      by_cases h2 : k * 2 < 2
      · rw [if_pos ⟨h1, h2⟩, ok_bind]
        dsimp only
        rw [hnew 0 (by unfold orfPred; rw [if_pos h1, if_pos (by omega)]), ok_bind, l1, ok_bind, hout]
        rfl
      · rw [if_neg (fun h => h2 h.2), if_pos h1]
        have hl : idx left x = .ok (img r (c - 2) : Int) := by rw [idx_eq_ok, ← hx2]; exact e2.two (by omega)
        rw [hl, ok_bind, ok_bind]
        dsimp only
        rw [hnew _ (by unfold orfPred; rw [if_pos h1, if_neg (by omega)]), ok_bind, l1, ok_bind, hout]
        rfl
    · have h2 : k * 2 < 2 := by omega
      obtain ⟨n1, n2⟩ := (e4 (by omega)).set
      rw [hx2] at n1 n2
      refine ⟨⟨filled w (w * h) (orfPix w img) (r * w + (c + 1)), left.set x (img r c), nw.set x (img (r - 2) c), [ofMemory (orfMemory img r (c + 1 + (c + 1) % 2)),
        ofMemory (orfMemory img r (c + 1 + 1 - (c + 1) % 2))], p'⟩, ?_, rfl, l2, ⟨by rw [List.length_set]; exact e3, fun _ => n2⟩, rfl, _, _, k2, k3, k4⟩
      rw [if_neg (fun h => h1 h.1), if_neg h1, hup (by omega), ok_bind, n1, ok_bind, ok_bind]
      dsimp only
      rw [hnew _ (by unfold orfPred; rw [if_neg h1, if_pos (by omega)]), ok_bind, l1, ok_bind, hout]
      rfl
  · rw [if_neg hborder]
    obtain ⟨n1, n2⟩ := (e4 (by omega)).set
    rw [hx2] at n1 n2
    have hl : idx left x = .ok (img r (c - 2) : Int) := by rw [idx_eq_ok, ← hx2]; exact e2.two (by omega)
    have hn : idx nw x = .ok (img (r - 2) (c - 2) : Int) := by rw [idx_eq_ok, ← hx2]; exact (e4 (by omega)).two (by omega)
    have i1 := hi r (c - 2) hr (by omega)
    have i2 := hi (r - 2) (c - 2) (by omega) (by omega)
    have i3 := hi (r - 2) c (by omega) (by omega)
    refine ⟨⟨filled w (w * h) (orfPix w img) (r * w + (c + 1)), left.set x (img r c), nw.set x (img (r - 2) c), [ofMemory (orfMemory img r (c + 1 + (c + 1) % 2)),
      ofMemory (orfMemory img r (c + 1 + 1 - (c + 1) % 2))], p'⟩, ?_, rfl, l2, ⟨by rw [List.length_set]; exact e3, fun _ => n2⟩, rfl, _, _, k2, k3, k4⟩
    rw [hup (by omega), ok_bind, hl, ok_bind, hn, ok_bind, predict_ok b (by omega) (by omega) (by omega), ok_bind,
      hnew _ (by unfold orfPred; rw [if_neg (by omega), if_neg (by omega)]), ok_bind, l1, ok_bind, n1, ok_bind, hout]
    rfl

private def orfRows (n h : Nat) (img : Nat → Nat → Nat) (r : Nat) : List Nat :=
  ((List.range h).drop r).flatMap fun r => (List.range (2 * n)).flatMap fun c => orfCode (orfMemory img r c) (img r c - orfPred img r c)

/-- The state before row `r`. -/
private structure OrfRow (at_ : Pump → Nat → Nat → Prop) (limit : Option Nat) (st : Nat → Nat) (w h : Nat) (img : Nat → Nat → Nat) (r : Nat) (s : Orf.State) : Prop where
  out : s.out = filled w (w * h) (orfPix w img) (r * w)
  left : s.left.length = 2
  nw : s.nw.length = 2
  pos : ∃ p a, at_ s.pump p a ∧ Follows st p (orfRows (w / 2) h img r) ∧ within limit (p + (orfRows (w / 2) h img r).length + 9)

private theorem row_ok {b : Build} (hR : Reads (pumpMSB b) (fieldMSB st) limit at_) {w h r : Nat} {img : Nat → Nat → Nat} {s : Orf.State}
    (hr : r < h) (hi : ∀ r c, r < h → c < w → img r c ≤ 46340) (hs : OrfRow at_ limit st w h img r s) :
    ∃ s', forRange 0 (w / 2) (fun c st => forRange 0 2 (fun s st => Orf.pixel b w r (c * 2) s st) st) { s with carry := [⟨0, 0, 0⟩, ⟨0, 0, 0⟩] } = .ok s' ∧
      OrfRow at_ limit st w h img (r + 1) s' := by
  obtain ⟨e1, e2, e3, e4⟩ := hs
  have hrest : orfRows (w / 2) h img r = orfRest (w / 2) h img r 0 := by
    unfold orfRows orfRest
    rw [drop_range_flatMap hr, List.drop_zero]
  rw [hrest] at e4
  have hm : ∀ c, c < 2 → ofMemory (orfMemory img r c) = ⟨0, 0, 0⟩ := by
    intro c hc
    rw [orfMemory, if_pos hc]
    rfl
  have h0 : OrfAt at_ limit st w h img r (0 * 2) { s with carry := [⟨0, 0, 0⟩, ⟨0, 0, 0⟩] } := by
    refine ⟨e1, ⟨e2, fun h => by omega, fun h => by omega⟩, ⟨e3, fun _ => ⟨e3, fun h => by omega, fun h => by omega⟩⟩, ?_, e4⟩
    dsimp only
    rw [hm _ (by omega), hm _ (by omega)]
  obtain ⟨s', g1, g2⟩ := forRange_inv (fun k s => OrfAt at_ limit st w h img r (k * 2) s) (Nat.zero_le (w / 2)) h0
    (f := fun c st => forRange 0 2 (fun s st => Orf.pixel b w r (c * 2) s st) st) (by
      intro k s _ hk hs
      obtain ⟨s', f1, f2⟩ := forRange_inv (fun x s => OrfAt at_ limit st w h img r (k * 2 + x) s) (Nat.zero_le 2) hs
        (f := fun x st => Orf.pixel b w r (k * 2) x st) (fun x s _ hx hs => pixel_ok hR hr hk hx hi hs)
      exact ⟨s', f1, by rw [Nat.add_mul, Nat.one_mul]; exact f2⟩)
  refine ⟨s', g1, ?_⟩
  obtain ⟨k1, k2, k3, -, k5⟩ := g2
  have hrw : (r + 1) * w = r * w + w := by rw [Nat.add_mul]; omega
  have hlast : filled w (w * h) (orfPix w img) (r * w + w / 2 * 2) = filled w (w * h) (orfPix w img) ((r + 1) * w) := by
    rw [hrw]
    by_cases he : w % 2 = 0
    · rw [show w / 2 * 2 = w by omega]
    · have hlt : w / 2 * 2 < w := by omega
      rw [filled_skip (cell_lt hr hlt), show r * w + w / 2 * 2 + 1 = r * w + w by omega]
      rw [(cell_div hlt).1, (cell_div hlt).2]
      unfold orfPix
      rw [if_neg (by omega)]
  refine ⟨by rw [k1, hlast], k2.len, k3.1, ?_⟩
  have hrest2 : orfRest (w / 2) h img r (w / 2 * 2) = orfRows (w / 2) h img (r + 1) := by
    unfold orfRows orfRest
    rw [List.drop_eq_nil_of_le (by simp; omega)]
    rfl
  rw [hrest2] at k5
  exact k5

/-- **C67.** The compression of Olympus is lossless: an image whose samples are at most 46340, which covers all images of 15 bits, is read back exactly after the
seven bytes of the header, whatever bytes follow, if those are at least five. An odd last column is not part of the compressed data and remains black. -/
theorem orf_roundtrip (b : Build) (w h : Nat) (img : Nat → Nat → Nat) (hi : ∀ r c, r < h → c < w → img r c ≤ 46340) (header tail : Bytes) (hh : header.length = 7)
    (ht : 5 ≤ tail.length) :
    Orf.decodeCompressed b (header ++ packBits (encodeOrf (w / 2) h img) ++ tail) w h = .ok (raster w h fun r c => if c < 2 * (w / 2) then img r c else 0) := by
  have hbits : ∀ v ∈ encodeOrf (w / 2) h img, v ≤ 1 := by
    intro v hv
    unfold encodeOrf at hv
    obtain ⟨r, -, hv⟩ := List.mem_flatMap.mp hv
    obtain ⟨c, -, hv⟩ := List.mem_flatMap.mp hv
    unfold orfCode at hv
    simp only [List.mem_append] at hv
    obtain ((hv | hv) | hv) | hv := hv
    · have hv := List.mem_singleton.mp hv
      rw [hv]; split <;> omega
    · exact bitsOf_le _ _ v hv
    · unfold orfHigh at hv
      split at hv
      · rcases List.mem_append.mp hv with hv | hv
        · have := List.eq_of_mem_replicate hv; omega
        · have := List.mem_singleton.mp hv; omega
      · rcases List.mem_append.mp hv with hv | hv
        · have := List.eq_of_mem_replicate hv; omega
        · exact bitsOf_le _ _ v hv
    · exact bitsOf_le _ _ v hv
  obtain ⟨hf, hl⟩ := follows_packed hbits tail
  unfold Orf.decodeCompressed
  rw [List.append_assoc, sliceFrom_le (by rw [List.length_append]; omega), ok_bind, ← hh, List.drop_left]
  generalize hbuf : packBits (encodeOrf (w / 2) h img) ++ tail = buf at *
  have hlen : (encodeOrf (w / 2) h img).length + 9 ≤ 32 * (buf.length / 4) := by
    rw [← hbuf, List.length_append]
    omega
  obtain ⟨s', g1, g2⟩ := forRange_inv (fun r s => OrfRow (AtMSB buf (bytesOf buf)) (some (32 * (buf.length / 4))) (bytesOf buf) w h img r s) (Nat.zero_le h)
    (s := ⟨List.replicate (w * h) 0, [0, 0], [0, 0], [⟨0, 0, 0⟩, ⟨0, 0, 0⟩], Pump.new buf⟩)
    (f := fun row (st : Orf.State) => forRange 0 (w / 2) (fun c st => forRange 0 2 (fun s st => Orf.pixel b w row (c * 2) s st) st)
      { st with carry := [⟨0, 0, 0⟩, ⟨0, 0, 0⟩] }) (by
      refine ⟨?_, rfl, rfl, 0, 0, atMSB_new buf _, hf, ?_⟩
      · rw [Nat.zero_mul]; exact (filled_zero ..).symm
      · show _ ≤ _
        rw [Nat.zero_add]; exact hlen) (fun r s _ hr hs => row_ok (readsMSB b buf) hr hi hs)
  rw [g1, ok_bind, g2.out, Nat.mul_comm h w, filled_all]
  rfl

/-- Images of an even number of columns are read back completely. -/
theorem orf_even (b : Build) (n h : Nat) (img : Nat → Nat → Nat) (hi : ∀ r c, r < h → c < 2 * n → img r c ≤ 46340) (header tail : Bytes) (hh : header.length = 7)
    (ht : 5 ≤ tail.length) :
    Orf.decodeCompressed b (header ++ packBits (encodeOrf n h img) ++ tail) (2 * n) h = .ok (raster (2 * n) h img) := by
  have := orf_roundtrip b (2 * n) h img hi header tail hh ht
  rw [show 2 * n / 2 = n by omega] at this
  rw [this]
  congr 1
  refine raster_congr ?_
  intro r c _ hc
  rw [if_pos hc]

/-- The bound on the samples is needed: with brighter ones the product of the two gradients leaves the 32 bits, which stops debug builds and
makes release builds predict wrongly. -/
theorem orf_overflow : ∃ img : Nat → Nat → Nat, (∀ r c, img r c ≤ 65535) ∧
    Orf.decodeCompressed .debug (List.replicate 7 0 ++ packBits (encodeOrf 2 3 img) ++ List.replicate 5 0) 4 3 = crash ∧
    Orf.decodeCompressed .release (List.replicate 7 0 ++ packBits (encodeOrf 2 3 img) ++ List.replicate 5 0) 4 3 ≠ .ok (raster 4 3 img) := by
  refine ⟨fun r c => if r < 2 ∧ c < 2 then 0 else 65535, fun r c => by dsimp only; split <;> omega, ?_, ?_⟩ <;> decide +kernel

/-- Four lines of an image of 12 bits, and the same data read as five columns: the fifth remains black. -/
private def orfSample (r c : Nat) : Nat := (r * 1234 + c * 77 + r * r * c * 901) % 4096

example : Orf.decodeCompressed .debug (List.replicate 7 0 ++ packBits (encodeOrf 2 4 orfSample) ++ List.replicate 5 0) 4 4 =
    .ok [0, 77, 154, 231, 1234, 2212, 3190, 72, 2468, 2053, 1638, 1223, 3702, 3696, 3690, 3684] := by decide +kernel

example : Orf.decodeCompressed .debug (List.replicate 7 0 ++ packBits (encodeOrf 2 4 orfSample) ++ List.replicate 5 0) 5 4 =
    .ok [0, 77, 154, 231, 0, 1234, 2212, 3190, 72, 0, 2468, 2053, 1638, 1223, 0, 3702, 3696, 3690, 3684, 0] := by decide +kernel

end Props

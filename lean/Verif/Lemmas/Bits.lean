import Verif.Spec.Bits
/-!
# Lemmas on bit fields and rasters
-/

namespace Spec

theorem raster_length {α : Type} (w h : Nat) (pix : Nat → Nat → α) : (raster w h pix).length = w * h := by
  simp [raster]

theorem raster_getElem? {α : Type} (w h : Nat) (pix : Nat → Nat → α) (r c : Nat) (hr : r < h) (hc : c < w) :
    (raster w h pix)[r * w + c]? = some (pix r c) := by
  have h1 : r * w + c < w * h := by
    have : (r + 1) * w ≤ h * w := Nat.mul_le_mul_right w hr
    rw [Nat.add_mul, Nat.one_mul] at this
    rw [Nat.mul_comm w h]; omega
  have h2 : (r * w + c) / w = r := by
    rw [Nat.mul_comm, Nat.mul_add_div (by omega), Nat.div_eq_of_lt hc, Nat.add_zero]
  have h3 : (r * w + c) % w = c := by
    rw [Nat.mul_comm, Nat.mul_add_mod, Nat.mod_eq_of_lt hc]
  simp [raster, h1, h2, h3]

theorem raster_congr {α : Type} {w h : Nat} {p q : Nat → Nat → α}
    (hpq : ∀ r c, r < h → c < w → p r c = q r c) : raster w h p = raster w h q := by
  unfold raster
  apply List.map_congr_left
  intro i hi
  rw [List.mem_range] at hi
  have hw : 0 < w := by
    rcases Nat.eq_zero_or_pos w with h0 | h0
    · subst h0; simp at hi
    · exact h0
  exact hpq _ _ (Nat.div_lt_of_lt_mul hi) (Nat.mod_lt _ hw)

theorem range_flatMap_block {α : Type} (k n : Nat) (p : Nat → α) :
    (List.range n).flatMap (fun q => (List.range k).map (fun j => p (k * q + j))) = (List.range (k * n)).map p := by
  induction n with
  | zero => simp
  | succ n ih =>
    rw [List.range_succ, List.flatMap_append, ih, Nat.mul_succ, List.range_add]
    simp

theorem raster_eq_flatMap {α : Type} (w h : Nat) (pix : Nat → Nat → α) :
    raster w h pix = (List.range h).flatMap (fun r => (List.range w).map (pix r)) := by
  rcases Nat.eq_zero_or_pos w with h0 | h0
  · subst h0; simp [raster]
  · unfold raster
    rw [← range_flatMap_block w h]
    congr 1
    funext r
    apply List.map_congr_left
    intro c hc
    rw [List.mem_range] at hc
    rw [Nat.mul_add_div h0, Nat.div_eq_of_lt hc, Nat.mul_add_mod, Nat.mod_eq_of_lt hc]
    simp

theorem bytesOf_lt (buf : List UInt8) (i : Nat) : bytesOf buf i < 256 := by
  unfold bytesOf
  split
  · exact UInt8.toNat_lt _
  · omega

theorem bytesOf_drop (buf : List UInt8) (k i : Nat) : bytesOf (buf.drop k) i = bytesOf buf (k + i) := by
  simp [bytesOf]

theorem fieldMSB_add (b : Nat → Nat) (s m n : Nat) :
    fieldMSB b s (m + n) = fieldMSB b s m * 2 ^ n + fieldMSB b (s + m) n := by
  induction n with
  | zero => simp [fieldMSB]
  | succ n ih =>
    rw [← Nat.add_assoc, fieldMSB, ih, fieldMSB, Nat.pow_succ, Nat.add_assoc s m n]
    rw [Nat.mul_add, ← Nat.mul_assoc 2, Nat.mul_comm 2 (fieldMSB b s m), Nat.mul_assoc, Nat.mul_comm 2 (2 ^ n)]
    omega

theorem fieldLSB_add (b : Nat → Nat) (s m n : Nat) :
    fieldLSB b s (m + n) = fieldLSB b s m + 2 ^ m * fieldLSB b (s + m) n := by
  induction n with
  | zero => simp [fieldLSB]
  | succ n ih =>
    rw [← Nat.add_assoc, fieldLSB, ih, fieldLSB, Nat.pow_add, Nat.mul_add, Nat.mul_assoc, Nat.add_assoc s m n]
    omega

theorem fieldMSB_lt (b : Nat → Nat) (s n : Nat) : fieldMSB b s n < 2 ^ n := by
  induction n with
  | zero => simp [fieldMSB]
  | succ n ih =>
    have : bitMSB b (s + n) < 2 := Nat.mod_lt _ (by omega)
    rw [fieldMSB, Nat.pow_succ]; omega

theorem fieldLSB_lt (b : Nat → Nat) (s n : Nat) : fieldLSB b s n < 2 ^ n := by
  induction n with
  | zero => simp [fieldLSB]
  | succ n ih =>
    have : bitLSB b (s + n) < 2 := Nat.mod_lt _ (by omega)
    rw [fieldLSB, Nat.pow_succ]
    have : bitLSB b (s + n) = 0 ∨ bitLSB b (s + n) = 1 := by omega
    rcases this with h | h <;> rw [h] <;> omega

theorem mod_two_mul (y k : Nat) : 2 * (y / 2 % k) + y % 2 = y % (2 * k) := by
  rw [Nat.mod_mul]; omega

theorem fieldMSB_within (b : Nat → Nat) (i j n : Nat) (h : j + n ≤ 8) :
    fieldMSB b (8 * i + j) n = b i / 2 ^ (8 - j - n) % 2 ^ n := by
  induction n with
  | zero => simp [fieldMSB, Nat.mod_one]
  | succ n ih =>
    rw [fieldMSB, ih (by omega), bitMSB]
    have h1 : (8 * i + j + n) / 8 = i := by omega
    have h2 : 7 - (8 * i + j + n) % 8 = 8 - j - (n + 1) := by omega
    have h3 : 8 - j - n = (8 - j - (n + 1)) + 1 := by omega
    rw [h1, h2, h3, Nat.pow_succ, ← Nat.div_div_eq_div_mul, mod_two_mul, Nat.pow_succ, Nat.mul_comm 2]

theorem fieldLSB_within (b : Nat → Nat) (i j n : Nat) (h : j + n ≤ 8) :
    fieldLSB b (8 * i + j) n = b i / 2 ^ j % 2 ^ n := by
  induction n with
  | zero => simp [fieldLSB, Nat.mod_one]
  | succ n ih =>
    rw [fieldLSB, ih (by omega), bitLSB]
    have h1 : (8 * i + j + n) / 8 = i := by omega
    have h2 : (8 * i + j + n) % 8 = j + n := by omega
    rw [h1, h2, Nat.pow_succ, Nat.mod_mul, Nat.pow_add, Nat.div_div_eq_div_mul]

theorem fieldMSB_shift (b : Nat → Nat) (k s n : Nat) :
    fieldMSB (fun i => b (k + i)) s n = fieldMSB b (8 * k + s) n := by
  induction n with
  | zero => rfl
  | succ n ih =>
    have h1 : (8 * k + s + n) / 8 = k + (s + n) / 8 := by omega
    have h2 : (8 * k + s + n) % 8 = (s + n) % 8 := by omega
    simp only [fieldMSB, ih, bitMSB, h1, h2]

theorem fieldLSB_shift (b : Nat → Nat) (k s n : Nat) :
    fieldLSB (fun i => b (k + i)) s n = fieldLSB b (8 * k + s) n := by
  induction n with
  | zero => rfl
  | succ n ih =>
    have h1 : (8 * k + s + n) / 8 = k + (s + n) / 8 := by omega
    have h2 : (8 * k + s + n) % 8 = (s + n) % 8 := by omega
    simp only [fieldLSB, ih, bitLSB, h1, h2]

theorem fieldMSB_congr {b b' : Nat → Nat} {s n : Nat} (h : ∀ i, s / 8 ≤ i → i * 8 < s + n → b i = b' i) :
    fieldMSB b s n = fieldMSB b' s n := by
  induction n with
  | zero => rfl
  | succ n ih =>
    rw [fieldMSB, fieldMSB, ih (fun i h1 h2 => h i h1 (by omega)), bitMSB, bitMSB, h ((s + n) / 8) (by omega) (by omega)]

end Spec

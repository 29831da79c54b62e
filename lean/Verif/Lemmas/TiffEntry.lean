import Verif.Lemmas.Tiff
import Verif.Lemmas.Words
import Verif.Spec.Tiff
/-!
# Lemmas about TIFF entries
-/

namespace Spec

theorem encodeLE_length (n v : Nat) : (encodeLE n v).length = n := by
  induction n generalizing v with
  | zero => rfl
  | succ n ih => simp [encodeLE, ih]

theorem encode_length (big : Bool) (n v : Nat) : (encode big n v).length = n := by
  unfold encode; split <;> simp [encodeLE_length]

theorem numberLE_encodeLE (n v : Nat) (h : v < 256 ^ n) : numberLE (encodeLE n v) = v := by
  induction n generalizing v with
  | zero => simp at h; subst h; rfl
  | succ n ih =>
    rw [encodeLE, numberLE, ih _ (by rw [Nat.pow_succ] at h; exact Nat.div_lt_of_lt_mul (by rwa [Nat.mul_comm]))]
    have : (UInt8.ofNat v).toNat = v % 256 := by simp
    omega

theorem number_encode (big : Bool) (n v : Nat) (h : v < 256 ^ n) : number big (encode big n v) = v := by
  unfold number encode
  cases big
  · exact numberLE_encodeLE n v h
  · simp only [if_true, List.reverse_reverse]; exact numberLE_encodeLE n v h

theorem bytesAt_length {buf : List UInt8} {pos n : Nat} (h : pos + n ≤ buf.length) : (bytesAt buf pos n).length = n := by
  unfold bytesAt; rw [List.length_take, List.length_drop]; omega

theorem bytesAt_two {buf : List UInt8} {pos : Nat} (h : pos + 2 ≤ buf.length) : bytesAt buf pos 2 = [buf[pos], buf[pos + 1]] := by
  unfold bytesAt
  rw [List.drop_eq_getElem_cons (by omega), List.drop_eq_getElem_cons (by omega)]
  rfl

theorem bytesAt_four {buf : List UInt8} {pos : Nat} (h : pos + 4 ≤ buf.length) :
    bytesAt buf pos 4 = [buf[pos], buf[pos + 1], buf[pos + 2], buf[pos + 3]] := by
  unfold bytesAt
  rw [List.drop_eq_getElem_cons (by omega), List.drop_eq_getElem_cons (by omega), List.drop_eq_getElem_cons (by omega),
    List.drop_eq_getElem_cons (by omega)]
  rfl

theorem bytesAt_one {buf : List UInt8} {pos : Nat} (h : pos + 1 ≤ buf.length) : bytesAt buf pos 1 = [buf[pos]] := by
  unfold bytesAt
  rw [List.drop_eq_getElem_cons (by omega)]
  rfl

theorem flatMap_const_length {α β : Type} (f : α → List β) (k : Nat) (hf : ∀ a, (f a).length = k) (l : List α) :
    (l.flatMap f).length = l.length * k := by
  induction l with
  | nil => simp
  | cons a l ih => rw [List.flatMap_cons, List.length_append, hf, ih, List.length_cons, Nat.succ_mul]; omega

theorem flatMap_chunk {α : Type} (f : α → List UInt8) (k : Nat) (hf : ∀ a, (f a).length = k) (l : List α) (i : Nat) (h : i < l.length) :
    bytesAt (l.flatMap f) (i * k) k = f l[i] := by
  induction l generalizing i with
  | nil => simp at h
  | cons a l ih =>
    unfold bytesAt at ih ⊢
    rw [List.flatMap_cons]
    cases i with
    | zero => simp [hf]
    | succ i =>
      rw [Nat.succ_mul, Nat.add_comm, List.drop_append, hf, List.drop_eq_nil_of_le (by rw [hf]; omega), List.nil_append,
        show k + i * k - k = i * k by omega]
      simpa using ih i (by simpa using h)

theorem Field.bytes_length (big : Bool) (f : Field) : (f.bytes big).length = f.values.length * tiffSize f.typ :=
  flatMap_const_length _ _ (fun _ => encode_length _ _ _) _

end Spec

namespace Model
open Rust Spec

theorem bytesOf_getElem {buf : Bytes} {i : Nat} (h : i < buf.length) : bytesOf buf i = (buf[i]).toNat := by
  unfold bytesOf; rw [List.getElem?_eq_getElem h]

theorem ru16_number {e : Endian} {buf : Bytes} {pos : Nat} (h : pos + 2 ≤ buf.length) :
    e.ru16 buf pos = .ok (number e.big (bytesAt buf pos 2)) := by
  unfold Endian.ru16
  rw [bytesAt_two h]
  cases hb : e.big
  · rw [if_neg (by simp), LEu16_eq h, bytesOf_getElem (by omega), bytesOf_getElem (by omega)]
    simp only [number, numberLE, Bool.false_eq_true, if_false]
    congr 1; omega
  · rw [if_pos rfl, BEu16_eq h, bytesOf_getElem (by omega), bytesOf_getElem (by omega)]
    simp only [number, numberLE, if_true, List.reverse_cons, List.reverse_nil, List.nil_append, List.cons_append]
    congr 1; omega

theorem ru32_number {e : Endian} {buf : Bytes} {pos : Nat} (h : pos + 4 ≤ buf.length) :
    e.ru32 buf pos = .ok (number e.big (bytesAt buf pos 4)) := by
  unfold Endian.ru32
  rw [bytesAt_four h]
  cases hb : e.big
  · rw [if_neg (by simp), LEu32_eq h, bytesOf_getElem (by omega), bytesOf_getElem (by omega), bytesOf_getElem (by omega), bytesOf_getElem (by omega)]
    simp only [number, numberLE, Bool.false_eq_true, if_false]
    congr 1; omega
  · rw [if_pos rfl, BEu32_eq h, bytesOf_getElem (by omega), bytesOf_getElem (by omega), bytesOf_getElem (by omega), bytesOf_getElem (by omega)]
    simp only [number, numberLE, if_true, List.reverse_cons, List.reverse_nil, List.nil_append, List.cons_append]
    congr 1; omega

end Model

namespace Model
open Rust Spec

theorem ru16_ok {e : Endian} {buf : Bytes} {pos v : Nat} (h : e.ru16 buf pos = .ok v) : pos + 2 ≤ buf.length ∧ v = number e.big (bytesAt buf pos 2) := by
  by_cases hl : pos + 2 ≤ buf.length
  · rw [ru16_number hl] at h; injection h with h; exact ⟨hl, h.symm⟩
  · exfalso
    unfold Endian.ru16 at h
    split at h
    · rw [BEu16_short (by omega)] at h; exact crash_ne_ok _ h
    · rw [LEu16_short (by omega)] at h; exact crash_ne_ok _ h

theorem ru32_ok {e : Endian} {buf : Bytes} {pos v : Nat} (h : e.ru32 buf pos = .ok v) : pos + 4 ≤ buf.length ∧ v = number e.big (bytesAt buf pos 4) := by
  by_cases hl : pos + 4 ≤ buf.length
  · rw [ru32_number hl] at h; injection h with h; exact ⟨hl, h.symm⟩
  · exfalso
    unfold Endian.ru32 at h
    split at h
    · rw [BEu32_short (by omega)] at h; exact crash_ne_ok _ h
    · rw [LEu32_short (by omega)] at h; exact crash_ne_ok _ h

theorem numberLE_lt (l : List UInt8) : numberLE l < 256 ^ l.length := by
  induction l with
  | nil => simp [numberLE]
  | cons b l ih =>
    have := b.toNat_lt
    rw [numberLE, List.length_cons, Nat.pow_succ]
    omega

theorem number_lt (big : Bool) (l : List UInt8) : number big l < 256 ^ l.length := by
  unfold number
  cases big
  · exact numberLE_lt l
  · have := numberLE_lt l.reverse
    simpa using this

theorem ri32_number {e : Endian} {buf : Bytes} {pos : Nat} (h : pos + 4 ≤ buf.length) :
    e.ri32 buf pos = .ok (signed32 (number e.big (bytesAt buf pos 4))) := by
  have hu := ru32_number (e := e) h
  have hn := number_lt e.big (bytesAt buf pos 4)
  rw [bytesAt_length h] at hn
  have key : toI32 ((number e.big (bytesAt buf pos 4) : Nat) : Int) = signed32 (number e.big (bytesAt buf pos 4)) := by
    unfold toI32 signed32
    rw [Int.bmod_def]
    split <;> split <;> omega
  unfold Endian.ru32 at hu
  unfold Endian.ri32 BEi32 LEi32
  split at hu
  · rename_i hb
    rw [if_pos hb, hu, ok_bind, key]
  · rename_i hb
    rw [if_neg hb, hu, ok_bind, key]

theorem slice_ok {α : Type} {l r : List α} {i j : Nat} (h : slice l i j = .ok r) : i ≤ j ∧ j ≤ l.length ∧ r = (l.drop i).take (j - i) := by
  by_cases hc : i ≤ j ∧ j ≤ l.length
  · rw [slice_le hc.1 hc.2] at h
    injection h with h
    refine ⟨hc.1, hc.2, ?_⟩
    rw [← h, List.drop_take]
  · exfalso
    unfold slice at h
    rw [if_neg (by simpa using hc)] at h
    exact crash_ne_ok _ h

theorem dataShifts_size {t : Nat} (h1 : 1 ≤ t) (h2 : t ≤ 13) : ∃ s, dataShifts[t]? = some s ∧ 2 ^ s = tiffSize t := by
  have : ∀ t, t < 14 → 1 ≤ t → ∃ s, dataShifts[t]? = some s ∧ 2 ^ s = tiffSize t := by
    intro t ht h1
    match t, ht, h1 with
    | 1, _, _ => exact ⟨0, rfl, rfl⟩
    | 2, _, _ => exact ⟨0, rfl, rfl⟩
    | 3, _, _ => exact ⟨1, rfl, rfl⟩
    | 4, _, _ => exact ⟨2, rfl, rfl⟩
    | 5, _, _ => exact ⟨3, rfl, rfl⟩
    | 6, _, _ => exact ⟨0, rfl, rfl⟩
    | 7, _, _ => exact ⟨0, rfl, rfl⟩
    | 8, _, _ => exact ⟨1, rfl, rfl⟩
    | 9, _, _ => exact ⟨2, rfl, rfl⟩
    | 10, _, _ => exact ⟨3, rfl, rfl⟩
    | 11, _, _ => exact ⟨2, rfl, rfl⟩
    | 12, _, _ => exact ⟨3, rfl, rfl⟩
    | 13, _, _ => exact ⟨2, rfl, rfl⟩
    | n + 14, h, _ => omega
  exact this t (by omega) h1

end Model

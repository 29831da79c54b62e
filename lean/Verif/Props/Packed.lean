import Verif.Lemmas.Packed
import Verif.Lemmas.Words
/-!
# C06, C08-C14: uncompressed rasters

`raster w h pix` is the row-major vector of the image with samples `pix row col`; `fieldMSB`/`fieldLSB` read an `n`-bit
number at a bit position of a byte sequence (`Verif.Spec.Bits`).
-/

namespace Props
open Rust Spec Model

/-! ## C06: multi-byte reads -/

/-- C06. All readers in one statement: an in-range read is the positional value in the given byte order, and an
out-of-range read is a panic. -/
theorem endian_reads (e : Endian) (buf : Bytes) (pos : Nat) :
    e.ru16 buf pos = (if pos + 2 ≤ buf.length then
        .ok (if e.big then fieldMSB (bytesOf buf) (8 * pos) 16 else fieldLSB (bytesOf buf) (8 * pos) 16)
      else crash) ∧
    e.ru32 buf pos = (if pos + 4 ≤ buf.length then
        .ok (if e.big then fieldMSB (bytesOf buf) (8 * pos) 32 else fieldLSB (bytesOf buf) (8 * pos) 32)
      else crash) ∧
    e.ri32 buf pos = (if pos + 4 ≤ buf.length then
        .ok (Int.bmod (if e.big then fieldMSB (bytesOf buf) (8 * pos) 32 else fieldLSB (bytesOf buf) (8 * pos) 32) (2 ^ 32))
      else crash) := by
  have hb := bytesOf_lt buf
  have h0 := hb pos
  have h1 := hb (pos + 1)
  have h2 := hb (pos + 2)
  have h3 := hb (pos + 3)
  have m : ∀ i, fieldMSB (bytesOf buf) (8 * i) 8 = bytesOf buf i := by
    intro i
    have := fieldMSB_within (bytesOf buf) i 0 8 (by omega)
    have := hb i
    simp at *; omega
  have l : ∀ i, fieldLSB (bytesOf buf) (8 * i) 8 = bytesOf buf i := by
    intro i
    have := fieldLSB_within (bytesOf buf) i 0 8 (by omega)
    have := hb i
    simp at *; omega
  have m16 : fieldMSB (bytesOf buf) (8 * pos) 16 = bytesOf buf pos * 256 + bytesOf buf (pos + 1) := by
    rw [show 16 = 8 + 8 from rfl, fieldMSB_add, m, show 8 * pos + 8 = 8 * (pos + 1) by omega, m]
  have l16 : fieldLSB (bytesOf buf) (8 * pos) 16 = bytesOf buf (pos + 1) * 256 + bytesOf buf pos := by
    rw [show 16 = 8 + 8 from rfl, fieldLSB_add, l, show 8 * pos + 8 = 8 * (pos + 1) by omega, l]; omega
  have m32 : fieldMSB (bytesOf buf) (8 * pos) 32 =
      bytesOf buf pos * 16777216 + bytesOf buf (pos + 1) * 65536 + bytesOf buf (pos + 2) * 256 + bytesOf buf (pos + 3) := by
    rw [show 32 = 16 + (8 + 8) from rfl, fieldMSB_add, m16, fieldMSB_add, show 8 * pos + 16 = 8 * (pos + 2) by omega, m,
      show 8 * (pos + 2) + 8 = 8 * (pos + 3) by omega, m]; omega
  have l32 : fieldLSB (bytesOf buf) (8 * pos) 32 =
      bytesOf buf (pos + 3) * 16777216 + bytesOf buf (pos + 2) * 65536 + bytesOf buf (pos + 1) * 256 + bytesOf buf pos := by
    rw [show 32 = 16 + (8 + 8) from rfl, fieldLSB_add, l16, fieldLSB_add, show 8 * pos + 16 = 8 * (pos + 2) by omega, l,
      show 8 * (pos + 2) + 8 = 8 * (pos + 3) by omega, l]; omega
  refine ⟨?_, ?_, ?_⟩
  · unfold Endian.ru16
    by_cases h : pos + 2 ≤ buf.length
    · rw [if_pos h, BEu16_eq h, LEu16_eq h, m16, l16]; split <;> rfl
    · rw [if_neg h, BEu16_short (by omega), LEu16_short (by omega), ite_self]
  · unfold Endian.ru32
    by_cases h : pos + 4 ≤ buf.length
    · rw [if_pos h, BEu32_eq h, LEu32_eq h, m32, l32]; split <;> rfl
    · rw [if_neg h, BEu32_short (by omega), LEu32_short (by omega), ite_self]
  · unfold Endian.ri32 BEi32 LEi32
    by_cases h : pos + 4 ≤ buf.length
    · rw [if_pos h, BEu32_eq h, LEu32_eq h, m32, l32]; split <;> rfl
    · rw [if_neg h, BEu32_short (by omega), LEu32_short (by omega)]; simp

example : BIG_ENDIAN.ru32 [9, 0x12, 0x34, 0x56, 0x78] 1 = .ok 0x12345678 ∧
    LITTLE_ENDIAN.ru32 [9, 0x12, 0x34, 0x56, 0x78] 1 = .ok 0x78563412 ∧
    BIG_ENDIAN.ri32 [0xff, 0xff, 0xff, 0xfe] 0 = .ok (-2) ∧
    BIG_ENDIAN.ru16 [1, 2, 3] 2 = crash := by decide

/-- C06. Reading big-endian is reading the reversed bytes little-endian. -/
theorem endian_reverse (a b c d : UInt8) :
    BEu32 [a, b, c, d] 0 = LEu32 [d, c, b, a] 0 ∧ BEu16 [a, b] 0 = LEu16 [b, a] 0 := by
  refine ⟨?_, ?_⟩
  · rw [BEu32_eq (by simp), LEu32_eq (by simp)]
    simp [bytesOf]
  · rw [BEu16_eq (by simp), LEu16_eq (by simp)]
    simp [bytesOf]

/-! ## C08: 12-bit big-endian -/

theorem row_le {w h r : Nat} (hr : r < h) : r * w + w ≤ w * h := by
  have : (r + 1) * w ≤ h * w := Nat.mul_le_mul_right w hr
  rw [Nat.add_mul, Nat.one_mul, Nat.mul_comm h w] at this
  exact this

/-- C08. MSB-first 12-bit data is unpacked exactly. -/
theorem decode_12be_exact (buf : Bytes) (w h : Nat) (hpos : 0 < w) (heven : w % 2 = 0)
    (hlen : w * h * 12 / 8 ≤ buf.length) :
    decode_12be buf w h = .ok (raster w h fun r c => fieldMSB (bytesOf buf) (12 * (r * w + c)) 12) := by
  obtain ⟨n, rfl⟩ : ∃ n, w = 2 * n := ⟨w / 2, by omega⟩
  have hrow : ∀ r, r < h → r * (2 * n) * 12 / 8 = 3 * (r * n) ∧ 3 * (r * n) + 3 * n ≤ buf.length := by
    intro r hr
    have := row_le (w := n) hr
    have e1 : r * (2 * n) = 2 * (r * n) := Nat.mul_left_comm r 2 n
    have e2 : 2 * n * h = 2 * (n * h) := Nat.mul_assoc 2 n h
    rw [e1]; rw [e2] at hlen
    omega
  unfold decode_12be
  rw [chunk12be.rows (by omega) (by omega) n h (by omega) (fun row => sliceFrom buf (row * (2 * n) * 12 / 8))
    (fun r => buf.drop (3 * (r * n)))]
  · congr 1
    apply raster_congr
    intro r c hr hc
    have e1 : r * (2 * n) = 2 * (r * n) := Nat.mul_left_comm r 2 n
    simp only [bytesOf_drop]
    have := fieldMSB_shift (bytesOf buf) (3 * (r * n) + 3 * (c / 2)) (12 * (c % 2)) 12
    simp only [Nat.add_assoc] at this ⊢
    rw [this]
    congr 1
    omega
  · intro r hr
    obtain ⟨h1, h2⟩ := hrow r hr
    rw [h1, sliceFrom_le (by omega)]
    exact ⟨rfl, by simp; omega⟩

example : decode_12be [0x12, 0x34, 0x56, 0x78, 0x9a, 0xbc, 0xff] 2 2 =
    .ok (raster 2 2 fun r c => fieldMSB (bytesOf [0x12, 0x34, 0x56, 0x78, 0x9a, 0xbc, 0xff]) (12 * (r * 2 + c)) 12) :=
  decode_12be_exact _ 2 2 (by decide) (by decide) (by decide)
example : decode_12be [0x12, 0x34, 0x56, 0x78, 0x9a, 0xbc, 0xff] 2 2 = .ok [0x123, 0x456, 0x789, 0xabc] := by decide

/-- C08. The same with the bytes of each 16-bit word exchanged. -/
theorem decode_12be_msb16_exact (buf : Bytes) (w h : Nat) (hmod : w * h % 4 = 0) (hlen : w * h * 12 / 8 ≤ buf.length) :
    decode_12be_msb16 buf w h =
      .ok (raster w h fun r c => fieldMSB (swap16 (bytesOf buf)) (12 * (r * w + c)) 12) := by
  unfold decode_12be_msb16
  rw [chunk12beMsb16.line (by omega) (by omega) (w * h / 4) _ _ (by simp; omega) (by omega)]
  have e : 4 * (w * h / 4) = w * h := by omega
  rw [e]
  congr 1
  unfold raster
  apply List.map_congr_left
  intro k hk
  have e2 : k / w * w + k % w = k := by rw [Nat.mul_comm]; exact Nat.div_add_mod k w
  simp only [e2]
  have e3 : swap16 (fun i => bytesOf buf (6 * (k / 4) + i)) = fun i => swap16 (bytesOf buf) (6 * (k / 4) + i) := by
    funext i
    unfold swap16
    by_cases hi : i % 2 = 0
    · rw [if_pos hi, if_pos (by omega)]; rfl
    · rw [if_neg hi, if_neg (by omega)]; show bytesOf buf _ = bytesOf buf _; congr 1; omega
  rw [e3, fieldMSB_shift]
  congr 1
  omega

example : decode_12be_msb16 [0x34, 0x12, 0x78, 0x56, 0xbc, 0x9a] 4 1 = .ok [0x123, 0x456, 0x789, 0xabc] := by decide
example : decode_12be_msb16 [0x34, 0x12, 0x78, 0x56, 0xbc, 0x9a] 2 2 = .ok (raster 2 2 fun r c =>
    fieldMSB (swap16 (bytesOf [0x34, 0x12, 0x78, 0x56, 0xbc, 0x9a])) (12 * (r * 2 + c)) 12) :=
  decode_12be_msb16_exact _ 2 2 (by decide) (by decide)

/-- C08. The same with the bytes of each 32-bit word reversed. -/
theorem decode_12be_msb32_exact (buf : Bytes) (w h : Nat) (hmod : w * h % 8 = 0) (hlen : w * h * 12 / 8 ≤ buf.length) :
    decode_12be_msb32 buf w h =
      .ok (raster w h fun r c => fieldMSB (swap32 (bytesOf buf)) (12 * (r * w + c)) 12) := by
  unfold decode_12be_msb32
  rw [chunk12beMsb32.line (by omega) (by omega) (w * h / 8) _ _ (by simp; omega) (by omega)]
  have e : 8 * (w * h / 8) = w * h := by omega
  rw [e]
  congr 1
  unfold raster
  apply List.map_congr_left
  intro k hk
  have e2 : k / w * w + k % w = k := by rw [Nat.mul_comm]; exact Nat.div_add_mod k w
  simp only [e2]
  have e3 : swap32 (fun i => bytesOf buf (12 * (k / 8) + i)) = fun i => swap32 (bytesOf buf) (12 * (k / 8) + i) := by
    funext i
    unfold swap32
    show bytesOf buf _ = bytesOf buf _
    congr 1
    omega
  rw [e3, fieldMSB_shift]
  congr 1
  omega

example : decode_12be_msb32 [0x78, 0x56, 0x34, 0x12, 0xf0, 0xde, 0xbc, 0x9a, 0x44, 0x33, 0x22, 0x11] 4 2 =
    .ok [0x123, 0x456, 0x789, 0xabc, 0xdef, 0x011, 0x223, 0x344] := by decide
example : decode_12be_msb32 [0x78, 0x56, 0x34, 0x12, 0xf0, 0xde, 0xbc, 0x9a, 0x44, 0x33, 0x22, 0x11] 4 2 =
    .ok (raster 4 2 fun r c => fieldMSB (swap32 (bytesOf
      [0x78, 0x56, 0x34, 0x12, 0xf0, 0xde, 0xbc, 0x9a, 0x44, 0x33, 0x22, 0x11])) (12 * (r * 4 + c)) 12) :=
  decode_12be_msb32_exact _ 4 2 (by decide) (by decide)

/-- C08. Rows starting on 16-bit boundaries: MSB-first 12-bit fields, each row padded to an even number of bytes. -/
theorem decode_12le_16bitaligned_exact (buf : Bytes) (w h : Nat) (hpos : 0 < w) (heven : w % 2 = 0)
    (hlen : h * ((w / 2 * 3 + 1) / 2 * 2) ≤ buf.length) :
    decode_12le_16bitaligned buf w h =
      .ok (raster w h fun r c => fieldMSB (bytesOf buf) (8 * (r * ((w / 2 * 3 + 1) / 2 * 2)) + 12 * c) 12) := by
  obtain ⟨n, rfl⟩ : ∃ n, w = 2 * n := ⟨w / 2, by omega⟩
  have hs : ((2 * n * 12 / 8 + 1) >>> 1) <<< 1 = (3 * n + 1) / 2 * 2 := by
    rw [Nat.shiftRight_eq_div_pow, Nat.shiftLeft_eq]; omega
  have hs' : (2 * n / 2 * 3 + 1) / 2 * 2 = (3 * n + 1) / 2 * 2 := by omega
  rw [hs'] at hlen ⊢
  unfold decode_12le_16bitaligned
  simp only [hs]
  generalize hst : (3 * n + 1) / 2 * 2 = st at hlen ⊢
  have hst' : 3 * n ≤ st := by omega
  have hrow : ∀ r, r < h → r * st + 3 * n ≤ buf.length := by
    intro r hr
    have := row_le (w := st) hr
    rw [Nat.mul_comm st h] at this
    omega
  rw [chunk12be.rows (by omega) (by omega) n h (by omega) (fun row => sliceFrom buf (row * st))
    (fun r => buf.drop (r * st))]
  · congr 1
    apply raster_congr
    intro r c hr hc
    simp only [bytesOf_drop]
    have := fieldMSB_shift (bytesOf buf) (r * st + 3 * (c / 2)) (12 * (c % 2)) 12
    simp only [Nat.add_assoc] at this ⊢
    rw [this]
    congr 1
    omega
  · intro r hr
    have := hrow r hr
    rw [sliceFrom_le (by omega)]
    exact ⟨rfl, by simp; omega⟩

example : decode_12le_16bitaligned [0x12, 0x34, 0x56, 0xee, 0x78, 0x9a, 0xbc, 0xff] 2 2 = .ok [0x123, 0x456, 0x789, 0xabc] := by
  decide
example : decode_12le_16bitaligned [0x12, 0x34, 0x56, 0xee, 0x78, 0x9a, 0xbc, 0xff] 2 2 =
    .ok (raster 2 2 fun r c => fieldMSB (bytesOf [0x12, 0x34, 0x56, 0xee, 0x78, 0x9a, 0xbc, 0xff]) (8 * (r * 4) + 12 * c) 12) :=
  decode_12le_16bitaligned_exact _ 2 2 (by decide) (by decide) (by decide)

/-! ## C09: 12-bit little-endian -/

/-- C09. LSB-first 12-bit data is unpacked exactly. -/
theorem decode_12le_exact (buf : Bytes) (w h : Nat) (hpos : 0 < w) (heven : w % 2 = 0)
    (hlen : w * h * 12 / 8 ≤ buf.length) :
    decode_12le buf w h = .ok (raster w h fun r c => fieldLSB (bytesOf buf) (12 * (r * w + c)) 12) := by
  obtain ⟨n, rfl⟩ : ∃ n, w = 2 * n := ⟨w / 2, by omega⟩
  have hrow : ∀ r, r < h → r * (2 * n) * 12 / 8 = 3 * (r * n) ∧ 3 * (r * n) + 3 * n ≤ buf.length := by
    intro r hr
    have := row_le (w := n) hr
    have e1 : r * (2 * n) = 2 * (r * n) := Nat.mul_left_comm r 2 n
    have e2 : 2 * n * h = 2 * (n * h) := Nat.mul_assoc 2 n h
    rw [e1]; rw [e2] at hlen
    omega
  unfold decode_12le
  rw [chunk12le.rows (by omega) (by omega) n h (by omega) (fun row => sliceFrom buf (row * (2 * n) * 12 / 8))
    (fun r => buf.drop (3 * (r * n)))]
  · congr 1
    apply raster_congr
    intro r c hr hc
    have e1 : r * (2 * n) = 2 * (r * n) := Nat.mul_left_comm r 2 n
    simp only [bytesOf_drop]
    have := fieldLSB_shift (bytesOf buf) (3 * (r * n) + 3 * (c / 2)) (12 * (c % 2)) 12
    simp only [Nat.add_assoc] at this ⊢
    rw [this]
    congr 1
    omega
  · intro r hr
    obtain ⟨h1, h2⟩ := hrow r hr
    rw [h1, sliceFrom_le (by omega)]
    exact ⟨rfl, by simp; omega⟩

example : decode_12le [0x12, 0x34, 0x56, 0x78, 0x9a, 0xbc] 2 2 = .ok [0x412, 0x563, 0xa78, 0xbc9] := by decide
example : decode_12le [0x12, 0x34, 0x56, 0x78, 0x9a, 0xbc] 2 2 =
    .ok (raster 2 2 fun r c => fieldLSB (bytesOf [0x12, 0x34, 0x56, 0x78, 0x9a, 0xbc]) (12 * (r * 2 + c)) 12) :=
  decode_12le_exact _ 2 2 (by decide) (by decide) (by decide)

/-! ## C10: 10-bit -/

/-- C10. 10-bit data in byte-swapped 16-bit words is unpacked exactly. -/
theorem decode_10le_lsb16_exact (buf : Bytes) (w h : Nat) (hpos : 0 < w) (hmod : w % 8 = 0)
    (hlen : w * h * 10 / 8 ≤ buf.length) :
    decode_10le_lsb16 buf w h =
      .ok (raster w h fun r c => fieldMSB (swap16 (bytesOf buf)) (10 * (r * w + c)) 10) := by
  obtain ⟨n, rfl⟩ : ∃ n, w = 8 * n := ⟨w / 8, by omega⟩
  have hrow : ∀ r, r < h → r * (8 * n) * 10 / 8 = 10 * (r * n) ∧ 10 * (r * n) + 10 * n ≤ buf.length := by
    intro r hr
    have := row_le (w := n) hr
    have e1 : r * (8 * n) = 8 * (r * n) := Nat.mul_left_comm r 8 n
    have e2 : 8 * n * h = 8 * (n * h) := Nat.mul_assoc 8 n h
    rw [e1]; rw [e2] at hlen
    omega
  unfold decode_10le_lsb16
  rw [chunk10leLsb16.rows (by omega) (by omega) n h (by omega) (fun row => sliceFrom buf (row * (8 * n) * 10 / 8))
    (fun r => buf.drop (10 * (r * n)))]
  · congr 1
    apply raster_congr
    intro r c hr hc
    have e1 : r * (8 * n) = 8 * (r * n) := Nat.mul_left_comm r 8 n
    simp only [bytesOf_drop]
    have e3 : swap16 (fun i => bytesOf buf (10 * (r * n) + (10 * (c / 8) + i))) =
        fun i => swap16 (bytesOf buf) ((10 * (r * n) + 10 * (c / 8)) + i) := by
      funext i
      unfold swap16
      by_cases hi : i % 2 = 0
      · rw [if_pos hi, if_pos (by omega)]; show bytesOf buf _ = bytesOf buf _; congr 1; omega
      · rw [if_neg hi, if_neg (by omega)]; show bytesOf buf _ = bytesOf buf _; congr 1; omega
    rw [e3, fieldMSB_shift]
    congr 1
    omega
  · intro r hr
    obtain ⟨h1, h2⟩ := hrow r hr
    rw [h1, sliceFrom_le (by omega)]
    exact ⟨rfl, by simp; omega⟩

example : decode_10le_lsb16 [0x00, 0x01, 0x00, 0x01, 0, 0, 0, 0, 0xff, 0xff] 8 1 = .ok [4, 0, 64, 0, 0, 0, 63, 1023] := by decide
example : decode_10le_lsb16 [0x00, 0x01, 0x00, 0x01, 0, 0, 0, 0, 0xff, 0xff] 8 1 = .ok (raster 8 1 fun r c =>
    fieldMSB (swap16 (bytesOf [0x00, 0x01, 0x00, 0x01, 0, 0, 0, 0, 0xff, 0xff])) (10 * (r * 8 + c)) 10) :=
  decode_10le_lsb16_exact _ 8 1 (by decide) (by decide) (by decide)

/-- C10, what holds of the plain 10-bit decoder: every sample whose column is not 2 modulo 4 is its 10-bit field. Missing
from the full statement: columns 2 modulo 4, for which the claim is false (`decode_10le_wrong`); the theorem
also says what those columns hold instead. -/
theorem decode_10le_exact_partial (buf : Bytes) (w h : Nat) (hpos : 0 < w) (hmod : w % 4 = 0)
    (hlen : w * h * 10 / 8 ≤ buf.length) :
    decode_10le buf w h = .ok (raster w h fun r c =>
      if c % 4 = 2 then
        fieldMSB (bytesOf buf) (10 * (r * w + c)) 4 * 64 + fieldMSB (bytesOf buf) (10 * (r * w + c) - 4) 6
      else fieldMSB (bytesOf buf) (10 * (r * w + c)) 10) := by
  obtain ⟨n, rfl⟩ : ∃ n, w = 4 * n := ⟨w / 4, by omega⟩
  have hrow : ∀ r, r < h → r * (4 * n) * 10 / 8 = 5 * (r * n) ∧ 5 * (r * n) + 5 * n ≤ buf.length := by
    intro r hr
    have := row_le (w := n) hr
    have e1 : r * (4 * n) = 4 * (r * n) := Nat.mul_left_comm r 4 n
    have e2 : 4 * n * h = 4 * (n * h) := Nat.mul_assoc 4 n h
    rw [e1]; rw [e2] at hlen
    omega
  unfold decode_10le
  rw [chunk10le.rows (by omega) (by omega) n h (by omega) (fun row => sliceFrom buf (row * (4 * n) * 10 / 8))
    (fun r => buf.drop (5 * (r * n)))]
  · congr 1
    apply raster_congr
    intro r c hr hc
    have e1 : r * (4 * n) = 4 * (r * n) := Nat.mul_left_comm r 4 n
    simp only [bytesOf_drop]
    by_cases hc2 : c % 4 = 2
    · rw [if_pos hc2, if_pos hc2]
      have e2 : 10 * (r * (4 * n) + c) = 8 * (5 * (r * n) + 5 * (c / 4) + 2) + 4 := by omega
      have e3 : 10 * (r * (4 * n) + c) - 4 = 8 * (5 * (r * n) + 5 * (c / 4) + 2) + 0 := by omega
      rw [e3, e2, fieldMSB_within _ _ 4 4 (by omega), fieldMSB_within _ _ 0 6 (by omega)]
      have hb := bytesOf_lt buf (5 * (r * n) + 5 * (c / 4) + 2)
      simp only [Nat.add_assoc] at hb ⊢
      simp only [Nat.reduceSub, Nat.reducePow]
      omega
    · rw [if_neg hc2, if_neg hc2]
      have := fieldMSB_shift (bytesOf buf) (5 * (r * n) + 5 * (c / 4)) (10 * (c % 4)) 10
      simp only [Nat.add_assoc] at this ⊢
      rw [this]
      congr 1
      omega
  · intro r hr
    obtain ⟨h1, h2⟩ := hrow r hr
    rw [h1, sliceFrom_le (by omega)]
    exact ⟨rfl, by simp; omega⟩

example : decode_10le [0x00, 0x00, 0x04, 0, 0, 0, 0, 0, 0, 1] 4 2 = .ok [0, 0, 257, 0, 0, 0, 0, 1] := by decide

/-- C10 is false for the plain 10-bit decoder: it is not true that each sample is its 10-bit field (the third sample
of every group takes its low bits from the wrong byte). -/
theorem decode_10le_wrong :
    ¬ ∀ (buf : Bytes) (w h : Nat), 0 < w → w % 4 = 0 → w * h * 10 / 8 ≤ buf.length →
      decode_10le buf w h = .ok (raster w h fun r c => fieldMSB (bytesOf buf) (10 * (r * w + c)) 10) := by
  intro h
  have := h [0, 0, 0, 0xfc, 0] 4 1 (by decide) (by decide) (by decide)
  revert this
  decide

/-! ## C11: one sample per 16-bit word -/

theorem off_words {w h r : Nat} (k : Nat) (hr : r < h) : r * w * k + k * w ≤ k * (w * h) := by
  have := row_le (w := w) hr
  calc r * w * k + k * w = k * (r * w + w) := by rw [Nat.mul_add, Nat.mul_comm k (r * w)]
    _ ≤ k * (w * h) := Nat.mul_le_mul_left k this

/-- Words of a raster: sample `k` is at byte `2k`. -/
theorem words_exact {f : Bytes → M Nat} {px : Nat → Nat → Nat} (hd : WordDec f px) (buf : Bytes) (w h : Nat) (hpos : 0 < w)
    (hlen : 2 * (w * h) ≤ buf.length) :
    decodeThreaded w h (fun out row => do
      let inb ← sliceFrom buf (row * w * 2)
      wordLoop w f out inb) =
      .ok (raster w h fun r c => px (bytesOf buf (2 * (r * w + c))) (bytesOf buf (2 * (r * w + c) + 1))) := by
  rw [hd.rows w h hpos buf (fun r => r * w * 2)]
  · congr 1
    apply raster_congr
    intro r c hr hc
    have : r * w * 2 + 2 * c = 2 * (r * w + c) := by omega
    simp only [this]
  · intro r hr
    have := off_words (w := w) 2 hr
    omega

/-- C11. 16-bit little-endian. -/
theorem decode_16le_exact (buf : Bytes) (w h : Nat) (hpos : 0 < w) (hlen : 2 * (w * h) ≤ buf.length) :
    decode_16le buf w h = .ok (raster w h fun r c =>
      bytesOf buf (2 * (r * w + c)) + 256 * bytesOf buf (2 * (r * w + c) + 1)) :=
  words_exact wordLE buf w h hpos hlen

example : decode_16le [1, 2, 3, 4] 1 2 = .ok [0x201, 0x403] := by decide
example : decode_16le [1, 2, 3, 4] 1 2 = .ok (raster 1 2 fun r c =>
    bytesOf [1, 2, 3, 4] (2 * (r * 1 + c)) + 256 * bytesOf [1, 2, 3, 4] (2 * (r * 1 + c) + 1)) :=
  decode_16le_exact _ 1 2 (by decide) (by decide)

/-- C11. 16-bit big-endian. -/
theorem decode_16be_exact (buf : Bytes) (w h : Nat) (hpos : 0 < w) (hlen : 2 * (w * h) ≤ buf.length) :
    decode_16be buf w h = .ok (raster w h fun r c =>
      256 * bytesOf buf (2 * (r * w + c)) + bytesOf buf (2 * (r * w + c) + 1)) :=
  words_exact wordBE buf w h hpos hlen

example : decode_16be [1, 2, 3, 4] 1 2 = .ok [0x102, 0x304] := by decide

/-- C11. 16-bit little-endian with a line to skip after each image line. -/
theorem decode_16le_skiplines_exact (buf : Bytes) (w h : Nat) (hpos : 0 < w) (hlen : 4 * (w * h) ≤ buf.length) :
    decode_16le_skiplines buf w h = .ok (raster w h fun r c =>
      bytesOf buf (2 * (2 * r * w + c)) + 256 * bytesOf buf (2 * (2 * r * w + c) + 1)) := by
  unfold decode_16le_skiplines
  rw [wordLE.rows w h hpos buf (fun r => r * w * 4)]
  · congr 1
    apply raster_congr
    intro r c hr hc
    have : r * w * 4 + 2 * c = 2 * (2 * r * w + c) := by rw [Nat.mul_assoc 2 r w]; omega
    simp only [this]
  · intro r hr
    have := off_words (w := w) 4 hr
    omega

example : decode_16le_skiplines [1, 2, 9, 9, 3, 4, 9, 9] 1 2 = .ok [0x201, 0x403] := by decide
example : decode_16le_skiplines [1, 2, 9, 9, 3, 4, 9, 9] 1 2 = .ok (raster 1 2 fun r c =>
    bytesOf [1, 2, 9, 9, 3, 4, 9, 9] (2 * (2 * r * 1 + c)) + 256 * bytesOf [1, 2, 9, 9, 3, 4, 9, 9] (2 * (2 * r * 1 + c) + 1)) :=
  decode_16le_skiplines_exact _ 1 2 (by decide) (by decide)

/-- C11. 12-bit little-endian words: the high four bits are ignored. -/
theorem decode_12le_unpacked_exact (buf : Bytes) (w h : Nat) (hpos : 0 < w) (hlen : 2 * (w * h) ≤ buf.length) :
    decode_12le_unpacked buf w h = .ok (raster w h fun r c =>
      (bytesOf buf (2 * (r * w + c)) + 256 * bytesOf buf (2 * (r * w + c) + 1)) % 4096) := by
  have := words_exact (wordLE.map (fun v => v &&& 0x0fff)) buf w h hpos hlen
  simp only [and_0fff] at this
  simp only [decode_12le_unpacked, and_0fff]
  exact this

/-- C11. 12-bit big-endian words. -/
theorem decode_12be_unpacked_exact (buf : Bytes) (w h : Nat) (hpos : 0 < w) (hlen : 2 * (w * h) ≤ buf.length) :
    decode_12be_unpacked buf w h = .ok (raster w h fun r c =>
      (256 * bytesOf buf (2 * (r * w + c)) + bytesOf buf (2 * (r * w + c) + 1)) % 4096) := by
  have := words_exact (wordBE.map (fun v => v &&& 0x0fff)) buf w h hpos hlen
  simp only [and_0fff] at this
  simp only [decode_12be_unpacked, and_0fff]
  exact this

/-- C11. 14-bit little-endian words. -/
theorem decode_14le_unpacked_exact (buf : Bytes) (w h : Nat) (hpos : 0 < w) (hlen : 2 * (w * h) ≤ buf.length) :
    decode_14le_unpacked buf w h = .ok (raster w h fun r c =>
      (bytesOf buf (2 * (r * w + c)) + 256 * bytesOf buf (2 * (r * w + c) + 1)) % 16384) := by
  have := words_exact (wordLE.map (fun v => v &&& 0x3fff)) buf w h hpos hlen
  simp only [and_3fff] at this
  simp only [decode_14le_unpacked, and_3fff]
  exact this

/-- C11. 14-bit big-endian words. -/
theorem decode_14be_unpacked_exact (buf : Bytes) (w h : Nat) (hpos : 0 < w) (hlen : 2 * (w * h) ≤ buf.length) :
    decode_14be_unpacked buf w h = .ok (raster w h fun r c =>
      (256 * bytesOf buf (2 * (r * w + c)) + bytesOf buf (2 * (r * w + c) + 1)) % 16384) := by
  have := words_exact (wordBE.map (fun v => v &&& 0x3fff)) buf w h hpos hlen
  simp only [and_3fff] at this
  simp only [decode_14be_unpacked, and_3fff]
  exact this

/-- C11. 12-bit data in the high bits of little-endian words. -/
theorem decode_12le_unpacked_left_aligned_exact (buf : Bytes) (w h : Nat) (hpos : 0 < w) (hlen : 2 * (w * h) ≤ buf.length) :
    decode_12le_unpacked_left_aligned buf w h = .ok (raster w h fun r c =>
      (bytesOf buf (2 * (r * w + c)) + 256 * bytesOf buf (2 * (r * w + c) + 1)) / 16) := by
  have := words_exact (wordLE.map (fun v => v >>> 4)) buf w h hpos hlen
  simp only [Nat.shiftRight_eq_div_pow, Nat.reducePow] at this
  simp only [decode_12le_unpacked_left_aligned, Nat.shiftRight_eq_div_pow, Nat.reducePow]
  exact this

/-- C11. 12-bit data in the high bits of big-endian words. -/
theorem decode_12be_unpacked_left_aligned_exact (buf : Bytes) (w h : Nat) (hpos : 0 < w) (hlen : 2 * (w * h) ≤ buf.length) :
    decode_12be_unpacked_left_aligned buf w h = .ok (raster w h fun r c =>
      (256 * bytesOf buf (2 * (r * w + c)) + bytesOf buf (2 * (r * w + c) + 1)) / 16) := by
  have := words_exact (wordBE.map (fun v => v >>> 4)) buf w h hpos hlen
  simp only [Nat.shiftRight_eq_div_pow, Nat.reducePow] at this
  simp only [decode_12be_unpacked_left_aligned, Nat.shiftRight_eq_div_pow, Nat.reducePow]
  exact this

example : decode_12le_unpacked [0xcd, 0xab, 0x34, 0x12] 2 1 = .ok [0xbcd, 0x234] ∧
    decode_12be_unpacked [0xab, 0xcd, 0x12, 0x34] 2 1 = .ok [0xbcd, 0x234] ∧
    decode_14le_unpacked [0xcd, 0xab, 0x34, 0x12] 2 1 = .ok [0x2bcd, 0x1234] ∧
    decode_14be_unpacked [0xab, 0xcd, 0x12, 0x34] 2 1 = .ok [0x2bcd, 0x1234] ∧
    decode_12le_unpacked_left_aligned [0xcd, 0xab, 0x34, 0x12] 2 1 = .ok [0xabc, 0x123] ∧
    decode_12be_unpacked_left_aligned [0xab, 0xcd, 0x12, 0x34] 2 1 = .ok [0xabc, 0x123] := by decide
example : decode_12be_unpacked [0xab, 0xcd, 0x12, 0x34] 2 1 = .ok (raster 2 1 fun r c =>
    (256 * bytesOf [0xab, 0xcd, 0x12, 0x34] (2 * (r * 2 + c)) + bytesOf [0xab, 0xcd, 0x12, 0x34] (2 * (r * 2 + c) + 1)) % 4096) :=
  decode_12be_unpacked_exact _ 2 1 (by decide) (by decide)

end Props

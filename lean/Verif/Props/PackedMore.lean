import Verif.Props.Packed
/-!
# C12-C14: control bytes, interlacing, truncated data
-/

namespace Props
open Rust Spec Model

/-! ## C12: control bytes -/

theorem wcontrol_line {body : List Nat → Bytes → M (List Nat)} {px : (Nat → Nat) → Nat → Nat}
    (hd : ChunkDec body 2 3 px) (w : Nat) (heven : w % 2 = 0) (inb : Bytes)
    (hlen : 16 * (w / 10) + 3 * (w % 10 / 2) ≤ inb.length) :
    zipChunks 10 16 (fun oc ic => zipChunks 2 3 body oc ic) (List.replicate w 0) inb =
      .ok ((List.range w).map fun c => px (fun i => bytesOf inb (16 * (c / 10) + 3 * (c % 10 / 2) + i)) (c % 2)) := by
  have e : (List.replicate w 0).length = w := by simp
  conv => rhs; rw [← e]
  apply zipChunks_eq (by omega)
  intro q hq
  rw [e] at hq ⊢
  have hq' : q < w / 10 ∨ (q = w / 10 ∧ 0 < w % 10) := by omega
  refine ⟨by omega, ?_⟩
  intro o ho
  obtain ⟨m, hm⟩ : ∃ m, o.length = 2 * m := ⟨o.length / 2, by omega⟩
  have h1 : m ≤ 5 := by omega
  have h2 : 3 * m ≤ ((inb.drop (16 * q)).take 16).length := by
    rw [List.length_take, List.length_drop]; omega
  rw [hd.line (by omega) (by omega) m o _ hm h2, ← hm]
  congr 1
  apply List.map_congr_left
  intro j hj
  rw [List.mem_range] at hj
  have e1 : (10 * q + j) / 10 = q := by omega
  have e2 : (10 * q + j) % 10 = j := by omega
  have e3 : (10 * q + j) % 2 = j % 2 := by omega
  rw [e1, e2, e3]
  apply hd.loc _ _ _ (by omega)
  intro i hi
  rw [bytesOf_drop_take _ _ _ _ (by omega)]
  congr 1
  omega

/-- C12. Little-endian 12-bit data with a control byte after every ten samples: each row is `3w/2 + (w+2)/10` bytes and
sample `c` of a row is the 12-bit field `c mod 10` of group `c / 10`, groups being sixteen bytes apart. -/
theorem decode_12le_wcontrol_exact (buf : Bytes) (w h : Nat) (hpos : 0 < w) (heven : w % 2 = 0)
    (hlen : h * (w / 2 * 3 + (w + 2) / 10) ≤ buf.length) :
    decode_12le_wcontrol buf w h = .ok (raster w h fun r c =>
      fieldLSB (bytesOf buf) (8 * (r * (w / 2 * 3 + (w + 2) / 10) + 16 * (c / 10)) + 12 * (c % 10)) 12) := by
  have hs : w * 12 / 8 + (w + 2) / 10 = w / 2 * 3 + (w + 2) / 10 := by omega
  unfold decode_12le_wcontrol
  simp only [hs]
  generalize hst : w / 2 * 3 + (w + 2) / 10 = st at hlen ⊢
  have hst' : 16 * (w / 10) + 3 * (w % 10 / 2) ≤ st := by omega
  apply decodeThreaded_eq hpos
  intro r hr
  have := row_le (w := st) hr
  rw [Nat.mul_comm st h] at this
  rw [sliceFrom_le (by omega), ok_bind, wcontrol_line chunk12le w heven _ (by simp; omega)]
  congr 1
  apply List.map_congr_left
  intro c hc
  simp only [bytesOf_drop, ← Nat.add_assoc]
  rw [fieldLSB_shift]
  congr 1
  omega

/-- C12. The big-endian variant. -/
theorem decode_12be_wcontrol_exact (buf : Bytes) (w h : Nat) (hpos : 0 < w) (heven : w % 2 = 0)
    (hlen : h * (w / 2 * 3 + (w + 2) / 10) ≤ buf.length) :
    decode_12be_wcontrol buf w h = .ok (raster w h fun r c =>
      fieldMSB (bytesOf buf) (8 * (r * (w / 2 * 3 + (w + 2) / 10) + 16 * (c / 10)) + 12 * (c % 10)) 12) := by
  have hs : w * 12 / 8 + (w + 2) / 10 = w / 2 * 3 + (w + 2) / 10 := by omega
  unfold decode_12be_wcontrol
  simp only [hs]
  generalize hst : w / 2 * 3 + (w + 2) / 10 = st at hlen ⊢
  have hst' : 16 * (w / 10) + 3 * (w % 10 / 2) ≤ st := by omega
  apply decodeThreaded_eq hpos
  intro r hr
  have := row_le (w := st) hr
  rw [Nat.mul_comm st h] at this
  rw [sliceFrom_le (by omega), ok_bind, wcontrol_line chunk12be w heven _ (by simp; omega)]
  congr 1
  apply List.map_congr_left
  intro c hc
  simp only [bytesOf_drop, ← Nat.add_assoc]
  rw [fieldMSB_shift]
  congr 1
  omega

/-- C12. For widths divisible by ten the control bytes (every sixteenth byte) have no influence on the image. -/
theorem wcontrol_ignores_control (buf buf' : Bytes) (w h : Nat) (hpos : 0 < w) (hten : w % 10 = 0)
    (hlen : h * (w / 10 * 16) ≤ buf.length) (hlen' : h * (w / 10 * 16) ≤ buf'.length)
    (hagree : ∀ i, i % 16 ≠ 15 → bytesOf buf i = bytesOf buf' i) :
    decode_12le_wcontrol buf w h = decode_12le_wcontrol buf' w h ∧
    decode_12be_wcontrol buf w h = decode_12be_wcontrol buf' w h := by
  have hs : w / 2 * 3 + (w + 2) / 10 = w / 10 * 16 := by omega
  rw [decode_12le_wcontrol_exact buf w h hpos (by omega) (by rw [hs]; exact hlen),
    decode_12le_wcontrol_exact buf' w h hpos (by omega) (by rw [hs]; exact hlen'),
    decode_12be_wcontrol_exact buf w h hpos (by omega) (by rw [hs]; exact hlen),
    decode_12be_wcontrol_exact buf' w h hpos (by omega) (by rw [hs]; exact hlen')]
  rw [hs]
  refine ⟨?_, ?_⟩
  · congr 1
    apply raster_congr
    intro r c _ _
    have e : r * (w / 10 * 16) = 16 * (r * (w / 10)) := by rw [← Nat.mul_assoc]; omega
    rw [e]
    apply fieldLSB_congr
    intro i h1 h2
    apply hagree
    have l1 : 16 * (r * (w / 10) + c / 10) ≤ i := by omega
    have l2 : i < 16 * (r * (w / 10) + c / 10) + 15 := by omega
    omega
  · congr 1
    apply raster_congr
    intro r c _ _
    have e : r * (w / 10 * 16) = 16 * (r * (w / 10)) := by rw [← Nat.mul_assoc]; omega
    rw [e]
    apply fieldMSB_congr
    intro i h1 h2
    apply hagree
    have l1 : 16 * (r * (w / 10) + c / 10) ≤ i := by omega
    have l2 : i < 16 * (r * (w / 10) + c / 10) + 15 := by omega
    omega

example : decode_12be_wcontrol ([0x12, 0x34, 0x56, 0x78, 0x9a, 0xbc, 0, 0, 0, 0, 0, 0, 0xff, 0xf0, 0x01, 0x77] ++
    [0, 0, 0, 0, 0, 0, 0, 0, 0, 0, 0, 0, 0, 0, 2, 0x99]) 10 2 =
    .ok [0x123, 0x456, 0x789, 0xabc, 0, 0, 0, 0, 0xfff, 1, 0, 0, 0, 0, 0, 0, 0, 0, 0, 2] := by decide
example : decode_12le_wcontrol [0x12, 0x34, 0x56, 0x78, 0x9a, 0xbc, 0x12, 0x34, 0x56, 0x78, 0x9a, 0xbc] 4 2 =
    .ok (raster 4 2 fun r c => fieldLSB (bytesOf [0x12, 0x34, 0x56, 0x78, 0x9a, 0xbc, 0x12, 0x34, 0x56, 0x78, 0x9a, 0xbc])
      (8 * (r * 6 + 16 * (c / 10)) + 12 * (c % 10)) 12) :=
  decode_12le_wcontrol_exact _ 4 2 (by decide) (by decide) (by decide)
example : decode_12be_wcontrol (List.replicate 15 7 ++ [1]) 10 1 = decode_12be_wcontrol (List.replicate 15 7 ++ [2]) 10 1 :=
  (wcontrol_ignores_control _ _ 10 1 (by decide) (by decide) (by decide) (by decide) (by
    intro i hi
    rcases Nat.lt_or_ge i 16 with h | h
    · have all : ∀ j < 15, bytesOf (List.replicate 15 7 ++ [1]) j = bytesOf (List.replicate 15 7 ++ [2]) j := by decide
      exact all i (by omega)
    · simp only [bytesOf]
      rw [List.getElem?_eq_none (by simp; omega), List.getElem?_eq_none (by simp; omega)])).2

/-! ## C13: interlaced fields -/

theorem interlaced_rows (buf second : Bytes) (w h s : Nat) (hpos : 0 < w) (heven : w % 2 = 0)
    (hsec : second = buf.drop s) (h1 : (h + 1) / 2 * (w / 2 * 3) ≤ buf.length) (h2 : s + h / 2 * (w / 2 * 3) ≤ buf.length) :
    (decodeThreaded w h fun out row => do
      let off := row / 2 * w * 12 / 8
      let inb ← if row % 2 = 0 then sliceFrom buf off else sliceFrom second off
      zipChunks 2 3 body12be out inb) =
    .ok (raster w h fun r c =>
      fieldMSB (bytesOf buf) (8 * (if r % 2 = 0 then 0 else s) + 12 * (r / 2 * w + c)) 12) := by
  obtain ⟨n, rfl⟩ : ∃ n, w = 2 * n := ⟨w / 2, by omega⟩
  have hn : 2 * n / 2 = n := by omega
  rw [hn] at h1 h2
  have hoff : ∀ k : Nat, k * (2 * n) * 12 / 8 = 3 * (k * n) := by
    intro k
    have : k * (2 * n) = 2 * (k * n) := Nat.mul_left_comm k 2 n
    omega
  apply decodeThreaded_eq hpos
  intro r hr
  have line : ∀ o, o + 3 * n ≤ buf.length → zipChunks 2 3 body12be (List.replicate (2 * n) 0) (buf.drop o) =
      .ok ((List.range (2 * n)).map fun c => fieldMSB (bytesOf buf) (8 * o + 12 * c) 12) := by
    intro o ho
    rw [chunk12be.line (by omega) (by omega) n _ _ (by simp) (by simp; omega)]
    congr 1
    apply List.map_congr_left
    intro c _
    simp only [bytesOf_drop, ← Nat.add_assoc]
    rw [fieldMSB_shift]
    congr 1
    omega
  have e1 : r / 2 * (2 * n) = 2 * (r / 2 * n) := Nat.mul_left_comm _ 2 n
  by_cases hm : r % 2 = 0
  · have := row_le (w := n) (r := r / 2) (h := (h + 1) / 2) (by omega)
    have e : (h + 1) / 2 * (n * 3) = 3 * (n * ((h + 1) / 2)) := by
      rw [Nat.mul_comm, Nat.mul_comm n 3, Nat.mul_assoc]
    simp only [if_pos hm, hoff]
    rw [sliceFrom_le (by omega), ok_bind, line _ (by omega)]
    congr 1
    apply List.map_congr_left
    intro c _
    congr 1
    omega
  · have := row_le (w := n) (r := r / 2) (h := h / 2) (by omega)
    have e : h / 2 * (n * 3) = 3 * (n * (h / 2)) := by
      rw [Nat.mul_comm, Nat.mul_comm n 3, Nat.mul_assoc]
    simp only [if_neg hm, hoff]
    rw [hsec, sliceFrom_le (by simp; omega), ok_bind, List.drop_drop, line _ (by omega)]
    congr 1
    apply List.map_congr_left
    intro c _
    congr 1
    omega

/-- C13. Two fields without padding: image row `2k` is line `k` of the first field, row `2k+1` is line `k` of the second,
which starts right after the `⌈h/2⌉` lines of the first. -/
theorem decode_12be_interlaced_unaligned_exact (buf : Bytes) (w h : Nat) (hpos : 0 < w) (heven : w % 2 = 0)
    (hlen : h * (w / 2 * 3) ≤ buf.length) :
    decode_12be_interlaced_unaligned buf w h = .ok (raster w h fun r c =>
      fieldMSB (bytesOf buf)
        (8 * (if r % 2 = 0 then 0 else (h + 1) / 2 * (w / 2 * 3)) + 12 * (r / 2 * w + c)) 12) := by
  have hs : (h + 1) / 2 * w * 12 / 8 = (h + 1) / 2 * (w / 2 * 3) := by
    obtain ⟨n, rfl⟩ : ∃ n, w = 2 * n := ⟨w / 2, by omega⟩
    have : (h + 1) / 2 * (2 * n) = 2 * ((h + 1) / 2 * n) := Nat.mul_left_comm _ 2 n
    have : (h + 1) / 2 * (2 * n / 2 * 3) = 3 * ((h + 1) / 2 * n) := by
      rw [Nat.mul_div_cancel_left n (by omega), Nat.mul_comm n 3]; exact Nat.mul_left_comm _ 3 n
    omega
  have hh : (h + 1) / 2 * (w / 2 * 3) + h / 2 * (w / 2 * 3) = h * (w / 2 * 3) := by
    rw [← Nat.add_mul]; congr 1; omega
  unfold decode_12be_interlaced_unaligned
  simp only [Nat.shiftRight_eq_div_pow, Nat.pow_one, hs]
  rw [sliceFrom_le (by omega), ok_bind]
  exact interlaced_rows buf _ w h _ hpos heven rfl (by omega) (by omega)

/-- C13. Two fields, the second starting at the first multiple of 2048 beyond the first field. -/
theorem decode_12be_interlaced_exact (buf : Bytes) (w h : Nat) (hpos : 0 < w) (heven : w % 2 = 0)
    (hlen : ((h + 1) / 2 * (w / 2 * 3) / 2048 + 1) * 2048 + h / 2 * (w / 2 * 3) ≤ buf.length) :
    decode_12be_interlaced buf w h = .ok (raster w h fun r c =>
      fieldMSB (bytesOf buf)
        (8 * (if r % 2 = 0 then 0 else ((h + 1) / 2 * (w / 2 * 3) / 2048 + 1) * 2048) + 12 * (r / 2 * w + c)) 12) := by
  have hs : (h + 1) / 2 * w * 3 / 2 = (h + 1) / 2 * (w / 2 * 3) := by
    obtain ⟨n, rfl⟩ : ∃ n, w = 2 * n := ⟨w / 2, by omega⟩
    have : (h + 1) / 2 * (2 * n) = 2 * ((h + 1) / 2 * n) := Nat.mul_left_comm _ 2 n
    have : (h + 1) / 2 * (2 * n / 2 * 3) = 3 * ((h + 1) / 2 * n) := by
      rw [Nat.mul_div_cancel_left n (by omega), Nat.mul_comm n 3]; exact Nat.mul_left_comm _ 3 n
    omega
  unfold decode_12be_interlaced
  simp only [Nat.shiftRight_eq_div_pow, Nat.shiftLeft_eq, Nat.pow_one, hs, Nat.reducePow]
  have hT : (h + 1) / 2 * (w / 2 * 3) ≤ ((h + 1) / 2 * (w / 2 * 3) / 2048 + 1) * 2048 := by omega
  generalize ((h + 1) / 2 * (w / 2 * 3) / 2048 + 1) * 2048 = T at hlen hT ⊢
  rw [sliceFrom_le (by omega), ok_bind]
  exact interlaced_rows buf _ w h _ hpos heven rfl (by omega) (by omega)

example : decode_12be_interlaced_unaligned [0x12, 0x34, 0x56, 0x78, 0x9a, 0xbc, 0xde, 0xf0, 0x11] 2 3 =
    .ok [0x123, 0x456, 0xdef, 0x011, 0x789, 0xabc] := by decide
example : decode_12be_interlaced_unaligned [0x12, 0x34, 0x56, 0x78, 0x9a, 0xbc, 0xde, 0xf0, 0x11] 2 3 =
    .ok (raster 2 3 fun r c => fieldMSB (bytesOf [0x12, 0x34, 0x56, 0x78, 0x9a, 0xbc, 0xde, 0xf0, 0x11])
      (8 * (if r % 2 = 0 then 0 else 6) + 12 * (r / 2 * 2 + c)) 12) :=
  decode_12be_interlaced_unaligned_exact _ 2 3 (by decide) (by decide) (by decide)
example (x : UInt8) (n : Nat) (hn : 2051 ≤ n) : ∃ out, decode_12be_interlaced (List.replicate n x) 2 3 = .ok out :=
  ⟨_, decode_12be_interlaced_exact _ 2 3 (by decide) (by decide) (by rw [List.length_replicate]; omega)⟩

/-! ## C14: sizes, bit depths and truncated data

Each theorem has no hypothesis on the buffer: it describes every successful decode. -/

theorem rows_truncated {body : List Nat → Bytes → M (List Nat)} {ko ki : Nat} {px : (Nat → Nat) → Nat → Nat}
    (hd : ChunkDec body ko ki px) (hko : 0 < ko) (hki : 0 < ki) (buf : Bytes) (w h : Nat) (off : Nat → Nat) (out : List Nat)
    (ho : decodeThreaded w h (fun out row => do
      let inb ← sliceFrom buf (off row)
      zipChunks ko ki body out inb) = .ok out) :
    out = raster w h fun r c =>
      if off r + ki * (c / ko) + ki ≤ buf.length then px (fun i => bytesOf buf (off r + ki * (c / ko) + i)) (c % ko) else 0 := by
  obtain ⟨src, hsrc, rfl⟩ := hd.rows_ok hko hki w h (fun row => sliceFrom buf (off row)) out ho
  apply raster_congr
  intro r c hr hc
  have := hsrc r hr
  rw [sliceFrom_eq_ok] at this
  obtain ⟨hle, hs⟩ := this
  rw [hs, List.length_drop]
  simp only [bytesOf_drop, Nat.add_assoc]
  by_cases hq : ki * (c / ko) + ki ≤ buf.length - off r
  · rw [if_pos hq, if_pos (by omega)]
  · rw [if_neg hq, if_neg (by omega)]

/-- C14. -/
theorem decode_12be_truncated (buf : Bytes) (w h : Nat) (out : List Nat) (ho : decode_12be buf w h = .ok out) :
    out = raster w h fun r c =>
      if r * w * 12 / 8 + 3 * (c / 2) + 3 ≤ buf.length then
        fieldMSB (bytesOf buf) (8 * (r * w * 12 / 8) + 12 * c) 12 else 0 := by
  rw [rows_truncated chunk12be (by omega) (by omega) buf w h (fun r => r * w * 12 / 8) out ho]
  apply raster_congr
  intro r c _ _
  rw [fieldMSB_shift]
  congr 2
  omega

/-- C14. -/
theorem decode_12le_truncated (buf : Bytes) (w h : Nat) (out : List Nat) (ho : decode_12le buf w h = .ok out) :
    out = raster w h fun r c =>
      if r * w * 12 / 8 + 3 * (c / 2) + 3 ≤ buf.length then
        fieldLSB (bytesOf buf) (8 * (r * w * 12 / 8) + 12 * c) 12 else 0 := by
  rw [rows_truncated chunk12le (by omega) (by omega) buf w h (fun r => r * w * 12 / 8) out ho]
  apply raster_congr
  intro r c _ _
  rw [fieldLSB_shift]
  congr 2
  omega

/-- C14. -/
theorem decode_12le_16bitaligned_truncated (buf : Bytes) (w h : Nat) (out : List Nat)
    (ho : decode_12le_16bitaligned buf w h = .ok out) :
    out = raster w h fun r c =>
      if r * ((w * 12 / 8 + 1) / 2 * 2) + 3 * (c / 2) + 3 ≤ buf.length then
        fieldMSB (bytesOf buf) (8 * (r * ((w * 12 / 8 + 1) / 2 * 2)) + 12 * c) 12 else 0 := by
  have hs : ((w * 12 / 8 + 1) >>> 1) <<< 1 = (w * 12 / 8 + 1) / 2 * 2 := by
    rw [Nat.shiftRight_eq_div_pow, Nat.shiftLeft_eq]
  unfold decode_12le_16bitaligned at ho
  simp only [hs] at ho
  rw [rows_truncated chunk12be (by omega) (by omega) buf w h (fun r => r * ((w * 12 / 8 + 1) / 2 * 2)) out ho]
  apply raster_congr
  intro r c _ _
  rw [fieldMSB_shift]
  congr 2
  omega

/-- C14. -/
theorem decode_10le_lsb16_truncated (buf : Bytes) (w h : Nat) (out : List Nat) (ho : decode_10le_lsb16 buf w h = .ok out) :
    out.length = w * h ∧ ∀ r c, r < h → c < w →
      out[r * w + c]? = some (if r * w * 10 / 8 + 10 * (c / 8) + 10 ≤ buf.length then
        fieldMSB (swap16 fun i => bytesOf buf (r * w * 10 / 8 + 10 * (c / 8) + i)) (10 * (c % 8)) 10 else 0) := by
  rw [rows_truncated chunk10leLsb16 (by omega) (by omega) buf w h (fun r => r * w * 10 / 8) out ho]
  exact ⟨raster_length _ _ _, fun r c hr hc => raster_getElem? _ _ _ r c hr hc⟩

/-- C14. -/
theorem decode_10le_truncated (buf : Bytes) (w h : Nat) (out : List Nat) (ho : decode_10le buf w h = .ok out) :
    out.length = w * h ∧ (∀ x ∈ out, x < 1024) ∧ ∀ r c, r < h → c < w → buf.length < r * w * 10 / 8 + 5 * (c / 4) + 5 →
      out[r * w + c]? = some 0 := by
  rw [rows_truncated chunk10le (by omega) (by omega) buf w h (fun r => r * w * 10 / 8) out ho]
  refine ⟨raster_length _ _ _, ?_, ?_⟩
  · intro x hx
    simp only [raster, List.mem_map] at hx
    obtain ⟨i, _, rfl⟩ := hx
    split
    · split
      · have := bytesOf_lt buf (i / w * w * 10 / 8 + 5 * (i % w / 4) + 2)
        omega
      · exact fieldMSB_lt _ _ 10
    · omega
  · intro r c hr hc hlt
    rw [raster_getElem? _ _ _ r c hr hc, if_neg (by omega)]

theorem wcontrol_line_ok {body : List Nat → Bytes → M (List Nat)} {px : (Nat → Nat) → Nat → Nat}
    (hd : ChunkDec body 2 3 px) (w : Nat) (inb : Bytes) (r : List Nat)
    (h : zipChunks 10 16 (fun oc ic => zipChunks 2 3 body oc ic) (List.replicate w 0) inb = .ok r) :
    r = (List.range w).map fun c =>
      if 16 * (c / 10) + 3 * (c % 10 / 2) + 3 ≤ inb.length then
        px (fun i => bytesOf inb (16 * (c / 10) + 3 * (c % 10 / 2) + i)) (c % 2) else 0 := by
  have hf : ∀ o i o', zipChunks 2 3 body o i = .ok o' → o'.length = o.length := by
    intro o i o' h
    exact (zipChunks_inv (fun _ => True) (fun o i o' h _ => ⟨hd.len o i o' h, fun _ _ => trivial⟩) h (fun _ _ => trivial)).1
  have hl : r.length = w := by
    have := (zipChunks_inv (fun _ => True) (fun o i o' h _ => ⟨hf o i o' h, fun _ _ => trivial⟩) h (fun _ _ => trivial)).1
    simpa using this
  apply List.ext_getElem
  · simp [hl]
  · intro c h1 h2
    simp only [List.getElem_map, List.getElem_range]
    have hcw : c < w := by omega
    have hat := zipChunks_at (by omega) hf h (q := c / 10) (by simp; omega)
    have hel : r[c] = ((r.drop (10 * (c / 10))).take 10)[c % 10]'(by simp; omega) := by
      simp [Nat.div_add_mod]
    rw [hel]
    by_cases hc : 16 * (c / 10) < inb.length
    · have hb := hat.1 hc
      rw [List.drop_replicate, List.take_replicate] at hb
      have hline := hd.line_ok (by omega) (by omega) _ _ _ hb
      simp only [hline, List.getElem_map, List.getElem_range]
      have hm : (c % 10) % 2 = c % 2 := by omega
      have hil : ((inb.drop (16 * (c / 10))).take 16).length = min 16 (inb.length - 16 * (c / 10)) := by simp
      rw [hil, hm]
      by_cases hs : 16 * (c / 10) + 3 * (c % 10 / 2) + 3 ≤ inb.length
      · rw [if_pos hs, if_pos (by omega)]
        apply hd.loc _ _ _ (by omega)
        intro i hi
        rw [bytesOf_drop_take _ _ _ _ (by omega)]
        congr 1
        omega
      · rw [if_neg hs, if_neg (by omega)]
    · have hb := hat.2 (by omega)
      rw [if_neg (by omega)]
      simp [hb]

theorem wcontrol_truncated {body : List Nat → Bytes → M (List Nat)} {px : (Nat → Nat) → Nat → Nat}
    (hd : ChunkDec body 2 3 px) (w h st : Nat) (buf : Bytes) (out : List Nat)
    (ho : decodeThreaded w h (fun out row => do
      let inb ← sliceFrom buf (row * st)
      zipChunks 10 16 (fun oc ic => zipChunks 2 3 body oc ic) out inb) = .ok out) :
    out = raster w h fun r c =>
      if r * st + 16 * (c / 10) + 3 * (c % 10 / 2) + 3 ≤ buf.length then
        px (fun i => bytesOf buf (r * st + 16 * (c / 10) + 3 * (c % 10 / 2) + i)) (c % 2) else 0 := by
  have hlen : ∀ r l, r < h → (do
      let inb ← sliceFrom buf (r * st)
      zipChunks 10 16 (fun oc ic => zipChunks 2 3 body oc ic) (List.replicate w 0) inb) = .ok l → l.length = w := by
    intro r l _ hl
    rw [bind_eq_ok] at hl
    obtain ⟨inb, _, hl⟩ := hl
    rw [wcontrol_line_ok hd w inb l hl]; simp
  obtain ⟨hw, rows, rfl, hrows⟩ := decodeThreaded_ok hlen ho
  apply raster_congr
  intro r c hr hc
  have := hrows r hr
  rw [bind_eq_ok] at this
  obtain ⟨inb, hinb, hz⟩ := this
  rw [sliceFrom_eq_ok] at hinb
  have hz := wcontrol_line_ok hd w inb _ hz
  have hz : rows r c = _ := (List.map_inj_left.mp hz) c (List.mem_range.mpr hc)
  rw [hz, hinb.2, List.length_drop]
  simp only [bytesOf_drop]
  by_cases hs : r * st + 16 * (c / 10) + 3 * (c % 10 / 2) + 3 ≤ buf.length
  · rw [if_pos hs, if_pos (by omega)]
    simp only [Nat.add_assoc]
  · rw [if_neg hs, if_neg (by omega)]

/-- C14. Rasters with control bytes, any buffer. -/
theorem decode_12le_wcontrol_truncated (buf : Bytes) (w h : Nat) (out : List Nat)
    (ho : decode_12le_wcontrol buf w h = .ok out) :
    out = raster w h fun r c =>
      if r * (w * 12 / 8 + (w + 2) / 10) + 16 * (c / 10) + 3 * (c % 10 / 2) + 3 ≤ buf.length then
        fieldLSB (bytesOf buf) (8 * (r * (w * 12 / 8 + (w + 2) / 10) + 16 * (c / 10)) + 12 * (c % 10)) 12 else 0 := by
  rw [wcontrol_truncated chunk12le w h (w * 12 / 8 + (w + 2) / 10) buf out ho]
  apply raster_congr
  intro r c _ _
  rw [fieldLSB_shift]
  congr 2
  omega

/-- C14. -/
theorem decode_12be_wcontrol_truncated (buf : Bytes) (w h : Nat) (out : List Nat)
    (ho : decode_12be_wcontrol buf w h = .ok out) :
    out = raster w h fun r c =>
      if r * (w * 12 / 8 + (w + 2) / 10) + 16 * (c / 10) + 3 * (c % 10 / 2) + 3 ≤ buf.length then
        fieldMSB (bytesOf buf) (8 * (r * (w * 12 / 8 + (w + 2) / 10) + 16 * (c / 10)) + 12 * (c % 10)) 12 else 0 := by
  rw [wcontrol_truncated chunk12be w h (w * 12 / 8 + (w + 2) / 10) buf out ho]
  apply raster_congr
  intro r c _ _
  rw [fieldMSB_shift]
  congr 2
  omega

/-- C14. The byte-swapped layouts, any buffer: sample `i` is zero when its group of four (eight) is not complete. -/
theorem decode_12be_msb_truncated (buf : Bytes) (w h : Nat) (out : List Nat) :
    (decode_12be_msb16 buf w h = .ok out → out = (List.range (w * h)).map fun i =>
      if 6 * (i / 4) + 6 ≤ buf.length then
        fieldMSB (swap16 fun k => bytesOf buf (6 * (i / 4) + k)) (12 * (i % 4)) 12 else 0) ∧
    (decode_12be_msb32 buf w h = .ok out → out = (List.range (w * h)).map fun i =>
      if 12 * (i / 8) + 12 ≤ buf.length then
        fieldMSB (swap32 fun k => bytesOf buf (12 * (i / 8) + k)) (12 * (i % 8)) 12 else 0) :=
  ⟨fun ho => chunk12beMsb16.line_ok (by omega) (by omega) _ _ _ ho,
   fun ho => chunk12beMsb32.line_ok (by omega) (by omega) _ _ _ ho⟩

/-- The outcome of the interlaced row loop on any buffer, the second field starting at byte `s`. -/
theorem interlaced_truncated (buf : Bytes) (w h s : Nat) (hs : s ≤ buf.length) (out : List Nat)
    (ho : (decodeThreaded w h fun out row => do
      let off := row / 2 * w * 12 / 8
      let inb ← if row % 2 = 0 then sliceFrom buf off else sliceFrom (buf.drop s) off
      zipChunks 2 3 body12be out inb) = .ok out) :
    out = raster w h fun r c =>
      if (if r % 2 = 0 then 0 else s) + r / 2 * w * 12 / 8 + 3 * (c / 2) + 3 ≤ buf.length then
        fieldMSB (bytesOf buf) (8 * ((if r % 2 = 0 then 0 else s) + r / 2 * w * 12 / 8) + 12 * c) 12 else 0 := by
  have hrow : ∀ r l, (do
      let off := r / 2 * w * 12 / 8
      let inb ← if r % 2 = 0 then sliceFrom buf off else sliceFrom (buf.drop s) off
      zipChunks 2 3 body12be (List.replicate w 0) inb) = .ok l →
      zipChunks 2 3 body12be (List.replicate w 0) (buf.drop ((if r % 2 = 0 then 0 else s) + r / 2 * w * 12 / 8)) = .ok l := by
    intro r l hl
    by_cases hm : r % 2 = 0
    · simp only [hm, if_true] at hl ⊢
      rw [bind_eq_ok] at hl
      obtain ⟨inb, hi, hl⟩ := hl
      rw [sliceFrom_eq_ok] at hi
      rw [Nat.zero_add, ← hi.2]; exact hl
    · simp only [hm, if_false] at hl ⊢
      rw [bind_eq_ok] at hl
      obtain ⟨inb, hi, hl⟩ := hl
      rw [sliceFrom_eq_ok] at hi
      rw [← List.drop_drop, ← hi.2]; exact hl
  have hlen : ∀ r l, r < h → (do
      let off := r / 2 * w * 12 / 8
      let inb ← if r % 2 = 0 then sliceFrom buf off else sliceFrom (buf.drop s) off
      zipChunks 2 3 body12be (List.replicate w 0) inb) = .ok l → l.length = w := by
    intro r l _ hl
    rw [chunk12be.line_ok (by omega) (by omega) _ _ _ (hrow r l hl)]; simp
  obtain ⟨hw, rows, rfl, hrows⟩ := decodeThreaded_ok hlen ho
  apply raster_congr
  intro r c hr hc
  have hz := chunk12be.line_ok (by omega) (by omega) _ _ _ (hrow r _ (hrows r hr))
  have hz : rows r c = _ := (List.map_inj_left.mp hz) c (List.mem_range.mpr hc)
  rw [hz, List.length_drop]
  generalize (if r % 2 = 0 then 0 else s) + r / 2 * w * 12 / 8 = o
  simp only [bytesOf_drop, ← Nat.add_assoc]
  by_cases hs : o + 3 * (c / 2) + 3 ≤ buf.length
  · rw [if_pos hs, if_pos (by omega), fieldMSB_shift]
    congr 1
    omega
  · rw [if_neg hs, if_neg (by omega)]

/-- C14. Interlaced rasters, any buffer. -/
theorem decode_12be_interlaced_truncated (buf : Bytes) (w h : Nat) (out : List Nat) :
    (decode_12be_interlaced_unaligned buf w h = .ok out → out = raster w h fun r c =>
      if (if r % 2 = 0 then 0 else (h + 1) / 2 * w * 12 / 8) + r / 2 * w * 12 / 8 + 3 * (c / 2) + 3 ≤ buf.length then
        fieldMSB (bytesOf buf) (8 * ((if r % 2 = 0 then 0 else (h + 1) / 2 * w * 12 / 8) + r / 2 * w * 12 / 8) + 12 * c) 12
      else 0) ∧
    (decode_12be_interlaced buf w h = .ok out → out = raster w h fun r c =>
      if (if r % 2 = 0 then 0 else ((h + 1) / 2 * w * 3 / 2 / 2048 + 1) * 2048) + r / 2 * w * 12 / 8 + 3 * (c / 2) + 3 ≤
          buf.length then
        fieldMSB (bytesOf buf)
          (8 * ((if r % 2 = 0 then 0 else ((h + 1) / 2 * w * 3 / 2 / 2048 + 1) * 2048) + r / 2 * w * 12 / 8) + 12 * c) 12
      else 0) := by
  refine ⟨?_, ?_⟩
  · intro ho
    unfold decode_12be_interlaced_unaligned at ho
    simp only [Nat.shiftRight_eq_div_pow, Nat.pow_one] at ho
    rw [bind_eq_ok] at ho
    obtain ⟨sec, hsec, ho⟩ := ho
    rw [sliceFrom_eq_ok] at hsec
    obtain ⟨hle, rfl⟩ := hsec
    exact interlaced_truncated buf w h _ hle out ho
  · intro ho
    unfold decode_12be_interlaced at ho
    simp only [Nat.shiftRight_eq_div_pow, Nat.shiftLeft_eq, Nat.pow_one, Nat.reducePow] at ho
    generalize ((h + 1) / 2 * w * 3 / 2 / 2048 + 1) * 2048 = T at ho ⊢
    rw [bind_eq_ok] at ho
    obtain ⟨sec, hsec, ho⟩ := ho
    rw [sliceFrom_eq_ok] at hsec
    obtain ⟨hle, rfl⟩ := hsec
    exact interlaced_truncated buf w h _ hle out ho

theorem raster_bound {w h B : Nat} {P : Nat → Nat → Prop} [∀ r c, Decidable (P r c)] {f : Nat → Nat → Nat} (hB : 0 < B)
    (hf : ∀ r c, f r c < B) : ∀ x ∈ raster w h (fun r c => if P r c then f r c else 0), x < B := by
  intro x hx
  simp only [raster, List.mem_map] at hx
  obtain ⟨i, _, rfl⟩ := hx
  split
  · exact hf _ _
  · exact hB

/-- C14. Every packed decoder returns exactly `w * h` samples of the right bit depth whenever it returns. -/
theorem packed_size_and_depth (buf : Bytes) (w h : Nat) (out : List Nat) :
    ((decode_12be buf w h = .ok out ∨ decode_12le buf w h = .ok out ∨ decode_12le_16bitaligned buf w h = .ok out ∨
      decode_12be_msb16 buf w h = .ok out ∨ decode_12be_msb32 buf w h = .ok out ∨
      decode_12le_wcontrol buf w h = .ok out ∨ decode_12be_wcontrol buf w h = .ok out ∨
      decode_12be_interlaced buf w h = .ok out ∨ decode_12be_interlaced_unaligned buf w h = .ok out) →
      out.length = w * h ∧ ∀ x ∈ out, x < 2 ^ 12) ∧
    ((decode_10le_lsb16 buf w h = .ok out ∨ decode_10le buf w h = .ok out) →
      out.length = w * h ∧ ∀ x ∈ out, x < 2 ^ 10) := by
  refine ⟨?_, ?_⟩
  · have hr : ∀ {N : Nat} {P : Nat → Prop} [∀ i, Decidable (P i)] {f : Nat → Nat}, (∀ i, f i < 2 ^ 12) →
        ∀ x ∈ (List.range N).map (fun i => if P i then f i else 0), x < 2 ^ 12 := by
      intro N P _ f hf x hx
      simp only [List.mem_map] at hx
      obtain ⟨i, _, rfl⟩ := hx
      split
      · exact hf i
      · omega
    rintro (ho | ho | ho | ho | ho | ho | ho | ho | ho)
    · rw [decode_12be_truncated buf w h out ho]
      exact ⟨raster_length _ _ _, raster_bound (by omega) (fun _ _ => fieldMSB_lt _ _ _)⟩
    · rw [decode_12le_truncated buf w h out ho]
      exact ⟨raster_length _ _ _, raster_bound (by omega) (fun _ _ => fieldLSB_lt _ _ _)⟩
    · rw [decode_12le_16bitaligned_truncated buf w h out ho]
      exact ⟨raster_length _ _ _, raster_bound (by omega) (fun _ _ => fieldMSB_lt _ _ _)⟩
    · rw [(decode_12be_msb_truncated buf w h out).1 ho]
      exact ⟨by simp, hr (fun _ => fieldMSB_lt _ _ _)⟩
    · rw [(decode_12be_msb_truncated buf w h out).2 ho]
      exact ⟨by simp, hr (fun _ => fieldMSB_lt _ _ _)⟩
    · rw [decode_12le_wcontrol_truncated buf w h out ho]
      exact ⟨raster_length _ _ _, raster_bound (by omega) (fun _ _ => fieldLSB_lt _ _ _)⟩
    · rw [decode_12be_wcontrol_truncated buf w h out ho]
      exact ⟨raster_length _ _ _, raster_bound (by omega) (fun _ _ => fieldMSB_lt _ _ _)⟩
    · rw [(decode_12be_interlaced_truncated buf w h out).2 ho]
      exact ⟨raster_length _ _ _, raster_bound (by omega) (fun _ _ => fieldMSB_lt _ _ _)⟩
    · rw [(decode_12be_interlaced_truncated buf w h out).1 ho]
      exact ⟨raster_length _ _ _, raster_bound (by omega) (fun _ _ => fieldMSB_lt _ _ _)⟩
  · rintro (ho | ho)
    · rw [rows_truncated chunk10leLsb16 (by omega) (by omega) buf w h (fun r => r * w * 10 / 8) out ho]
      exact ⟨raster_length _ _ _, raster_bound (by omega) (fun _ _ => fieldMSB_lt _ _ _)⟩
    · have := decode_10le_truncated buf w h out ho
      exact ⟨this.1, this.2.1⟩

example : decode_12be [0x12, 0x34, 0x56] 4 1 = .ok [0x123, 0x456, 0, 0] ∧
    decode_12be [0x12, 0x34, 0x56, 0x78] 4 1 = crash ∧ decode_12be [0x12, 0x34, 0x56] 4 3 = crash := by decide

/-- C14. The word decoders on any buffer: samples whose word is missing are zero. -/
theorem words_truncated {f : Bytes → M Nat} {px : Nat → Nat → Nat} (hd : WordDec f px) (buf : Bytes) (w h k : Nat)
    (out : List Nat)
    (ho : decodeThreaded w h (fun out row => do
      let inb ← sliceFrom buf (row * w * k)
      wordLoop w f out inb) = .ok out) :
    out = raster w h fun r c => if r * w * k + 2 * c + 2 ≤ buf.length then
      px (bytesOf buf (r * w * k + 2 * c)) (bytesOf buf (r * w * k + 2 * c + 1)) else 0 :=
  hd.rows_ok w h buf (fun r => r * w * k) out ho

/-- C14. Every one-word-per-sample decoder returns exactly `w * h` samples of the right bit depth whenever it returns, and
samples beyond the end of the buffer are zero. -/
theorem unpacked_size_and_depth (buf : Bytes) (w h : Nat) (out : List Nat) :
    ((decode_16le buf w h = .ok out ∨ decode_16be buf w h = .ok out) →
      out.length = w * h ∧ (∀ x ∈ out, x < 2 ^ 16) ∧
      ∀ r c, r < h → c < w → buf.length < 2 * (r * w + c) + 2 → out[r * w + c]? = some 0) ∧
    ((decode_14le_unpacked buf w h = .ok out ∨ decode_14be_unpacked buf w h = .ok out) →
      out.length = w * h ∧ (∀ x ∈ out, x < 2 ^ 14) ∧
      ∀ r c, r < h → c < w → buf.length < 2 * (r * w + c) + 2 → out[r * w + c]? = some 0) ∧
    ((decode_12le_unpacked buf w h = .ok out ∨ decode_12be_unpacked buf w h = .ok out ∨
      decode_12le_unpacked_left_aligned buf w h = .ok out ∨ decode_12be_unpacked_left_aligned buf w h = .ok out) →
      out.length = w * h ∧ (∀ x ∈ out, x < 2 ^ 12) ∧
      ∀ r c, r < h → c < w → buf.length < 2 * (r * w + c) + 2 → out[r * w + c]? = some 0) ∧
    (decode_16le_skiplines buf w h = .ok out →
      out.length = w * h ∧ (∀ x ∈ out, x < 2 ^ 16) ∧
      ∀ r c, r < h → c < w → buf.length < 2 * (2 * r * w + c) + 2 → out[r * w + c]? = some 0) := by
  have main : ∀ {f : Bytes → M Nat} {px : Nat → Nat → Nat} (k B : Nat), WordDec f px → 0 < B →
      (∀ a b, a < 256 → b < 256 → px a b < B) →
      decodeThreaded w h (fun out row => do
        let inb ← sliceFrom buf (row * w * k)
        wordLoop w f out inb) = .ok out →
      out.length = w * h ∧ (∀ x ∈ out, x < B) ∧
      ∀ r c, r < h → c < w → buf.length < r * w * k + 2 * c + 2 → out[r * w + c]? = some 0 := by
    intro f px k B hd hB hpx ho
    rw [words_truncated hd buf w h k out ho]
    refine ⟨raster_length _ _ _, raster_bound hB (fun _ _ => hpx _ _ (bytesOf_lt _ _) (bytesOf_lt _ _)), ?_⟩
    intro r c hr hc hlt
    rw [raster_getElem? _ _ _ r c hr hc, if_neg (by omega)]
  have fix : ∀ {k B : Nat}, k = 2 → (out.length = w * h ∧ (∀ x ∈ out, x < B) ∧
      ∀ r c, r < h → c < w → buf.length < r * w * k + 2 * c + 2 → out[r * w + c]? = some 0) →
      out.length = w * h ∧ (∀ x ∈ out, x < B) ∧
      ∀ r c, r < h → c < w → buf.length < 2 * (r * w + c) + 2 → out[r * w + c]? = some 0 := by
    intro k B hk ⟨h1, h2, h3⟩
    subst hk
    exact ⟨h1, h2, fun r c hr hc hlt => h3 r c hr hc (by omega)⟩
  refine ⟨?_, ?_, ?_, ?_⟩
  · rintro (ho | ho)
    · exact fix rfl (main 2 (2 ^ 16) wordLE (by omega) (by intro a b ha hb; omega) ho)
    · exact fix rfl (main 2 (2 ^ 16) wordBE (by omega) (by intro a b ha hb; omega) ho)
  · rintro (ho | ho)
    · exact fix rfl (main 2 (2 ^ 14) (wordLE.map (fun v => v &&& 0x3fff)) (by omega)
        (by intro a b ha hb; rw [and_3fff]; omega) ho)
    · exact fix rfl (main 2 (2 ^ 14) (wordBE.map (fun v => v &&& 0x3fff)) (by omega)
        (by intro a b ha hb; rw [and_3fff]; omega) ho)
  · rintro (ho | ho | ho | ho)
    · exact fix rfl (main 2 (2 ^ 12) (wordLE.map (fun v => v &&& 0x0fff)) (by omega)
        (by intro a b ha hb; rw [and_0fff]; omega) ho)
    · exact fix rfl (main 2 (2 ^ 12) (wordBE.map (fun v => v &&& 0x0fff)) (by omega)
        (by intro a b ha hb; rw [and_0fff]; omega) ho)
    · exact fix rfl (main 2 (2 ^ 12) (wordLE.map (fun v => v >>> 4)) (by omega)
        (by intro a b ha hb; rw [Nat.shiftRight_eq_div_pow]; omega) ho)
    · exact fix rfl (main 2 (2 ^ 12) (wordBE.map (fun v => v >>> 4)) (by omega)
        (by intro a b ha hb; rw [Nat.shiftRight_eq_div_pow]; omega) ho)
  · intro ho
    obtain ⟨h1, h2, h3⟩ := main 4 (2 ^ 16) wordLE (by omega) (by intro a b ha hb; omega) ho
    refine ⟨h1, h2, fun r c hr hc hlt => h3 r c hr hc ?_⟩
    have : 2 * r * w = 2 * (r * w) := Nat.mul_assoc 2 r w
    omega

example : decode_16le [1, 2, 3, 4] 3 1 = .ok [0x201, 0x403, 0] ∧ decode_16le [1, 2, 3] 3 1 = crash := by decide

end Props

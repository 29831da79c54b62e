import Verif.Props.Pumps
/-!
# C54: the search for JPEG markers; C55: where the 32-bit reader stands
-/

namespace Spec

/-- A marker at `i`: `0xff`, and then a byte that is neither a stuffed zero nor a fill byte. -/
def MarkerAt (byte : Nat → Nat) (i : Nat) : Prop := byte i = 0xff ∧ byte (i + 1) ≠ 0 ∧ byte (i + 1) ≠ 0xff

instance (byte : Nat → Nat) (i : Nat) : Decidable (MarkerAt byte i) := by unfold MarkerAt; infer_instance

end Spec

namespace Props
open Rust Spec Model Model.ByteStream

theorem atMarker_eq (s : ByteStream) (h : s.pos + 1 < s.buffer.length ∨ s.pos + 1 = s.buffer.length ∧ bytesOf s.buffer s.pos ≠ 0xff) :
    s.atMarker = .ok (decide (MarkerAt (bytesOf s.buffer) s.pos)) := by
  unfold atMarker MarkerAt
  rw [byteAt_lt (show s.pos < s.buffer.length by omega), ok_bind]
  rcases h with h | ⟨h, h0⟩
  · by_cases h0 : bytesOf s.buffer s.pos = 0xff
    · rw [if_neg (by omega), byteAt_lt h, ok_bind]
      simp [h0]
    · rw [if_pos h0]; simp [h0]
  · rw [if_pos h0]; simp [h0]

theorem skipLoop_found (buf : Bytes) (e : Endian) (q : Nat) (hq : q + 1 < buf.length) (hm : MarkerAt (bytesOf buf) q) :
    ∀ (fuel pos count : Nat), pos ≤ q → q - pos < fuel → (∀ i, pos ≤ i → i < q → ¬ MarkerAt (bytesOf buf) i) →
      skipLoop fuel ⟨buf, pos, e⟩ count = .ok (⟨buf, q, e⟩, count + (q - pos)) := by
  intro fuel
  induction fuel with
  | zero => intro pos count _ h; omega
  | succ fuel ih =>
    intro pos count hle hf hnone
    unfold skipLoop
    rw [atMarker_eq ⟨buf, pos, e⟩ (Or.inl (by dsimp only; omega)), ok_bind]
    dsimp only
    by_cases hpq : pos = q
    · subst hpq
      rw [decide_eq_true hm]
      simp
    · rw [decide_eq_false (hnone pos (by omega) (by omega))]
      simp only [Bool.false_eq_true, if_false]
      rw [if_neg (by omega), ih (pos + 1) (count + 1) (by omega) (by omega) (fun i h1 h2 => hnone i (by omega) h2)]
      congr 2
      omega

/-- C54. If there is a marker at or after the current position, the search stops at the first one: it skips the bytes before it and the `0xff`, and returns how many bytes that were. -/
theorem marker_search_first (s : ByteStream) (q : Nat) (hpos : s.pos ≤ q) (hq : q + 1 < s.buffer.length) (hm : MarkerAt (bytesOf s.buffer) q)
    (hnone : ∀ i, s.pos ≤ i → i < q → ¬ MarkerAt (bytesOf s.buffer) i) :
    s.skipToMarker = .ok (q + 1 - s.pos, { s with pos := q + 1 }) := by
  unfold skipToMarker
  obtain ⟨buf, pos, e⟩ := s
  dsimp only at *
  rw [skipLoop_found buf e q hq hm _ _ _ hpos (by omega) hnone, ok_bind]
  dsimp only
  congr 2
  omega

theorem skipLoop_none (buf : Bytes) (e : Endian) : ∀ (fuel pos count : Nat), pos < buf.length → buf.length - pos < fuel → (∀ i, pos ≤ i → ¬ MarkerAt (bytesOf buf) i) →
    skipLoop fuel ⟨buf, pos, e⟩ count = if bytesOf buf (buf.length - 1) = 0xff then crash else fail "No marker found inside rest of buffer" := by
  intro fuel
  induction fuel with
  | zero => intro pos count _ h; omega
  | succ fuel ih =>
    intro pos count hlt hf hnone
    unfold skipLoop
    by_cases hlast : pos + 1 = buf.length
    · rw [show buf.length - 1 = pos by omega]
      by_cases h0 : bytesOf buf pos = 0xff
      · rw [if_pos (c := bytesOf buf pos = 0xff) h0]
        unfold atMarker
        rw [byteAt_lt hlt, ok_bind]
        dsimp only
        rw [if_neg (by omega), byteAt_ge (by omega)]
        rfl
      · rw [if_neg (c := bytesOf buf pos = 0xff) h0, atMarker_eq ⟨buf, pos, e⟩ (Or.inr ⟨hlast, h0⟩), ok_bind]
        dsimp only
        rw [decide_eq_false (hnone pos (by omega))]
        simp only [Bool.false_eq_true, if_false]
        rw [if_pos (by omega)]
    · rw [atMarker_eq ⟨buf, pos, e⟩ (Or.inl (by dsimp only; omega)), ok_bind]
      dsimp only
      rw [decide_eq_false (hnone pos (by omega))]
      simp only [Bool.false_eq_true, if_false]
      rw [if_neg (by omega), ih (pos + 1) (count + 1) (by omega) (by omega) (fun i h1 => hnone i (by omega))]

/-- C54. If there is no marker, the search gives an error, or panics if the very last byte is `0xff`: the byte after it is read without a check. Outside of the buffer it panics right away. -/
theorem marker_search_none (s : ByteStream) (hnone : ∀ i, s.pos ≤ i → i + 1 < s.buffer.length → ¬ MarkerAt (bytesOf s.buffer) i) :
    s.skipToMarker = if s.pos < s.buffer.length ∧ bytesOf s.buffer (s.buffer.length - 1) ≠ 0xff then fail "No marker found inside rest of buffer" else crash := by
  unfold skipToMarker
  obtain ⟨buf, pos, e⟩ := s
  dsimp only at *
  have hz : ∀ i, buf.length ≤ i → bytesOf buf i = 0 := by
    intro i hi
    unfold bytesOf
    rw [List.getElem?_eq_none hi]
  by_cases hlt : pos < buf.length
  · rw [skipLoop_none buf e _ _ _ hlt (by omega) (fun i hi => by
      by_cases h1 : i + 1 < buf.length
      · exact hnone i hi h1
      · intro h
        exact h.2.1 (hz _ (by omega)))]
    by_cases h0 : bytesOf buf (buf.length - 1) = 0xff
    · rw [if_pos h0, if_neg (by simp [h0])]; rfl
    · rw [if_neg h0, if_pos ⟨hlt, h0⟩]; rfl
  · rw [if_neg (by simp [hlt])]
    unfold skipLoop atMarker
    rw [byteAt_ge (by dsimp only; omega)]
    rfl

/-- Two data bytes, a stuffed byte, a fill byte, and a marker. -/
example : (ByteStream.new [1, 2, 0xff, 0, 0xff, 0xff, 0xd9, 7] BIG_ENDIAN).skipToMarker = .ok (6, ⟨[1, 2, 0xff, 0, 0xff, 0xff, 0xd9, 7], 6, BIG_ENDIAN⟩) := by decide
example : (ByteStream.new [1, 2, 0xff, 0, 0xff, 0xff] BIG_ENDIAN).skipToMarker = crash ∧
    (ByteStream.new [1, 2, 0xff, 0, 0xff, 0xff, 0] BIG_ENDIAN).skipToMarker = fail "No marker found inside rest of buffer" := by decide

/-! ## Position -/

theorem position_of_state (b : Build) (buf : Bytes) (s : Pump) (c a : Nat) (h : AtMSB buf (swap32 (bytesOf buf)) s c a) : s.getPos b = .ok ((c + 7) / 8) := by
  obtain ⟨_, h1, _, _, _, h2, _⟩ := h
  unfold Pump.getPos
  have : s.nbits >>> 3 = a / 8 := by rw [h1, Nat.shiftRight_eq_div_pow]
  rw [this, subU_ok (by omega)]
  congr 1
  omega

theorem position_after (b : Build) (buf : Bytes) : ∀ (sizes : List Nat) (s : Pump) (c a : Nat), AtMSB buf (swap32 (bytesOf buf)) s c a → (∀ n ∈ sizes, n ≤ 32) →
    c + sizes.sum ≤ 32 * (buf.length / 4) →
    ∃ s', sizes.foldlM (fun s n => do let (_, s) ← (pumpMSB32 b).getBits s n; .ok s) s = .ok s' ∧ s'.getPos b = .ok ((c + sizes.sum + 7) / 8) := by
  intro sizes
  induction sizes with
  | nil => intro s c a h _ _; exact ⟨s, rfl, by simpa using position_of_state b buf s c a h⟩
  | cons n sizes ih =>
    intro s c a h hn hl
    rw [List.sum_cons] at hl
    rw [List.foldlM_cons, List.sum_cons]
    rcases Nat.eq_zero_or_pos n with h0 | h0
    · subst h0
      obtain ⟨s', k1, k2⟩ := ih s c a h (fun m hm => hn m (List.mem_cons_of_mem _ hm)) (by omega)
      exact ⟨s', by unfold PumpOps.getBits; exact k1, by rw [Nat.zero_add]; exact k2⟩
    · obtain ⟨s1, a1, e1, e2⟩ := (readsMSB32 b buf).get h (hn n List.mem_cons_self) h0 (show c + n ≤ 32 * (buf.length / 4) by omega)
      obtain ⟨s', k1, k2⟩ := ih s1 (c + n) a1 e2 (fun m hm => hn m (List.mem_cons_of_mem _ hm)) (by omega)
      exact ⟨s', by rw [e1]; exact k1, by rw [k2]; congr 2; omega⟩

/-- C55. After any sequence of reads within the data, the position of the 32-bit reader is the number of bytes read, a byte of which only part has been read included. `srw.rs` finds the next
line with it. -/
theorem msb32_position (b : Build) (buf : Bytes) (sizes : List Nat) (hn : ∀ n ∈ sizes, n ≤ 32) (hl : sizes.sum ≤ 32 * (buf.length / 4)) :
    ∃ s, sizes.foldlM (fun s n => do let (_, s) ← (pumpMSB32 b).getBits s n; .ok s) (Pump.new buf) = .ok s ∧ s.getPos b = .ok ((sizes.sum + 7) / 8) := by
  have := position_after b buf sizes (Pump.new buf) 0 0 (atMSB_new buf _) hn (by omega)
  simpa using this

/-- Eight words read as 3, 17 and 25 bits: six bytes. -/
example (b : Build) (buf : Bytes) (h : buf.length = 32) := msb32_position b buf [3, 17, 25] (by decide) (by simp; omega)
example : ([3, 17, 25].foldlM (fun s n => do let (_, s) ← (pumpMSB32 .debug).getBits s n; .ok s) (Pump.new (List.replicate 32 7)) >>= fun s => s.getPos .debug) = .ok 6 := by decide

end Props

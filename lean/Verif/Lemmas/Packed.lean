import Verif.Model.Packed
import Verif.Lemmas.Rust
/-!
# Lemmas on the packed decoders
-/

set_option linter.unusedSimpArgs false

namespace Spec

theorem fieldMSB_two (b : Nat → Nat) (hb : ∀ i, b i < 256) (i j n : Nat) (hj : j ≤ 8) (h1 : 8 ≤ j + n) (h2 : j + n ≤ 16) :
    fieldMSB b (8 * i + j) n = (b i % 2 ^ (8 - j)) * 2 ^ (j + n - 8) + b (i + 1) / 2 ^ (16 - j - n) := by
  have e : n = (8 - j) + (j + n - 8) := by omega
  have e1 : fieldMSB b (8 * i + j) n = fieldMSB b (8 * i + j) ((8 - j) + (j + n - 8)) := by rw [← e]
  rw [e1, fieldMSB_add, fieldMSB_within b i j (8 - j) (by omega)]
  have e2 : 8 * i + j + (8 - j) = 8 * (i + 1) + 0 := by omega
  rw [e2, fieldMSB_within b (i + 1) 0 (j + n - 8) (by omega)]
  have e3 : 8 - j - (8 - j) = 0 := by omega
  have e4 : 8 - 0 - (j + n - 8) = 16 - j - n := by omega
  rw [e3, e4, Nat.pow_zero, Nat.div_one]
  congr 1
  apply Nat.mod_eq_of_lt
  rw [Nat.div_lt_iff_lt_mul (Nat.two_pow_pos _), ← Nat.pow_add]
  have e5 : j + n - 8 + (16 - j - n) = 8 := by omega
  rw [e5]; exact hb _

theorem fieldLSB_two (b : Nat → Nat) (hb : ∀ i, b i < 256) (i j n : Nat) (hj : j ≤ 8) (h1 : 8 ≤ j + n) (h2 : j + n ≤ 16) :
    fieldLSB b (8 * i + j) n = b i / 2 ^ j + 2 ^ (8 - j) * (b (i + 1) % 2 ^ (j + n - 8)) := by
  have e : n = (8 - j) + (j + n - 8) := by omega
  have e1 : fieldLSB b (8 * i + j) n = fieldLSB b (8 * i + j) ((8 - j) + (j + n - 8)) := by rw [← e]
  rw [e1, fieldLSB_add, fieldLSB_within b i j (8 - j) (by omega)]
  have e2 : 8 * i + j + (8 - j) = 8 * (i + 1) + 0 := by omega
  rw [e2, fieldLSB_within b (i + 1) 0 (j + n - 8) (by omega)]
  rw [Nat.pow_zero, Nat.div_one]
  congr 1
  apply Nat.mod_eq_of_lt
  rw [Nat.div_lt_iff_lt_mul (Nat.two_pow_pos _), ← Nat.pow_add]
  have e5 : 8 - j + j = 8 := by omega
  rw [e5]; exact hb _

theorem bytesOf_drop_take (buf : List UInt8) (k n i : Nat) (h : i < n) :
    bytesOf ((buf.drop k).take n) i = bytesOf buf (k + i) := by
  simp [bytesOf, h]

theorem swap16_lt {b : Nat → Nat} (hb : ∀ i, b i < 256) (i : Nat) : swap16 b i < 256 := by
  unfold swap16; split <;> exact hb _

theorem swap32_lt {b : Nat → Nat} (hb : ∀ i, b i < 256) (i : Nat) : swap32 b i < 256 := hb _

theorem fieldLSB_congr {b b' : Nat → Nat} {s n : Nat} (h : ∀ i, s / 8 ≤ i → i * 8 < s + n → b i = b' i) :
    fieldLSB b s n = fieldLSB b' s n := by
  induction n with
  | zero => rfl
  | succ n ih =>
    rw [fieldLSB, fieldLSB, ih (fun i h1 h2 => h i h1 (by omega)), bitLSB, bitLSB, h ((s + n) / 8) (by omega) (by omega)]

end Spec

namespace Rust

theorem mul_pow_or (a b k : Nat) (hb : b < 2 ^ k) : a * 2 ^ k ||| b = a * 2 ^ k + b := by
  rw [← Nat.shiftLeft_eq, Nat.shiftLeft_add_eq_or_of_lt hb]

theorem shl16_or {a b : Nat} (k : Nat) (ha : a * 2 ^ k < 65536) (hb : b < 2 ^ k) :
    shl16 a k ||| b = a * 2 ^ k + b := by
  unfold shl16
  rw [Nat.shiftLeft_eq, Nat.mod_eq_of_lt ha, mul_pow_or a b k hb]

theorem and_3f (x : Nat) : x &&& 0x3f = x % 64 := Nat.and_two_pow_sub_one_eq_mod x 6
theorem and_0f (x : Nat) : x &&& 0x0f = x % 16 := Nat.and_two_pow_sub_one_eq_mod x 4
theorem and_03 (x : Nat) : x &&& 0x03 = x % 4 := Nat.and_two_pow_sub_one_eq_mod x 2
theorem and_0fff (x : Nat) : x &&& 0x0fff = x % 4096 := Nat.and_two_pow_sub_one_eq_mod x 12
theorem and_3fff (x : Nat) : x &&& 0x3fff = x % 16384 := Nat.and_two_pow_sub_one_eq_mod x 14
theorem and_ff (x : Nat) : x &&& 0xff = x % 256 := Nat.and_two_pow_sub_one_eq_mod x 8
theorem and_07ff (x : Nat) : x &&& 2047 = x % 2048 := Nat.and_two_pow_sub_one_eq_mod x 11
theorem and_ffff (x : Nat) : x &&& 65535 = x % 65536 := Nat.and_two_pow_sub_one_eq_mod x 16

end Rust

namespace Model
open Rust Spec

/-- What a chunk body does: on a complete input chunk and a complete output chunk it computes `px` of the input bytes; on
an incomplete input or output chunk it panics. -/
structure ChunkDec (body : List Nat → Bytes → M (List Nat)) (ko ki : Nat) (px : (Nat → Nat) → Nat → Nat) : Prop where
  full : ∀ o i, o.length = ko → i.length = ki → body o i = .ok ((List.range ko).map (px (bytesOf i)))
  short : ∀ o i, i.length < ki → body o i = crash
  narrow : ∀ o i, o.length < ko → ki ≤ i.length → body o i = crash
  len : ∀ o i o', body o i = .ok o' → o'.length = o.length
  loc : ∀ b b' j, j < ko → (∀ i, i < ki → b i = b' i) → px b j = px b' j

variable {body : List Nat → Bytes → M (List Nat)} {ko ki : Nat} {px : (Nat → Nat) → Nat → Nat}

/-- A run over a whole line. -/
theorem ChunkDec.line (hd : ChunkDec body ko ki px) (hko : 0 < ko) (hki : 0 < ki) (n : Nat) (out : List Nat) (inb : Bytes)
    (hout : out.length = ko * n) (hinb : ki * n ≤ inb.length) :
    zipChunks ko ki body out inb =
      .ok ((List.range (ko * n)).map fun c => px (fun i => bytesOf inb (ki * (c / ko) + i)) (c % ko)) := by
  rw [← hout]
  apply zipChunks_eq hko body _ out inb
  intro q hq
  have hqn : q < n := by
    rw [hout] at hq
    exact Nat.lt_of_mul_lt_mul_left hq
  have h1 : ki * (q + 1) ≤ ki * n := Nat.mul_le_mul_left ki hqn
  have h1' : ko * (q + 1) ≤ ko * n := Nat.mul_le_mul_left ko hqn
  rw [Nat.mul_succ] at h1 h1'
  refine ⟨by omega, ?_⟩
  intro o ho
  have ho : o.length = ko := by rw [ho]; omega
  have hlen : ((inb.drop (ki * q)).take ki).length = ki := by
    rw [List.length_take, List.length_drop]; omega
  rw [hd.full o _ ho hlen, ho]
  congr 1
  apply List.map_congr_left
  intro j hj
  rw [List.mem_range] at hj
  have e1 : (ko * q + j) / ko = q := by rw [Nat.mul_add_div hko, Nat.div_eq_of_lt hj, Nat.add_zero]
  have e2 : (ko * q + j) % ko = j := by rw [Nat.mul_add_mod, Nat.mod_eq_of_lt hj]
  rw [e1, e2]
  apply hd.loc _ _ _ hj
  intro i hi
  rw [bytesOf_drop_take _ _ _ _ hi]

/-- Whatever the input length, a successful run over a line gives every sample its value if the input has its chunk
completely, and leaves it zero otherwise. -/
theorem ChunkDec.line_ok (hd : ChunkDec body ko ki px) (hko : 0 < ko) (hki : 0 < ki) (w : Nat) (inb : Bytes) (r : List Nat)
    (h : zipChunks ko ki body (List.replicate w 0) inb = .ok r) :
    r = (List.range w).map fun c =>
      if ki * (c / ko) + ki ≤ inb.length then px (fun i => bytesOf inb (ki * (c / ko) + i)) (c % ko) else 0 := by
  have hl : r.length = w := by
    have := (zipChunks_inv (fun _ => True) (fun o i o' h _ => ⟨hd.len o i o' h, fun _ _ => trivial⟩) h (fun _ _ => trivial)).1
    simpa using this
  apply List.ext_getElem
  · simp [hl]
  · intro c h1 h2
    simp only [List.getElem_map, List.getElem_range]
    have hdm := Nat.div_add_mod c ko
    have hcm := Nat.mod_lt c hko
    have hcw : c < w := by omega
    have hat := zipChunks_at hko hd.len h (q := c / ko) (by simp; omega)
    have hel : r[c] = ((r.drop (ko * (c / ko))).take ko)[c % ko]'(by simp; omega) := by
      simp [hdm]
    rw [hel]
    by_cases hc : ki * (c / ko) < inb.length
    · have hb := hat.1 hc
      by_cases hs : ki * (c / ko) + ki ≤ inb.length
      · have hil : ((inb.drop (ki * (c / ko))).take ki).length = ki := by
          rw [List.length_take, List.length_drop]; omega
        by_cases hn : (((List.replicate w 0).drop (ko * (c / ko))).take ko).length = ko
        · rw [hd.full _ _ hn hil] at hb
          simp only [Except.ok.injEq] at hb
          simp only [← hb, if_pos hs, List.getElem_map, List.getElem_range]
          apply hd.loc _ _ _ hcm
          intro i hi
          rw [bytesOf_drop_take _ _ _ _ hi]
        · rw [hd.narrow _ _ (by have := List.length_take_le ko ((List.replicate w 0).drop (ko * (c / ko))); omega) (by omega)] at hb
          simp at hb
      · rw [hd.short] at hb
        · simp at hb
        · rw [List.length_take, List.length_drop]; omega
    · have hb := hat.2 (by omega)
      rw [if_neg (by omega)]
      simp [hb]

/-- A row-parallel decoder, all rows complete. -/
theorem ChunkDec.rows (hd : ChunkDec body ko ki px) (hko : 0 < ko) (hki : 0 < ki) (n h : Nat) (hn : 0 < n)
    (rowIn : Nat → M Bytes) (src : Nat → Bytes) (hsrc : ∀ r, r < h → rowIn r = .ok (src r) ∧ ki * n ≤ (src r).length) :
    decodeThreaded (ko * n) h (fun out row => do
      let inb ← rowIn row
      zipChunks ko ki body out inb) =
      .ok (raster (ko * n) h fun r c => px (fun i => bytesOf (src r) (ki * (c / ko) + i)) (c % ko)) := by
  apply decodeThreaded_eq (Nat.mul_pos hko hn)
  intro r hr
  obtain ⟨h1, h2⟩ := hsrc r hr
  rw [h1, ok_bind, hd.line hko hki n _ _ (by simp) h2]

/-- A successful row-parallel decode. -/
theorem ChunkDec.rows_ok (hd : ChunkDec body ko ki px) (hko : 0 < ko) (hki : 0 < ki) (w h : Nat)
    (rowIn : Nat → M Bytes) (out : List Nat)
    (ho : decodeThreaded w h (fun out row => do
      let inb ← rowIn row
      zipChunks ko ki body out inb) = .ok out) :
    ∃ src : Nat → Bytes, (∀ r, r < h → rowIn r = .ok (src r)) ∧
      out = raster w h fun r c =>
        if ki * (c / ko) + ki ≤ (src r).length then px (fun i => bytesOf (src r) (ki * (c / ko) + i)) (c % ko) else 0 := by
  have hlen : ∀ r l, r < h → (do let inb ← rowIn r; zipChunks ko ki body (List.replicate w 0) inb) = .ok l →
      l.length = w := by
    intro r l _ hl
    rw [bind_eq_ok] at hl
    obtain ⟨inb, _, hl⟩ := hl
    rw [hd.line_ok hko hki w inb l hl]; simp
  obtain ⟨hw, rows, rfl, hrows⟩ := decodeThreaded_ok hlen ho
  refine ⟨fun r => match rowIn r with | .ok s => s | .error _ => [], ?_, ?_⟩
  · intro r hr
    have := hrows r hr
    rw [bind_eq_ok] at this
    obtain ⟨inb, hinb, _⟩ := this
    simp only [hinb]
  · apply raster_congr
    intro r c hr hc
    have := hrows r hr
    rw [bind_eq_ok] at this
    obtain ⟨inb, hinb, hz⟩ := this
    have hz := hd.line_ok hko hki w inb _ hz
    simp only [hinb]
    rw [List.map_inj_left] at hz
    exact hz c (by simpa using hc)

theorem chunk12be : ChunkDec body12be 2 3 (fun b j => fieldMSB b (12 * j) 12) where
  full := by
    intro o i ho hi
    match o, ho with
    | [o0, o1], _ =>
      have hb := bytesOf_lt i
      have h0 := hb 0
      have h1 := hb 1
      have h2 := hb 2
      simp only [body12be, byteAt_lt (show 0 < i.length by omega), byteAt_lt (show 1 < i.length by omega), byteAt_lt (show 2 < i.length by omega), ok_bind, setIdx, List.length_cons, List.length_nil, List.set,
        List.range_succ, List.range_zero, List.map_nil, List.map_cons, List.nil_append, List.cons_append, Nat.reduceAdd,
        Nat.reduceLT, if_true, and_3f, and_0f, and_03, Nat.shiftRight_eq_div_pow, Nat.reducePow]
      have f0 := fieldMSB_two (bytesOf i) hb 0 0 12 (by omega) (by omega) (by omega)
      have f1 := fieldMSB_two (bytesOf i) hb 1 4 12 (by omega) (by omega) (by omega)
      simp only [Nat.reduceMul, Nat.reduceAdd, Nat.reduceSub, Nat.reducePow] at f0 f1
      simp only [Nat.reduceMul, f0, f1]
      simp (disch := omega) only [shl16_or, Except.ok.injEq, List.cons.injEq, and_true]
      refine ⟨?_, ?_⟩ <;> first | trivial | omega
  short := by
    intro o i hi
    rcases i with _ | ⟨_, _ | ⟨_, _ | ⟨_, _⟩⟩⟩
    all_goals first | rfl | (simp at hi; done) | (simp at hi; omega)
  narrow := by
    intro o i ho hi
    rcases i with _ | ⟨_, _ | ⟨_, _ | ⟨_, _⟩⟩⟩
    all_goals first | (simp at hi; done) | skip
    rcases o with _ | ⟨_, _ | ⟨_, _⟩⟩
    all_goals first | rfl | (simp at ho; done) | (simp at ho; omega)
  len := by
    intro o i o' h
    simp only [body12be, bind_eq_ok, setIdx_eq_ok] at h
    obtain ⟨_, _, _, _, _, _, _, ⟨_, rfl⟩, _, rfl⟩ := h
    simp
  loc := by
    intro b b' j hj h
    apply fieldMSB_congr
    intro i h1 h2
    exact h i (by omega)

theorem chunk12le : ChunkDec body12le 2 3 (fun b j => fieldLSB b (12 * j) 12) where
  full := by
    intro o i ho hi
    match o, ho with
    | [o0, o1], _ =>
      have hb := bytesOf_lt i
      have h0 := hb 0
      have h1 := hb 1
      have h2 := hb 2
      simp only [body12le, byteAt_lt (show 0 < i.length by omega), byteAt_lt (show 1 < i.length by omega), byteAt_lt (show 2 < i.length by omega), ok_bind, setIdx, List.length_cons, List.length_nil, List.set,
        List.range_succ, List.range_zero, List.map_nil, List.map_cons, List.nil_append, List.cons_append, Nat.reduceAdd,
        Nat.reduceLT, if_true, and_3f, and_0f, and_03, Nat.shiftRight_eq_div_pow, Nat.reducePow]
      have f0 := fieldLSB_two (bytesOf i) hb 0 0 12 (by omega) (by omega) (by omega)
      have f1 := fieldLSB_two (bytesOf i) hb 1 4 12 (by omega) (by omega) (by omega)
      simp only [Nat.reduceMul, Nat.reduceAdd, Nat.reduceSub, Nat.reducePow] at f0 f1
      simp only [Nat.reduceMul, f0, f1]
      simp (disch := omega) only [shl16_or, Except.ok.injEq, List.cons.injEq, and_true]
      refine ⟨?_, ?_⟩ <;> first | trivial | omega
  short := by
    intro o i hi
    rcases i with _ | ⟨_, _ | ⟨_, _ | ⟨_, _⟩⟩⟩
    all_goals first | rfl | (simp at hi; done) | (simp at hi; omega)
  narrow := by
    intro o i ho hi
    rcases i with _ | ⟨_, _ | ⟨_, _ | ⟨_, _⟩⟩⟩
    all_goals first | (simp at hi; done) | skip
    rcases o with _ | ⟨_, _ | ⟨_, _⟩⟩
    all_goals first | rfl | (simp at ho; done) | (simp at ho; omega)
  len := by
    intro o i o' h
    simp only [body12le, bind_eq_ok, setIdx_eq_ok] at h
    obtain ⟨_, _, _, _, _, _, _, ⟨_, rfl⟩, _, rfl⟩ := h
    simp
  loc := by
    intro b b' j hj h
    apply fieldLSB_congr
    intro i h1 h2
    exact h i (by omega)

theorem chunk12beMsb16 : ChunkDec body12beMsb16 4 6 (fun b j => fieldMSB (swap16 b) (12 * j) 12) where
  full := by
    intro o i ho hi
    match o, ho with
    | [o0, o1, o2, o3], _ =>
      have hb := bytesOf_lt i
      have h0 := hb 0
      have h1 := hb 1
      have h2 := hb 2
      have h3 := hb 3
      have h4 := hb 4
      have h5 := hb 5
      simp only [body12beMsb16, byteAt_lt (show 0 < i.length by omega), byteAt_lt (show 1 < i.length by omega), byteAt_lt (show 2 < i.length by omega), byteAt_lt (show 3 < i.length by omega), byteAt_lt (show 4 < i.length by omega), byteAt_lt (show 5 < i.length by omega), ok_bind, setIdx, List.length_cons, List.length_nil, List.set,
        List.range_succ, List.range_zero, List.map_nil, List.map_cons, List.nil_append, List.cons_append, Nat.reduceAdd,
        Nat.reduceLT, if_true, and_3f, and_0f, and_03, Nat.shiftRight_eq_div_pow, Nat.reducePow]
      have f0 := fieldMSB_two (swap16 (bytesOf i)) (swap16_lt hb) 0 0 12 (by omega) (by omega) (by omega)
      have f1 := fieldMSB_two (swap16 (bytesOf i)) (swap16_lt hb) 1 4 12 (by omega) (by omega) (by omega)
      have f2 := fieldMSB_two (swap16 (bytesOf i)) (swap16_lt hb) 3 0 12 (by omega) (by omega) (by omega)
      have f3 := fieldMSB_two (swap16 (bytesOf i)) (swap16_lt hb) 4 4 12 (by omega) (by omega) (by omega)
      simp only [Nat.reduceMul, Nat.reduceAdd, Nat.reduceSub, Nat.reducePow, Nat.reduceDiv, Nat.reduceMod, swap16, Nat.reduceEqDiff, Nat.one_ne_zero, if_true, if_false] at f0 f1 f2 f3
      simp only [Nat.reduceMul, f0, f1, f2, f3]
      simp (disch := omega) only [shl16_or, Except.ok.injEq, List.cons.injEq, and_true]
      refine ⟨?_, ?_, ?_, ?_⟩ <;> first | trivial | omega
  short := by
    intro o i hi
    rcases i with _ | ⟨_, _ | ⟨_, _ | ⟨_, _ | ⟨_, _ | ⟨_, _ | ⟨_, _⟩⟩⟩⟩⟩⟩
    all_goals first | rfl | (simp at hi; done) | (simp at hi; omega)
  narrow := by
    intro o i ho hi
    rcases i with _ | ⟨_, _ | ⟨_, _ | ⟨_, _ | ⟨_, _ | ⟨_, _ | ⟨_, _⟩⟩⟩⟩⟩⟩
    all_goals first | (simp at hi; done) | skip
    rcases o with _ | ⟨_, _ | ⟨_, _ | ⟨_, _ | ⟨_, _⟩⟩⟩⟩
    all_goals first | rfl | (simp at ho; done) | (simp at ho; omega)
  len := by
    intro o i o' h
    simp only [body12beMsb16, bind_eq_ok, setIdx_eq_ok] at h
    obtain ⟨_, _, _, _, _, _, _, _, _, _, _, _, _, ⟨_, rfl⟩, _, ⟨_, rfl⟩, _, ⟨_, rfl⟩, _, rfl⟩ := h
    simp
  loc := by
    intro b b' j hj h
    apply fieldMSB_congr
    intro i h1 h2
    unfold swap16
    split <;> exact h _ (by omega)

theorem chunk12beMsb32 : ChunkDec body12beMsb32 8 12 (fun b j => fieldMSB (swap32 b) (12 * j) 12) where
  full := by
    intro o i ho hi
    match o, ho with
    | [o0, o1, o2, o3, o4, o5, o6, o7], _ =>
      have hb := bytesOf_lt i
      have h0 := hb 0
      have h1 := hb 1
      have h2 := hb 2
      have h3 := hb 3
      have h4 := hb 4
      have h5 := hb 5
      have h6 := hb 6
      have h7 := hb 7
      have h8 := hb 8
      have h9 := hb 9
      have h10 := hb 10
      have h11 := hb 11
      simp only [body12beMsb32, byteAt_lt (show 0 < i.length by omega), byteAt_lt (show 1 < i.length by omega), byteAt_lt (show 2 < i.length by omega), byteAt_lt (show 3 < i.length by omega), byteAt_lt (show 4 < i.length by omega), byteAt_lt (show 5 < i.length by omega), byteAt_lt (show 6 < i.length by omega), byteAt_lt (show 7 < i.length by omega), byteAt_lt (show 8 < i.length by omega), byteAt_lt (show 9 < i.length by omega), byteAt_lt (show 10 < i.length by omega), byteAt_lt (show 11 < i.length by omega), ok_bind, setIdx, List.length_cons, List.length_nil, List.set,
        List.range_succ, List.range_zero, List.map_nil, List.map_cons, List.nil_append, List.cons_append, Nat.reduceAdd,
        Nat.reduceLT, if_true, and_3f, and_0f, and_03, Nat.shiftRight_eq_div_pow, Nat.reducePow]
      have f0 := fieldMSB_two (swap32 (bytesOf i)) (swap32_lt hb) 0 0 12 (by omega) (by omega) (by omega)
      have f1 := fieldMSB_two (swap32 (bytesOf i)) (swap32_lt hb) 1 4 12 (by omega) (by omega) (by omega)
      have f2 := fieldMSB_two (swap32 (bytesOf i)) (swap32_lt hb) 3 0 12 (by omega) (by omega) (by omega)
      have f3 := fieldMSB_two (swap32 (bytesOf i)) (swap32_lt hb) 4 4 12 (by omega) (by omega) (by omega)
      have f4 := fieldMSB_two (swap32 (bytesOf i)) (swap32_lt hb) 6 0 12 (by omega) (by omega) (by omega)
      have f5 := fieldMSB_two (swap32 (bytesOf i)) (swap32_lt hb) 7 4 12 (by omega) (by omega) (by omega)
      have f6 := fieldMSB_two (swap32 (bytesOf i)) (swap32_lt hb) 9 0 12 (by omega) (by omega) (by omega)
      have f7 := fieldMSB_two (swap32 (bytesOf i)) (swap32_lt hb) 10 4 12 (by omega) (by omega) (by omega)
      simp only [Nat.reduceMul, Nat.reduceAdd, Nat.reduceSub, Nat.reducePow, Nat.reduceDiv, Nat.reduceMod, swap32] at f0 f1 f2 f3 f4 f5 f6 f7
      simp only [Nat.reduceMul, f0, f1, f2, f3, f4, f5, f6, f7]
      simp (disch := omega) only [shl16_or, Except.ok.injEq, List.cons.injEq, and_true]
      refine ⟨?_, ?_, ?_, ?_, ?_, ?_, ?_, ?_⟩ <;> first | trivial | omega
  short := by
    intro o i hi
    rcases i with _ | ⟨_, _ | ⟨_, _ | ⟨_, _ | ⟨_, _ | ⟨_, _ | ⟨_, _ | ⟨_, _ | ⟨_, _ | ⟨_, _ | ⟨_, _ | ⟨_, _ | ⟨_, _⟩⟩⟩⟩⟩⟩⟩⟩⟩⟩⟩⟩
    all_goals first | rfl | (simp at hi; done) | (simp at hi; omega)
  narrow := by
    intro o i ho hi
    rcases i with _ | ⟨_, _ | ⟨_, _ | ⟨_, _ | ⟨_, _ | ⟨_, _ | ⟨_, _ | ⟨_, _ | ⟨_, _ | ⟨_, _ | ⟨_, _ | ⟨_, _ | ⟨_, _⟩⟩⟩⟩⟩⟩⟩⟩⟩⟩⟩⟩
    all_goals first | (simp at hi; done) | skip
    rcases o with _ | ⟨_, _ | ⟨_, _ | ⟨_, _ | ⟨_, _ | ⟨_, _ | ⟨_, _ | ⟨_, _ | ⟨_, _⟩⟩⟩⟩⟩⟩⟩⟩
    all_goals first | rfl | (simp at ho; done) | (simp at ho; omega)
  len := by
    intro o i o' h
    simp only [body12beMsb32, bind_eq_ok, setIdx_eq_ok] at h
    obtain ⟨_, _, _, _, _, _, _, _, _, _, _, _, _, _, _, _, _, _, _, _, _, _, _, _, _, ⟨_, rfl⟩, _, ⟨_, rfl⟩, _, ⟨_, rfl⟩, _, ⟨_, rfl⟩, _, ⟨_, rfl⟩, _, ⟨_, rfl⟩, _, ⟨_, rfl⟩, _, rfl⟩ := h
    simp
  loc := by
    intro b b' j hj h
    apply fieldMSB_congr
    intro i h1 h2
    unfold swap32
    exact h _ (by omega)

theorem chunk10leLsb16 : ChunkDec body10leLsb16 8 10 (fun b j => fieldMSB (swap16 b) (10 * j) 10) where
  full := by
    intro o i ho hi
    match o, ho with
    | [o0, o1, o2, o3, o4, o5, o6, o7], _ =>
      have hb := bytesOf_lt i
      have h0 := hb 0
      have h1 := hb 1
      have h2 := hb 2
      have h3 := hb 3
      have h4 := hb 4
      have h5 := hb 5
      have h6 := hb 6
      have h7 := hb 7
      have h8 := hb 8
      have h9 := hb 9
      simp only [body10leLsb16, byteAt_lt (show 0 < i.length by omega), byteAt_lt (show 1 < i.length by omega), byteAt_lt (show 2 < i.length by omega), byteAt_lt (show 3 < i.length by omega), byteAt_lt (show 4 < i.length by omega), byteAt_lt (show 5 < i.length by omega), byteAt_lt (show 6 < i.length by omega), byteAt_lt (show 7 < i.length by omega), byteAt_lt (show 8 < i.length by omega), byteAt_lt (show 9 < i.length by omega), ok_bind, setIdx, List.length_cons, List.length_nil, List.set,
        List.range_succ, List.range_zero, List.map_nil, List.map_cons, List.nil_append, List.cons_append, Nat.reduceAdd,
        Nat.reduceLT, if_true, and_3f, and_0f, and_03, Nat.shiftRight_eq_div_pow, Nat.reducePow]
      have f0 := fieldMSB_two (swap16 (bytesOf i)) (swap16_lt hb) 0 0 10 (by omega) (by omega) (by omega)
      have f1 := fieldMSB_two (swap16 (bytesOf i)) (swap16_lt hb) 1 2 10 (by omega) (by omega) (by omega)
      have f2 := fieldMSB_two (swap16 (bytesOf i)) (swap16_lt hb) 2 4 10 (by omega) (by omega) (by omega)
      have f3 := fieldMSB_two (swap16 (bytesOf i)) (swap16_lt hb) 3 6 10 (by omega) (by omega) (by omega)
      have f4 := fieldMSB_two (swap16 (bytesOf i)) (swap16_lt hb) 5 0 10 (by omega) (by omega) (by omega)
      have f5 := fieldMSB_two (swap16 (bytesOf i)) (swap16_lt hb) 6 2 10 (by omega) (by omega) (by omega)
      have f6 := fieldMSB_two (swap16 (bytesOf i)) (swap16_lt hb) 7 4 10 (by omega) (by omega) (by omega)
      have f7 := fieldMSB_two (swap16 (bytesOf i)) (swap16_lt hb) 8 6 10 (by omega) (by omega) (by omega)
      simp only [Nat.reduceMul, Nat.reduceAdd, Nat.reduceSub, Nat.reducePow, Nat.reduceDiv, Nat.reduceMod, swap16, Nat.reduceEqDiff, Nat.one_ne_zero, if_true, if_false] at f0 f1 f2 f3 f4 f5 f6 f7
      simp only [Nat.reduceMul, f0, f1, f2, f3, f4, f5, f6, f7]
      simp (disch := omega) only [shl16_or, Except.ok.injEq, List.cons.injEq, and_true]
      refine ⟨?_, ?_, ?_, ?_, ?_, ?_, ?_, ?_⟩ <;> first | trivial | omega
  short := by
    intro o i hi
    rcases i with _ | ⟨_, _ | ⟨_, _ | ⟨_, _ | ⟨_, _ | ⟨_, _ | ⟨_, _ | ⟨_, _ | ⟨_, _ | ⟨_, _ | ⟨_, _⟩⟩⟩⟩⟩⟩⟩⟩⟩⟩
    all_goals first | rfl | (simp at hi; done) | (simp at hi; omega)
  narrow := by
    intro o i ho hi
    rcases i with _ | ⟨_, _ | ⟨_, _ | ⟨_, _ | ⟨_, _ | ⟨_, _ | ⟨_, _ | ⟨_, _ | ⟨_, _ | ⟨_, _ | ⟨_, _⟩⟩⟩⟩⟩⟩⟩⟩⟩⟩
    all_goals first | (simp at hi; done) | skip
    rcases o with _ | ⟨_, _ | ⟨_, _ | ⟨_, _ | ⟨_, _ | ⟨_, _ | ⟨_, _ | ⟨_, _ | ⟨_, _⟩⟩⟩⟩⟩⟩⟩⟩
    all_goals first | rfl | (simp at ho; done) | (simp at ho; omega)
  len := by
    intro o i o' h
    simp only [body10leLsb16, bind_eq_ok, setIdx_eq_ok] at h
    obtain ⟨_, _, _, _, _, _, _, _, _, _, _, _, _, _, _, _, _, _, _, _, _, ⟨_, rfl⟩, _, ⟨_, rfl⟩, _, ⟨_, rfl⟩, _, ⟨_, rfl⟩, _, ⟨_, rfl⟩, _, ⟨_, rfl⟩, _, ⟨_, rfl⟩, _, rfl⟩ := h
    simp
  loc := by
    intro b b' j hj h
    apply fieldMSB_congr
    intro i h1 h2
    unfold swap16
    split <;> exact h _ (by omega)


theorem chunk10le : ChunkDec body10le 4 5 (fun b j => if j = 2 then (b 2 % 16) * 64 + b 2 / 4 else fieldMSB b (10 * j) 10) where
  full := by
    intro o i ho hi
    match o, ho with
    | [o0, o1, o2, o3], _ =>
      have hb := bytesOf_lt i
      have h0 := hb 0
      have h1 := hb 1
      have h2 := hb 2
      have h3 := hb 3
      have h4 := hb 4
      simp only [body10le, byteAt_lt (show 0 < i.length by omega), byteAt_lt (show 1 < i.length by omega), byteAt_lt (show 2 < i.length by omega), byteAt_lt (show 3 < i.length by omega), byteAt_lt (show 4 < i.length by omega), ok_bind, setIdx, List.length_cons, List.length_nil, List.set,
        List.range_succ, List.range_zero, List.map_nil, List.map_cons, List.nil_append, List.cons_append, Nat.reduceAdd,
        Nat.reduceLT, if_true, and_3f, and_0f, and_03, Nat.shiftRight_eq_div_pow, Nat.reducePow]
      have f0 := fieldMSB_two (bytesOf i) hb 0 0 10 (by omega) (by omega) (by omega)
      have f1 := fieldMSB_two (bytesOf i) hb 1 2 10 (by omega) (by omega) (by omega)
      have f2 := fieldMSB_two (bytesOf i) hb 2 4 10 (by omega) (by omega) (by omega)
      have f3 := fieldMSB_two (bytesOf i) hb 3 6 10 (by omega) (by omega) (by omega)
      simp only [Nat.reduceMul, Nat.reduceAdd, Nat.reduceSub, Nat.reducePow] at f0 f1 f2 f3
      simp only [Nat.reduceMul, f0, f1, f2, f3, Nat.reduceEqDiff, if_false, if_true, show (0 = 2) = False by decide, show (1 = 2) = False by decide]
      simp (disch := omega) only [shl16_or, reduceIte, Nat.reduceEqDiff, Except.ok.injEq, List.cons.injEq, and_true]
      refine ⟨?_, ?_, ?_, ?_⟩ <;> first | trivial | omega
  short := by
    intro o i hi
    rcases i with _ | ⟨_, _ | ⟨_, _ | ⟨_, _ | ⟨_, _ | ⟨_, _⟩⟩⟩⟩⟩
    all_goals first | rfl | (simp at hi; done) | (simp at hi; omega)
  narrow := by
    intro o i ho hi
    rcases i with _ | ⟨_, _ | ⟨_, _ | ⟨_, _ | ⟨_, _ | ⟨_, _⟩⟩⟩⟩⟩
    all_goals first | (simp at hi; done) | skip
    rcases o with _ | ⟨_, _ | ⟨_, _ | ⟨_, _ | ⟨_, _⟩⟩⟩⟩
    all_goals first | rfl | (simp at ho; done) | (simp at ho; omega)
  len := by
    intro o i o' h
    simp only [body10le, bind_eq_ok, setIdx_eq_ok] at h
    obtain ⟨_, _, _, _, _, _, _, _, _, _, _, ⟨_, rfl⟩, _, ⟨_, rfl⟩, _, ⟨_, rfl⟩, _, rfl⟩ := h
    simp
  loc := by
    intro b b' j hj h
    split
    · rw [h 2 (by omega)]
    · apply fieldMSB_congr
      intro i h1 h2
      exact h i (by omega)

end Model

import Verif.Lemmas.Pumps
/-!
# The JPEG bit reader refines the unstuffed stream
-/

namespace Model
open Rust Spec

/-- Unread data: `k` unstuffed bytes have been taken. -/
def JRest (buf : Bytes) (pos k : Nat) (fin : Bool) : Prop :=
  (fin = false → pos ≤ buf.length ∧ unstuff (buf.drop pos) = (unstuff buf).drop k ∧ wellEnded (buf.drop pos) = true) ∧
  (fin = true → (unstuff buf).length ≤ k)

/-- State of the JPEG reader. -/
def AtJ (buf : Bytes) (s : JPump) (c a : Nat) : Prop :=
  s.buffer = buf ∧ s.nbits = a ∧ a ≤ 63 ∧ s.bits = fieldMSB (bytesOf (unstuff buf)) c a ∧
  ∃ k, 8 * k = c + a ∧ JRest buf s.pos k s.finished

theorem drop_cons_of_lt {buf : Bytes} {pos : Nat} (h : pos < buf.length) :
    ∃ b, buf.drop pos = b :: buf.drop (pos + 1) ∧ bytesOf buf pos = b.toNat := by
  refine ⟨buf[pos], List.drop_eq_getElem_cons h, ?_⟩
  simp [bytesOf, h]

theorem toNat_ff {b : UInt8} : b.toNat = 0xff ↔ b = 0xff := by
  constructor
  · intro h; exact UInt8.toNat_inj.mp h
  · intro h; subst h; rfl

theorem toNat_zero {b : UInt8} : b.toNat = 0 ↔ b = 0 := by
  constructor
  · intro h; exact UInt8.toNat_inj.mp h
  · intro h; subst h; rfl

theorem bytesOf_of_drop_cons {l : List UInt8} {k : Nat} {b : UInt8} {r : List UInt8} (h : l.drop k = b :: r) :
    bytesOf l k = b.toNat ∧ l.drop (k + 1) = r := by
  have h1 : l[k]? = some b := by
    have := congrArg (fun x => x[0]?) h
    simpa using this
  refine ⟨by simp [bytesOf, h1], ?_⟩
  have : l.drop (k + 1) = (l.drop k).drop 1 := by rw [List.drop_drop]
  rw [this, h]; rfl

theorem bytesOf_ge {l : List UInt8} {k : Nat} (h : l.length ≤ k) : bytesOf l k = 0 := by
  simp [bytesOf, List.getElem?_eq_none h]

theorem unstuff_plain_cons {x : UInt8} {r : List UInt8} (h : x ≠ 0xff) : unstuff (x :: r) = x :: unstuff r := by
  rw [unstuff.eq_def]; simp [h]

theorem unstuff_ff_zero {r : List UInt8} : unstuff (0xff :: 0 :: r) = 0xff :: unstuff r := by
  rw [unstuff.eq_def]; simp

theorem unstuff_ff_marker {y : UInt8} {r : List UInt8} (h : y ≠ 0) : unstuff (0xff :: y :: r) = [] := by
  rw [unstuff.eq_def]; simp [h]

theorem wellEnded_plain_cons {x : UInt8} {r : List UInt8} (h : x ≠ 0xff) : wellEnded (x :: r) = wellEnded r := by
  rw [wellEnded.eq_def]; simp [h]

theorem wellEnded_ff_zero {r : List UInt8} : wellEnded (0xff :: 0 :: r) = wellEnded r := by
  rw [wellEnded.eq_def]; simp

theorem jpegByte_spec {buf : Bytes} {s : JPump} {k : Nat} (hb : s.buffer = buf) (hf : s.finished = false)
    (hr : JRest buf s.pos k s.finished) :
    ∃ pos fin, jpegByte s = .ok (bytesOf (unstuff buf) k, pos, fin) ∧ JRest buf (pos + 1) (k + 1) fin := by
  obtain ⟨hpos, hun, hwe⟩ := hr.1 hf
  unfold jpegByte
  rw [hb]
  by_cases hge : s.pos ≥ buf.length
  · rw [if_pos hge]
    have hnil : buf.drop s.pos = [] := List.drop_eq_nil_of_le hge
    rw [hnil, unstuff] at hun
    have hlen : (unstuff buf).length ≤ k := List.drop_eq_nil_iff.mp hun.symm
    rw [bytesOf_ge hlen]
    exact ⟨_, _, rfl, by simp, fun _ => by omega⟩
  · rw [if_neg hge]
    obtain ⟨x, hx, hxn⟩ := drop_cons_of_lt (show s.pos < buf.length by omega)
    rw [byteAt_lt (by omega), ok_bind, hxn]
    rw [hx] at hun hwe
    by_cases hff : x = 0xff
    · rw [if_neg (by simpa using toNat_ff.mpr hff)]
      by_cases hl : s.pos + 1 < buf.length
      · obtain ⟨y, hy, hyn⟩ := drop_cons_of_lt hl
        rw [byteAt_lt hl, ok_bind, hyn]
        rw [hy] at hun hwe
        rw [hff] at hun hwe
        by_cases h0 : y = 0
        · rw [if_pos (toNat_zero.mpr h0)]
          rw [h0, unstuff_ff_zero] at hun
          rw [h0, wellEnded_ff_zero] at hwe
          have := bytesOf_of_drop_cons hun.symm
          rw [this.1, hff]
          refine ⟨_, _, rfl, fun _ => ⟨by omega, ?_, ?_⟩, by simp⟩
          · rw [this.2]
          · exact hwe
        · rw [if_neg (fun h => h0 (toNat_zero.mp h))]
          rw [unstuff_ff_marker h0] at hun
          have hlen : (unstuff buf).length ≤ k := List.drop_eq_nil_iff.mp hun.symm
          rw [bytesOf_ge hlen]
          exact ⟨_, _, rfl, by simp, fun _ => by omega⟩
      · exfalso
        have hnil : buf.drop (s.pos + 1) = [] := List.drop_eq_nil_of_le (by omega)
        rw [hnil, hff] at hwe
        simp [wellEnded] at hwe
    · rw [if_pos (by intro h; exact hff (toNat_ff.mp h))]
      rw [unstuff_plain_cons hff] at hun
      rw [wellEnded_plain_cons hff] at hwe
      have := bytesOf_of_drop_cons hun.symm
      rw [this.1]
      exact ⟨_, _, rfl, fun _ => ⟨by omega, this.2.symm, hwe⟩, by simp⟩

theorem jpegSlow_spec (b : Build) (buf : Bytes) : ∀ n s c a, AtJ buf s c a → a + 8 * n ≤ 63 →
    ∃ s' a', jpegSlow b n s = .ok s' ∧ AtJ buf s' c a' ∧ a ≤ a' ∧ (s'.finished = false → a' = a + 8 * n) ∧
      (a' ≤ a + 8 * n) := by
  intro n
  induction n with
  | zero =>
    intro s c a hs _
    exact ⟨s, a, rfl, hs, by omega, fun _ => by omega, by omega⟩
  | succ n ih =>
    intro s c a hs h63
    unfold jpegSlow
    by_cases hf : s.finished = true
    · rw [if_pos hf]
      exact ⟨s, a, rfl, hs, by omega, fun h => by rw [hf] at h; simp at h, by omega⟩
    · have hf' : s.finished = false := by simpa using hf
      rw [if_neg hf]
      obtain ⟨h1, h2, h3, h4, k, h5, h6⟩ := hs
      obtain ⟨pos, fin, hj, hr⟩ := jpegByte_spec h1 hf' h6
      rw [hj]
      simp only [ok_bind]
      rw [h4, shlU64_ok (by omega) (push_lt _ _ _ _ (by omega)), ok_bind, h2, addU_ok (by omega), ok_bind,
        fieldMSB_push _ c a 8 _ (by rw [← h5, fieldMSB_byte _ (bytesOf_lt _)])]
      obtain ⟨s', a', e1, e2, e3, e4, e5⟩ := ih ⟨s.buffer, pos + 1, fieldMSB (bytesOf (unstuff buf)) c (a + 8), a + 8, fin⟩ c (a + 8)
        ⟨h1, rfl, by omega, rfl, k + 1, by omega, hr⟩ (by omega)
      exact ⟨s', a', e1, e2, by omega, fun h => by have := e4 h; omega, by omega⟩

theorem jpegFast_false_or {b : Build} {buf : Bytes} {s : JPump} (hb : s.buffer = buf) (h4 : 4 ≤ buf.length)
    (hp : s.pos ≤ buf.length) :
    jpegFast b s = .ok false ∨ (jpegFast b s = .ok true ∧ s.pos + 4 < buf.length ∧
      ∀ j, j < 4 → bytesOf buf (s.pos + j) ≠ 0xff) := by
  unfold jpegFast
  rw [hb, subU_ok h4, ok_bind]
  by_cases hlt : s.pos < buf.length - 4
  · rw [if_pos hlt, byteAt_lt (by omega), ok_bind]
    by_cases h0 : bytesOf buf s.pos = 0xff
    · rw [if_pos h0]; exact .inl rfl
    · rw [if_neg h0, byteAt_lt (by omega), ok_bind]
      by_cases h1 : bytesOf buf (s.pos + 1) = 0xff
      · rw [if_pos h1]; exact .inl rfl
      · rw [if_neg h1, byteAt_lt (by omega), ok_bind]
        by_cases h2 : bytesOf buf (s.pos + 2) = 0xff
        · rw [if_pos h2]; exact .inl rfl
        · rw [if_neg h2, byteAt_lt (by omega), ok_bind]
          by_cases h3 : bytesOf buf (s.pos + 3) = 0xff
          · left; simp [h3]
          · right
            refine ⟨by simp [h3], by omega, ?_⟩
            intro j hj
            have : j = 0 ∨ j = 1 ∨ j = 2 ∨ j = 3 := by omega
            rcases this with rfl | rfl | rfl | rfl
            · exact h0
            · exact h1
            · exact h2
            · exact h3
  · rw [if_neg hlt]; exact .inl rfl

/-- A run of bytes without 0xff is its own unstuffed form. -/
theorem unstuff_plain {buf : Bytes} : ∀ (n pos k : Nat), pos + n ≤ buf.length →
    (∀ j, j < n → bytesOf buf (pos + j) ≠ 0xff) → JRest buf pos k false →
    JRest buf (pos + n) (k + n) false ∧ ∀ j, j < n → bytesOf (unstuff buf) (k + j) = bytesOf buf (pos + j) := by
  intro n
  induction n with
  | zero => intro pos k _ _ h; exact ⟨h, fun j hj => by omega⟩
  | succ n ih =>
    intro pos k hl hff hr
    obtain ⟨hpos, hun, hwe⟩ := hr.1 rfl
    obtain ⟨x, hx, hxn⟩ := drop_cons_of_lt (show pos < buf.length by omega)
    have hxf : x ≠ 0xff := by
      intro h
      have := hff 0 (by omega)
      rw [Nat.add_zero, hxn] at this
      exact this (toNat_ff.mpr h)
    rw [hx] at hun hwe
    rw [unstuff_plain_cons hxf] at hun
    rw [wellEnded_plain_cons hxf] at hwe
    have h1 := bytesOf_of_drop_cons hun.symm
    obtain ⟨e1, e2⟩ := ih (pos + 1) (k + 1) (by omega)
      (fun j hj => by have := hff (j + 1) (by omega); rwa [show pos + (j + 1) = pos + 1 + j by omega] at this)
      ⟨fun _ => ⟨by omega, h1.2.symm, hwe⟩, by simp⟩
    refine ⟨by rw [show pos + (n + 1) = pos + 1 + n by omega, show k + (n + 1) = k + 1 + n by omega]; exact e1, ?_⟩
    intro j hj
    cases j with
    | zero => rw [Nat.add_zero, Nat.add_zero, h1.1, hxn]
    | succ j =>
      have := e2 j (by omega)
      rwa [show k + 1 + j = k + (j + 1) by omega, show pos + 1 + j = pos + (j + 1) by omega] at this

/-- After a refill attempt: enough bits, or the data is finished. -/
theorem jpegRefill_spec (b : Build) (buf : Bytes) (h4 : 4 ≤ buf.length) (s : JPump) (c a : Nat) (hs : AtJ buf s c a) (ha : a ≤ 31)
    (hf : s.finished = false) :
    ∃ s' a', jpegRefill b s = .ok s' ∧ AtJ buf s' c a' ∧ a ≤ a' ∧ (s'.finished = false → a' = a + 32) := by
  obtain ⟨h1, h2, h3, h5, k, h6, h7⟩ := hs
  rw [hf] at h7
  unfold jpegRefill
  rcases jpegFast_false_or (b := b) h1 h4 (h7.1 rfl).1 with hfast | ⟨hfast, hlt, hne⟩
  · rw [hfast]
    simp only [ok_bind, Bool.false_eq_true, if_false]
    obtain ⟨s', a', e1, e2, e3, e4, _⟩ := jpegSlow_spec b buf 4 s c a ⟨h1, h2, h3, h5, k, h6, by rw [hf]; exact h7⟩ (by omega)
    exact ⟨s', a', e1, e2, e3, e4⟩
  · rw [hfast]
    simp only [ok_bind, if_true]
    obtain ⟨e1, e2⟩ := unstuff_plain 4 s.pos k (by omega) hne h7
    have hw : bytesOf buf s.pos * 16777216 + bytesOf buf (s.pos + 1) * 65536 + bytesOf buf (s.pos + 2) * 256 +
        bytesOf buf (s.pos + 3) = fieldMSB (bytesOf (unstuff buf)) (c + a) 32 := by
      rw [← h6, fieldMSB_word _ (bytesOf_lt _), ← e2 1 (by omega), ← e2 2 (by omega), ← e2 3 (by omega)]
      have := e2 0 (by omega)
      simp only [Nat.add_zero] at this
      rw [this]
    rw [h1, BEu32_eq (by omega), ok_bind, h5, shlU64_ok (by omega) (push_lt _ _ _ _ (by omega)), ok_bind, h2,
      addU_ok (by omega), ok_bind, fieldMSB_push _ c a 32 _ hw]
    refine ⟨_, a + 32, rfl, ⟨rfl, rfl, by omega, rfl, k + 4, by omega, ?_⟩, by omega, fun _ => rfl⟩
    show JRest buf (s.pos + 4) (k + 4) s.finished
    rw [hf]; exact e1

theorem fieldMSB_zero {st : Nat → Nat} {c n : Nat} (h : ∀ i, c / 8 ≤ i → st i = 0) : fieldMSB st c n = 0 := by
  induction n with
  | zero => rfl
  | succ n ih => rw [fieldMSB, ih, bitMSB, h _ (by omega)]; simp

theorem readsJPEG (b : Build) (buf : Bytes) (h4 : 4 ≤ buf.length) :
    Reads (pumpJPEG b) (fieldMSB (bytesOf (unstuff buf))) none (AtJ buf) where
  peek := by
    intro s c a n hs hn _
    -- the state after the optional refill
    have hmid : ∃ s' a', (if n > s.nbits ∧ s.finished = false then jpegRefill b s else .ok s) = .ok s' ∧ AtJ buf s' c a' ∧ a ≤ a' ∧ (a' < n → s'.finished = true) := by
      have ha := hs.2.1
      by_cases hc : n > s.nbits ∧ s.finished = false
      · rw [if_pos hc]
        obtain ⟨s', a', e1, e2, e3, e4⟩ := jpegRefill_spec b buf h4 s c a hs (by omega) hc.2
        refine ⟨s', a', e1, e2, e3, fun hlt => ?_⟩
        cases hfin : s'.finished with
        | true => rfl
        | false => have := e4 hfin; omega
      · rw [if_neg hc]
        refine ⟨s, a, rfl, hs, by omega, fun hlt => ?_⟩
        cases hfin : s.finished with
        | true => rfl
        | false => exact absurd ⟨by omega, hfin⟩ hc
    obtain ⟨s1, a1, e1, e2, e3, e4⟩ := hmid
    -- the state after the optional zero fill
    have hend : ∃ s' a', (if n > s1.nbits ∧ s1.finished = true then jpegZeros b s1 else .ok s1) = .ok s' ∧ AtJ buf s' c a' ∧ n ≤ a' ∧ a1 ≤ a' := by
      obtain ⟨h1, h2, h3, h5, k, h6, h7⟩ := e2
      by_cases hc : n > s1.nbits ∧ s1.finished = true
      · rw [if_pos hc, jpegZeros, h5, shlU64_ok (by omega) (push_lt _ _ _ _ (by omega)), ok_bind, h2, addU_ok (by omega), ok_bind]
        have hz : fieldMSB (bytesOf (unstuff buf)) (c + a1) 32 = 0 := by
          apply fieldMSB_zero
          intro i hi
          apply bytesOf_ge
          have := h7.2 hc.2
          omega
        have := fieldMSB_push (bytesOf (unstuff buf)) c a1 32 0 hz.symm
        rw [Nat.or_zero] at this
        rw [this]
        refine ⟨_, a1 + 32, rfl, ⟨h1, rfl, by omega, rfl, k + 4, by omega, ?_⟩, by omega, by omega⟩
        exact ⟨fun h => by rw [hc.2] at h; simp at h, fun h => by have := h7.2 h; omega⟩
      · rw [if_neg hc]
        refine ⟨s1, a1, rfl, ⟨h1, h2, h3, h5, k, h6, h7⟩, ?_, by omega⟩
        by_cases hlt : a1 < n
        · exact absurd ⟨by omega, e4 hlt⟩ hc
        · omega
    obtain ⟨s2, a2, f1, f2, f3, f4⟩ := hend
    refine ⟨s2, a2, ?_, f2, f3, by omega⟩
    show peekJPEG b s n = _
    unfold peekJPEG
    rw [e1, ok_bind, f1, ok_bind, f2.2.2.2.1, f2.2.1, topBits_eq _ _ _ _ _ f3 f2.2.2.1 hn, ok_bind]
  stop := by
    intro s c a n _ _ h
    exact absurd trivial h
  consume := by
    intro s c a n ⟨h1, h2, h3, h5, k, h6, h7⟩ hn
    show ∃ s', consumeJPEG b s n = _ ∧ _
    unfold consumeJPEG
    rw [h5, h2, dropBits_eq _ _ _ _ _ hn h3]
    exact ⟨_, rfl, h1, rfl, by omega, rfl, k, by omega, h7⟩

theorem atJ_new (buf : Bytes) (hw : wellEnded buf = true) : AtJ buf (JPump.new buf) 0 0 :=
  ⟨rfl, rfl, by omega, rfl, 0, rfl, fun _ => ⟨Nat.zero_le _, rfl, hw⟩, fun h => by simp [JPump.new] at h⟩

end Model

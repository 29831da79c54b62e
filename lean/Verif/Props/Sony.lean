import Verif.Spec.Sony
import Verif.Model.Dec.Arw
import Verif.Lemmas.Words
import Verif.Lemmas.LoopsMore
/-!
# C43: Sony decryption is a stream cipher
-/

namespace Props
open Rust Spec Model

private theorem getElem?_set {l : List Nat} {i j v : Nat} (hi : i < l.length) : (l.set i v)[j]? = if i = j then some v else l[j]? := by
  rw [List.getElem?_set]
  split
  · next h => subst h; simp only [if_pos hi]
  · rfl

private theorem initPad_eq (key : Nat) : ∃ pad, Arw.initPad key = .ok pad ∧ pad.length = 128 ∧ ∀ k, k < 127 → pad[k]? = some (sonyWord key k) := by
  -- the four outputs of the generator
  have h1 : (forRange 0 4 (fun p (s : List Nat × Nat) => do
      let k := Arw.nextKey s.2
      let pad ← setIdx s.1 p k
      .ok (pad, k)) (List.replicate 128 0, key) : M (List Nat × Nat)) =
      .ok (sonyLcg key :: sonyLcg (sonyLcg key) :: sonyLcg (sonyLcg (sonyLcg key)) :: sonyLcg (sonyLcg (sonyLcg (sonyLcg key))) :: List.replicate 124 0,
        sonyLcg (sonyLcg (sonyLcg (sonyLcg key)))) := by
    rw [show List.replicate 128 0 = 0 :: 0 :: 0 :: 0 :: List.replicate 124 0 from rfl]
    generalize List.replicate 124 0 = rest
    rw [forRange_cons _ (by omega)]
    dsimp only
    rw [setIdx_lt (by simp), ok_bind, ok_bind]
    rw [forRange_cons _ (by omega)]
    dsimp only
    rw [setIdx_lt (by simp), ok_bind, ok_bind]
    rw [forRange_cons _ (by omega)]
    dsimp only
    rw [setIdx_lt (by simp), ok_bind, ok_bind]
    rw [forRange_cons _ (by omega)]
    dsimp only
    rw [setIdx_lt (by simp), ok_bind, ok_bind]
    rw [forRange_nil (by omega)]
    rfl
  unfold Arw.initPad
  rw [h1, ok_bind]
  dsimp only
  rw [idx_eq_ok.mpr (show _ = some (sonyLcg key) from rfl), ok_bind, idx_eq_ok.mpr (show _ = some (sonyLcg (sonyLcg (sonyLcg key))) from rfl), ok_bind,
    idx_eq_ok.mpr (show _ = some (sonyLcg (sonyLcg (sonyLcg (sonyLcg key)))) from rfl), ok_bind, setIdx_lt (by simp), ok_bind]
  -- the recurrence
  obtain ⟨pad, h2, hl, hp⟩ := forRange_inv (P := fun j (s : List Nat) => s.length = 128 ∧ ∀ k, k < j → s[k]? = some (sonySeed key k)) (lo := 4) (hi := 127)
    (f := fun p pad => do
      let a ← idx pad (p - 4)
      let c ← idx pad (p - 2)
      let d ← idx pad (p - 3)
      let e ← idx pad (p - 1)
      setIdx pad p ((((a ^^^ c) <<< 1) % 4294967296) ||| ((d ^^^ e) >>> 31)))
    (s := (sonyLcg key :: sonyLcg (sonyLcg key) :: sonyLcg (sonyLcg (sonyLcg key)) :: sonyLcg (sonyLcg (sonyLcg (sonyLcg key))) :: List.replicate 124 0).set 3
      (((sonyLcg (sonyLcg (sonyLcg (sonyLcg key))) <<< 1) % 4294967296) ||| ((sonyLcg key ^^^ sonyLcg (sonyLcg (sonyLcg key))) >>> 31)))
    (by omega) ⟨by simp, by
      intro k hk
      obtain rfl | rfl | rfl | rfl : k = 0 ∨ k = 1 ∨ k = 2 ∨ k = 3 := by omega
      · rfl
      · rfl
      · rfl
      · rw [getElem?_set (by simp), if_pos rfl, sonySeed, Nat.shiftLeft_eq, Nat.shiftRight_eq_div_pow]⟩ (by
      rintro j s hj hj' ⟨hl, hs⟩
      obtain ⟨m, rfl⟩ : ∃ m, j = m + 4 := ⟨j - 4, by omega⟩
      rw [show m + 4 - 4 = m by omega, show m + 4 - 2 = m + 2 by omega, show m + 4 - 3 = m + 1 by omega, show m + 4 - 1 = m + 3 by omega,
        idx_eq_ok.mpr (hs m (by omega)), ok_bind, idx_eq_ok.mpr (hs (m + 2) (by omega)), ok_bind, idx_eq_ok.mpr (hs (m + 1) (by omega)), ok_bind,
        idx_eq_ok.mpr (hs (m + 3) (by omega)), ok_bind, setIdx_lt (by omega)]
      refine ⟨_, rfl, by simpa using hl, fun k hk => ?_⟩
      rw [getElem?_set (by omega)]
      split
      · next e => subst e; rw [sonySeed, Nat.shiftLeft_eq, Nat.shiftRight_eq_div_pow]
      · exact hs k (by omega))
  rw [h2, ok_bind]
  -- the bytes are swapped
  obtain ⟨pad', h3, hl', hp'⟩ := forRange_inv (P := fun j (s : List Nat) => s.length = 128 ∧
      ∀ k, k < 127 → s[k]? = some (if k < j then reverseWord (sonySeed key k) else sonySeed key k)) (lo := 0) (hi := 127)
    (f := fun p pad => do
      let v ← idx pad p
      setIdx pad p (Arw.swapBytes v)) (s := pad) (by omega) ⟨hl, fun k hk => by rw [if_neg (by omega)]; exact hp k hk⟩ (by
      rintro j s hj hj' ⟨hl, hs⟩
      have := hs j hj'
      rw [if_neg (by omega)] at this
      rw [idx_eq_ok.mpr this, ok_bind, setIdx_lt (by omega)]
      refine ⟨_, rfl, by simpa using hl, fun k hk => ?_⟩
      rw [getElem?_set (by omega)]
      split
      · next e => subst e; rw [if_pos (by omega)]; rfl
      · next e => rw [hs k hk]; by_cases hkj : k < j
                  · rw [if_pos hkj, if_pos (by omega)]
                  · rw [if_neg hkj, if_neg (by omega)])
  refine ⟨pad', h3, hl', fun k hk => ?_⟩
  rw [hp' k hk, if_pos hk, sonyWord, if_pos hk]

/-- The bytes of an exclusive or. -/
private theorem xor_bytes (v k j : Nat) : (v ^^^ k) / 2 ^ j % 256 = (v / 2 ^ j % 256) ^^^ (k / 2 ^ j % 256) := by
  rw [← Nat.shiftRight_eq_div_pow, Nat.shiftRight_xor_distrib, show (256 : Nat) = 2 ^ 8 from rfl, Nat.xor_mod_two_pow, Nat.shiftRight_eq_div_pow,
    Nat.shiftRight_eq_div_pow]

private theorem ofNat_xor (x y : Nat) : UInt8.ofNat (x ^^^ y) = UInt8.ofNat x ^^^ UInt8.ofNat y := by
  apply UInt8.toNat.inj
  rw [UInt8.toNat_xor]
  simp only [UInt8.toNat_ofNat']
  exact Nat.xor_mod_two_pow

/-- One byte of the output. -/
private theorem out_byte {v w j : Nat} (x : UInt8) (h : v / 2 ^ j % 256 = x.toNat) : UInt8.ofNat ((v ^^^ w) / 2 ^ j % 256) = x ^^^ UInt8.ofNat (w / 2 ^ j) := by
  rw [xor_bytes, ofNat_xor, h]
  congr 1
  · simp
  · apply UInt8.toNat.inj
    simp

/-- The decrypted bytes: exclusive or of the bytes at `offset` with the key stream. -/
def decrypted (buf : Bytes) (offset n key : Nat) : Bytes := (List.range n).map fun i => buf.getD (offset + i) 0 ^^^ sonyByte key i

private theorem range_map_succ4 {α : Type} (f : Nat → α) (n : Nat) :
    (List.range (4 * (n + 1))).map f = (List.range (4 * n)).map f ++ [f (4 * n), f (4 * n + 1), f (4 * n + 2), f (4 * n + 3)] := by
  rw [show 4 * (n + 1) = 4 * n + 1 + 1 + 1 + 1 by omega]
  simp [List.range_succ]

/-- The pad before step `i`: the last 127 words. -/
private def PadAt (key i : Nat) (pad : List Nat) : Prop := pad.length = 128 ∧ ∀ m, i ≤ m → m < i + 127 → pad[m % 128]? = some (sonyWord key m)

private theorem step_eq {buf : Bytes} {offset key i : Nat} {s : List Nat × Bytes} (hp : PadAt key i s.1) :
    (offset + i * 4 + 4 ≤ buf.length → ∃ pad, PadAt key (i + 1) pad ∧
      Arw.decryptStep buf offset i s = .ok (pad, s.2 ++ (List.range 4).map fun j => buf.getD (offset + (4 * i + j)) 0 ^^^ sonyByte key (4 * i + j))) ∧
    (buf.length < offset + i * 4 + 4 → Arw.decryptStep buf offset i s = crash) := by
  have e1 : s.1[(i + 127 + 1) % 128]? = some (sonyWord key i) := by
    rw [show i + 127 + 1 = i + 128 by omega, Nat.add_mod_right]; exact hp.2 i (by omega) (by omega)
  have e2 : s.1[(i + 127 + 1 + 64) % 128]? = some (sonyWord key (i + 64)) := by
    rw [show i + 127 + 1 + 64 = i + 64 + 128 by omega, Nat.add_mod_right]; exact hp.2 (i + 64) (by omega) (by omega)
  have ew : sonyWord key i ^^^ sonyWord key (i + 64) = sonyWord key (127 + i) := by
    conv => rhs; rw [sonyWord]
    rw [if_neg (by omega), show 127 + i - 127 = i by omega, show 127 + i - 63 = i + 64 by omega]
  have hlt : (i + 127) % 128 < s.1.length := by rw [hp.1]; exact Nat.mod_lt _ (by omega)
  unfold Arw.decryptStep
  dsimp only
  rw [idx_eq_ok.mpr e1, ok_bind, idx_eq_ok.mpr e2, ok_bind, setIdx_lt hlt, ok_bind, ew]
  constructor
  · intro hb
    rw [LEu32_eq hb, ok_bind, idx_eq_ok.mpr (by rw [getElem?_set hlt, if_pos rfl]), ok_bind]
    refine ⟨s.1.set ((i + 127) % 128) (sonyWord key (127 + i)), ⟨by simpa using hp.1, ?_⟩, ?_⟩
    · intro m hm hm'
      show (s.1.set _ _)[m % 128]? = _
      rw [getElem?_set hlt]
      split
      · next e => rw [show m = 127 + i by omega]
      · next e =>
        refine hp.2 m (by omega) ?_
        have : m ≠ i + 127 := fun h => e (by rw [h])
        omega
    · have hx : ∀ j, bytesOf buf (offset + i * 4 + j) = (buf.getD (offset + (4 * i + j)) 0).toNat := by
        intro j; rw [show offset + i * 4 + j = offset + (4 * i + j) by omega]; unfold bytesOf; rw [List.getD_eq_getElem?_getD]; cases buf[offset + (4 * i + j)]? <;> rfl
      have b0 := bytesOf_lt buf (offset + i * 4)
      have b1 := bytesOf_lt buf (offset + i * 4 + 1)
      have b2 := bytesOf_lt buf (offset + i * 4 + 2)
      have b3 := bytesOf_lt buf (offset + i * 4 + 3)
      have x0 := hx 0
      have x1 := hx 1
      have x2 := hx 2
      have x3 := hx 3
      rw [Nat.add_zero] at x0
      have key' : ∀ j, j < 4 → sonyByte key (4 * i + j) = UInt8.ofNat (sonyWord key (127 + i) / 2 ^ (8 * j)) := by
        intro j hj
        unfold sonyByte
        rw [show (4 * i + j) / 4 = i by omega, show (4 * i + j) % 4 = j by omega, show (256 : Nat) = 2 ^ 8 from rfl, ← Nat.pow_mul]
      generalize hv : bytesOf buf (offset + i * 4 + 3) * 16777216 + bytesOf buf (offset + i * 4 + 2) * 65536 + bytesOf buf (offset + i * 4 + 1) * 256 +
        bytesOf buf (offset + i * 4) = v
      have o0 := out_byte (v := v) (w := sonyWord key (127 + i)) (j := 8 * 0) (buf.getD (offset + (4 * i + 0)) 0) (by rw [← x0]; simp only [Nat.mul_zero, Nat.pow_zero]; omega)
      have o1 := out_byte (v := v) (w := sonyWord key (127 + i)) (j := 8 * 1) (buf.getD (offset + (4 * i + 1)) 0) (by rw [← x1]; simp only [Nat.mul_one]; omega)
      have o2 := out_byte (v := v) (w := sonyWord key (127 + i)) (j := 8 * 2) (buf.getD (offset + (4 * i + 2)) 0) (by rw [← x2]; omega)
      have o3 := out_byte (v := v) (w := sonyWord key (127 + i)) (j := 8 * 3) (buf.getD (offset + (4 * i + 3)) 0) (by rw [← x3]; omega)
      have hr : (List.range 4).map (fun j => buf.getD (offset + (4 * i + j)) 0 ^^^ sonyByte key (4 * i + j)) =
          [buf.getD (offset + (4 * i + 0)) 0 ^^^ sonyByte key (4 * i + 0), buf.getD (offset + (4 * i + 1)) 0 ^^^ sonyByte key (4 * i + 1),
           buf.getD (offset + (4 * i + 2)) 0 ^^^ sonyByte key (4 * i + 2), buf.getD (offset + (4 * i + 3)) 0 ^^^ sonyByte key (4 * i + 3)] := rfl
      rw [hr, key' 0 (by omega), key' 1 (by omega), key' 2 (by omega), key' 3 (by omega), ← o0, ← o1, ← o2, ← o3]
      simp only [Nat.shiftRight_eq_div_pow, Nat.mul_zero, Nat.pow_zero, Nat.div_one]
  · intro hb
    rw [LEu32_short hb]
    rfl

/-- C43. Decryption is the exclusive or with a key stream that depends on the key only, whole words at a time; reading past the end
of the buffer panics. -/
theorem sony_decrypt_stream (buf : Bytes) (offset length key : Nat) :
    Arw.sonyDecrypt buf offset length key =
      if offset + 4 * (length / 4 + 1) ≤ buf.length then .ok (decrypted buf offset (4 * (length / 4 + 1)) key) else crash := by
  obtain ⟨pad, h1, h2, h3⟩ := initPad_eq key
  have hp0 : PadAt key 0 pad := ⟨h2, fun m _ hm => by rw [Nat.mod_eq_of_lt (by omega)]; exact h3 m (by omega)⟩
  have run : ∀ n, offset + 4 * n ≤ buf.length → ∃ s : List Nat × Bytes, forRange 0 n (Arw.decryptStep buf offset) (pad, []) = .ok s ∧ PadAt key n s.1 ∧
      s.2 = decrypted buf offset (4 * n) key := by
    intro n hn
    refine forRange_inv (P := fun j (s : List Nat × Bytes) => PadAt key j s.1 ∧ s.2 = decrypted buf offset (4 * j) key) (by omega) ⟨hp0, rfl⟩ ?_
    rintro j s _ hj ⟨hs1, hs2⟩
    obtain ⟨pad', hp', e⟩ := (step_eq (buf := buf) (offset := offset) hs1).1 (by omega)
    refine ⟨_, e, hp', ?_⟩
    unfold decrypted
    dsimp only
    rw [range_map_succ4, hs2]
    rfl
  unfold Arw.sonyDecrypt
  rw [h1, ok_bind]
  split
  · next h =>
    obtain ⟨s, e1, _, e3⟩ := run (length / 4 + 1) h
    rw [e1, ok_bind, e3]
  · next h =>
    -- the first step that does not fit
    have hk : ∃ k, k < length / 4 + 1 ∧ offset + 4 * k ≤ buf.length ∧ buf.length < offset + 4 * (k + 1) ∨ buf.length < offset := by
      by_cases ho : offset ≤ buf.length
      · exact ⟨(buf.length - offset) / 4, Or.inl ⟨by omega, by omega, by omega⟩⟩
      · exact ⟨0, Or.inr (by omega)⟩
    obtain ⟨k, hk | hk⟩ := hk
    · obtain ⟨s, e1, e2, _⟩ := run k hk.2.1
      rw [forRange_split _ (by omega : 0 ≤ k) (by omega), e1, ok_bind, forRange_cons _ hk.1, (step_eq e2).2 (by omega)]
      rfl
    · rw [forRange_cons _ (by omega), (step_eq hp0).2 (by omega)]
      rfl

/-- C43. Decrypting twice restores the data: decrypting the result of a decryption with the same key gives back the bytes at `offset`. -/
theorem sony_decrypt_twice (buf : Bytes) (offset length key : Nat) (out : Bytes) (h : Arw.sonyDecrypt buf offset length key = .ok out) :
    out.length = 4 * (length / 4 + 1) ∧ Arw.sonyDecrypt out 0 length key = .ok ((buf.drop offset).take (4 * (length / 4 + 1))) := by
  rw [sony_decrypt_stream] at h
  split at h
  · next hb =>
    injection h with h
    subst h
    have hl : (decrypted buf offset (4 * (length / 4 + 1)) key).length = 4 * (length / 4 + 1) := by simp [decrypted]
    refine ⟨hl, ?_⟩
    rw [sony_decrypt_stream, if_pos (by omega)]
    congr 1
    apply List.ext_getElem?
    intro i
    generalize 4 * (length / 4 + 1) = n at *
    rw [List.getElem?_take, List.getElem?_drop]
    by_cases hi : i < n
    · rw [if_pos hi]
      conv => lhs; unfold decrypted
      rw [List.getElem?_map, List.getElem?_range hi, Option.map_some, Nat.zero_add]
      rw [List.getD_eq_getElem?_getD, List.getElem?_map, List.getElem?_range hi, Option.map_some, Option.getD_some, UInt8.xor_assoc, UInt8.xor_self, UInt8.xor_zero,
        List.getD_eq_getElem?_getD, List.getElem?_eq_getElem (by omega), Option.getD_some]
    · rw [if_neg hi, List.getElem?_eq_none (by rw [show (decrypted _ 0 n key).length = n by simp [decrypted]]; omega)]
  · exact absurd h (crash_ne_ok _)

/-- Eight bytes and a key: the ciphertext is not the plaintext, and decrypting it gives the plaintext. -/
example : Arw.sonyDecrypt [9, 1, 2, 3, 4, 5, 6, 7, 8] 1 7 12345 = .ok [71, 19, 58, 234, 168, 67, 139, 129] := by decide +kernel

end Props

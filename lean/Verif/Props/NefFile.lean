import Verif.Spec.NikonFile
import Verif.Props.Nef
import Verif.Props.Packed
import Verif.Props.PackedMore
import Verif.Lemmas.LjpegFile
import Verif.Lemmas.OpenFile
import Verif.Lemmas.FileExample
/-!
# C77: whole files of Nikon

From the bytes of a file, with its white balance in the maker note, to the picture the public function returns.
-/

namespace Props
open Rust Spec Model Model.Ljpeg

/-! ## The serial number -/

private def serialStep (n : Nat) (c : UInt8) : Nat := n * 10 + serialDigit c

private theorem serial_grows (l : Bytes) (n : Nat) : n ≤ l.foldl serialStep n := by
  induction l generalizing n with
  | nil => exact Nat.le_refl _
  | cons a t ih =>
    refine Nat.le_trans ?_ (ih _)
    unfold serialStep
    omega

private theorem serial_mod (l : Bytes) (n m : Nat) (h : n % 2 ^ 64 = m % 2 ^ 64) : l.foldl serialStep n % 2 ^ 64 = l.foldl serialStep m % 2 ^ 64 := by
  induction l generalizing n m with
  | nil => exact h
  | cons a t ih =>
    refine ih _ _ ?_
    unfold serialStep
    omega

private theorem digit_lt (c : UInt8) : serialDigit c < 10 := by unfold serialDigit; split <;> omega

private theorem byte_here {data : Bytes} {i : Nat} (hi : i < data.length) : byteAt data i = .ok data[i].toNat := by
  rw [byteAt_lt hi]
  unfold bytesOf
  rw [List.getElem?_eq_getElem hi]

private theorem serial_text (b : Build) (data : Bytes) (n i no : Nat) (hn : i + n ≤ data.length) (hno : no < 2 ^ 64) :
    Nef.serial b data n i no =
      if (((data.drop i).take n).takeWhile (· ≠ 0)).foldl serialStep no < 2 ^ 64 then .ok ((((data.drop i).take n).takeWhile (· ≠ 0)).foldl serialStep no)
      else match b with
        | .debug => crash
        | .release => .ok ((((data.drop i).take n).takeWhile (· ≠ 0)).foldl serialStep no % 2 ^ 64) := by
  induction n generalizing i no with
  | zero => rw [List.take_zero]; exact (if_pos hno).symm
  | succ n ih =>
    have hi : i < data.length := by omega
    unfold Nef.serial
    rw [byte_here hi, ok_bind, List.drop_eq_getElem_cons hi, List.take_succ_cons]
    by_cases h0 : data[i] = 0
    · rw [List.takeWhile_cons_of_neg (by simp [h0]), if_pos (by rw [h0]; rfl)]
      exact (if_pos hno).symm
    · rw [List.takeWhile_cons_of_pos (by simp [h0]), if_neg (show ¬data[i].toNat = 0 from fun h => h0 (UInt8.toNat_inj.mp h)), List.foldl_cons]
      have hstep : serialStep no data[i] = no * 10 + (if 48 ≤ data[i].toNat ∧ data[i].toNat ≤ 57 then data[i].toNat - 48 else data[i].toNat % 10) := rfl
      have hd := digit_lt data[i]
      have hge := serial_grows (((data.drop (i + 1)).take n).takeWhile (· ≠ 0)) (serialStep no data[i])
      have hdig : (if 48 ≤ data[i].toNat ∧ data[i].toNat ≤ 57 then data[i].toNat - 48 else data[i].toNat % 10) = serialDigit data[i] := rfl
      rw [hdig]
      by_cases h1 : no * 10 + serialDigit data[i] < 2 ^ 64
      · rw [mulU_ok (by omega), ok_bind, addU_ok h1, ok_bind, ih (i + 1) _ (by omega) h1]
        rfl
      · rw [if_neg (by unfold serialStep at hge ⊢; omega)]
        cases b with
        | debug =>
          unfold mulU
          split
          · rw [ok_bind]; unfold addU; rw [if_neg h1]; rfl
          · rfl
        | release =>
          have key : ∀ x, x < 2 ^ 64 → x % 2 ^ 64 = (no * 10 + serialDigit data[i]) % 2 ^ 64 →
              Nef.serial .release data n (i + 1) x = .ok ((((data.drop (i + 1)).take n).takeWhile (· ≠ 0)).foldl serialStep (serialStep no data[i]) % 2 ^ 64) := by
            intro x hx hm
            rw [ih (i + 1) x (by omega) hx]
            rw [serial_mod _ (serialStep no data[i]) x (by unfold serialStep; omega)]
            split
            · rw [Nat.mod_eq_of_lt (by assumption)]
            · rfl
          unfold mulU
          split
          · rw [ok_bind]; unfold addU; rw [if_neg h1]
            exact key _ (Nat.mod_lt _ (by decide)) (by omega)
          · dsimp only
            rw [ok_bind]; unfold addU
            split
            · rw [ok_bind]; exact key _ (by assumption) (by omega)
            · exact key _ (Nat.mod_lt _ (by decide)) (by omega)

/-- **C77**. The serial number is the number its text stands for, up to a NUL; one of 2^64 and more panics in the checked build, and in the other loses its high bits. -/
theorem nikon_serial (b : Build) (data : Bytes) :
    Nef.serial b data data.length 0 0 =
      if serialNumber data < 2 ^ 64 then .ok (serialNumber data)
      else match b with
        | .debug => crash
        | .release => .ok (serialNumber data % 2 ^ 64) := by
  have := serial_text b data data.length 0 0 (by omega) (by decide)
  rw [List.drop_zero, List.take_length] at this
  exact this

/-! ## The cipher -/

private theorem sum_to (i : Nat) : (i + 1) * (i + 2) / 2 = i * (i + 1) / 2 + (i + 1) := by
  have : (i + 1) * (i + 2) = i * (i + 1) + 2 * (i + 1) := by ring
  omega

private theorem ofNat_xor_mod (a : UInt8) (n : Nat) : UInt8.ofNat (a.toNat ^^^ (n % 256)) = a ^^^ UInt8.ofNat n := by
  apply UInt8.toNat_inj.mp
  rw [UInt8.toNat_xor, UInt8.toNat_ofNat', UInt8.toNat_ofNat']
  exact Nat.mod_eq_of_lt (Nat.xor_lt_two_pow (n := 8) a.toNat_lt (Nat.mod_lt _ (by decide)))

/-- The encrypted block is decrypted. -/
private theorem nikon_decrypts {data block : Bytes} {pos serial key : Nat} (h : NikonEncryptedAt data pos serial key block) (hlen : block.length = 280) :
    ∃ cj ck, forRange 0 280 (Nef.decryptStep (data.drop pos) (nikonSerialTable.getD (serial % 256) 0)) (List.replicate 280 0, nikonKeyTable.getD (key % 256) 0, 0x60) = .ok (block, cj, ck) := by
  obtain ⟨s, hs, hp⟩ := forRange_inv (lo := 0) (hi := 280) (f := Nef.decryptStep (data.drop pos) (nikonSerialTable.getD (serial % 256) 0))
    (s := (List.replicate 280 0, nikonKeyTable.getD (key % 256) 0, 0x60))
    (P := fun i s => s.1.length = 280 ∧ (∀ k, k < i → s.1[k]? = block[k]?) ∧
      s.2.1 = nikonKeyTable.getD (key % 256) 0 + nikonSerialTable.getD (serial % 256) 0 * (i * 96 + (i - 1) * i / 2) ∧ s.2.2 = 96 + i)
    (by decide) ⟨List.length_replicate .., fun k hk => absurd hk (by omega), by simp, rfl⟩ (by
      rintro i ⟨buf, cj, ck⟩ _ hi ⟨h1, h2, h3, h4⟩
      dsimp only at h1 h2 h3 h4
      have hb := h i _ (List.getElem?_eq_getElem (by omega))
      have hin : i < (data.drop pos).length := by
        have := (List.getElem?_eq_some_iff.mp hb).1
        rw [List.length_drop]; omega
      have hbyte : (data.drop pos)[i] = block[i] ^^^ nikonByte serial key i := by
        have : (data.drop pos)[i]? = some (block[i] ^^^ nikonByte serial key i) := by rw [List.getElem?_drop]; exact hb
        rw [List.getElem?_eq_getElem hin] at this
        exact Option.some.inj this
      have hcj : cj + nikonSerialTable.getD (serial % 256) 0 * ck =
          nikonKeyTable.getD (key % 256) 0 + nikonSerialTable.getD (serial % 256) 0 * ((i + 1) * 96 + i * (i + 1) / 2) := by
        rw [h3, h4, Nat.add_assoc, ← Nat.mul_add]
        congr 2
        cases i with
        | zero => rfl
        | succ j => have := sum_to j; rw [Nat.add_sub_cancel, show j + 1 + 1 = j + 2 from rfl]; omega
      refine ⟨_, by
        unfold Nef.decryptStep
        dsimp only
        rw [byte_here hin, ok_bind, setIdx_lt (by omega), ok_bind], ?_, ?_, ?_, ?_⟩
      · rw [List.length_set]; exact h1
      · intro k hk
        dsimp only
        rw [List.getElem?_set]
        by_cases hki : i = k
        · subst hki
          rw [if_pos rfl, if_pos (by omega), hbyte, List.getElem?_eq_getElem (by omega)]
          refine congrArg some ?_
          rw [ofNat_xor_mod, hcj]
          show _ ^^^ nikonByte serial key i = _
          rw [UInt8.xor_assoc, UInt8.xor_self, UInt8.xor_zero]
        · rw [if_neg hki]; exact h2 k (by omega)
      · exact hcj
      · show ck + 1 = _; omega)
  refine ⟨s.2.1, s.2.2, ?_⟩
  have : s.1 = block := by
    apply List.ext_getElem?
    intro i
    by_cases hi : i < 280
    · exact hp.2.1 i hi
    · rw [List.getElem?_eq_none (by omega), List.getElem?_eq_none (by omega)]
  rw [hs, ← this]

/-! ## The white balance -/

private theorem word_here {big : Bool} {e : Endian} {data : Bytes} {pos v : Nat} (he : e.big = big) (hv : v < 65536) (h : bytesAt data pos 2 = encode big 2 v) :
    e.ru16 data pos = .ok v := by
  have := bytesAt_known h (encode_length _ _ _) (by omega)
  rw [ru16_number (by omega), he, h, number_encode _ _ _ (by omega)]

private theorem be_here {data : Bytes} {pos v : Nat} (hv : v < 65536) (h : bytesAt data pos 2 = encode true 2 v) : BEu16 data pos = .ok v :=
  word_here (e := BIG_ENDIAN) rfl hv h

private theorem version_of (b : Build) {data : Bytes} {v0 v1 v2 v3 : UInt8} (h : data.take 4 = [v0, v1, v2, v3])
    (h0 : 48 ≤ v0.toNat ∧ v0.toNat < 58) (h1 : 48 ≤ v1.toNat ∧ v1.toNat < 58) (h2 : 48 ≤ v2.toNat ∧ v2.toNat < 58) (h3 : 48 ≤ v3.toNat ∧ v3.toNat < 58) :
    forRange 0 4 (fun i version => do
        let c ← byteAt data i
        let d ← subU 8 b c 48
        addU 32 b ((version <<< 4) % 4294967296) d) 0 =
      .ok ((v0.toNat - 48) * 4096 + (v1.toNat - 48) * 256 + (v2.toNat - 48) * 16 + (v3.toNat - 48)) := by
  obtain ⟨rest, rfl⟩ : ∃ rest, data = v0 :: v1 :: v2 :: v3 :: rest := ⟨data.drop 4, by rw [show v0 :: v1 :: v2 :: v3 :: data.drop 4 = [v0, v1, v2, v3] ++ data.drop 4 from rfl, ← h, List.take_append_drop]⟩
  have e0 : byteAt (v0 :: v1 :: v2 :: v3 :: rest) 0 = .ok v0.toNat := rfl
  have e1 : byteAt (v0 :: v1 :: v2 :: v3 :: rest) 1 = .ok v1.toNat := rfl
  have e2 : byteAt (v0 :: v1 :: v2 :: v3 :: rest) 2 = .ok v2.toNat := rfl
  have e3 : byteAt (v0 :: v1 :: v2 :: v3 :: rest) 3 = .ok v3.toNat := rfl
  have step : ∀ i v c, byteAt (v0 :: v1 :: v2 :: v3 :: rest) i = .ok c → 48 ≤ c ∧ c < 58 → v < 65536 → (do
        let c ← byteAt (v0 :: v1 :: v2 :: v3 :: rest) i
        let d ← subU 8 b c 48
        addU 32 b ((v <<< 4) % 4294967296) d) = .ok (v * 16 + (c - 48)) := by
    intro i v c hc h1 h2
    rw [hc, ok_bind, subU_ok h1.1, ok_bind, Nat.shiftLeft_eq, addU_ok (by omega)]
    refine congrArg Except.ok ?_
    omega
  rw [forRange_cons _ (by decide), step 0 _ _ e0 h0 (by omega), ok_bind, forRange_cons _ (by decide), step 1 _ _ e1 h1 (by omega), ok_bind,
    forRange_cons _ (by decide), step 2 _ _ e2 h2 (by omega), ok_bind, forRange_cons _ (by decide), step 3 _ _ e3 h3 (by omega), ok_bind, forRange_nil (by decide)]
  refine congrArg Except.ok ?_
  omega

private theorem bytes_behind {pre x post : Bytes} {pos n : Nat} (h1 : pre.length = pos) (h2 : x.length = n) : bytesAt (pre ++ (x ++ post)) pos n = x := by
  unfold bytesAt
  rw [List.drop_left' h1, List.take_left' h2]

private theorem serial_entry (n : Nat) : idx Nef.serialMap (n % 256) = .ok (nikonSerialTable.getD (n % 256) 0) := by
  have hlen : Nef.serialMap.length = 256 := by decide +kernel
  have hlt : n % 256 < Nef.serialMap.length := by omega
  rw [idx_lt hlt, List.getD_eq_getElem?_getD, show nikonSerialTable = Nef.serialMap by decide +kernel, List.getElem?_eq_getElem hlt]
  rfl

private theorem key_entry (n : Nat) : idx Nef.keyMap (n % 256) = .ok (nikonKeyTable.getD (n % 256) 0) := by
  have hlen : Nef.keyMap.length = 256 := by decide +kernel
  have hlt : n % 256 < Nef.keyMap.length := by omega
  rw [idx_lt hlt, List.getD_eq_getElem?_getD, show nikonKeyTable = Nef.keyMap by decide +kernel, List.getElem?_eq_getElem hlt]
  rfl

/-- **C77**, the white balance of the older cameras: the two fractions. -/
theorem nikon_ratios (b : Build) {root : Dir} {tree : TiffIFD} (hh : Holds root tree) {rn rd bn bd : Nat} (h : NikonRatios root rn rd bn bd) :
    Nef.getWb b tree = .ok [(F32.ofNat rn).div (F32.ofNat rd), F32.ofNat 1, (F32.ofNat bn).div (F32.ofNat bd), .nan] := by
  obtain ⟨h1, h2, h3, h4, big, f, rest, hf, ht, hv⟩ := h
  obtain ⟨ent, e1, e2⟩ := find_first hh (tag := 0x0c) (by decide) hf
  have hd : ent.data = encode big 4 rn ++ (encode big 4 rd ++ (encode big 4 bn ++ (encode big 4 bd ++ rest.flatMap (encode big 8)))) := by
    rw [e2.data]
    unfold Field.bytes
    rw [ht, hv, show tiffSize 5 = 8 from rfl, List.flatMap_cons, List.flatMap_cons, encode_pair _ _ _ h1 h2, encode_pair _ _ _ h3 h4]
    simp only [List.append_assoc]
  have l := encode_length big 4
  have hl : ent.data.length = ent.count * tiffSize ent.typ := by
    rw [e2.data, e2.count, e2.typ]
    unfold Field.bytes
    rw [flatMap_const_length _ _ (fun v => encode_length _ _ _), Nat.mul_comm]
  have hc : 2 ≤ ent.count := by rw [e2.count, hv]; simp
  unfold Nef.getWb
  rw [show TiffIFD.findEntry Tag.NefWB0 tree = some ent from e1]
  dsimp only
  rw [tiff_rational ent 0 (e2.typ.trans ht) hl (by omega), ok_bind, tiff_rational ent 1 (e2.typ.trans ht) hl (by omega), ok_bind, e2.order, hd]
  have p0 : bytesAt (encode big 4 rn ++ (encode big 4 rd ++ (encode big 4 bn ++ (encode big 4 bd ++ rest.flatMap (encode big 8))))) (0 * 8) 4 = encode big 4 rn := by
    exact bytes_behind (pre := []) rfl (l _)
  have p1 : bytesAt (encode big 4 rn ++ (encode big 4 rd ++ (encode big 4 bn ++ (encode big 4 bd ++ rest.flatMap (encode big 8))))) (0 * 8 + 4) 4 = encode big 4 rd := by
    exact bytes_behind (l _) (l _)
  have p2 : bytesAt (encode big 4 rn ++ (encode big 4 rd ++ (encode big 4 bn ++ (encode big 4 bd ++ rest.flatMap (encode big 8))))) (1 * 8) 4 = encode big 4 bn := by
    rw [← List.append_assoc]; exact bytes_behind (by rw [List.length_append, l, l]) (l _)
  have p3 : bytesAt (encode big 4 rn ++ (encode big 4 rd ++ (encode big 4 bn ++ (encode big 4 bd ++ rest.flatMap (encode big 8))))) (1 * 8 + 4) 4 = encode big 4 bd := by
    rw [← List.append_assoc, ← List.append_assoc]; exact bytes_behind (by rw [List.length_append, List.length_append, l, l, l]) (l _)
  rw [p0, p1, p2, p3, number_encode _ _ _ (by omega), number_encode _ _ _ (by omega), number_encode _ _ _ (by omega), number_encode _ _ _ (by omega)]

/-- **C77**, the white balance of the newer cameras: the levels, decrypted if need be. -/
theorem nikon_white (b : Build) {root : Dir} {tree : TiffIFD} (hh : Holds root tree) {red green blue : Nat} (h : NikonWhite root red green blue) :
    Nef.getWb b tree = .ok [F32.ofNat red, F32.ofNat green, F32.ofNat blue, .nan] := by
  obtain ⟨hr, hg, hb, hlack, big, f, hf, hl⟩ := h
  obtain ⟨ent, e1, e2⟩ := find_first hh (tag := 0x97) (by decide) hf
  unfold Nef.getWb
  rw [show TiffIFD.findEntry Tag.NefWB0 tree = none from find_lacks hh hlack]
  dsimp only
  rw [show TiffIFD.findEntry Tag.NefWB1 tree = some ent from e1]
  dsimp only
  have hd := e2.data
  cases hl with
  | v100 hv h1 h2 h3 =>
    rw [hd, version_of b hv (by decide) (by decide) (by decide) (by decide), ok_bind, if_pos (by decide)]
    unfold TiffEntry.getForceU16
    rw [hd, word_here e2.order hr h1, ok_bind, word_here e2.order hg h3, ok_bind, word_here e2.order hb h2, ok_bind]
  | v103 hv h1 h2 h3 =>
    rw [hd, version_of b hv (by decide) (by decide) (by decide) (by decide), ok_bind, if_neg (by decide), if_pos (by decide)]
    unfold TiffEntry.getForceU16
    rw [hd, word_here e2.order hr h1, ok_bind, word_here e2.order hg h2, ok_bind, word_here e2.order hb h3, ok_bind]
  | encrypted version pos at_ hk hv sbig kbig serial key hs ht hfit hkey k0 k1 k2 k3 rest hkb block hlen henc h1 h2 h3 =>
    obtain ⟨sent, s1, s2⟩ := find_first hh (tag := 0x1d) (by decide) hs
    obtain ⟨kent, q1, q2⟩ := find_first hh (tag := 0xa7) (by decide) hkey
    have hcount : sent.count = sent.data.length := by
      rw [s2.data, s2.count]
      unfold Field.bytes
      rw [flatMap_const_length _ 1 (fun v => by
        rw [encode_length]
        simp only [List.mem_cons, List.not_mem_nil, or_false] at ht
        rcases ht with h | h | h <;> rw [h] <;> rfl), Nat.mul_one]
    obtain ⟨cj, ck, hdec⟩ := nikon_decrypts henc hlen
    have hin : pos + 280 ≤ (f.bytes big).length := by
      have := henc 279 _ (List.getElem?_eq_getElem (by omega))
      have := (List.getElem?_eq_some_iff.mp this).1
      omega
    have main : ∀ vn, (if vn = 0x204 then 284 else 4) = pos → (if vn = 0x204 then 6 else 14) = at_ → Nef.encryptedWb b tree ent vn = .ok [F32.ofNat red, F32.ofNat green, F32.ofNat blue, .nan] := by
      intro vn hp ha
      have kb : ∀ i (hi : i < 4), byteAt kent.data i = .ok ([k0, k1, k2, k3][i]).toNat := by
        intro i hi
        rw [q2.data, hkb]
        match i with
        | 0 | 1 | 2 | 3 => rfl
      unfold Nef.encryptedWb TiffIFD.fetchTag
      rw [show TiffIFD.findEntry Tag.NefSerial tree = some sent from s1]
      dsimp only
      rw [ok_bind, hcount, nikon_serial, s2.data, if_pos hfit, ok_bind, show TiffIFD.findEntry Tag.NefKey tree = some kent from q1]
      dsimp only
      rw [ok_bind, kb 0 (by decide), ok_bind, kb 1 (by decide), ok_bind, kb 2 (by decide), ok_bind, kb 3 (by decide), ok_bind, hp, hd,
        sliceFrom_le (by omega), ok_bind]
      rw [serial_entry, ok_bind, key_entry, ok_bind]
      have hx : [k0, k1, k2, k3][0].toNat ^^^ [k0, k1, k2, k3][1].toNat ^^^ [k0, k1, k2, k3][2].toNat ^^^ [k0, k1, k2, k3][3].toNat = (k0 ^^^ k1 ^^^ k2 ^^^ k3).toNat := by
        simp [UInt8.toNat_xor]
      rw [hx, hdec, ok_bind]
      dsimp only
      rw [ha, be_here hr h1, ok_bind, be_here hg h2, ok_bind, be_here hb h3, ok_bind]
    simp only [nikonVersions, List.mem_cons, List.not_mem_nil, or_false, Prod.mk.injEq] at hk
    rcases hk with ⟨rfl, rfl, rfl⟩ | ⟨rfl, rfl, rfl⟩
    · rw [hd, version_of b hv (by decide) (by decide) (by decide) (by decide), ok_bind, if_neg (by decide), if_neg (by decide), if_pos (by decide)]
      exact main _ (by decide) (by decide)
    · rw [hd, version_of b hv (by decide) (by decide) (by decide) (by decide), ok_bind, if_neg (by decide), if_neg (by decide), if_pos (by decide)]
      exact main _ (by decide) (by decide)

/-! ## The picture -/

/-- The white balance of a file, in either way. -/
def NikonBalance (root : Dir) (wb : List F32) : Prop :=
  (∃ rn rd bn bd, NikonRatios root rn rd bn bd ∧ wb = [(F32.ofNat rn).div (F32.ofNat rd), F32.ofNat 1, (F32.ofNat bn).div (F32.ofNat bd), .nan]) ∨
  ∃ red green blue, NikonWhite root red green blue ∧ wb = [F32.ofNat red, F32.ofNat green, F32.ofNat blue, .nan]

private theorem nikon_balance (b : Build) {root : Dir} {tree : TiffIFD} (hh : Holds root tree) {wb : List F32} (h : NikonBalance root wb) : Nef.getWb b tree = .ok wb := by
  rcases h with ⟨_, _, _, _, h, rfl⟩ | ⟨_, _, _, h, rfl⟩
  · exact nikon_ratios b hh h
  · exact nikon_white b hh h

private theorem same_model (cam : Camera) (o : Option Nat) : (turned cam o).model = cam.model := by
  unfold turned; cases o <;> rfl

private theorem holds_order {d : Dir} {ifd : TiffIFD} (h : Holds d ifd) : ifd.endian.big = d.big := by cases h; assumption

/-- All but the pixels. -/
private theorem nef_opens (s : RawLoader) (env : Platform) (b : Build) {contents : Bytes} {big : Bool} {dirs : List Dir} {model : Bytes} {o : Option Nat}
    (h : CameraFile contents big dirs (b! "NIKON CORPORATION") model o) (h560 : model ≠ b! "DCS560C") {bits : Nat} {cam : Camera}
    (hcam : Map.get s.cameras (b! "NIKON CORPORATION", model, decimal bits ++ b! "bit") = some cam)
    {raw : Dir} {w ht compression offset size : Nat} (hs : NikonStrip (fileRoot big dirs) raw w ht bits compression offset size)
    {wb : List F32} (hwb : NikonBalance (fileRoot big dirs) wb) (ho : offset ≤ contents.length) :
    ∃ root, Holds (fileRoot big dirs) root ∧ ∀ (w' : Nat) (img : Nat → Nat → Nat) (blacks : List Nat),
      Nef.pixels env.libm b root (contents.drop offset ++ List.replicate 16 0) (cam.model = b! "NIKON D100") w ht bits compression size = .ok (w', 1, raster w' ht img) →
      BlacksOf cam w' ht img blacks →
      s.decodeSafe env b (.ok contents) = .ok (pictureOf cam (orientationOf o) w' ht wb blacks (raster w' ht img)) := by
  obtain ⟨root, hh, hc, hd⟩ := camera_decodes s env b h (k := .nef) (by decide) h560
  obtain ⟨ifd, f1, f2⟩ := fetch_dir hh (tag := 0x828e) (by decide) hs.first
  refine ⟨root, hh, fun w' img blacks hpix hb => ?_⟩
  have himage : Nef.image env.libm b (contents ++ List.replicate 16 0) root s = .ok (pictureOf cam (orientationOf o) w' ht wb blacks (raster w' ht img)) := by
    unfold Nef.image
    rw [show TiffIFD.fetchIfd root Tag.CFAPattern = _ from f1, ok_bind,
      show fetchUsize ifd Tag.ImageWidth = _ from fetch_number f2 (by decide) hs.width, ok_bind,
      show fetchUsize ifd Tag.ImageLength = _ from fetch_number f2 (by decide) hs.height, ok_bind,
      show fetchUsize ifd Tag.BitsPerSample = _ from fetch_number f2 (by decide) hs.bits, ok_bind,
      show fetchUsize ifd Tag.Compression = _ from fetch_number f2 (by decide) hs.compression, ok_bind, hc _ cam hcam, ok_bind,
      show fetchUsize ifd Tag.StripOffsets = _ from fetch_number f2 (by decide) hs.position, ok_bind,
      show fetchUsize ifd Tag.StripByteCounts = _ from fetch_number f2 (by decide) hs.length, ok_bind,
      sliceFrom_le (by simp; omega), ok_bind, List.drop_append_of_le_length ho, same_model, hpix, ok_bind]
    dsimp only
    rw [nikon_balance b hh hwb, ok_bind, image_new b o hb wb, ok_bind, if_neg (by decide)]
  apply hd
  intro d hk ht'
  cases d <;> cases hk
  injection ht' with ht'; subst ht'
  exact himage

private theorem bytes_at (contents : Bytes) (offset i : Nat) : bytesOf (contents.drop offset ++ List.replicate 16 0) i = bytesOf contents (offset + i) := by
  rw [bytesOf_zeros]
  unfold bytesOf
  rw [List.getElem?_drop]

private theorem low_at (contents : Bytes) (offset s k : Nat) :
    fieldLSB (bytesOf (contents.drop offset ++ List.replicate 16 0)) s k = fieldLSB (bytesOf contents) (8 * offset + s) k := by
  induction k with
  | zero => rfl
  | succ k ih =>
    unfold fieldLSB
    rw [ih]
    unfold bitLSB
    rw [bytes_at, show (8 * offset + s + k) / 8 = offset + (s + k) / 8 by omega, show (8 * offset + s + k) % 8 = (s + k) % 8 by omega]

private theorem high_at {contents : Bytes} {offset : Nat} (ho : offset ≤ contents.length) (s k : Nat) :
    fieldMSB (bytesOf (contents.drop offset ++ List.replicate 16 0)) s k = fieldMSB (bytesOf contents) (8 * offset + s) k := by
  rw [← List.drop_append_of_le_length ho, field_at]

/-- A packed sample of twelve bits, in the byte order of the file. -/
def nikonPacked (contents : Bytes) (big : Bool) (offset w r c : Nat) : Nat :=
  if big then fieldMSB (bytesOf contents) (8 * offset + 12 * (r * w + c)) 12 else fieldLSB (bytesOf contents) (8 * offset + 12 * (r * w + c)) 12

/-- A sample of fourteen bits in a word, in the byte order of the file. -/
def nikonWord (contents : Bytes) (big : Bool) (offset w r c : Nat) : Nat :=
  if big then (256 * bytesOf contents (offset + 2 * (r * w + c)) + bytesOf contents (offset + 2 * (r * w + c) + 1)) % 16384
  else (bytesOf contents (offset + 2 * (r * w + c)) + 256 * bytesOf contents (offset + 2 * (r * w + c) + 1)) % 16384

/-- **C77**, packed samples of twelve bits: marked as uncompressed, or of the right length. -/
theorem nef_packed_file (s : RawLoader) (env : Platform) (b : Build) {contents : Bytes} {big : Bool} {dirs : List Dir} {model : Bytes} {o : Option Nat}
    (h : CameraFile contents big dirs (b! "NIKON CORPORATION") model o) (h560 : model ≠ b! "DCS560C") {cam : Camera}
    (hcam : Map.get s.cameras (b! "NIKON CORPORATION", model, b! "12bit") = some cam) (hm : cam.model ≠ b! "NIKON D100")
    {raw : Dir} {w ht compression offset size : Nat} (hs : NikonStrip (fileRoot big dirs) raw w ht 12 compression offset size)
    {wb : List F32} (hwb : NikonBalance (fileRoot big dirs) wb) (hplain : compression = 1 ∨ size = w * ht * 12 / 8) (hw : 0 < w) (he : w % 2 = 0)
    (hlen : offset + w * ht * 12 / 8 ≤ contents.length) {blacks : List Nat} (hb : BlacksOf cam w ht (nikonPacked contents big offset w) blacks) :
    s.decodeSafe env b (.ok contents) = .ok (pictureOf cam (orientationOf o) w ht wb blacks (raster w ht (nikonPacked contents big offset w))) := by
  obtain ⟨root, hh, hd⟩ := nef_opens s env b h h560 (bits := 12) hcam hs hwb (by omega)
  refine hd _ _ _ ?_ hb
  have hbig : root.endian.big = big := holds_order hh
  unfold Nef.pixels
  rw [if_neg (by simp [hm]), if_pos hplain, if_neg (by decide), if_pos rfl]
  cases big with
  | true =>
    rw [if_neg (by unfold Endian.little; simp [hbig]), decode_12be_exact _ w ht hw he (by simp; omega), ok_bind]
    exact congrArg (fun x => Except.ok (w, 1, x)) (raster_congr fun r c _ _ => high_at (by omega) _ _)
  | false =>
    rw [if_pos (by unfold Endian.little; simp [hbig]), decode_12le_exact _ w ht hw he (by simp; omega), ok_bind]
    exact congrArg (fun x => Except.ok (w, 1, x)) (raster_congr fun r c _ _ => low_at contents offset _ _)

/-- **C77**, samples of fourteen bits in words. -/
theorem nef_words_file (s : RawLoader) (env : Platform) (b : Build) {contents : Bytes} {big : Bool} {dirs : List Dir} {model : Bytes} {o : Option Nat}
    (h : CameraFile contents big dirs (b! "NIKON CORPORATION") model o) (h560 : model ≠ b! "DCS560C") {cam : Camera}
    (hcam : Map.get s.cameras (b! "NIKON CORPORATION", model, b! "14bit") = some cam) (hm : cam.model ≠ b! "NIKON D100")
    {raw : Dir} {w ht compression offset size : Nat} (hs : NikonStrip (fileRoot big dirs) raw w ht 14 compression offset size)
    {wb : List F32} (hwb : NikonBalance (fileRoot big dirs) wb) (hplain : compression = 1 ∨ size = w * ht * 14 / 8) (hw : 0 < w)
    (hlen : offset + 2 * (w * ht) ≤ contents.length) {blacks : List Nat} (hb : BlacksOf cam w ht (nikonWord contents big offset w) blacks) :
    s.decodeSafe env b (.ok contents) = .ok (pictureOf cam (orientationOf o) w ht wb blacks (raster w ht (nikonWord contents big offset w))) := by
  obtain ⟨root, hh, hd⟩ := nef_opens s env b h h560 (bits := 14) hcam hs hwb (by omega)
  refine hd _ _ _ ?_ hb
  have hbig : root.endian.big = big := holds_order hh
  unfold Nef.pixels
  rw [if_neg (by simp [hm]), if_pos hplain, if_pos rfl]
  cases big with
  | true =>
    rw [if_neg (by unfold Endian.little; simp [hbig]), decode_14be_unpacked_exact _ w ht hw (by simp; omega), ok_bind]
    refine congrArg (fun x => Except.ok (w, 1, x)) (raster_congr fun r c _ _ => ?_)
    rw [bytes_at, bytes_at, ← Nat.add_assoc offset]; rfl
  | false =>
    rw [if_pos (by unfold Endian.little; simp [hbig]), decode_14le_unpacked_exact _ w ht hw (by simp; omega), ok_bind]
    refine congrArg (fun x => Except.ok (w, 1, x)) (raster_congr fun r c _ _ => ?_)
    rw [bytes_at, bytes_at, ← Nat.add_assoc offset]; rfl

/-- **C77**, the D100: 3040 columns whatever the directory says, in groups of ten packed samples and a control byte. -/
theorem nef_d100_file (s : RawLoader) (env : Platform) (b : Build) {contents : Bytes} {big : Bool} {dirs : List Dir} {model : Bytes} {o : Option Nat}
    (h : CameraFile contents big dirs (b! "NIKON CORPORATION") model o) (h560 : model ≠ b! "DCS560C") {cam : Camera}
    (hcam : Map.get s.cameras (b! "NIKON CORPORATION", model, b! "12bit") = some cam) (hm : cam.model = b! "NIKON D100")
    {raw : Dir} {w ht compression offset size : Nat} (hs : NikonStrip (fileRoot big dirs) raw w ht 12 compression offset size)
    {wb : List F32} (hwb : NikonBalance (fileRoot big dirs) wb) (hlen : offset + ht * 4864 ≤ contents.length)
    {blacks : List Nat} (hb : BlacksOf cam 3040 ht (fun r c => fieldMSB (bytesOf contents) (8 * (offset + r * 4864 + 16 * (c / 10)) + 12 * (c % 10)) 12) blacks) :
    s.decodeSafe env b (.ok contents) = .ok (pictureOf cam (orientationOf o) 3040 ht wb blacks
      (raster 3040 ht fun r c => fieldMSB (bytesOf contents) (8 * (offset + r * 4864 + 16 * (c / 10)) + 12 * (c % 10)) 12)) := by
  obtain ⟨root, hh, hd⟩ := nef_opens s env b h h560 (bits := 12) hcam hs hwb (by omega)
  refine hd _ _ _ ?_ hb
  unfold Nef.pixels
  rw [if_pos (by simp [hm]), decode_12be_wcontrol_exact _ 3040 ht (by decide) (by decide) (by simp; omega), ok_bind]
  refine congrArg (fun x => Except.ok (3040, 1, x)) (raster_congr fun r c _ _ => ?_)
  rw [high_at (by omega)]
  congr 1
  omega

/-- **C77**, compressed pictures: the curve and the predictions come from the maker note (see C61 for what is missing). -/
theorem nef_compressed_file (s : RawLoader) (env : Platform) (b : Build) {contents : Bytes} {big : Bool} {dirs : List Dir} {model : Bytes} {o : Option Nat}
    (h : CameraFile contents big dirs (b! "NIKON CORPORATION") model o) (h560 : model ≠ b! "DCS560C") {bits : Nat} {cam : Camera}
    (hcam : Map.get s.cameras (b! "NIKON CORPORATION", model, if bits = 12 then b! "12bit" else b! "14bit") = some cam) (hm : cam.model ≠ b! "NIKON D100")
    {raw : Dir} {w ht offset size : Nat} (hs : NikonStrip (fileRoot big dirs) raw (2 * w) ht bits 34713 offset size)
    (hsize : size ≠ 2 * w * ht * bits / 8) (hsize3 : size ≠ 2 * w * ht * 3) {wb : List F32} (hwb : NikonBalance (fileRoot big dirs) wb)
    {m : NefMeta} {note : Dir} (hmeta : NikonMeta (fileRoot big dirs) m note) (hmok : m.Ok note.big bits) (hg : ∀ i, i < (m.curve bits).length → gentle (m.curve bits) i)
    (img : Nat → Nat → Nat → Nat) (hw : 0 < w) (himg : ∀ r p k, r < ht → p < w → k < 2 → img r p k < (m.curve bits).length)
    (hres : ∀ r p k, r < ht → p < w → k < 2 → category (upResidual m.init img r p k) ∈ (m.table note.big bits r).vals)
    (tail : Bytes) (ho : offset ≤ contents.length) (hdata : contents.drop offset = packBits (encodeUp (m.table note.big bits) m.init w ht img) ++ tail)
    {blacks : List Nat} (hb : BlacksOf cam (2 * w) ht (fun r c => nefPixel (m.curve bits) (fieldMSB (bytesOf contents) (8 * offset) 24) w img r (c / 2) (c % 2)) blacks) :
    s.decodeSafe env b (.ok contents) = .ok (pictureOf cam (orientationOf o) (2 * w) ht wb blacks
      (raster (2 * w) ht fun r c => nefPixel (m.curve bits) (fieldMSB (bytesOf contents) (8 * offset) 24) w img r (c / 2) (c % 2))) := by
  have hmode : decimal bits ++ b! "bit" = if bits = 12 then b! "12bit" else b! "14bit" := by
    rcases hmok.bps with h | h <;> subst h <;> decide
  obtain ⟨root, hh, hd⟩ := nef_opens s env b h h560 (bits := bits) (by rw [hmode]; exact hcam) hs hwb ho
  refine hd _ _ _ ?_ hb
  obtain ⟨metaifd, m1, m2⟩ := fetch_dir hh (tag := 0x8c) (by decide) hmeta.first
  obtain ⟨fbig, f, hf, hfb⟩ := hmeta.field
  have hend := holds_order m2
  have htag : ∃ tag, (metaifd.findEntry Tag.NefMeta2 = some tag ∨ metaifd.findEntry Tag.NefMeta2 = none ∧ metaifd.findEntry Tag.NefMeta1 = some tag) ∧ tag.data = m.bytes metaifd.endian.big := by
    rw [hend, ← hfb]
    rcases hf with hf | ⟨hl, hf⟩
    · obtain ⟨e, e1, e2⟩ := find_first m2 (tag := 0x96) (by decide) hf
      exact ⟨e, Or.inl e1, e2.data⟩
    · obtain ⟨e, e1, e2⟩ := find_first m2 (tag := 0x8c) (by decide) hf
      exact ⟨e, Or.inr ⟨find_lacks m2 hl, e1⟩, e2.data⟩
  obtain ⟨tag, t1, t2⟩ := htag
  unfold Nef.pixels
  rw [if_neg (by simp [hm]), if_neg (fun h => h.elim (by decide) hsize), if_neg hsize3, if_pos rfl]
  have hround := nef_round_trip_partial b root metaifd tag m bits m1 t1 t2 (by rw [hend]; exact hmok) hg img w ht hw himg (by rw [hend]; exact hres) (tail ++ List.replicate 16 0) (by
    generalize encodeUp (m.table metaifd.endian.big bits) m.init w ht img = l
    have hl : l.length ≤ 8 * (packBits l).length := by
      unfold packBits; rw [List.length_map, List.length_range]; omega
    rw [List.length_append, List.length_append, List.length_replicate]
    omega)
  rw [hend, ← List.append_assoc, ← hdata, high_at ho] at hround
  rw [hround]
  rfl

/-! ## Examples -/

section Example

/-- A field with many values is stored at a place. -/
local macro "stored_many" n:num : tactic => `(tactic| exact ⟨⟨by decide, by decide, by decide +kernel, by decide +kernel, by decide +kernel, by decide +kernel, by decide +kernel, by decide +kernel,
  fun h => absurd h (by decide +kernel), fun _ => ⟨$n, by decide, by decide +kernel, by decide +kernel⟩⟩, by decide, by decide⟩)

/-- The serial number of a text with letters, and one that is too long. -/
example (b : Build) : Nef.serial b (b! "20A7\x001") 6 0 0 = .ok 2057 := by
  have := nikon_serial b (b! "20A7\x001")
  rw [show serialNumber (b! "20A7\x001") = 2057 by decide] at this
  exact this

example : Nef.serial .debug (b! "18446744073709551616") 20 0 0 = crash := by
  have := nikon_serial .debug (b! "18446744073709551616")
  rw [show serialNumber (b! "18446744073709551616") = 2 ^ 64 by decide +kernel] at this
  exact this

private theorem nikon_encrypted {data block : Bytes} {pos serial key : Nat} (h : (data.drop pos).take block.length = block.mapIdx fun i x => x ^^^ nikonByte serial key i) :
    NikonEncryptedAt data pos serial key block := by
  intro i x hx
  have hi := (List.getElem?_eq_some_iff.mp hx).1
  rw [← List.getElem?_drop, ← List.getElem?_take_of_lt hi, h, List.getElem?_mapIdx, hx]
  rfl

private def encFile : Bytes :=
  [77, 77, 0, 42, 0, 0, 0, 8] ++
  [0, 12] ++
  [1, 0, 0, 3, 0, 0, 0, 1, 0, 4, 0, 0] ++
  [1, 1, 0, 3, 0, 0, 0, 1, 0, 2, 0, 0] ++
  [1, 2, 0, 3, 0, 0, 0, 1, 0, 12, 0, 0] ++
  [1, 3, 0, 3, 0, 0, 0, 1, 0, 1, 0, 0] ++
  [1, 15, 0, 2, 0, 0, 0, 18, 0, 0, 0, 158] ++
  [1, 16, 0, 2, 0, 0, 0, 11, 0, 0, 0, 176] ++
  [1, 17, 0, 4, 0, 0, 0, 1, 0, 0, 1, 223] ++
  [1, 23, 0, 4, 0, 0, 0, 1, 0, 0, 0, 12] ++
  [130, 142, 0, 1, 0, 0, 0, 4, 0, 1, 1, 2] ++
  [0, 29, 0, 2, 0, 0, 0, 8, 0, 0, 0, 187] ++
  [0, 151, 0, 7, 0, 0, 1, 28, 0, 0, 0, 195] ++
  [0, 167, 0, 4, 0, 0, 0, 1, 0, 0, 17, 93] ++
  [0, 0, 0, 0] ++
  [78, 73, 75, 79, 78, 32, 67, 79, 82, 80, 79, 82, 65, 84, 73, 79, 78, 0] ++
  [78, 73, 75, 79, 78, 32, 68, 51, 48, 48, 0] ++
  [50, 48, 55, 53, 51, 48, 49, 0] ++
  [48, 50, 48, 53, 39, 59, 136, 16, 165, 129, 234, 34, 163, 103, 12, 60, 153, 5, 38, 31, 78, 180, 48, 152, 32, 38, 82, 202, 235, 255, 36, 180, 113, 93, 126, 46, 151, 203, 248, 192, 117, 17, 218, 210, 243, 87, 252, 140, 169, 245, 118, 134, 207, 243, 128, 40, 157, 185, 162, 154, 27, 207, 180, 164, 33, 173, 14, 30, 7, 219, 104, 176, 133, 97, 10, 130, 195, 199, 108, 220, 121, 37, 102, 86, 223, 163, 80, 56, 141, 105, 178, 170, 139, 95, 196, 20, 209, 253, 94, 206, 183, 171, 152, 32, 149, 49, 58, 242, 83, 247, 28, 236, 201, 85, 86, 38, 47, 147, 224, 136, 189, 153, 194, 58, 123, 111, 20, 196, 65, 141, 174, 126, 231, 123, 72, 80, 101, 193, 170, 98, 99, 167, 76, 252, 217, 197, 134, 54, 127, 131, 112, 216, 109, 9, 18, 10, 171, 63, 228, 244, 177, 29, 190, 238, 215, 139, 56, 128, 181, 81, 154, 18, 179, 151, 188, 204, 105, 53, 182, 70, 15, 179, 192, 232, 221, 121, 226, 218, 219, 15, 116, 228, 225, 237, 206, 94, 71, 155, 168, 112, 197, 33, 74, 66, 3, 135, 44, 28, 57, 101, 38, 150, 159, 227, 16, 248, 205, 41, 242, 106, 203, 31, 4, 212, 145, 61, 30, 14, 119, 235, 88, 96, 85, 241, 122, 178, 147, 183, 92, 172, 9, 21, 22, 102, 239, 211, 160, 200, 125, 217, 130, 250, 187, 47, 84, 132, 129, 77, 238, 62, 167, 187, 8, 144, 37, 1, 106, 162, 35, 231, 140, 188, 25, 133, 198, 246, 191, 67, 176, 24, 45, 73, 210, 74] ++
  [0, 80, 42, 9, 145, 82, 37, 83, 162, 83, 151, 26]

private def encDir : Dir := .mk true [.plain ⟨0x100, 3, [4]⟩, .plain ⟨0x101, 3, [2]⟩, .plain ⟨0x102, 3, [12]⟩, .plain ⟨0x103, 3, [1]⟩, .plain ⟨0x10f, 2, [78, 73, 75, 79, 78, 32, 67, 79, 82, 80, 79, 82, 65, 84, 73, 79, 78, 0]⟩, .plain ⟨0x110, 2, [78, 73, 75, 79, 78, 32, 68, 51, 48, 48, 0]⟩, .plain ⟨0x111, 4, [479]⟩, .plain ⟨0x117, 4, [12]⟩, .plain ⟨0x828e, 1, [0, 1, 1, 2]⟩, .plain ⟨0x1d, 2, [50, 48, 55, 53, 51, 48, 49, 0]⟩, .plain ⟨0x97, 7, [48, 50, 48, 53, 39, 59, 136, 16, 165, 129, 234, 34, 163, 103, 12, 60, 153, 5, 38, 31, 78, 180, 48, 152, 32, 38, 82, 202, 235, 255, 36, 180, 113, 93, 126, 46, 151, 203, 248, 192, 117, 17, 218, 210, 243, 87, 252, 140, 169, 245, 118, 134, 207, 243, 128, 40, 157, 185, 162, 154, 27, 207, 180, 164, 33, 173, 14, 30, 7, 219, 104, 176, 133, 97, 10, 130, 195, 199, 108, 220, 121, 37, 102, 86, 223, 163, 80, 56, 141, 105, 178, 170, 139, 95, 196, 20, 209, 253, 94, 206, 183, 171, 152, 32, 149, 49, 58, 242, 83, 247, 28, 236, 201, 85, 86, 38, 47, 147, 224, 136, 189, 153, 194, 58, 123, 111, 20, 196, 65, 141, 174, 126, 231, 123, 72, 80, 101, 193, 170, 98, 99, 167, 76, 252, 217, 197, 134, 54, 127, 131, 112, 216, 109, 9, 18, 10, 171, 63, 228, 244, 177, 29, 190, 238, 215, 139, 56, 128, 181, 81, 154, 18, 179, 151, 188, 204, 105, 53, 182, 70, 15, 179, 192, 232, 221, 121, 226, 218, 219, 15, 116, 228, 225, 237, 206, 94, 71, 155, 168, 112, 197, 33, 74, 66, 3, 135, 44, 28, 57, 101, 38, 150, 159, 227, 16, 248, 205, 41, 242, 106, 203, 31, 4, 212, 145, 61, 30, 14, 119, 235, 88, 96, 85, 241, 122, 178, 147, 183, 92, 172, 9, 21, 22, 102, 239, 211, 160, 200, 125, 217, 130, 250, 187, 47, 84, 132, 129, 77, 238, 62, 167, 187, 8, 144, 37, 1, 106, 162, 35, 231, 140, 188, 25, 133, 198, 246, 191, 67, 176, 24, 45, 73, 210, 74]⟩, .plain ⟨0xa7, 4, [4445]⟩]

private theorem enc_stored : TiffFile 11 true encFile [encDir] := by
  refine ⟨by decide +kernel, by decide +kernel, 8, by decide, by decide +kernel, rfl, ?_⟩
  refine ⟨by decide, by decide +kernel, by decide, by decide +kernel, by decide +kernel, ?_⟩
  intro i it hi
  match i with
  | 0 => injection hi with hi; subst hi; stored_inline
  | 1 => injection hi with hi; subst hi; stored_inline
  | 2 => injection hi with hi; subst hi; stored_inline
  | 3 => injection hi with hi; subst hi; stored_inline
  | 4 => injection hi with hi; subst hi; stored_outside 158
  | 5 => injection hi with hi; subst hi; stored_outside 176
  | 6 => injection hi with hi; subst hi; stored_inline
  | 7 => injection hi with hi; subst hi; stored_inline
  | 8 => injection hi with hi; subst hi; stored_inline
  | 9 => injection hi with hi; subst hi; stored_outside 187
  | 10 => injection hi with hi; subst hi; stored_many 195
  | 11 => injection hi with hi; subst hi; stored_inline
  | i + 12 => cases hi

private theorem enc_camera : CameraFile encFile true [encDir] (b! "NIKON CORPORATION") (b! "NIKON D300") none where
  tiff := enc_stored
  few := by decide
  notCiff := by decide +kernel
  notDng := lacks_one rfl rfl
  make := ⟨⟨by decide, by decide, by decide⟩, true, _, first_one rfl, rfl, 0, 0, [0], Or.inr rfl, rfl⟩
  model := ⟨⟨by decide, by decide, by decide⟩, true, _, first_one rfl, rfl, 0, 0, [0], Or.inr rfl, rfl⟩
  orientation := lacks_one rfl rfl

private theorem enc_strip : NikonStrip (fileRoot true [encDir]) encDir 4 2 12 1 479 12 where
  first := first_with (f := ⟨0x828e, 1, [0, 1, 1, 2]⟩) rfl
  width := numbers_here (f := ⟨0x100, 3, [4]⟩) rfl (by decide)
  height := numbers_here (f := ⟨0x101, 3, [2]⟩) rfl (by decide)
  bits := numbers_here (f := ⟨0x102, 3, [12]⟩) rfl (by decide)
  compression := numbers_here (f := ⟨0x103, 3, [1]⟩) rfl (by decide)
  position := numbers_here (f := ⟨0x111, 4, [479]⟩) rfl (by decide)
  length := numbers_here (f := ⟨0x117, 4, [12]⟩) rfl (by decide)

private def encBlock : Bytes := [0, 7, 14, 21, 28, 35, 42, 49, 56, 63, 70, 77, 84, 91, 2, 0, 1, 0, 126, 133, 1, 124, 154, 161, 168, 175, 182, 189, 196, 203, 210, 217, 224, 231, 238, 245, 252, 3, 10, 17, 24, 31, 38, 45, 52, 59, 66, 73, 80, 87, 94, 101, 108, 115, 122, 129, 136, 143, 150, 157, 164, 171, 178, 185, 192, 199, 206, 213, 220, 227, 234, 241, 248, 255, 6, 13, 20, 27, 34, 41, 48, 55, 62, 69, 76, 83, 90, 97, 104, 111, 118, 125, 132, 139, 146, 153, 160, 167, 174, 181, 188, 195, 202, 209, 216, 223, 230, 237, 244, 251, 2, 9, 16, 23, 30, 37, 44, 51, 58, 65, 72, 79, 86, 93, 100, 107, 114, 121, 128, 135, 142, 149, 156, 163, 170, 177, 184, 191, 198, 205, 212, 219, 226, 233, 240, 247, 254, 5, 12, 19, 26, 33, 40, 47, 54, 61, 68, 75, 82, 89, 96, 103, 110, 117, 124, 131, 138, 145, 152, 159, 166, 173, 180, 187, 194, 201, 208, 215, 222, 229, 236, 243, 250, 1, 8, 15, 22, 29, 36, 43, 50, 57, 64, 71, 78, 85, 92, 99, 106, 113, 120, 127, 134, 141, 148, 155, 162, 169, 176, 183, 190, 197, 204, 211, 218, 225, 232, 239, 246, 253, 4, 11, 18, 25, 32, 39, 46, 53, 60, 67, 74, 81, 88, 95, 102, 109, 116, 123, 130, 137, 144, 151, 158, 165, 172, 179, 186, 193, 200, 207, 214, 221, 228, 235, 242, 249, 0, 7, 14, 21, 28, 35, 42, 49, 56, 63, 70, 77, 84, 91, 98, 105, 112, 119, 126, 133, 140, 147, 154, 161]

private theorem enc_white : NikonWhite (fileRoot true [encDir]) 512 256 380 := by
  refine ⟨by decide, by decide, by decide, lacks_one rfl rfl, true, _, first_one rfl, ?_⟩
  refine .encrypted [48, 50, 48, 53] 4 14 (by decide) (by decide +kernel) true true _ _ (first_one rfl) (by decide) (by decide +kernel) (first_one rfl) 0 0 17 93 []
    (by decide +kernel) encBlock (by decide +kernel) (nikon_encrypted (by decide +kernel)) (by decide +kernel) (by decide +kernel) (by decide +kernel)

/-- Packed samples, big endian; the levels encrypted as in version 0205. -/
example (env : Platform) (b : Build) (cam : Camera) (hb : NoBlackAreas cam) (hm : cam.model = b! "NIKON D300") :
    (loaderOf (b! "NIKON CORPORATION") (b! "NIKON D300") (b! "12bit") cam).decodeSafe env b (.ok encFile) =
    .ok (pictureOf cam .unknown 4 2 [F32.ofNat 512, F32.ofNat 256, F32.ofNat 380, .nan] cam.blacklevels [5, 42, 153, 338, 597, 930, 1337, 1818]) := by
  have := nef_packed_file (loaderOf (b! "NIKON CORPORATION") (b! "NIKON D300") (b! "12bit") cam) env b enc_camera (by decide) rfl (by rw [hm]; decide) enc_strip
    (Or.inr ⟨_, _, _, enc_white, rfl⟩) (Or.inl rfl) (by decide) (by decide) (by decide +kernel) (hb.blacks _ _ _)
  rw [show raster 4 2 (nikonPacked encFile true 479 4) = [5, 42, 153, 338, 597, 930, 1337, 1818] by decide +kernel] at this
  exact this

private def oldFile : Bytes :=
  [77, 77, 0, 42, 0, 0, 0, 8] ++
  [0, 12] ++
  [1, 0, 0, 3, 0, 0, 0, 1, 0, 4, 0, 0] ++
  [1, 1, 0, 3, 0, 0, 0, 1, 0, 2, 0, 0] ++
  [1, 2, 0, 3, 0, 0, 0, 1, 0, 12, 0, 0] ++
  [1, 3, 0, 3, 0, 0, 0, 1, 0, 1, 0, 0] ++
  [1, 15, 0, 2, 0, 0, 0, 18, 0, 0, 0, 158] ++
  [1, 16, 0, 2, 0, 0, 0, 11, 0, 0, 0, 176] ++
  [1, 17, 0, 4, 0, 0, 0, 1, 0, 0, 2, 247] ++
  [1, 23, 0, 4, 0, 0, 0, 1, 0, 0, 0, 12] ++
  [130, 142, 0, 1, 0, 0, 0, 4, 0, 1, 1, 2] ++
  [0, 29, 0, 2, 0, 0, 0, 8, 0, 0, 0, 187] ++
  [0, 151, 0, 7, 0, 0, 2, 52, 0, 0, 0, 195] ++
  [0, 167, 0, 4, 0, 0, 0, 1, 0, 0, 17, 93] ++
  [0, 0, 0, 0] ++
  [78, 73, 75, 79, 78, 32, 67, 79, 82, 80, 79, 82, 65, 84, 73, 79, 78, 0] ++
  [78, 73, 75, 79, 78, 32, 68, 51, 48, 48, 0] ++
  [50, 48, 55, 53, 51, 48, 49, 0] ++
  [48, 50, 48, 52, 1, 4, 7, 10, 13, 16, 19, 22, 25, 28, 31, 34, 37, 40, 43, 46, 49, 52, 55, 58, 61, 64, 67, 70, 73, 76, 79, 82, 85, 88, 91, 94, 97, 100, 103, 106, 109, 112, 115, 118, 121, 124, 127, 130, 133, 136, 139, 142, 145, 148, 151, 154, 157, 160, 163, 166, 169, 172, 175, 178, 181, 184, 187, 190, 193, 196, 199, 202, 205, 208, 211, 214, 217, 220, 223, 226, 229, 232, 235, 238, 241, 244, 247, 250, 253, 0, 3, 6, 9, 12, 15, 18, 21, 24, 27, 30, 33, 36, 39, 42, 45, 48, 51, 54, 57, 60, 63, 66, 69, 72, 75, 78, 81, 84, 87, 90, 93, 96, 99, 102, 105, 108, 111, 114, 117, 120, 123, 126, 129, 132, 135, 138, 141, 144, 147, 150, 153, 156, 159, 162, 165, 168, 171, 174, 177, 180, 183, 186, 189, 192, 195, 198, 201, 204, 207, 210, 213, 216, 219, 222, 225, 228, 231, 234, 237, 240, 243, 246, 249, 252, 255, 2, 5, 8, 11, 14, 17, 20, 23, 26, 29, 32, 35, 38, 41, 44, 47, 50, 53, 56, 59, 62, 65, 68, 71, 74, 77, 80, 83, 86, 89, 92, 95, 98, 101, 104, 107, 110, 113, 116, 119, 122, 125, 128, 131, 134, 137, 140, 143, 146, 149, 152, 155, 158, 161, 164, 167, 170, 173, 176, 179, 182, 185, 188, 191, 194, 197, 200, 203, 206, 209, 212, 215, 218, 221, 224, 227, 230, 233, 236, 239, 242, 245, 248, 251, 254, 1, 4, 7, 10, 13, 16, 19, 22, 25, 28, 31, 34, 37, 40, 43, 46, 49, 52, 55, 58, 61, 64, 67, 70, 39, 59, 136, 16, 165, 129, 194, 19, 154, 88, 12, 60, 204, 34, 70, 118, 63, 195, 48, 152, 173, 201, 82, 202, 235, 255, 36, 180, 113, 93, 126, 46, 151, 203, 248, 192, 117, 17, 218, 210, 243, 87, 252, 140, 169, 245, 118, 134, 207, 243, 128, 40, 157, 185, 162, 154, 27, 207, 180, 164, 33, 173, 14, 30, 7, 219, 104, 176, 133, 97, 10, 130, 195, 199, 108, 220, 121, 37, 102, 86, 223, 163, 80, 56, 141, 105, 178, 170, 139, 95, 196, 20, 209, 253, 94, 206, 183, 171, 152, 32, 149, 49, 58, 242, 83, 247, 28, 236, 201, 85, 86, 38, 47, 147, 224, 136, 189, 153, 194, 58, 123, 111, 20, 196, 65, 141, 174, 126, 231, 123, 72, 80, 101, 193, 170, 98, 99, 167, 76, 252, 217, 197, 134, 54, 127, 131, 112, 216, 109, 9, 18, 10, 171, 63, 228, 244, 177, 29, 190, 238, 215, 139, 56, 128, 181, 81, 154, 18, 179, 151, 188, 204, 105, 53, 182, 70, 15, 179, 192, 232, 221, 121, 226, 218, 219, 15, 116, 228, 225, 237, 206, 94, 71, 155, 168, 112, 197, 33, 74, 66, 3, 135, 44, 28, 57, 101, 38, 150, 159, 227, 16, 248, 205, 41, 242, 106, 203, 31, 4, 212, 145, 61, 30, 14, 119, 235, 88, 96, 85, 241, 122, 178, 147, 183, 92, 172, 9, 21, 22, 102, 239, 211, 160, 200, 125, 217, 130, 250, 187, 47, 84, 132, 129, 77, 238, 62, 167, 187, 8, 144, 37, 1, 106, 162, 35, 231, 140, 188, 25, 133, 198, 246, 191, 67, 176, 24, 45, 73, 210, 74] ++
  [0, 80, 42, 9, 145, 82, 37, 83, 162, 83, 151, 26]

private def oldDir : Dir := .mk true [.plain ⟨0x100, 3, [4]⟩, .plain ⟨0x101, 3, [2]⟩, .plain ⟨0x102, 3, [12]⟩, .plain ⟨0x103, 3, [1]⟩, .plain ⟨0x10f, 2, [78, 73, 75, 79, 78, 32, 67, 79, 82, 80, 79, 82, 65, 84, 73, 79, 78, 0]⟩, .plain ⟨0x110, 2, [78, 73, 75, 79, 78, 32, 68, 51, 48, 48, 0]⟩, .plain ⟨0x111, 4, [759]⟩, .plain ⟨0x117, 4, [12]⟩, .plain ⟨0x828e, 1, [0, 1, 1, 2]⟩, .plain ⟨0x1d, 2, [50, 48, 55, 53, 51, 48, 49, 0]⟩, .plain ⟨0x97, 7, [48, 50, 48, 52, 1, 4, 7, 10, 13, 16, 19, 22, 25, 28, 31, 34, 37, 40, 43, 46, 49, 52, 55, 58, 61, 64, 67, 70, 73, 76, 79, 82, 85, 88, 91, 94, 97, 100, 103, 106, 109, 112, 115, 118, 121, 124, 127, 130, 133, 136, 139, 142, 145, 148, 151, 154, 157, 160, 163, 166, 169, 172, 175, 178, 181, 184, 187, 190, 193, 196, 199, 202, 205, 208, 211, 214, 217, 220, 223, 226, 229, 232, 235, 238, 241, 244, 247, 250, 253, 0, 3, 6, 9, 12, 15, 18, 21, 24, 27, 30, 33, 36, 39, 42, 45, 48, 51, 54, 57, 60, 63, 66, 69, 72, 75, 78, 81, 84, 87, 90, 93, 96, 99, 102, 105, 108, 111, 114, 117, 120, 123, 126, 129, 132, 135, 138, 141, 144, 147, 150, 153, 156, 159, 162, 165, 168, 171, 174, 177, 180, 183, 186, 189, 192, 195, 198, 201, 204, 207, 210, 213, 216, 219, 222, 225, 228, 231, 234, 237, 240, 243, 246, 249, 252, 255, 2, 5, 8, 11, 14, 17, 20, 23, 26, 29, 32, 35, 38, 41, 44, 47, 50, 53, 56, 59, 62, 65, 68, 71, 74, 77, 80, 83, 86, 89, 92, 95, 98, 101, 104, 107, 110, 113, 116, 119, 122, 125, 128, 131, 134, 137, 140, 143, 146, 149, 152, 155, 158, 161, 164, 167, 170, 173, 176, 179, 182, 185, 188, 191, 194, 197, 200, 203, 206, 209, 212, 215, 218, 221, 224, 227, 230, 233, 236, 239, 242, 245, 248, 251, 254, 1, 4, 7, 10, 13, 16, 19, 22, 25, 28, 31, 34, 37, 40, 43, 46, 49, 52, 55, 58, 61, 64, 67, 70, 39, 59, 136, 16, 165, 129, 194, 19, 154, 88, 12, 60, 204, 34, 70, 118, 63, 195, 48, 152, 173, 201, 82, 202, 235, 255, 36, 180, 113, 93, 126, 46, 151, 203, 248, 192, 117, 17, 218, 210, 243, 87, 252, 140, 169, 245, 118, 134, 207, 243, 128, 40, 157, 185, 162, 154, 27, 207, 180, 164, 33, 173, 14, 30, 7, 219, 104, 176, 133, 97, 10, 130, 195, 199, 108, 220, 121, 37, 102, 86, 223, 163, 80, 56, 141, 105, 178, 170, 139, 95, 196, 20, 209, 253, 94, 206, 183, 171, 152, 32, 149, 49, 58, 242, 83, 247, 28, 236, 201, 85, 86, 38, 47, 147, 224, 136, 189, 153, 194, 58, 123, 111, 20, 196, 65, 141, 174, 126, 231, 123, 72, 80, 101, 193, 170, 98, 99, 167, 76, 252, 217, 197, 134, 54, 127, 131, 112, 216, 109, 9, 18, 10, 171, 63, 228, 244, 177, 29, 190, 238, 215, 139, 56, 128, 181, 81, 154, 18, 179, 151, 188, 204, 105, 53, 182, 70, 15, 179, 192, 232, 221, 121, 226, 218, 219, 15, 116, 228, 225, 237, 206, 94, 71, 155, 168, 112, 197, 33, 74, 66, 3, 135, 44, 28, 57, 101, 38, 150, 159, 227, 16, 248, 205, 41, 242, 106, 203, 31, 4, 212, 145, 61, 30, 14, 119, 235, 88, 96, 85, 241, 122, 178, 147, 183, 92, 172, 9, 21, 22, 102, 239, 211, 160, 200, 125, 217, 130, 250, 187, 47, 84, 132, 129, 77, 238, 62, 167, 187, 8, 144, 37, 1, 106, 162, 35, 231, 140, 188, 25, 133, 198, 246, 191, 67, 176, 24, 45, 73, 210, 74]⟩, .plain ⟨0xa7, 4, [4445]⟩]

private theorem old_stored : TiffFile 11 true oldFile [oldDir] := by
  refine ⟨by decide +kernel, by decide +kernel, 8, by decide, by decide +kernel, rfl, ?_⟩
  refine ⟨by decide, by decide +kernel, by decide, by decide +kernel, by decide +kernel, ?_⟩
  intro i it hi
  match i with
  | 0 => injection hi with hi; subst hi; stored_inline
  | 1 => injection hi with hi; subst hi; stored_inline
  | 2 => injection hi with hi; subst hi; stored_inline
  | 3 => injection hi with hi; subst hi; stored_inline
  | 4 => injection hi with hi; subst hi; stored_outside 158
  | 5 => injection hi with hi; subst hi; stored_outside 176
  | 6 => injection hi with hi; subst hi; stored_inline
  | 7 => injection hi with hi; subst hi; stored_inline
  | 8 => injection hi with hi; subst hi; stored_inline
  | 9 => injection hi with hi; subst hi; stored_outside 187
  | 10 => injection hi with hi; subst hi; stored_many 195
  | 11 => injection hi with hi; subst hi; stored_inline
  | i + 12 => cases hi

private theorem old_camera : CameraFile oldFile true [oldDir] (b! "NIKON CORPORATION") (b! "NIKON D300") none where
  tiff := old_stored
  few := by decide
  notCiff := by decide +kernel
  notDng := lacks_one rfl rfl
  make := ⟨⟨by decide, by decide, by decide⟩, true, _, first_one rfl, rfl, 0, 0, [0], Or.inr rfl, rfl⟩
  model := ⟨⟨by decide, by decide, by decide⟩, true, _, first_one rfl, rfl, 0, 0, [0], Or.inr rfl, rfl⟩
  orientation := lacks_one rfl rfl

private theorem old_strip : NikonStrip (fileRoot true [oldDir]) oldDir 4 2 12 1 759 12 where
  first := first_with (f := ⟨0x828e, 1, [0, 1, 1, 2]⟩) rfl
  width := numbers_here (f := ⟨0x100, 3, [4]⟩) rfl (by decide)
  height := numbers_here (f := ⟨0x101, 3, [2]⟩) rfl (by decide)
  bits := numbers_here (f := ⟨0x102, 3, [12]⟩) rfl (by decide)
  compression := numbers_here (f := ⟨0x103, 3, [1]⟩) rfl (by decide)
  position := numbers_here (f := ⟨0x111, 4, [759]⟩) rfl (by decide)
  length := numbers_here (f := ⟨0x117, 4, [12]⟩) rfl (by decide)

private def oldBlock : Bytes := [0, 7, 14, 21, 28, 35, 2, 0, 1, 0, 70, 77, 1, 124, 98, 105, 112, 119, 126, 133, 140, 147, 154, 161, 168, 175, 182, 189, 196, 203, 210, 217, 224, 231, 238, 245, 252, 3, 10, 17, 24, 31, 38, 45, 52, 59, 66, 73, 80, 87, 94, 101, 108, 115, 122, 129, 136, 143, 150, 157, 164, 171, 178, 185, 192, 199, 206, 213, 220, 227, 234, 241, 248, 255, 6, 13, 20, 27, 34, 41, 48, 55, 62, 69, 76, 83, 90, 97, 104, 111, 118, 125, 132, 139, 146, 153, 160, 167, 174, 181, 188, 195, 202, 209, 216, 223, 230, 237, 244, 251, 2, 9, 16, 23, 30, 37, 44, 51, 58, 65, 72, 79, 86, 93, 100, 107, 114, 121, 128, 135, 142, 149, 156, 163, 170, 177, 184, 191, 198, 205, 212, 219, 226, 233, 240, 247, 254, 5, 12, 19, 26, 33, 40, 47, 54, 61, 68, 75, 82, 89, 96, 103, 110, 117, 124, 131, 138, 145, 152, 159, 166, 173, 180, 187, 194, 201, 208, 215, 222, 229, 236, 243, 250, 1, 8, 15, 22, 29, 36, 43, 50, 57, 64, 71, 78, 85, 92, 99, 106, 113, 120, 127, 134, 141, 148, 155, 162, 169, 176, 183, 190, 197, 204, 211, 218, 225, 232, 239, 246, 253, 4, 11, 18, 25, 32, 39, 46, 53, 60, 67, 74, 81, 88, 95, 102, 109, 116, 123, 130, 137, 144, 151, 158, 165, 172, 179, 186, 193, 200, 207, 214, 221, 228, 235, 242, 249, 0, 7, 14, 21, 28, 35, 42, 49, 56, 63, 70, 77, 84, 91, 98, 105, 112, 119, 126, 133, 140, 147, 154, 161]

private theorem old_white : NikonWhite (fileRoot true [oldDir]) 512 256 380 := by
  refine ⟨by decide, by decide, by decide, lacks_one rfl rfl, true, _, first_one rfl, ?_⟩
  refine .encrypted [48, 50, 48, 52] 284 6 (by decide) (by decide +kernel) true true _ _ (first_one rfl) (by decide) (by decide +kernel) (first_one rfl) 0 0 17 93 []
    (by decide +kernel) oldBlock (by decide +kernel) (nikon_encrypted (by decide +kernel)) (by decide +kernel) (by decide +kernel) (by decide +kernel)

/-- Packed samples, big endian; the levels encrypted as in version 0204. -/
example (env : Platform) (b : Build) (cam : Camera) (hb : NoBlackAreas cam) (hm : cam.model = b! "NIKON D300") :
    (loaderOf (b! "NIKON CORPORATION") (b! "NIKON D300") (b! "12bit") cam).decodeSafe env b (.ok oldFile) =
    .ok (pictureOf cam .unknown 4 2 [F32.ofNat 512, F32.ofNat 256, F32.ofNat 380, .nan] cam.blacklevels [5, 42, 153, 338, 597, 930, 1337, 1818]) := by
  have := nef_packed_file (loaderOf (b! "NIKON CORPORATION") (b! "NIKON D300") (b! "12bit") cam) env b old_camera (by decide) rfl (by rw [hm]; decide) old_strip
    (Or.inr ⟨_, _, _, old_white, rfl⟩) (Or.inl rfl) (by decide) (by decide) (by decide +kernel) (hb.blacks _ _ _)
  rw [show raster 4 2 (nikonPacked oldFile true 759 4) = [5, 42, 153, 338, 597, 930, 1337, 1818] by decide +kernel] at this
  exact this

private def fracFile : Bytes :=
  [73, 73, 42, 0, 8, 0, 0, 0] ++
  [10, 0] ++
  [0, 1, 3, 0, 1, 0, 0, 0, 3, 0, 0, 0] ++
  [1, 1, 3, 0, 1, 0, 0, 0, 2, 0, 0, 0] ++
  [2, 1, 3, 0, 1, 0, 0, 0, 14, 0, 0, 0] ++
  [3, 1, 3, 0, 1, 0, 0, 0, 1, 0, 0, 0] ++
  [15, 1, 2, 0, 18, 0, 0, 0, 134, 0, 0, 0] ++
  [16, 1, 2, 0, 11, 0, 0, 0, 152, 0, 0, 0] ++
  [17, 1, 4, 0, 1, 0, 0, 0, 195, 0, 0, 0] ++
  [23, 1, 4, 0, 1, 0, 0, 0, 12, 0, 0, 0] ++
  [142, 130, 1, 0, 4, 0, 0, 0, 0, 1, 1, 2] ++
  [12, 0, 5, 0, 4, 0, 0, 0, 163, 0, 0, 0] ++
  [0, 0, 0, 0] ++
  [78, 73, 75, 79, 78, 32, 67, 79, 82, 80, 79, 82, 65, 84, 73, 79, 78, 0] ++
  [78, 73, 75, 79, 78, 32, 68, 55, 48, 48, 0] ++
  [3, 0, 0, 0, 2, 0, 0, 0, 5, 0, 0, 0, 4, 0, 0, 0, 1, 0, 0, 0, 1, 0, 0, 0, 1, 0, 0, 0, 1, 0, 0, 0] ++
  [5, 0, 121, 206, 213, 57, 25, 194, 69, 39, 89, 233]

private def fracDir : Dir := .mk false [.plain ⟨0x100, 3, [3]⟩, .plain ⟨0x101, 3, [2]⟩, .plain ⟨0x102, 3, [14]⟩, .plain ⟨0x103, 3, [1]⟩, .plain ⟨0x10f, 2, [78, 73, 75, 79, 78, 32, 67, 79, 82, 80, 79, 82, 65, 84, 73, 79, 78, 0]⟩, .plain ⟨0x110, 2, [78, 73, 75, 79, 78, 32, 68, 55, 48, 48, 0]⟩, .plain ⟨0x111, 4, [195]⟩, .plain ⟨0x117, 4, [12]⟩, .plain ⟨0x828e, 1, [0, 1, 1, 2]⟩, .plain ⟨0xc, 5, [8589934595, 17179869189, 4294967297, 4294967297]⟩]

private theorem frac_stored : TiffFile 11 false fracFile [fracDir] := by
  refine ⟨by decide +kernel, by decide +kernel, 8, by decide, by decide +kernel, rfl, ?_⟩
  refine ⟨by decide, by decide +kernel, by decide, by decide +kernel, by decide +kernel, ?_⟩
  intro i it hi
  match i with
  | 0 => injection hi with hi; subst hi; stored_inline
  | 1 => injection hi with hi; subst hi; stored_inline
  | 2 => injection hi with hi; subst hi; stored_inline
  | 3 => injection hi with hi; subst hi; stored_inline
  | 4 => injection hi with hi; subst hi; stored_outside 134
  | 5 => injection hi with hi; subst hi; stored_outside 152
  | 6 => injection hi with hi; subst hi; stored_inline
  | 7 => injection hi with hi; subst hi; stored_inline
  | 8 => injection hi with hi; subst hi; stored_inline
  | 9 => injection hi with hi; subst hi; stored_outside 163
  | i + 10 => cases hi

private theorem frac_camera : CameraFile fracFile false [fracDir] (b! "NIKON CORPORATION") (b! "NIKON D700") none where
  tiff := frac_stored
  few := by decide
  notCiff := by decide +kernel
  notDng := lacks_one rfl rfl
  make := ⟨⟨by decide, by decide, by decide⟩, false, _, first_one rfl, rfl, 0, 0, [0], Or.inr rfl, rfl⟩
  model := ⟨⟨by decide, by decide, by decide⟩, false, _, first_one rfl, rfl, 0, 0, [0], Or.inr rfl, rfl⟩
  orientation := lacks_one rfl rfl

private theorem frac_strip : NikonStrip (fileRoot false [fracDir]) fracDir 3 2 14 1 195 12 where
  first := first_with (f := ⟨0x828e, 1, [0, 1, 1, 2]⟩) rfl
  width := numbers_here (f := ⟨0x100, 3, [3]⟩) rfl (by decide)
  height := numbers_here (f := ⟨0x101, 3, [2]⟩) rfl (by decide)
  bits := numbers_here (f := ⟨0x102, 3, [14]⟩) rfl (by decide)
  compression := numbers_here (f := ⟨0x103, 3, [1]⟩) rfl (by decide)
  position := numbers_here (f := ⟨0x111, 4, [195]⟩) rfl (by decide)
  length := numbers_here (f := ⟨0x117, 4, [12]⟩) rfl (by decide)

private theorem frac_white : NikonRatios (fileRoot false [fracDir]) 3 2 5 4 :=
  ⟨by decide, by decide, by decide, by decide, false, _, _, first_one rfl, rfl, rfl⟩

/-- Words, little endian; the ratios 3/2 and 5/4. -/
example (env : Platform) (b : Build) (cam : Camera) (hb : NoBlackAreas cam) (hm : cam.model = b! "NIKON D700") :
    (loaderOf (b! "NIKON CORPORATION") (b! "NIKON D700") (b! "14bit") cam).decodeSafe env b (.ok fracFile) =
    .ok (pictureOf cam .unknown 3 2 [(F32.ofNat 3).div (F32.ofNat 2), F32.ofNat 1, (F32.ofNat 5).div (F32.ofNat 4), .nan] cam.blacklevels [5, 3705, 14805, 537, 10053, 10585]) := by
  have := nef_words_file (loaderOf (b! "NIKON CORPORATION") (b! "NIKON D700") (b! "14bit") cam) env b frac_camera (by decide) rfl (by rw [hm]; decide) frac_strip
    (Or.inl ⟨_, _, _, _, frac_white, rfl⟩) (Or.inl rfl) (by decide) (by decide +kernel) (hb.blacks _ _ _)
  rw [show raster 3 2 (nikonWord fracFile false 195 3) = [5, 3705, 14805, 537, 10053, 10585] by decide +kernel] at this
  exact this

private def compFile : Bytes :=
  [77, 77, 0, 42, 0, 0, 0, 8] ++
  [0, 12] ++
  [1, 0, 0, 3, 0, 0, 0, 1, 0, 4, 0, 0] ++
  [1, 1, 0, 3, 0, 0, 0, 1, 0, 3, 0, 0] ++
  [1, 2, 0, 3, 0, 0, 0, 1, 0, 12, 0, 0] ++
  [1, 3, 0, 3, 0, 0, 0, 1, 135, 153, 0, 0] ++
  [1, 15, 0, 2, 0, 0, 0, 18, 0, 0, 0, 158] ++
  [1, 16, 0, 2, 0, 0, 0, 9, 0, 0, 0, 176] ++
  [1, 17, 0, 4, 0, 0, 0, 1, 0, 0, 0, 229] ++
  [1, 23, 0, 4, 0, 0, 0, 1, 0, 0, 0, 20] ++
  [130, 142, 0, 1, 0, 0, 0, 4, 0, 1, 1, 2] ++
  [0, 140, 0, 7, 0, 0, 0, 6, 0, 0, 0, 185] ++
  [0, 150, 0, 7, 0, 0, 0, 12, 0, 0, 0, 191] ++
  [0, 151, 0, 7, 0, 0, 0, 26, 0, 0, 0, 203] ++
  [0, 0, 0, 0] ++
  [78, 73, 75, 79, 78, 32, 67, 79, 82, 80, 79, 82, 65, 84, 73, 79, 78, 0] ++
  [78, 73, 75, 79, 78, 32, 68, 51, 0] ++
  [68, 16, 0, 0, 0, 0] ++
  [70, 48, 0, 0, 0, 0, 0, 100, 0, 100, 0, 0] ++
  [48, 49, 48, 51, 0, 0, 0, 0, 0, 0, 0, 0, 0, 0, 0, 0, 0, 0, 0, 0, 2, 188, 1, 44, 1, 194] ++
  [121, 60, 140, 153, 237, 123, 181, 227, 38, 126, 150, 62, 150, 12, 153, 0, 0, 0, 0, 0]

private def compDir : Dir := .mk true [.plain ⟨0x100, 3, [4]⟩, .plain ⟨0x101, 3, [3]⟩, .plain ⟨0x102, 3, [12]⟩, .plain ⟨0x103, 3, [34713]⟩, .plain ⟨0x10f, 2, [78, 73, 75, 79, 78, 32, 67, 79, 82, 80, 79, 82, 65, 84, 73, 79, 78, 0]⟩, .plain ⟨0x110, 2, [78, 73, 75, 79, 78, 32, 68, 51, 0]⟩, .plain ⟨0x111, 4, [229]⟩, .plain ⟨0x117, 4, [20]⟩, .plain ⟨0x828e, 1, [0, 1, 1, 2]⟩, .plain ⟨0x8c, 7, [68, 16, 0, 0, 0, 0]⟩, .plain ⟨0x96, 7, [70, 48, 0, 0, 0, 0, 0, 100, 0, 100, 0, 0]⟩, .plain ⟨0x97, 7, [48, 49, 48, 51, 0, 0, 0, 0, 0, 0, 0, 0, 0, 0, 0, 0, 0, 0, 0, 0, 2, 188, 1, 44, 1, 194]⟩]

private theorem comp_stored : TiffFile 11 true compFile [compDir] := by
  refine ⟨by decide +kernel, by decide +kernel, 8, by decide, by decide +kernel, rfl, ?_⟩
  refine ⟨by decide, by decide +kernel, by decide, by decide +kernel, by decide +kernel, ?_⟩
  intro i it hi
  match i with
  | 0 => injection hi with hi; subst hi; stored_inline
  | 1 => injection hi with hi; subst hi; stored_inline
  | 2 => injection hi with hi; subst hi; stored_inline
  | 3 => injection hi with hi; subst hi; stored_inline
  | 4 => injection hi with hi; subst hi; stored_outside 158
  | 5 => injection hi with hi; subst hi; stored_outside 176
  | 6 => injection hi with hi; subst hi; stored_inline
  | 7 => injection hi with hi; subst hi; stored_inline
  | 8 => injection hi with hi; subst hi; stored_inline
  | 9 => injection hi with hi; subst hi; stored_outside 185
  | 10 => injection hi with hi; subst hi; stored_outside 191
  | 11 => injection hi with hi; subst hi; stored_outside 203
  | i + 12 => cases hi

private theorem comp_camera : CameraFile compFile true [compDir] (b! "NIKON CORPORATION") (b! "NIKON D3") none where
  tiff := comp_stored
  few := by decide
  notCiff := by decide +kernel
  notDng := lacks_one rfl rfl
  make := ⟨⟨by decide, by decide, by decide⟩, true, _, first_one rfl, rfl, 0, 0, [0], Or.inr rfl, rfl⟩
  model := ⟨⟨by decide, by decide, by decide⟩, true, _, first_one rfl, rfl, 0, 0, [0], Or.inr rfl, rfl⟩
  orientation := lacks_one rfl rfl

private theorem comp_strip : NikonStrip (fileRoot true [compDir]) compDir 4 3 12 34713 229 20 where
  first := first_with (f := ⟨0x828e, 1, [0, 1, 1, 2]⟩) rfl
  width := numbers_here (f := ⟨0x100, 3, [4]⟩) rfl (by decide)
  height := numbers_here (f := ⟨0x101, 3, [3]⟩) rfl (by decide)
  bits := numbers_here (f := ⟨0x102, 3, [12]⟩) rfl (by decide)
  compression := numbers_here (f := ⟨0x103, 3, [34713]⟩) rfl (by decide)
  position := numbers_here (f := ⟨0x111, 4, [229]⟩) rfl (by decide)
  length := numbers_here (f := ⟨0x117, 4, [20]⟩) rfl (by decide)

private def compSample (r p k : Nat) : Nat := 300 * r + 25 * p * p + 100 * k + 50

private def compMeta : NefMeta := ⟨70, 48, [], fun _ k => if k = 0 then 0 else 100, 0, [], []⟩

private theorem comp_meta : NikonMeta (fileRoot true [compDir]) compMeta compDir where
  first := first_with (f := ⟨0x8c, 7, [68, 16, 0, 0, 0, 0]⟩) rfl
  field := ⟨true, ⟨0x96, 7, [70, 48, 0, 0, 0, 0, 0, 100, 0, 100, 0, 0]⟩, Or.inl ⟨[], compDir, rfl, rfl, fun q _ hq _ => by cases q <;> simp at hq⟩, by decide +kernel⟩

private theorem comp_white : NikonWhite (fileRoot true [compDir]) 700 300 450 :=
  ⟨by decide, by decide, by decide, lacks_one rfl rfl, true, _, first_one rfl, .v103 (by decide +kernel) (by decide +kernel) (by decide +kernel) (by decide +kernel)⟩

/-- Compressed samples; the levels as in version 0103. -/
example (env : Platform) (b : Build) (cam : Camera) (hb : NoBlackAreas cam) (hm : cam.model = b! "NIKON D3") :
    (loaderOf (b! "NIKON CORPORATION") (b! "NIKON D3") (b! "12bit") cam).decodeSafe env b (.ok compFile) =
    .ok (pictureOf cam .unknown 4 3 [F32.ofNat 700, F32.ofNat 300, F32.ofNat 450, .nan] cam.blacklevels [49, 149, 74, 174, 349, 449, 374, 475, 649, 749, 674, 775]) := by
  have hc : compMeta.curve 12 = List.range 4096 := by unfold NefMeta.curve; rw [if_neg (by decide), if_neg (by decide)]
  have := nef_compressed_file (loaderOf (b! "NIKON CORPORATION") (b! "NIKON D3") (b! "12bit") cam) env b comp_camera (by decide) rfl (by rw [hm]; decide) comp_strip (by decide) (by decide)
    (Or.inr ⟨_, _, _, comp_white, rfl⟩) comp_meta
    ⟨by decide, rfl, fun r k => by unfold compMeta; dsimp only; split <;> decide, by decide, fun h => rfl, by decide, by decide, Or.inl rfl⟩ (by rw [hc]; exact gentle_range (by decide))
    compSample (w := 2) (by decide)
    (fun r p k hr hp hk => by rw [hc, List.length_range]; exact (show ∀ r, r < 3 → ∀ p, p < 2 → ∀ k, k < 2 → compSample r p k < 4096 by decide) r hr p hp k hk)
    (fun r p k hr hp hk => (show ∀ r, r < 3 → ∀ p, p < 2 → ∀ k, k < 2 → category (upResidual compMeta.init compSample r p k) ∈ (compMeta.table true 12 r).vals by decide +kernel) r hr p hp k hk)
    [0, 0, 0, 0, 0] (by decide +kernel) (by decide +kernel) (hb.blacks _ _ _)
  rw [show raster (2 * 2) 3 (fun r c => nefPixel (compMeta.curve 12) (fieldMSB (bytesOf compFile) (8 * 229) 24) 2 compSample r (c / 2) (c % 2)) = [49, 149, 74, 174, 349, 449, 374, 475, 649, 749, 674, 775] by decide +kernel] at this
  exact this

private def ctlFile : Bytes :=
  [77, 77, 0, 42, 0, 0, 0, 8] ++
  [0, 10] ++
  [1, 0, 0, 3, 0, 0, 0, 1, 11, 218, 0, 0] ++
  [1, 1, 0, 3, 0, 0, 0, 1, 0, 1, 0, 0] ++
  [1, 2, 0, 3, 0, 0, 0, 1, 0, 12, 0, 0] ++
  [1, 3, 0, 3, 0, 0, 0, 1, 0, 1, 0, 0] ++
  [1, 15, 0, 2, 0, 0, 0, 18, 0, 0, 0, 134] ++
  [1, 16, 0, 2, 0, 0, 0, 11, 0, 0, 0, 152] ++
  [1, 17, 0, 4, 0, 0, 0, 1, 0, 0, 0, 241] ++
  [1, 23, 0, 4, 0, 0, 0, 1, 0, 0, 0, 16] ++
  [130, 142, 0, 1, 0, 0, 0, 4, 0, 1, 1, 2] ++
  [0, 151, 0, 7, 0, 0, 0, 78, 0, 0, 0, 163] ++
  [0, 0, 0, 0] ++
  [78, 73, 75, 79, 78, 32, 67, 79, 82, 80, 79, 82, 65, 84, 73, 79, 78, 0] ++
  [78, 73, 75, 79, 78, 32, 68, 49, 48, 48, 0] ++
  [48, 49, 48, 48, 0, 0, 0, 0, 0, 0, 0, 0, 0, 0, 0, 0, 0, 0, 0, 0, 0, 0, 0, 0, 0, 0, 0, 0, 0, 0, 0, 0, 0, 0, 0, 0, 0, 0, 0, 0, 0, 0, 0, 0, 0, 0, 0, 0, 0, 0, 0, 0, 0, 0, 0, 0, 0, 0, 0, 0, 0, 0, 0, 0, 0, 0, 0, 0, 0, 0, 0, 0, 2, 188, 1, 194, 1, 44] ++
  [3, 8, 13, 18, 23, 28, 33, 38, 43, 48, 53, 58, 63, 68, 73, 78]

private def ctlDir : Dir := .mk true [.plain ⟨0x100, 3, [3034]⟩, .plain ⟨0x101, 3, [1]⟩, .plain ⟨0x102, 3, [12]⟩, .plain ⟨0x103, 3, [1]⟩, .plain ⟨0x10f, 2, [78, 73, 75, 79, 78, 32, 67, 79, 82, 80, 79, 82, 65, 84, 73, 79, 78, 0]⟩, .plain ⟨0x110, 2, [78, 73, 75, 79, 78, 32, 68, 49, 48, 48, 0]⟩, .plain ⟨0x111, 4, [241]⟩, .plain ⟨0x117, 4, [16]⟩, .plain ⟨0x828e, 1, [0, 1, 1, 2]⟩, .plain ⟨0x97, 7, [48, 49, 48, 48, 0, 0, 0, 0, 0, 0, 0, 0, 0, 0, 0, 0, 0, 0, 0, 0, 0, 0, 0, 0, 0, 0, 0, 0, 0, 0, 0, 0, 0, 0, 0, 0, 0, 0, 0, 0, 0, 0, 0, 0, 0, 0, 0, 0, 0, 0, 0, 0, 0, 0, 0, 0, 0, 0, 0, 0, 0, 0, 0, 0, 0, 0, 0, 0, 0, 0, 0, 0, 2, 188, 1, 194, 1, 44]⟩]

private theorem ctl_stored : TiffFile 11 true ctlFile [ctlDir] := by
  refine ⟨by decide +kernel, by decide +kernel, 8, by decide, by decide +kernel, rfl, ?_⟩
  refine ⟨by decide, by decide +kernel, by decide, by decide +kernel, by decide +kernel, ?_⟩
  intro i it hi
  match i with
  | 0 => injection hi with hi; subst hi; stored_inline
  | 1 => injection hi with hi; subst hi; stored_inline
  | 2 => injection hi with hi; subst hi; stored_inline
  | 3 => injection hi with hi; subst hi; stored_inline
  | 4 => injection hi with hi; subst hi; stored_outside 134
  | 5 => injection hi with hi; subst hi; stored_outside 152
  | 6 => injection hi with hi; subst hi; stored_inline
  | 7 => injection hi with hi; subst hi; stored_inline
  | 8 => injection hi with hi; subst hi; stored_inline
  | 9 => injection hi with hi; subst hi; stored_outside 163
  | i + 10 => cases hi

private theorem ctl_camera : CameraFile ctlFile true [ctlDir] (b! "NIKON CORPORATION") (b! "NIKON D100") none where
  tiff := ctl_stored
  few := by decide
  notCiff := by decide +kernel
  notDng := lacks_one rfl rfl
  make := ⟨⟨by decide, by decide, by decide⟩, true, _, first_one rfl, rfl, 0, 0, [0], Or.inr rfl, rfl⟩
  model := ⟨⟨by decide, by decide, by decide⟩, true, _, first_one rfl, rfl, 0, 0, [0], Or.inr rfl, rfl⟩
  orientation := lacks_one rfl rfl

private theorem ctl_strip : NikonStrip (fileRoot true [ctlDir]) ctlDir 3034 1 12 1 241 16 where
  first := first_with (f := ⟨0x828e, 1, [0, 1, 1, 2]⟩) rfl
  width := numbers_here (f := ⟨0x100, 3, [3034]⟩) rfl (by decide)
  height := numbers_here (f := ⟨0x101, 3, [1]⟩) rfl (by decide)
  bits := numbers_here (f := ⟨0x102, 3, [12]⟩) rfl (by decide)
  compression := numbers_here (f := ⟨0x103, 3, [1]⟩) rfl (by decide)
  position := numbers_here (f := ⟨0x111, 4, [241]⟩) rfl (by decide)
  length := numbers_here (f := ⟨0x117, 4, [16]⟩) rfl (by decide)

private theorem ctl_white : NikonWhite (fileRoot true [ctlDir]) 700 300 450 :=
  ⟨by decide, by decide, by decide, lacks_one rfl rfl, true, _, first_one rfl, .v100 (by decide +kernel) (by decide +kernel) (by decide +kernel) (by decide +kernel)⟩

private def ctlWhole : Bytes := ctlFile ++ List.replicate 4848 90

private theorem ctl_camera_whole : CameraFile ctlWhole true [ctlDir] (b! "NIKON CORPORATION") (b! "NIKON D100") none where
  tiff := tiff_pad _ ctl_camera.tiff
  few := ctl_camera.few
  notCiff := by
    unfold ctlWhole
    rw [bytesAt_append (by decide +kernel)]
    exact ctl_camera.notCiff
  notDng := ctl_camera.notDng
  make := ctl_camera.make
  model := ctl_camera.model
  orientation := ctl_camera.orientation

/-- One row of a D100, of which the first ten samples are shown; the levels as in version 0100. -/
example (env : Platform) (b : Build) (cam : Camera) (hb : NoBlackAreas cam) (hm : cam.model = b! "NIKON D100") :
    ∃ img : Nat → Nat → Nat, (List.range 10).map (img 0) = [48, 2061, 289, 1820, 530, 1579, 771, 1338, 1012, 1097] ∧
    (loaderOf (b! "NIKON CORPORATION") (b! "NIKON D100") (b! "12bit") cam).decodeSafe env b (.ok ctlWhole) =
      .ok (pictureOf cam .unknown 3040 1 [F32.ofNat 700, F32.ofNat 300, F32.ofNat 450, .nan] cam.blacklevels (raster 3040 1 img)) :=
  ⟨_, by decide +kernel, nef_d100_file (loaderOf (b! "NIKON CORPORATION") (b! "NIKON D100") (b! "12bit") cam) env b ctl_camera_whole (by decide) rfl hm ctl_strip
    (Or.inr ⟨_, _, _, ctl_white, rfl⟩) (by unfold ctlWhole; rw [List.length_append, List.length_replicate, show ctlFile.length = 257 by decide +kernel]) (hb.blacks _ _ _)⟩

end Example

end Props

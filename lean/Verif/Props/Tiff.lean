import Verif.Lemmas.TiffEntry
/-!
# C25-C27: TIFF directories
-/

namespace Props
open Rust Spec Model

/-! ## C25: parsing ends -/

/-- C25. For every file and both kinds of build, reading the directories ends (with a tree, an error or a panic, never by running
forever); a tree has at most 100 chained directories under the root, nesting of at most twelve (the root, a Fuji container, and
ten levels of sub-directories), and no directory has more than 4000 entries. Nothing is assumed about the offsets in the file. -/
theorem tiff_parsing_ends (b : Build) (buf : Bytes) :
    TiffIFD.newFile b buf ≠ .error .fuel ∧
    ∀ d, TiffIFD.newFile b buf = .ok d → d.subifds.length ≤ 100 ∧ DepthAtMost TiffIFD.subifds 12 d ∧
      ∀ d', Below TiffIFD.subifds d d' → d'.entries.length ≤ 4000 := by
  have h := TiffIFD.post_newFile b buf
  exact ⟨h.1, fun d hd => ⟨(h.2 d hd).2, (h.2 d hd).1.1, (h.2 d hd).1.2⟩⟩

/-- C25, the recursion itself: a directory read at depth `depth` has at most `10 - depth` levels below it, and the model's bound
on the recursion (eleven levels for a call with depth 0) is never what stops it. -/
theorem tiff_depth_never_exhausted (b : Build) (buf : Bytes) (offset baseOffset startOffset depth : Nat) (e : Endian) (n : Nat)
    (hd : depth ≤ 10) (hn : 11 ≤ depth + n) :
    TiffIFD.new b n buf offset baseOffset startOffset depth e ≠ .error .fuel ∧
    ∀ d, TiffIFD.new b n buf offset baseOffset startOffset depth e = .ok d → DepthAtMost TiffIFD.subifds (10 - depth) d := by
  have h := TiffIFD.post_new b n buf offset baseOffset startOffset depth e hd hn
  exact ⟨h.1, fun d hd => (h.2 d hd).1⟩

/-- The same for a file not starting with `FUJIFILM`: ten levels under each chained directory. -/
theorem tiff_root_depth (b : Build) (buf : Bytes) (offset : Nat) (d : TiffIFD) (h : TiffIFD.newRoot b buf offset = .ok d) :
    DepthAtMost TiffIFD.subifds 11 d ∧ d.subifds.length ≤ 100 := by
  have := (TiffIFD.post_newRoot b buf offset).2 d h
  exact ⟨this.1.1, this.2.1⟩

/-- A file whose only directory points to itself both as the next directory and as a sub-directory. -/
def cyclicFile : Bytes := [0x49, 0x49, 42, 0, 8, 0, 0, 0] ++ [1, 0] ++ [0x4a, 1, 4, 0, 1, 0, 0, 0, 8, 0, 0, 0] ++ [8, 0, 0, 0] ++ List.replicate 16 0

/-- Depth of the leftmost branch. -/
def leftDepth : Nat → TiffIFD → Nat
  | 0, _ => 0
  | n + 1, d => match d.subifds with
    | [] => 0
    | c :: _ => leftDepth n c + 1

/-- A cyclic file is cut off after 100 directories and eleven levels. -/
example : ∃ d, TiffIFD.newFile .debug cyclicFile = .ok d ∧ d.subifds.length = 100 ∧ leftDepth 50 d = 11 := by
  have h : (match TiffIFD.newFile .debug cyclicFile with
      | .ok d => decide (d.subifds.length = 100 ∧ leftDepth 50 d = 11)
      | .error _ => false) = true := by decide +kernel
  cases hd : TiffIFD.newFile .debug cyclicFile with
  | error e => rw [hd] at h; cases h
  | ok d => rw [hd] at h; exact ⟨d, rfl, of_decide_eq_true h⟩

/-! ## C26: lookup -/

/-- C26. `find_entry` gives the entry of the first directory in document order that stores the tag. -/
theorem find_entry_first (tag : Nat) (d : TiffIFD) (e : TiffEntry) :
    TiffIFD.findEntry tag d = some e ↔ FirstIn TiffIFD.subifds (fun d => Map.get d.entries tag) d e := by
  have h := TiffIFD.findEntry_spec tag d
  constructor
  · intro he
    rw [he] at h
    exact h
  · intro he
    cases hr : TiffIFD.findEntry tag d with
    | none => rw [hr] at h; exact absurd he (noneIn_not_firstIn h)
    | some e' => rw [hr] at h; rw [firstIn_unique h he]

/-- C26. Nothing is found exactly if no directory of the tree stores the tag. -/
theorem find_entry_none (tag : Nat) (d : TiffIFD) :
    TiffIFD.findEntry tag d = none ↔ ∀ d', Below TiffIFD.subifds d d' → Map.get d'.entries tag = none := by
  have h := TiffIFD.findEntry_spec tag d
  constructor
  · intro he
    rw [he] at h
    exact h
  · intro he
    cases hr : TiffIFD.findEntry tag d with
    | none => rfl
    | some e' => rw [hr] at h; exact absurd h (noneIn_not_firstIn (get := TiffIFD.own tag) he)

/-- C26. `has_entry` says whether some directory stores the tag. -/
theorem has_entry_iff (tag : Nat) (d : TiffIFD) :
    d.hasEntry tag = true ↔ ∃ d' e, Below TiffIFD.subifds d d' ∧ Map.get d'.entries tag = some e := by
  unfold TiffIFD.hasEntry
  constructor
  · intro h
    obtain ⟨e, he⟩ := Option.isSome_iff_exists.mp h
    obtain ⟨p, d', h1, h2, _⟩ := (find_entry_first tag d e).mp he
    exact ⟨d', e, ⟨p, h1⟩, h2⟩
  · rintro ⟨d', e, hb, he⟩
    cases hr : TiffIFD.findEntry tag d with
    | some _ => rfl
    | none => rw [(find_entry_none tag d).mp hr d' hb] at he; cases he

/-- C26. The directories listed for a tag are all and only those storing it. (A directory that is not the root is listed twice.) -/
theorem find_ifds_all_and_only (tag : Nat) (d x : TiffIFD) :
    x ∈ TiffIFD.findIfdsWithTag tag d ↔ Below TiffIFD.subifds d x ∧ ∃ e, Map.get x.entries tag = some e := by
  rw [TiffIFD.findIfds_mem, Map.containsKey_iff]

/-- C26. `find_first_ifd` gives the first directory in document order that stores the tag. -/
theorem find_first_ifd_first (tag : Nat) (d x : TiffIFD) :
    d.findFirstIfd tag = some x ↔
      FirstIn TiffIFD.subifds (fun d' => (Map.get d'.entries tag).map fun _ => d') d x := by
  have hg : (fun d' : TiffIFD => (Map.get d'.entries tag).map fun _ => d') = TiffIFD.ownDir tag := by
    funext d'
    unfold TiffIFD.ownDir
    by_cases hc : Map.containsKey d'.entries tag = true
    · rw [if_pos hc]
      obtain ⟨v, hv⟩ := (Map.containsKey_iff _ _).mp hc
      rw [hv]; rfl
    · rw [if_neg hc, (Map.not_containsKey _ _).mp hc]; rfl
  rw [hg]
  have he : d.findFirstIfd tag = (TiffIFD.findIfdsWithTag tag d)[0]? := by
    unfold TiffIFD.findFirstIfd
    dsimp only
    split
    · rename_i h0
      rw [List.getElem?_eq_none (by omega)]
    · rfl
  rw [he]
  have h := TiffIFD.findIfds_head tag d
  constructor
  · intro hx
    rw [hx] at h
    exact h
  · intro hx
    cases hr : (TiffIFD.findIfdsWithTag tag d)[0]? with
    | none => rw [hr] at h; exact absurd hx (noneIn_not_firstIn h)
    | some e' => rw [hr] at h; rw [firstIn_unique h hx]

section Examples

/-- A tree of directories in which tag 256 occurs in the second and third directory below the root. -/
private def leaf (v : UInt8) : TiffIFD := .mk [(256, ⟨256, 1, 1, 0, 0, [v], LITTLE_ENDIAN⟩)] [] 0 0 LITTLE_ENDIAN
private def tree : TiffIFD :=
  .mk [] [.mk [(257, ⟨257, 1, 1, 0, 0, [1], LITTLE_ENDIAN⟩)] [] 0 0 LITTLE_ENDIAN, .mk [] [leaf 7] 0 0 LITTLE_ENDIAN, leaf 8] 0 0 LITTLE_ENDIAN

example : (TiffIFD.findEntry 256 tree).map (·.data) = some [7] := by decide
example : TiffIFD.findEntry 258 tree = none := by decide
example : (TiffIFD.findIfdsWithTag 256 tree).length = 4 := by decide

end Examples

/-! ## C27: values -/

/-- C27. An entry that is read carries the tag, type and count stored at its position (unknown types are read as bytes) and
exactly `count * size` bytes, taken from the entry itself when they fit in four bytes and from the stored offset otherwise. -/
theorem tiff_entry_bytes (b : Build) (buf : Bytes) (offset base parent : Nat) (e : Endian) (ent : TiffEntry)
    (hlen : buf.length < 2 ^ 63) (hbase : base < 2 ^ 63) (h : TiffEntry.new b buf offset base parent e = .ok ent) :
    ent.tag = number e.big (bytesAt buf offset 2) ∧
    ent.typ = (let t := number e.big (bytesAt buf (offset + 2) 2); if 1 ≤ t ∧ t ≤ 13 then t else 1) ∧
    ent.count = number e.big (bytesAt buf (offset + 4) 4) ∧
    ent.endian = e ∧ ent.parentOffset = parent ∧
    (let n := ent.count * tiffSize ent.typ
     let stored := number e.big (bytesAt buf (offset + 8) 4)
     (n ≤ 4 → ent.doffset = offset + 8) ∧ (4 < n → base ≤ stored ∧ ent.doffset = stored - base) ∧
     ent.doffset + n ≤ buf.length ∧ ent.data.length = n ∧ ent.data = bytesAt buf ent.doffset n) := by
  unfold TiffEntry.new at h
  rw [bind_eq_ok] at h
  obtain ⟨tag, htag, h⟩ := h
  rw [bind_eq_ok] at h
  obtain ⟨typ, htyp, h⟩ := h
  rw [bind_eq_ok] at h
  obtain ⟨count, hcount, h⟩ := h
  dsimp only at h
  rw [bind_eq_ok] at h
  obtain ⟨shift, hshift, h⟩ := h
  have htag := (ru16_ok htag).2
  have htyp := (ru16_ok htyp).2
  have hcount := (ru32_ok hcount).2
  rw [idx_eq_ok] at hshift
  have ht : (if typ = 0 ∨ typ > 13 then 1 else typ) = (if 1 ≤ typ ∧ typ ≤ 13 then typ else 1) := by
    split <;> split <;> omega
  rw [ht] at h hshift
  generalize hT : (if 1 ≤ typ ∧ typ ≤ 13 then typ else 1) = T at *
  obtain ⟨s, hs, hsz⟩ := dataShifts_size (t := T) (by rw [← hT]; split <;> omega) (by rw [← hT]; split <;> omega)
  rw [hs] at hshift
  injection hshift with hshift
  subst hshift
  rw [Nat.shiftLeft_eq, hsz] at h
  have key : ∀ d, (do
      let data ← slice buf d (d + count * tiffSize T)
      (.ok ⟨tag, T, count, parent, d, data, e⟩ : M TiffEntry)) = .ok ent →
      d + count * tiffSize T ≤ buf.length ∧ ent = ⟨tag, T, count, parent, d, bytesAt buf d (count * tiffSize T), e⟩ := by
    intro d hd
    rw [bind_eq_ok] at hd
    obtain ⟨data, hdata, hd⟩ := hd
    obtain ⟨h1, h2, h3⟩ := slice_ok hdata
    rw [Nat.add_sub_cancel_left] at h3
    injection hd with hd
    exact ⟨h2, by rw [← hd, h3]; rfl⟩
  by_cases hn : count * tiffSize T ≤ 4
  · rw [if_pos hn] at h
    simp only [ok_bind] at h
    obtain ⟨h1, rfl⟩ := key _ h
    refine ⟨htag, by rw [← htyp]; exact hT.symm, hcount, rfl, rfl, fun _ => rfl, fun hc => absurd hc (by dsimp only; omega), h1, bytesAt_length h1, rfl⟩
  · rw [if_neg hn] at h
    rw [bind_eq_ok] at h
    obtain ⟨o, ho, h⟩ := h
    have ho := (ru32_ok ho).2
    rw [bind_eq_ok] at h
    obtain ⟨d, hd, h⟩ := h
    obtain ⟨h1, rfl⟩ := key _ h
    have hd : base ≤ o ∧ d = o - base := by
      by_cases hb : base ≤ o
      · rw [subU_ok hb] at hd
        injection hd with hd
        exact ⟨hb, hd.symm⟩
      · exfalso
        unfold subU at hd
        rw [if_neg hb] at hd
        cases b
        · exact crash_ne_ok _ hd
        · injection hd with hd
          omega
    refine ⟨htag, by rw [← htyp]; exact hT.symm, hcount, rfl, rfl, fun hc => absurd hc hn, fun _ => ?_, h1, bytesAt_length h1, rfl⟩
    rw [← ho]
    exact hd

/-- C27, the part that holds: component `i` of a BYTE, SHORT, LONG, SSHORT, SLONG or IFD entry is the number at `i * size` in the
file's byte order. What is missing is UNDEFINED (type 7), for which it is false (`tiff_undefined_misread`), and the types the
code does not read as integers (ASCII, SBYTE, RATIONAL, FLOAT, DOUBLE), for which it panics; signed types are read as unsigned. -/
theorem tiff_component_partial (ent : TiffEntry) (i : Nat) (ht : ent.typ ∈ [1, 3, 4, 8, 9, 13])
    (hl : ent.data.length = ent.count * tiffSize ent.typ) (hi : i < ent.count) :
    ent.getU32 i = .ok (number ent.endian.big (bytesAt ent.data (i * tiffSize ent.typ) (tiffSize ent.typ))) := by
  have hin : i * tiffSize ent.typ + tiffSize ent.typ ≤ ent.data.length := by
    rw [hl, ← Nat.succ_mul]
    exact Nat.mul_le_mul_right _ hi
  unfold TiffEntry.getU32 TiffEntry.getForceU32
  simp only [List.mem_cons, List.not_mem_nil, or_false] at ht
  rcases ht with h | h | h | h | h | h <;> rw [h] at hin ⊢
  · have hin : i + 1 ≤ ent.data.length := by simpa [tiffSize] using hin
    rw [if_pos rfl, byteAt_lt (by omega), show tiffSize 1 = 1 from rfl, Nat.mul_one, bytesAt_one hin, bytesOf_getElem (by omega)]
    cases ent.endian.big <;> rfl
  · rw [if_neg (by decide), if_pos (by decide)]
    exact ru16_number hin
  · rw [if_neg (by decide), if_neg (by decide), if_pos (by decide)]
    exact ru32_number hin
  · rw [if_neg (by decide), if_pos (by decide)]
    exact ru16_number hin
  · rw [if_neg (by decide), if_neg (by decide), if_pos (by decide)]
    exact ru32_number hin
  · rw [if_neg (by decide), if_neg (by decide), if_pos (by decide)]
    exact ru32_number hin

/-- C27. The claim is false for UNDEFINED entries: of four stored bytes 1, 2, 3, 4, component 0 is not the first byte but all four
as one number, and reading component 1 panics. -/
theorem tiff_undefined_misread :
    ∃ buf ent, TiffEntry.new .debug buf 0 0 0 LITTLE_ENDIAN = .ok ent ∧ ent.typ = 7 ∧ ent.count = 4 ∧ tiffSize 7 = 1 ∧
      ent.data = [1, 2, 3, 4] ∧ ent.getU32 0 = .ok 0x04030201 ∧ ent.getU32 1 = crash :=
  ⟨[0x34, 0xc6, 7, 0, 4, 0, 0, 0, 1, 2, 3, 4], ⟨0xc634, 7, 4, 0, 8, [1, 2, 3, 4], LITTLE_ENDIAN⟩, by decide +kernel, rfl, rfl, rfl, rfl,
    by decide +kernel, by decide +kernel⟩

/-- C27. Rationals: component `i` is the quotient of the two numbers at `8 * i`. -/
theorem tiff_rational (ent : TiffEntry) (i : Nat) (ht : ent.typ = 5) (hl : ent.data.length = ent.count * tiffSize ent.typ)
    (hi : i < ent.count) :
    ent.getF32 i = .ok ((F32.ofNat (number ent.endian.big (bytesAt ent.data (i * 8) 4))).div
      (F32.ofNat (number ent.endian.big (bytesAt ent.data (i * 8 + 4) 4)))) := by
  have hin : i * 8 + 8 ≤ ent.data.length := by
    rw [hl, ht, ← Nat.succ_mul]
    exact Nat.mul_le_mul_right 8 hi
  unfold TiffEntry.getF32
  rw [if_pos ht, ru32_number (by omega), ok_bind, ru32_number (by omega), ok_bind]

/-- C27. Signed rationals: component `i` is the quotient of the two numbers at `8 * i`, both in two's complement. -/
theorem tiff_srational (ent : TiffEntry) (i : Nat) (ht : ent.typ = 10) (hl : ent.data.length = ent.count * tiffSize ent.typ)
    (hi : i < ent.count) :
    ent.getF32 i = .ok ((F32.ofRat (signed32 (number ent.endian.big (bytesAt ent.data (i * 8) 4)))).div
      (F32.ofRat (signed32 (number ent.endian.big (bytesAt ent.data (i * 8 + 4) 4))))) := by
  have hin : i * 8 + 8 ≤ ent.data.length := by
    rw [hl, ht, ← Nat.succ_mul]
    exact Nat.mul_le_mul_right 8 hi
  unfold TiffEntry.getF32
  rw [if_neg (by omega), if_pos ht, ri32_number (by omega), ok_bind, ri32_number (by omega), ok_bind]

/-- C27. A field stored in a part of a file from `base` on, with positions counted from the start of the file. -/
theorem tiff_field_from (b : Build) (buf : Bytes) (pos base parent : Nat) (e : Endian) (f : Field) (h : f.StoredFrom base e.big buf pos) :
    ∃ ent, TiffEntry.new b buf pos base parent e = .ok ent ∧ ent.tag = f.tag ∧ ent.typ = f.typ ∧ ent.count = f.values.length ∧
      ent.data = f.bytes e.big ∧ ent.endian = e ∧
      ent.doffset = (if (f.bytes e.big).length ≤ 4 then pos + 8 else number e.big (bytesAt buf (pos + 8) 4) - base) ∧
      (f.typ ∈ [1, 3, 4, 8, 9, 13] → ∀ i (hi : i < f.values.length), ent.getU32 i = .ok f.values[i]) := by
  have hroom := h.room
  have hnb := Field.bytes_length e.big f
  have ht13 : 1 ≤ f.typ ∧ f.typ ≤ 13 := h.typ_ok
  obtain ⟨s, hs, hsz⟩ := dataShifts_size ht13.1 ht13.2
  have e1 : e.ru16 buf pos = .ok f.tag := by
    rw [ru16_number (by omega), h.tag, number_encode _ _ _ (by have := h.tag_lt; omega)]
  have e2 : e.ru16 buf (pos + 2) = .ok f.typ := by
    rw [ru16_number (by omega), h.typ, number_encode _ _ _ (by omega)]
  have e3 : e.ru32 buf (pos + 4) = .ok f.values.length := by
    rw [ru32_number (by omega), h.count, number_encode _ _ _ (by have := h.count_lt; omega)]
  have fin : ∀ d, bytesAt buf d (f.bytes e.big).length = f.bytes e.big →
      (do
        let data ← slice buf d (d + f.values.length * tiffSize f.typ)
        (.ok ⟨f.tag, f.typ, f.values.length, parent, d, data, e⟩ : M TiffEntry)) =
      .ok ⟨f.tag, f.typ, f.values.length, parent, d, f.bytes e.big, e⟩ ∨ d > buf.length := by
    intro d hd
    by_cases hdl : d ≤ buf.length
    · left
      have hle : d + f.values.length * tiffSize f.typ ≤ buf.length := by
        have := congrArg List.length hd
        unfold bytesAt at this
        rw [List.length_take, List.length_drop] at this
        omega
      rw [slice_le (by omega) hle, ok_bind, List.drop_take, Nat.add_sub_cancel_left, ← hnb]
      exact congrArg (fun x => (Except.ok ⟨f.tag, f.typ, f.values.length, parent, d, x, e⟩ : M TiffEntry)) hd
    · exact Or.inr (by omega)
  have comps : ∀ d, f.typ ∈ [1, 3, 4, 8, 9, 13] → ∀ i (hi : i < f.values.length),
      (⟨f.tag, f.typ, f.values.length, parent, d, f.bytes e.big, e⟩ : TiffEntry).getU32 i = .ok f.values[i] := by
    intro d ht i hi
    rw [tiff_component_partial ⟨f.tag, f.typ, f.values.length, parent, d, f.bytes e.big, e⟩ i ht hnb hi]
    dsimp only
    unfold Field.bytes
    rw [flatMap_chunk _ _ (fun _ => encode_length _ _ _) _ _ hi, number_encode _ _ _ (h.fits _ (List.getElem_mem _))]
  unfold TiffEntry.new
  rw [e1, ok_bind, e2, ok_bind, e3, ok_bind]
  dsimp only
  rw [if_neg (by omega), idx_eq_ok.mpr hs, ok_bind, Nat.shiftLeft_eq, hsz]
  by_cases hn : f.values.length * tiffSize f.typ ≤ 4
  · rw [if_pos hn]
    simp only [ok_bind]
    rcases fin (pos + 8) (h.inline (by omega)) with hf | hf
    · exact ⟨_, hf, rfl, rfl, rfl, rfl, rfl, by rw [if_pos (by omega)], comps _⟩
    · omega
  · rw [if_neg hn]
    obtain ⟨o, ho, ho1, ho2⟩ := h.outside (by omega)
    rw [ru32_number (by omega), ho1, number_encode _ _ _ (by omega), ok_bind, subU_ok (Nat.le_add_right _ _), ok_bind, Nat.add_sub_cancel_left]
    rcases fin o ho2 with hf | hf
    · exact ⟨_, hf, rfl, rfl, rfl, rfl, rfl, by rw [if_neg (by omega)], comps _⟩
    · exfalso
      have := congrArg List.length ho2
      unfold bytesAt at this
      rw [List.length_take, List.length_drop] at this
      omega

/-- C27. A field stored in the file is read back, in either byte order: tag, type, count and every component. -/
theorem tiff_field_roundtrip (b : Build) (buf : Bytes) (pos parent : Nat) (e : Endian) (f : Field) (h : f.StoredAt e.big buf pos) :
    ∃ ent, TiffEntry.new b buf pos 0 parent e = .ok ent ∧ ent.tag = f.tag ∧ ent.typ = f.typ ∧ ent.count = f.values.length ∧
      ent.data = f.bytes e.big ∧ ent.endian = e ∧
      ent.doffset = (if (f.bytes e.big).length ≤ 4 then pos + 8 else number e.big (bytesAt buf (pos + 8) 4)) ∧
      (f.typ ∈ [1, 3, 4, 8, 9, 13] → ∀ i (hi : i < f.values.length), ent.getU32 i = .ok f.values[i]) := by
  have := tiff_field_from b buf pos 0 parent e f ⟨h.tag_lt, h.typ_ok, h.count_lt, h.fits, h.tag, h.typ, h.count, h.room, h.inline, by
    intro hl
    obtain ⟨o, h1, h2, h3⟩ := h.outside hl
    exact ⟨o, by omega, by rw [Nat.zero_add]; exact h2, h3⟩⟩
  rwa [Nat.sub_zero] at this

/-- The eight bytes of a pair are those of its two numbers. -/
theorem encode_pair (big : Bool) (x y : Nat) (hx : x < 4294967296) (hy : y < 4294967296) :
    encode big 8 (pairNumber big x y) = encode big 4 x ++ encode big 4 y := by
  have key : ∀ a c : Nat, a < 4294967296 → encodeLE 8 (a + c * 4294967296) = encodeLE 4 a ++ encodeLE 4 c := by
    intro a c ha
    simp only [encodeLE, List.cons_append, List.nil_append, Nat.div_div_eq_div_mul, Nat.reduceMul]
    have h0 : UInt8.ofNat (a + c * 4294967296) = UInt8.ofNat a := by apply UInt8.toNat_inj.mp; simp only [UInt8.toNat_ofNat']; omega
    have h1 : UInt8.ofNat ((a + c * 4294967296) / 256) = UInt8.ofNat (a / 256) := by apply UInt8.toNat_inj.mp; simp only [UInt8.toNat_ofNat']; omega
    have h2 : UInt8.ofNat ((a + c * 4294967296) / 65536) = UInt8.ofNat (a / 65536) := by apply UInt8.toNat_inj.mp; simp only [UInt8.toNat_ofNat']; omega
    have h3 : UInt8.ofNat ((a + c * 4294967296) / 16777216) = UInt8.ofNat (a / 16777216) := by apply UInt8.toNat_inj.mp; simp only [UInt8.toNat_ofNat']; omega
    have h4 : (a + c * 4294967296) / 4294967296 = c := by omega
    have h5 : (a + c * 4294967296) / 1099511627776 = c / 256 := by omega
    have h6 : (a + c * 4294967296) / 281474976710656 = c / 65536 := by omega
    have h7 : (a + c * 4294967296) / 72057594037927936 = c / 16777216 := by omega
    rw [h0, h1, h2, h3, h4, h5, h6, h7]
  unfold encode pairNumber
  cases big
  · simp only [Bool.false_eq_true, if_false]
    exact key x y hx
  · simp only [if_true]
    rw [Nat.add_comm, key y x hy, List.reverse_append]

/-- C27. Rationals stored in the file are read back, in either byte order: component `i` is the quotient of the two numbers, in
two's complement for the signed type. -/
theorem tiff_rational_roundtrip (b : Build) (buf : Bytes) (pos parent : Nat) (e : Endian) (f : Field) (h : f.StoredAt e.big buf pos)
    (pairs : List (Nat × Nat)) (hp : ∀ p ∈ pairs, p.1 < 4294967296 ∧ p.2 < 4294967296)
    (hv : f.values = pairs.map fun p => pairNumber e.big p.1 p.2) :
    ∃ ent, TiffEntry.new b buf pos 0 parent e = .ok ent ∧ ent.count = pairs.length ∧
      (f.typ = 5 → ∀ i (hi : i < pairs.length), ent.getF32 i = .ok ((F32.ofNat pairs[i].1).div (F32.ofNat pairs[i].2))) ∧
      (f.typ = 10 → ∀ i (hi : i < pairs.length),
        ent.getF32 i = .ok ((F32.ofRat (signed32 pairs[i].1)).div (F32.ofRat (signed32 pairs[i].2)))) := by
  obtain ⟨ent, a1, a2, a3, a4, a5, a6, _, _⟩ := tiff_field_roundtrip b buf pos parent e f h
  have hc : ent.count = pairs.length := by rw [a4, hv, List.length_map]
  have bytes : tiffSize f.typ = 8 → ∀ i (hi : i < pairs.length), number e.big (bytesAt ent.data (i * 8) 4) = pairs[i].1 ∧
      number e.big (bytesAt ent.data (i * 8 + 4) 4) = pairs[i].2 := by
    intro h8 i hi
    have hb := hp _ (List.getElem_mem hi)
    have hi' : i < f.values.length := by rw [hv, List.length_map]; exact hi
    have hch := flatMap_chunk (encode e.big 8) 8 (fun _ => encode_length _ _ _) f.values i hi'
    have hval : f.values[i] = pairNumber e.big pairs[i].1 pairs[i].2 := by simp only [hv, List.getElem_map]
    rw [hval, encode_pair _ _ _ hb.1 hb.2] at hch
    have hd : ent.data = f.values.flatMap (encode e.big 8) := by rw [a5]; unfold Field.bytes; rw [h8]
    rw [hd]
    constructor
    · have h4 : bytesAt (f.values.flatMap (encode e.big 8)) (i * 8) 4 = (bytesAt (f.values.flatMap (encode e.big 8)) (i * 8) 8).take 4 := by
        unfold bytesAt; rw [List.take_take]; rfl
      rw [h4, hch, List.take_left' (encode_length _ _ _), number_encode _ _ _ hb.1]
    · have h4 : bytesAt (f.values.flatMap (encode e.big 8)) (i * 8 + 4) 4 = (bytesAt (f.values.flatMap (encode e.big 8)) (i * 8) 8).drop 4 := by
        unfold bytesAt; rw [List.drop_take, List.drop_drop]
      rw [h4, hch, List.drop_left' (encode_length _ _ _), number_encode _ _ _ hb.2]
  have hl : ent.data.length = ent.count * tiffSize ent.typ := by rw [a5, a4, a3]; exact Field.bytes_length _ _
  refine ⟨ent, a1, hc, ?_, ?_⟩
  · intro h5 i hi
    rw [tiff_rational ent i (by rw [a3, h5]) hl (by omega), a6, (bytes (by rw [h5]; rfl) i hi).1, (bytes (by rw [h5]; rfl) i hi).2]
  · intro h5 i hi
    rw [tiff_srational ent i (by rw [a3, h5]) hl (by omega), a6, (bytes (by rw [h5]; rfl) i hi).1, (bytes (by rw [h5]; rfl) i hi).2]

/-- C27. The same logical field stored in two files of opposite byte order gives the same values. -/
theorem tiff_byte_order_irrelevant (b : Build) (buf1 buf2 : Bytes) (pos1 pos2 : Nat) (f : Field) (ht : f.typ ∈ [1, 3, 4, 8, 9, 13])
    (h1 : f.StoredAt false buf1 pos1) (h2 : f.StoredAt true buf2 pos2) :
    ∃ e1 e2, TiffEntry.new b buf1 pos1 0 0 LITTLE_ENDIAN = .ok e1 ∧ TiffEntry.new b buf2 pos2 0 0 BIG_ENDIAN = .ok e2 ∧
      e1.tag = e2.tag ∧ e1.typ = e2.typ ∧ e1.count = e2.count ∧ ∀ i, i < e1.count → e1.getU32 i = e2.getU32 i := by
  obtain ⟨e1, a1, a2, a3, a4, _, _, _, a5⟩ := tiff_field_roundtrip b buf1 pos1 0 LITTLE_ENDIAN f h1
  obtain ⟨e2, c1, c2, c3, c4, _, _, _, c5⟩ := tiff_field_roundtrip b buf2 pos2 0 BIG_ENDIAN f h2
  refine ⟨e1, e2, a1, c1, by rw [a2, c2], by rw [a3, c3], by rw [a4, c4], ?_⟩
  intro i hi
  rw [a5 ht i (by omega), c5 ht i (by omega)]

/-- Three SHORT values (six bytes, stored at offset 12) in both byte orders. -/
example : ∃ e1 e2, TiffEntry.new .debug [0x11, 1, 3, 0, 3, 0, 0, 0, 12, 0, 0, 0, 1, 2, 3, 4, 5, 6] 0 0 0 LITTLE_ENDIAN = .ok e1 ∧
    TiffEntry.new .debug [1, 0x11, 0, 3, 0, 0, 0, 3, 0, 0, 0, 12, 2, 1, 4, 3, 6, 5] 0 0 0 BIG_ENDIAN = .ok e2 ∧
    e1.tag = e2.tag ∧ e1.typ = e2.typ ∧ e1.count = e2.count ∧ ∀ i, i < e1.count → e1.getU32 i = e2.getU32 i := by
  refine tiff_byte_order_irrelevant _ _ _ _ _ ⟨0x111, 3, [0x201, 0x403, 0x605]⟩ (by decide) ?_ ?_
  · exact ⟨by decide, by decide, by decide, by decide, by decide, by decide, by decide, by decide, fun h => absurd h (by decide),
      fun _ => ⟨12, by decide, by decide, by decide⟩⟩
  · exact ⟨by decide, by decide, by decide, by decide, by decide, by decide, by decide, by decide, fun h => absurd h (by decide),
      fun _ => ⟨12, by decide, by decide, by decide⟩⟩

end Props

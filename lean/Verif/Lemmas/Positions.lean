import Verif.Lemmas.OpenFile
/-!
# Lemmas about the positions of fields and directories
-/

namespace Props
open Rust Spec Model

variable {R : Nat → Field → Nat → Prop}

/-! ## Zeros after the end of the file -/

theorem place_pad {f : Field} {big : Bool} {buf pad : Bytes} {pos : Nat} (h : f.StoredAt big buf pos) :
    f.place big (buf ++ pad) pos = f.place big buf pos := by
  unfold Field.place
  rw [bytesAt_append (by have := h.room; omega)]

theorem dir_pad_with (pad : Bytes) : ∀ (n : Nat) (buf : Bytes) (pos : Nat) (d : Dir) (next : Nat), d.StoredWith R n buf pos next →
    d.StoredWith R n (buf ++ pad) pos next := by
  intro n
  induction n with
  | zero => intro buf pos d next h; exact h
  | succ n ih =>
    intro buf pos d next h
    obtain ⟨big, items⟩ := d
    obtain ⟨h1, h2, h3, h4, h5, h6⟩ := h
    refine ⟨h1, by simp; omega, h3, bytesAt_pad h4 (encode_length _ _ _), bytesAt_pad h5 (encode_length _ _ _), ?_⟩
    intro i it hi
    have hit := h6 i it hi
    cases it with
    | plain f => exact ⟨⟨field_pad hit.1.1, hit.1.2⟩, by rw [place_pad hit.1.1]; exact hit.2⟩
    | pointer tag ds =>
      obtain ⟨ht, typ, offs, h7, h8, h9, h10⟩ := hit
      refine ⟨ht, typ, offs, h7, h8, field_pad h9, ?_⟩
      intro k o d' ho hd'
      obtain ⟨hb, next', hs⟩ := h10 k o d' ho hd'
      exact ⟨hb, next', ih _ _ _ _ hs⟩
    | note d' =>
      obtain ⟨f, h7, h8, h9, o, buf', pos', h10, h11, h12, hn, next', hs⟩ := hit
      have hs' := ih _ _ _ _ hs
      refine ⟨f, h7, h8, field_pad h9, o, buf' ++ pad, pos', bytesAt_pad h10 (encode_length _ _ _), h11, by simp; omega, ?_, next', hs'⟩
      generalize hdb : d'.big = db at hn
      cases hn with
      | headed head skip hh hb => exact .headed head skip hh (bytesAt_pad hb rfl)
      | marked head skip _ hh hb hm => exact .marked head skip _ hh (bytesAt_pad hb rfl) (bytesAt_pad hm (orderMark_length _))
      | pentax _ hb hm =>
        have := bytesAt_known hm (orderMark_length _) (by omega)
        rw [← List.drop_append_of_le_length (by omega)]
        exact .pentax _ (bytesAt_pad hb rfl) (bytesAt_pad hm (orderMark_length _))
      | nikon _ hb hm =>
        have := bytesAt_known hm (orderMark_length _) (by omega)
        rw [← List.drop_append_of_le_length (by omega)]
        exact .nikon _ (bytesAt_pad hb rfl) (bytesAt_pad hm (orderMark_length _))

theorem chain_pad_with (pad : Bytes) (n : Nat) (big : Bool) (buf : Bytes) : ∀ (dirs : List Dir) (pos : Nat), ChainedWith R n big buf pos dirs →
    ChainedWith R n big (buf ++ pad) pos dirs := by
  intro dirs
  induction dirs with
  | nil => intro pos h; exact h
  | cons d rest ih =>
    intro pos h
    obtain ⟨hb, h⟩ := h
    cases rest with
    | nil => exact ⟨hb, dir_pad_with pad _ _ _ _ _ h⟩
    | cons d' rest' =>
      obtain ⟨next, h1, h2, h3⟩ := h
      exact ⟨hb, next, h1, dir_pad_with pad _ _ _ _ _ h2, ih _ h3⟩

theorem tiff_pad_with (pad : Bytes) {n : Nat} {big : Bool} {buf : Bytes} {dirs : List Dir} (h : TiffFileWith R n big buf dirs) :
    TiffFileWith R n big (buf ++ pad) dirs := by
  obtain ⟨h1, h2, pos, h3, h4, h5⟩ := h
  exact ⟨by simp; omega, bytesAt_pad h2 (orderMark_length _), pos, h3, bytesAt_pad h4 (encode_length _ _ _), chain_pad_with pad _ _ _ _ _ h5⟩

theorem tiff_read_with (b : Build) {contents : Bytes} {big : Bool} {dirs : List Dir} (ht : TiffFileWith R 11 big contents dirs) (hfew : dirs.length ≤ 100) :
    ∃ root, TiffIFD.newFile b (Buffer.new contents).buf = .ok root ∧ HoldsWith R 0 (fileRoot big dirs) root := by
  obtain ⟨root, hroot, hh⟩ := tiff_file_positions b (Buffer.new contents).buf 0 big dirs (Nat.zero_le _) (by
    rw [List.drop_zero]; exact tiff_pad_with _ ht) hfew
  refine ⟨root, ?_, hh⟩
  have hp : TiffFile 11 big (Buffer.new contents).buf dirs := tiff_pad _ (tiff_with ht)
  unfold TiffIFD.newFile
  rw [slice_le (by omega) hp.room, ok_bind, if_neg, hroot]
  intro hm
  have : bytesAt (Buffer.new contents).buf 0 2 = [0x46, 0x55] := by
    unfold bytesAt
    have := congrArg (List.take 2) hm
    rw [List.drop_zero, List.take_take] at this
    exact this
  rw [hp.mark] at this
  cases big <;> exact absurd this (by decide)

/-! ## Lookup -/

theorem holds_with_path {start : Nat} {d : Dir} {ifd : TiffIFD} (h : HoldsWith R start d ifd) (p : List Nat) :
    (∀ sd, atPath Dir.subdirsFrom (start, d) p = some sd → ∃ c, atPath TiffIFD.subifds ifd p = some c ∧ HoldsWith R sd.1 sd.2 c) ∧
    (∀ c, atPath TiffIFD.subifds ifd p = some c → ∃ sd, atPath Dir.subdirsFrom (start, d) p = some sd ∧ HoldsWith R sd.1 sd.2 c) := by
  induction p generalizing start d ifd with
  | nil =>
    refine ⟨fun d' hd => ⟨ifd, rfl, ?_⟩, fun c hc => ⟨(start, d), rfl, ?_⟩⟩
    · injection hd with hd; rw [← hd]; exact h
    · injection hc with hc; rw [← hc]; exact h
  | cons i p ih =>
    cases h with
    | mk _ _ _ order from_ absent present number subs =>
      by_cases hi : i < (Dir.subdirsFrom (start, d)).length
      · have hi' : i < ifd.subifds.length := by omega
        have e1 := List.getElem?_eq_getElem hi
        have e2 := List.getElem?_eq_getElem hi'
        have := ih (subs i _ _ e1 e2)
        simp only [atPath, e1, e2]
        exact this
      · have hi' : ¬ i < ifd.subifds.length := by omega
        simp only [atPath, List.getElem?_eq_none (Nat.le_of_not_lt hi), List.getElem?_eq_none (Nat.le_of_not_lt hi')]
        exact ⟨fun d' hd => (by cases hd), fun c hc => (by cases hc)⟩

/-- Both trees have the same directories. -/
theorem subdirsFrom_path (start : Nat) (d : Dir) (p : List Nat) : (atPath Dir.subdirsFrom (start, d) p).map Prod.snd = atPath Dir.subdirs d p := by
  induction p generalizing start d with
  | nil => rfl
  | cons i p ih =>
    have hget : ((Dir.subdirsFrom (start, d))[i]?).map Prod.snd = d.subdirs[i]? := by rw [← subdirsFrom_snd start d, List.getElem?_map]
    simp only [atPath]
    cases h : (Dir.subdirsFrom (start, d))[i]? with
    | none =>
      rw [h] at hget
      rw [← hget]
      rfl
    | some x =>
      rw [h] at hget
      rw [← hget]
      exact ih x.1 x.2

/-- The first field with a tag is found, and satisfies `R`. -/
theorem find_first_with {start : Nat} {d : Dir} {ifd : TiffIFD} (hh : HoldsWith R start d ifd) {tag : Nat} (hk : tag ∈ knownTags) {big : Bool}
    {f : Field} (h : d.First tag big f) :
    ∃ ent, TiffIFD.findEntry tag ifd = some ent ∧ Carries big f ent ∧ R ent.parentOffset f ent.doffset := by
  obtain ⟨p, d', hp, hget, hbefore⟩ := h
  rw [← subdirsFrom_path start] at hp
  cases hp' : atPath Dir.subdirsFrom (start, d) p with
  | none => rw [hp'] at hp; cases hp
  | some sd =>
    rw [hp'] at hp
    injection hp with hp
    subst hp
    obtain ⟨c, hc, hhc⟩ := (holds_with_path hh p).1 sd hp'
    cases hf : sd.2.field tag with
    | none => simp [hf] at hget
    | some g =>
      simp only [hf, Option.map_some, Option.some.injEq, Prod.mk.injEq] at hget
      obtain ⟨rfl, rfl⟩ := hget
      cases hhc with
      | mk _ _ _ _ _ _ present _ _ =>
        obtain ⟨ent, he, hcar, hR⟩ := present tag g (by unfold knownField; rw [if_pos hk]; exact hf)
        refine ⟨ent, (find_entry_first tag ifd ent).mpr ⟨p, c, hc, he, ?_⟩, hcar, hR⟩
        intro q c' hq hc'
        obtain ⟨d'', hd'', hh'⟩ := (holds_path hh.holds q).2 c' hc'
        have hnone := hbefore q d'' hq hd''
        cases hh' with
        | mk _ _ _ absent _ _ _ =>
          refine absent tag ?_
          unfold knownField
          rw [if_pos hk]
          cases hf' : d''.field tag with
          | none => rfl
          | some _ => simp [hf'] at hnone

/-- The first directory with a tag is found, with the position from which it counts. -/
theorem fetch_dir_with {start : Nat} {d : Dir} {ifd : TiffIFD} (hh : HoldsWith R start d ifd) {tag : Nat} (hk : tag ∈ knownTags) {start' : Nat}
    {d' : Dir} (h : FirstIn Dir.subdirsFrom (fun sd => (sd.2.field tag).map fun _ => sd) (start, d) (start', d')) :
    ∃ ifd', ifd.findFirstIfd tag = some ifd' ∧ HoldsWith R start' d' ifd' := by
  obtain ⟨p, sd, hp, hget, hbefore⟩ := h
  obtain ⟨c, hc, hhc⟩ := (holds_with_path hh p).1 sd hp
  cases hf : sd.2.field tag with
  | none => simp [hf] at hget
  | some f =>
    simp only [hf, Option.map_some, Option.some.injEq] at hget
    subst hget
    refine ⟨c, ?_, hhc⟩
    rw [find_first_ifd_first]
    refine ⟨p, c, hc, ?_, ?_⟩
    · cases hhc with
      | mk _ _ _ _ _ _ present _ _ =>
        obtain ⟨ent, he, _⟩ := present tag f (by unfold knownField; rw [if_pos hk]; exact hf)
        show (Map.get c.entries tag).map (fun _ => c) = some c
        rw [he]
        rfl
    · intro q c' hq hc'
      obtain ⟨sd2, hd2, hh2⟩ := (holds_with_path hh q).2 c' hc'
      have hnone : sd2.2.field tag = none := by
        have := hbefore q sd2 hq hd2
        cases hf : sd2.2.field tag with
        | none => rfl
        | some f => simp [hf] at this
      cases hh2 with
      | mk _ _ _ _ _ absent _ _ _ =>
        show (Map.get c'.entries tag).map (fun _ => c') = none
        rw [absent tag (by unfold knownField; rw [if_pos hk]; exact hnone)]
        rfl

end Props

import Verif.Spec.WholeFile
import Verif.Props.Tiff
/-!
# C63: directories are read back
-/

namespace Props
open Rust Spec Model

/-! ## What is read -/

/-- An entry carries a stored field: tag, type, count, the bytes, and every component of the integer types. -/
structure Carries (big : Bool) (f : Field) (ent : TiffEntry) : Prop where
  tag : ent.tag = f.tag
  typ : ent.typ = f.typ
  count : ent.count = f.values.length
  data : ent.data = f.bytes big
  order : ent.endian.big = big
  values : f.typ ∈ [1, 3, 4, 8, 9, 13] → ∀ i (hi : i < f.values.length), ent.getU32 i = .ok f.values[i]

/-- The field of a directory with a tag the code has a name for. -/
def knownField (tag : Nat) (d : Dir) : Option Field := if tag ∈ knownTags then d.field tag else none

/-- A directory read holds a stored one: the entries are exactly the ordinary fields with known tags, and the sub-directories are
those of the fields, in their order. -/
inductive Holds : Dir → TiffIFD → Prop
  | mk (d : Dir) (ifd : TiffIFD)
    (order : ifd.endian.big = d.big)
    (absent : ∀ tag, knownField tag d = none → Map.get ifd.entries tag = none)
    (present : ∀ tag f, knownField tag d = some f → ∃ ent, Map.get ifd.entries tag = some ent ∧ Carries d.big f ent)
    (number : ifd.subifds.length = d.subdirs.length)
    (subs : ∀ (k : Nat) (s : Dir) (c : TiffIFD), d.subdirs[k]? = some s → ifd.subifds[k]? = some c → Holds s c) : Holds d ifd

/-- A directory read holds a stored one, with the positions: `start` is the position in the file from which it counts, and every
field with its values at `place`, in a directory at `pos`, satisfies `R pos f place`. -/
inductive HoldsWith (R : Nat → Field → Nat → Prop) : Nat → Dir → TiffIFD → Prop
  | mk (start : Nat) (d : Dir) (ifd : TiffIFD)
    (order : ifd.endian.big = d.big)
    (from_ : ifd.startOffset = start)
    (absent : ∀ tag, knownField tag d = none → Map.get ifd.entries tag = none)
    (present : ∀ tag f, knownField tag d = some f → ∃ ent, Map.get ifd.entries tag = some ent ∧ Carries d.big f ent ∧
      R ent.parentOffset f ent.doffset)
    (number : ifd.subifds.length = (Dir.subdirsFrom (start, d)).length)
    (subs : ∀ (k : Nat) (s : Nat × Dir) (c : TiffIFD), (Dir.subdirsFrom (start, d))[k]? = some s → ifd.subifds[k]? = some c →
      HoldsWith R s.1 s.2 c) : HoldsWith R start d ifd

theorem subdirsFrom_snd (start : Nat) (d : Dir) : (Dir.subdirsFrom (start, d)).map Prod.snd = d.subdirs := by
  unfold Dir.subdirsFrom Dir.subdirs
  rw [List.map_flatMap]
  congr 1
  funext it
  cases it <;> simp [Item.dirsFrom, Item.dirs, Function.comp_def]

theorem HoldsWith.holds {R : Nat → Field → Nat → Prop} {start : Nat} {d : Dir} {ifd : TiffIFD} (h : HoldsWith R start d ifd) : Holds d ifd := by
  induction h with
  | mk start d ifd order from_ absent present number subs ih =>
    refine ⟨_, _, order, absent, fun tag f hf => ?_, by rw [number, ← subdirsFrom_snd start d, List.length_map], ?_⟩
    · obtain ⟨ent, h1, h2, _⟩ := present tag f hf
      exact ⟨ent, h1, h2⟩
    · intro k s c hs hc
      rw [← subdirsFrom_snd start d, List.getElem?_map] at hs
      cases hk : (Dir.subdirsFrom (start, d))[k]? with
      | none => rw [hk] at hs; cases hs
      | some x =>
        rw [hk] at hs
        injection hs with hs
        subst hs
        exact ih k x c hk hc

theorem stored_with_any : ∀ (n : Nat) (buf : Bytes) (pos : Nat) (d : Dir) (next : Nat), d.StoredAt n buf pos next →
    d.StoredWith (fun _ _ _ => True) n buf pos next := by
  intro n
  induction n with
  | zero => intro buf pos d next h; exact h
  | succ n ih =>
    intro buf pos d next h
    obtain ⟨big, items⟩ := d
    obtain ⟨h1, h2, h3, h4, h5, h6⟩ := h
    refine ⟨h1, h2, h3, h4, h5, ?_⟩
    intro i it hi
    have hit := h6 i it hi
    cases it with
    | plain f => exact ⟨hit, trivial⟩
    | pointer tag ds =>
      obtain ⟨ht, typ, offs, h7, h8, h9, h10⟩ := hit
      refine ⟨ht, typ, offs, h7, h8, h9, ?_⟩
      intro k o d' ho hd'
      obtain ⟨hb, next', hs⟩ := h10 k o d' ho hd'
      exact ⟨hb, next', ih _ _ _ _ hs⟩
    | note d' =>
      obtain ⟨f, h7, h8, h9, o, buf', pos', h10, h11, h12, hn, next', hs⟩ := hit
      exact ⟨f, h7, h8, h9, o, buf', pos', h10, h11, h12, hn, next', ih _ _ _ _ hs⟩

theorem stored_with {R : Nat → Field → Nat → Prop} : ∀ (n : Nat) (buf : Bytes) (pos : Nat) (d : Dir) (next : Nat), d.StoredWith R n buf pos next →
    d.StoredAt n buf pos next := by
  intro n
  induction n with
  | zero => intro buf pos d next h; exact h
  | succ n ih =>
    intro buf pos d next h
    obtain ⟨big, items⟩ := d
    obtain ⟨h1, h2, h3, h4, h5, h6⟩ := h
    refine ⟨h1, h2, h3, h4, h5, ?_⟩
    intro i it hi
    have hit := h6 i it hi
    cases it with
    | plain f => exact hit.1
    | pointer tag ds =>
      obtain ⟨ht, typ, offs, h7, h8, h9, h10⟩ := hit
      refine ⟨ht, typ, offs, h7, h8, h9, ?_⟩
      intro k o d' ho hd'
      obtain ⟨hb, next', hs⟩ := h10 k o d' ho hd'
      exact ⟨hb, next', ih _ _ _ _ hs⟩
    | note d' =>
      obtain ⟨f, h7, h8, h9, o, buf', pos', h10, h11, h12, hn, next', hs⟩ := hit
      exact ⟨f, h7, h8, h9, o, buf', pos', h10, h11, h12, hn, next', ih _ _ _ _ hs⟩

theorem chained_with_any {n : Nat} {big : Bool} {buf : Bytes} : ∀ {dirs : List Dir} {pos : Nat}, ChainedAt n big buf pos dirs →
    ChainedWith (fun _ _ _ => True) n big buf pos dirs := by
  intro dirs
  induction dirs with
  | nil => intro pos h; exact h
  | cons d rest ih =>
    intro pos h
    obtain ⟨hb, h⟩ := h
    cases rest with
    | nil => exact ⟨hb, stored_with_any _ _ _ _ _ h⟩
    | cons d' rest' =>
      obtain ⟨next, h1, h2, h3⟩ := h
      exact ⟨hb, next, h1, stored_with_any _ _ _ _ _ h2, ih h3⟩

theorem chained_with {R : Nat → Field → Nat → Prop} {n : Nat} {big : Bool} {buf : Bytes} : ∀ {dirs : List Dir} {pos : Nat}, ChainedWith R n big buf pos dirs →
    ChainedAt n big buf pos dirs := by
  intro dirs
  induction dirs with
  | nil => intro pos h; exact h
  | cons d rest ih =>
    intro pos h
    obtain ⟨hb, h⟩ := h
    cases rest with
    | nil => exact ⟨hb, stored_with _ _ _ _ _ h⟩
    | cons d' rest' =>
      obtain ⟨next, h1, h2, h3⟩ := h
      exact ⟨hb, next, h1, stored_with _ _ _ _ _ h2, ih h3⟩

theorem tiff_with_any {n : Nat} {big : Bool} {buf : Bytes} {dirs : List Dir} (h : TiffFile n big buf dirs) :
    TiffFileWith (fun _ _ _ => True) n big buf dirs := by
  obtain ⟨pos, h1, h2, h3⟩ := h.first
  exact ⟨h.room, h.mark, pos, h1, h2, chained_with_any h3⟩

theorem tiff_with {R : Nat → Field → Nat → Prop} {n : Nat} {big : Bool} {buf : Bytes} {dirs : List Dir} (h : TiffFileWith R n big buf dirs) :
    TiffFile n big buf dirs := by
  obtain ⟨pos, h1, h2, h3⟩ := h.first
  exact ⟨h.room, h.mark, pos, h1, h2, chained_with h3⟩

/-! ## Maker notes -/

private theorem bytesAt_first {buf : Bytes} {pos n : Nat} {x y : UInt8} {t : Bytes} (h : bytesAt buf pos n = x :: y :: t) :
    buf[pos]? = some x ∧ buf[pos + 1]? = some y := by
  unfold bytesAt at h
  constructor
  · have := congrArg (fun l => l[0]?) h
    rcases n with _ | n
    · simp at h
    · simpa [List.getElem?_take, List.getElem?_drop] using this
  · have := congrArg (fun l => l[1]?) h
    rcases n with _ | _ | n
    · simp at h
    · have := congrArg List.length h
      simp at this
      omega
    · simpa [List.getElem?_take, List.getElem?_drop] using this

private theorem bytesAt_take {buf : Bytes} {pos n k : Nat} (h : k ≤ n) : bytesAt buf pos k = (bytesAt buf pos n).take k := by
  unfold bytesAt; rw [List.take_take, Nat.min_eq_left h]

private theorem slice_data {buf : Bytes} {pos i j : Nat} (hij : i ≤ j) (h : pos + j ≤ buf.length) :
    slice (buf.drop pos) i j = .ok (bytesAt buf (pos + i) (j - i)) := by
  rw [slice_le hij (by rw [List.length_drop]; omega)]
  unfold bytesAt
  rw [List.drop_take, List.drop_drop]

/-- The first two bytes of a directory are not letters. -/
private theorem count_bytes {buf : Bytes} {pos n : Nat} {big : Bool} (h : bytesAt buf pos 2 = encode big 2 n) (hn : n ≤ 4000) (x y : UInt8)
    (hx : 16 ≤ x.toNat) (hy : 16 ≤ y.toNat) : bytesAt buf pos 2 ≠ [x, y] := by
  intro he
  have := congrArg (number big) (h.symm.trans he)
  rw [number_encode _ _ _ (by omega)] at this
  cases big <;> simp [number, numberLE] at this <;> omega

/-- The bytes at a position do not start with two given letters. -/
private def NotTwo (buf : Bytes) (pos : Nat) (x y : UInt8) : Prop := ∀ n t, bytesAt buf pos n ≠ x :: y :: t

private theorem notTwo_of {buf : Bytes} {pos n : Nat} {a c x y : UInt8} {t : Bytes} (h : bytesAt buf pos n = a :: c :: t)
    (hne : (a, c) ≠ (x, y)) : NotTwo buf pos x y := by
  intro m t' he
  obtain ⟨h1, h2⟩ := bytesAt_first h
  obtain ⟨h3, h4⟩ := bytesAt_first he
  rw [h1] at h3; rw [h2] at h4
  injection h3 with h3; injection h4 with h4
  exact hne (by rw [h3, h4])

private theorem notTwo_count {buf : Bytes} {pos n : Nat} {big : Bool} (h : bytesAt buf pos 2 = encode big 2 n) (hn : n ≤ 4000)
    (hl : pos + 2 ≤ buf.length) (x y : UInt8) (hx : 16 ≤ x.toNat) (hy : 16 ≤ y.toNat) : NotTwo buf pos x y := by
  intro m t he
  obtain ⟨h3, h4⟩ := bytesAt_first he
  refine count_bytes h hn x y hx hy ?_
  rw [bytesAt_two hl]
  rw [List.getElem?_eq_getElem (by omega)] at h3 h4
  injection h3 with h3; injection h4 with h4
  rw [h3, h4]

/-- The last part of `makernoteTarget`: an optional mark and then the directory. -/
private theorem mark_or_not {buf : Bytes} {pos skip n : Nat} {big : Bool} (hdir : pos + skip + 4 ≤ buf.length) :
    (bytesAt buf (pos + skip) 2 = encode big 2 n → n ≤ 4000 →
      (do
        let m ← slice (buf.drop pos) skip (skip + 2)
        let (off, endian) := if m = b! "II" then (skip + 2, LITTLE_ENDIAN) else (skip, Endian.mk big)
        let m ← slice (buf.drop pos) off (off + 2)
        let (off, endian) := if m = b! "MM" then (off + 2, BIG_ENDIAN) else (off, endian)
        (.ok (buf, pos + off, endian) : M (Bytes × Nat × Endian))) = .ok (buf, pos + skip, ⟨big⟩)) ∧
    ∀ big', bytesAt buf (pos + skip) 2 = orderMark big' → bytesAt buf (pos + skip + 2) 2 = encode big' 2 n → n ≤ 4000 →
      (do
        let m ← slice (buf.drop pos) skip (skip + 2)
        let (off, endian) := if m = b! "II" then (skip + 2, LITTLE_ENDIAN) else (skip, Endian.mk big)
        let m ← slice (buf.drop pos) off (off + 2)
        let (off, endian) := if m = b! "MM" then (off + 2, BIG_ENDIAN) else (off, endian)
        (.ok (buf, pos + off, endian) : M (Bytes × Nat × Endian))) = .ok (buf, pos + skip + 2, ⟨big'⟩) := by
  rw [slice_data (by omega) (by omega), ok_bind, Nat.add_sub_cancel_left]
  constructor
  · intro h hn
    rw [if_neg (count_bytes h hn _ _ (by decide) (by decide))]
    dsimp only
    rw [slice_data (by omega) (by omega), ok_bind, Nat.add_sub_cancel_left, if_neg (count_bytes h hn _ _ (by decide) (by decide))]
  · intro big' hm hc hn
    rw [hm]
    cases big'
    · rw [if_pos (by decide)]
      dsimp only
      rw [slice_data (by omega) (by omega), ok_bind, Nat.add_sub_cancel_left, ← Nat.add_assoc, if_neg (count_bytes hc hn _ _ (by decide) (by decide))]
      rfl
    · rw [if_neg (by decide)]
      dsimp only
      rw [slice_data (by omega) (by omega), ok_bind, Nat.add_sub_cancel_left, hm, if_pos (by decide)]
      rfl

/-- The directory of a maker note is found where the layouts put it. -/
private theorem note_target {buf buf' : Bytes} {pos pos' n : Nat} {big big' : Bool} (h : NoteAt big buf pos buf' pos' big')
    (hroom : pos + 12 ≤ buf.length) (hdir : pos' + 6 ≤ buf'.length) (hn : n ≤ 4000) (hc : bytesAt buf' pos' 2 = encode big' 2 n) :
    TiffIFD.makernoteTarget buf pos ⟨big⟩ = .ok (buf', pos', ⟨big'⟩) := by
  unfold TiffIFD.makernoteTarget
  rw [sliceFrom_le (by omega), ok_bind, slice_data (by omega) (by omega), ok_bind]
  rw [slice_data (by omega) (by omega), slice_data (by omega) (by omega), slice_data (by omega) (by omega)]
  simp only [ok_bind, Nat.add_zero, Nat.sub_zero]
  -- texts other than the one that is there
  have hO : NotTwo buf pos 0x4f 0x4c → bytesAt buf pos 5 ≠ b! "OLYMP" := fun h => h 5 _
  have hE : NotTwo buf pos 0x45 0x50 → bytesAt buf pos 5 ≠ b! "EPSON" := fun h => h 5 _
  have hA : NotTwo buf pos 0x41 0x4f → bytesAt buf pos 4 ≠ b! "AOC\x00" := fun h => h 4 _
  have hP : NotTwo buf pos 0x50 0x45 → bytesAt buf pos 6 ≠ b! "PENTAX" := fun h => h 6 _
  have hN : NotTwo buf pos 0x4e 0x69 → bytesAt buf pos 7 ≠ b! "Nikon\x00\x02" := fun h => h 7 _
  cases h with
  | pentax _ hb hm =>
    have two : ∀ x y, (0x50, 0x45) ≠ (x, y) → NotTwo buf pos x y := fun x y hne => notTwo_of hb hne
    simp only [if_neg (hO (two _ _ (by decide))), if_neg (hE (two _ _ (by decide))), if_neg (hA (two _ _ (by decide)))]
    rw [if_pos hb, slice_data (by omega) (by omega), ok_bind]
    rw [show bytesAt buf (pos + (0 + 8)) (0 + 10 - (0 + 8)) = _ from hm]
    cases big' <;> rfl
  | nikon _ hb hm =>
    have two : ∀ x y, (0x4e, 0x69) ≠ (x, y) → NotTwo buf pos x y := fun x y hne => notTwo_of hb hne
    simp only [if_neg (hO (two _ _ (by decide))), if_neg (hE (two _ _ (by decide))), if_neg (hA (two _ _ (by decide)))]
    rw [if_neg (hP (two _ _ (by decide))), if_pos hb, slice_data (by omega) (by omega), ok_bind,
      sliceFrom_le (by omega), ok_bind, show bytesAt buf (pos + (0 + 10)) (0 + 12 - (0 + 10)) = _ from hm, Nat.add_comm (0 + 10) pos]
    cases big' <;> rfl
  | headed head skip hh hb =>
    have fin := (mark_or_not (n := n) (big := big) (pos := pos) (skip := skip) (buf := buf) (by omega)).1 hc hn
    simp only [noteHeads, List.mem_cons, Prod.mk.injEq, List.not_mem_nil, or_false] at hh
    rcases hh with ⟨rfl, rfl⟩ | ⟨rfl, rfl⟩ | ⟨rfl, rfl⟩ | ⟨rfl, rfl⟩ | ⟨rfl, rfl⟩
    · have two : ∀ x y : UInt8, 16 ≤ x.toNat → 16 ≤ y.toNat → NotTwo buf pos x y := notTwo_count hc hn (by omega)
      simp only [if_neg (hO (two _ _ (by decide) (by decide))), if_neg (hE (two _ _ (by decide) (by decide))),
        if_neg (hA (two _ _ (by decide) (by decide))), if_neg (hP (two _ _ (by decide) (by decide))),
        if_neg (hN (two _ _ (by decide) (by decide)))]
      exact fin
    · have two : ∀ x y, (0x4f, 0x4c) ≠ (x, y) → NotTwo buf pos x y := fun x y hne => notTwo_of hb hne
      have h5 : bytesAt buf pos 5 = b! "OLYMP" := by rw [bytesAt_take (n := 7) (by omega)]; exact congrArg (List.take 5) hb
      have h7 : bytesAt buf pos 7 = b! "OLYMPUS" := hb
      simp only [if_pos h5, if_pos h7, if_neg (hE (two _ _ (by decide))), if_neg (hA (two _ _ (by decide))), if_neg (hP (two _ _ (by decide))),
        if_neg (hN (two _ _ (by decide)))]
      exact fin
    · have two : ∀ x y, (0x4f, 0x4c) ≠ (x, y) → NotTwo buf pos x y := fun x y hne => notTwo_of hb hne
      have h5 : bytesAt buf pos 5 = b! "OLYMP" := by rw [bytesAt_take (n := 6) (by omega)]; exact congrArg (List.take 5) hb
      have h7 : bytesAt buf pos 7 ≠ b! "OLYMPUS" := by
        intro h7
        have := congrArg (List.take 6) h7
        rw [← bytesAt_take (by omega), show bytesAt buf pos 6 = _ from hb] at this
        exact absurd this (by decide)
      simp only [if_pos h5, if_neg h7, if_neg (hE (two _ _ (by decide))), if_neg (hA (two _ _ (by decide))), if_neg (hP (two _ _ (by decide))),
        if_neg (hN (two _ _ (by decide)))]
      exact fin
    · have two : ∀ x y, (0x45, 0x50) ≠ (x, y) → NotTwo buf pos x y := fun x y hne => notTwo_of hb hne
      have h5 : bytesAt buf pos 5 = b! "EPSON" := hb
      simp only [if_neg (hO (two _ _ (by decide))), if_pos h5, if_neg (hA (two _ _ (by decide))), if_neg (hP (two _ _ (by decide))),
        if_neg (hN (two _ _ (by decide)))]
      exact fin
    · have two : ∀ x y, (0x41, 0x4f) ≠ (x, y) → NotTwo buf pos x y := fun x y hne => notTwo_of hb hne
      have h5 : bytesAt buf pos 4 = b! "AOC\x00" := hb
      simp only [if_neg (hO (two _ _ (by decide))), if_neg (hE (two _ _ (by decide))), if_pos h5, if_neg (hP (two _ _ (by decide))),
        if_neg (hN (two _ _ (by decide)))]
      exact fin
  | marked head skip _ hh hb hm =>
    have fin := (mark_or_not (n := n) (big := big) (pos := pos) (skip := skip) (buf := buf) (by omega)).2 _ hm hc hn
    simp only [noteHeads, List.mem_cons, Prod.mk.injEq, List.not_mem_nil, or_false] at hh
    rcases hh with ⟨rfl, rfl⟩ | ⟨rfl, rfl⟩ | ⟨rfl, rfl⟩ | ⟨rfl, rfl⟩ | ⟨rfl, rfl⟩
    · have two : ∀ x y : UInt8, (0x49, 0x49) ≠ (x, y) → (0x4d, 0x4d) ≠ (x, y) → NotTwo buf pos x y := by
        intro x y h1 h2
        cases big'
        · exact notTwo_of hm h1
        · exact notTwo_of hm h2
      simp only [if_neg (hO (two _ _ (by decide) (by decide))), if_neg (hE (two _ _ (by decide) (by decide))),
        if_neg (hA (two _ _ (by decide) (by decide))), if_neg (hP (two _ _ (by decide) (by decide))),
        if_neg (hN (two _ _ (by decide) (by decide)))]
      exact fin
    · have two : ∀ x y, (0x4f, 0x4c) ≠ (x, y) → NotTwo buf pos x y := fun x y hne => notTwo_of hb hne
      have h5 : bytesAt buf pos 5 = b! "OLYMP" := by rw [bytesAt_take (n := 7) (by omega)]; exact congrArg (List.take 5) hb
      have h7 : bytesAt buf pos 7 = b! "OLYMPUS" := hb
      simp only [if_pos h5, if_pos h7, if_neg (hE (two _ _ (by decide))), if_neg (hA (two _ _ (by decide))), if_neg (hP (two _ _ (by decide))),
        if_neg (hN (two _ _ (by decide)))]
      exact fin
    · have two : ∀ x y, (0x4f, 0x4c) ≠ (x, y) → NotTwo buf pos x y := fun x y hne => notTwo_of hb hne
      have h5 : bytesAt buf pos 5 = b! "OLYMP" := by rw [bytesAt_take (n := 6) (by omega)]; exact congrArg (List.take 5) hb
      have h7 : bytesAt buf pos 7 ≠ b! "OLYMPUS" := by
        intro h7
        have := congrArg (List.take 6) h7
        rw [← bytesAt_take (by omega), show bytesAt buf pos 6 = _ from hb] at this
        exact absurd this (by decide)
      simp only [if_pos h5, if_neg h7, if_neg (hE (two _ _ (by decide))), if_neg (hA (two _ _ (by decide))), if_neg (hP (two _ _ (by decide))),
        if_neg (hN (two _ _ (by decide)))]
      exact fin
    · have two : ∀ x y, (0x45, 0x50) ≠ (x, y) → NotTwo buf pos x y := fun x y hne => notTwo_of hb hne
      have h5 : bytesAt buf pos 5 = b! "EPSON" := hb
      simp only [if_neg (hO (two _ _ (by decide))), if_pos h5, if_neg (hA (two _ _ (by decide))), if_neg (hP (two _ _ (by decide))),
        if_neg (hN (two _ _ (by decide)))]
      exact fin
    · have two : ∀ x y, (0x41, 0x4f) ≠ (x, y) → NotTwo buf pos x y := fun x y hne => notTwo_of hb hne
      have h5 : bytesAt buf pos 4 = b! "AOC\x00" := hb
      simp only [if_neg (hO (two _ _ (by decide))), if_neg (hE (two _ _ (by decide))), if_pos h5, if_neg (hP (two _ _ (by decide))),
        if_neg (hN (two _ _ (by decide)))]
      exact fin

/-! ## Directories -/

/-- Directories read, one for each stored one. -/
def PairsWith (R : Nat → Field → Nat → Prop) (l : List (Nat × Dir)) (m : List TiffIFD) : Prop :=
  m.length = l.length ∧ ∀ (k : Nat) (s : Nat × Dir) (c : TiffIFD), l[k]? = some s → m[k]? = some c → HoldsWith R s.1 s.2 c

variable {R : Nat → Field → Nat → Prop}

theorem PairsWith.snoc {l : List (Nat × Dir)} {m : List TiffIFD} (h : PairsWith R l m) {s : Nat × Dir} {c : TiffIFD} (hs : HoldsWith R s.1 s.2 c) :
    PairsWith R (l ++ [s]) (m ++ [c]) := by
  refine ⟨by rw [List.length_append, List.length_append, h.1]; rfl, ?_⟩
  intro k s' c' h1 h2
  by_cases hk : k < l.length
  · rw [List.getElem?_append_left hk] at h1
    rw [List.getElem?_append_left (by rw [h.1]; exact hk)] at h2
    exact h.2 k s' c' h1 h2
  · rw [List.getElem?_append_right (by omega)] at h1
    rw [List.getElem?_append_right (by rw [h.1]; omega), h.1] at h2
    have hk0 : k - l.length = 0 := by
      by_cases h0 : k - l.length = 0
      · exact h0
      · rw [List.getElem?_eq_none (by simp; omega)] at h1; cases h1
    rw [hk0] at h1 h2
    injection h1 with h1; injection h2 with h2
    subst h1 h2
    exact hs

/-- What has been collected holds the fields seen so far. -/
structure Collected (R : Nat → Field → Nat → Prop) (start : Nat) (d : Dir) (s : TiffIFD.Acc) : Prop where
  absent : ∀ tag, knownField tag d = none → Map.get s.1 tag = none
  present : ∀ tag f, knownField tag d = some f → ∃ ent, Map.get s.1 tag = some ent ∧ Carries d.big f ent ∧ R ent.parentOffset f ent.doffset
  subs : PairsWith R (Dir.subdirsFrom (start, d)) s.2

private theorem field_snoc_plain (big : Bool) (l : List Item) (f : Field) (tag : Nat) :
    (Dir.mk big (l ++ [.plain f])).field tag = if f.tag = tag then some f else (Dir.mk big l).field tag := by
  unfold Dir.field
  simp only [Dir.items, List.filterMap_append, List.filterMap_cons, List.filterMap_nil, Item.plain?, List.reverse_append, List.reverse_cons,
    List.reverse_nil, List.nil_append, List.cons_append, List.find?_cons]
  by_cases h : f.tag = tag
  · rw [if_pos h, show (f.tag == tag) = true by simpa using h]
  · rw [if_neg h, show (f.tag == tag) = false by simpa using h]

private theorem field_snoc_other (big : Bool) (l : List Item) (it : Item) (h : it.plain? = none) (tag : Nat) :
    (Dir.mk big (l ++ [it])).field tag = (Dir.mk big l).field tag := by
  unfold Dir.field
  simp [Dir.items, h]

private theorem subdirs_snoc (start : Nat) (big : Bool) (l : List Item) (it : Item) :
    Dir.subdirsFrom (start, .mk big (l ++ [it])) = Dir.subdirsFrom (start, .mk big l) ++ it.dirsFrom start := by
  unfold Dir.subdirsFrom
  simp [Dir.items]

/-- An ordinary field is collected. -/
theorem Collected.plain {start : Nat} {big : Bool} {l : List Item} {s : TiffIFD.Acc} (h : Collected R start (.mk big l) s) {f : Field} {ent : TiffEntry}
    (hc : Carries big f ent ∧ R ent.parentOffset f ent.doffset) : Collected R start (.mk big (l ++ [.plain f])) (if f.tag ∈ knownTags then (Map.insert s.1 f.tag ent, s.2) else s) := by
  have hsub : Dir.subdirsFrom (start, .mk big (l ++ [.plain f])) = Dir.subdirsFrom (start, .mk big l) := by rw [subdirs_snoc]; exact List.append_nil _
  by_cases hk : f.tag ∈ knownTags
  · rw [if_pos hk]
    refine ⟨?_, ?_, by rw [hsub]; exact h.subs⟩
    · intro tag ht
      unfold knownField at ht
      rw [field_snoc_plain] at ht
      have hne : tag ≠ f.tag := by
        rintro rfl
        rw [if_pos hk, if_pos rfl] at ht
        cases ht
      rw [if_neg (fun h : f.tag = tag => hne h.symm)] at ht
      rw [Map.get_insert_ne _ _ hne]
      exact h.absent tag ht
    · intro tag g ht
      unfold knownField at ht
      rw [field_snoc_plain] at ht
      by_cases hne : tag = f.tag
      · subst hne
        rw [if_pos hk, if_pos rfl] at ht
        injection ht with ht
        subst ht
        exact ⟨ent, Map.get_insert_self _ _ _, hc⟩
      · rw [if_neg (fun h : f.tag = tag => hne h.symm)] at ht
        rw [Map.get_insert_ne _ _ hne]
        exact h.present tag g ht
  · rw [if_neg hk]
    have hf : ∀ tag, knownField tag (.mk big (l ++ [.plain f])) = knownField tag (.mk big l) := by
      intro tag
      unfold knownField
      rw [field_snoc_plain]
      by_cases ht : tag ∈ knownTags
      · rw [if_pos ht, if_pos ht, if_neg]
        rintro rfl
        exact hk ht
      · rw [if_neg ht, if_neg ht]
    exact ⟨fun tag ht => h.absent tag (by rw [← hf]; exact ht), fun tag g ht => h.present tag g (by rw [← hf]; exact ht),
      by rw [hsub]; exact h.subs⟩

/-- The directories of a field are collected. -/
theorem Collected.dirs {start : Nat} {big : Bool} {l : List Item} {s : TiffIFD.Acc} (h : Collected R start (.mk big l) s) {it : Item} (hit : it.plain? = none)
    {m : List TiffIFD} (hm : PairsWith R (Dir.subdirsFrom (start, .mk big l) ++ it.dirsFrom start) m) : Collected R start (.mk big (l ++ [it])) (s.1, m) := by
  have hf : ∀ tag, knownField tag (.mk big (l ++ [it])) = knownField tag (.mk big l) := by
    intro tag
    unfold knownField
    rw [field_snoc_other _ _ _ hit]
  exact ⟨fun tag ht => h.absent tag (by rw [← hf]; exact ht), fun tag g ht => h.present tag g (by rw [← hf]; exact ht),
    by rw [subdirs_snoc]; exact hm⟩

private theorem entry_parent {b : Build} {buf : Bytes} {pos base parent : Nat} {e : Endian} {ent : TiffEntry}
    (h : TiffEntry.new b buf pos base parent e = .ok ent) : ent.parentOffset = parent := by
  unfold TiffEntry.new at h
  obtain ⟨_, _, h⟩ := bind_eq_ok.mp h
  obtain ⟨_, _, h⟩ := bind_eq_ok.mp h
  obtain ⟨_, _, h⟩ := bind_eq_ok.mp h
  obtain ⟨_, _, h⟩ := bind_eq_ok.mp h
  dsimp only at h
  split at h
  · obtain ⟨_, _, h⟩ := bind_eq_ok.mp h
    obtain ⟨_, _, h⟩ := bind_eq_ok.mp h
    injection h with h
    rw [← h]
  · obtain ⟨_, _, h⟩ := bind_eq_ok.mp h
    obtain ⟨_, _, h⟩ := bind_eq_ok.mp h
    obtain ⟨_, _, h⟩ := bind_eq_ok.mp h
    injection h with h
    rw [← h]

private theorem carries_of {b : Build} {buf : Bytes} {pos parent : Nat} {e : Endian} {f : Field} (h : f.StoredAt e.big buf pos) :
    ∃ ent, TiffEntry.new b buf pos 0 parent e = .ok ent ∧ Carries e.big f ent ∧
      ent.doffset = (if (f.bytes e.big).length ≤ 4 then pos + 8 else number e.big (bytesAt buf (pos + 8) 4)) ∧ ent.parentOffset = parent := by
  obtain ⟨ent, a1, a2, a3, a4, a5, a6, a7, a8⟩ := tiff_field_roundtrip b buf pos parent e f h
  exact ⟨ent, a1, ⟨a2, a3, a4, a5, by rw [a6], a8⟩, a7, entry_parent a1⟩

private theorem stored_tag {buf : Bytes} {pos : Nat} {e : Endian} {f : Field} (h : f.StoredAt e.big buf pos) : e.ru16 buf pos = .ok f.tag := by
  rw [ru16_number (by have := h.room; omega), h.tag, number_encode _ _ _ (by have := h.tag_lt; omega)]

private theorem pointer_known : ∀ t ∈ subdirTags, t ∈ knownTags ∧ t ∈ TiffIFD.pointerTags := by decide

private theorem not_pointer {t : Nat} (h : t ∉ subdirTags) : t ∉ TiffIFD.pointerTags := by
  intro ht
  exact h (by simpa [subdirTags, TiffIFD.pointerTags, Tag.SubIFDs, Tag.ExifIFDPointer, Tag.RafRawSubIFD, Tag.KodakIFD, Tag.KdcIFD] using ht)

theorem no_field (big : Bool) {s : TiffIFD.Acc} : ∀ tag f, knownField tag (.mk big []) = some f →
    ∃ ent, Map.get s.1 tag = some ent ∧ Carries big f ent ∧ R ent.parentOffset f ent.doffset := by
  intro tag f hf
  unfold knownField at hf
  split at hf
  · cases hf
  · cases hf

/-- A stored directory is read back. -/
private theorem dir_read (b : Build) : ∀ (n m : Nat) (buf : Bytes) (pos start depth : Nat) (d : Dir) (next : Nat),
    n ≤ m → depth + n ≤ 11 → d.StoredWith R n buf pos next →
    ∃ ifd, TiffIFD.new b m buf pos 0 start depth ⟨d.big⟩ = .ok ifd ∧ ifd.nextifd = next ∧ HoldsWith R start d ifd := by
  intro n
  induction n with
  | zero => intro m buf pos start depth d next _ _ h; exact absurd h id
  | succ n ih =>
    intro m buf pos start depth d next hm hd h
    obtain ⟨m, rfl⟩ : ∃ k, m = k + 1 := ⟨m - 1, by omega⟩
    obtain ⟨big, items⟩ := d
    obtain ⟨hlen, hroom, hnext, hcount, hlast, hitems⟩ := h
    rw [TiffIFD.new]
    have e1 : (Endian.mk big).ru16 buf pos = .ok items.length := by
      rw [ru16_number (by omega), hcount, number_encode _ _ _ (by omega)]
    rw [show (Dir.mk big items).big = big from rfl, e1, ok_bind, if_neg (by omega)]
    obtain ⟨s, hs, hcol⟩ := forRange_inv (fun i s => Collected R start (.mk big (items.take i)) s) (Nat.zero_le items.length)
      (f := TiffIFD.entryStep b (fun buf o so d e => TiffIFD.new b m buf o 0 so d e) buf pos 0 start depth ⟨big⟩) (s := ([], []))
      ⟨fun tag _ => rfl, no_field big, ⟨rfl, fun k s c hk => by cases hk⟩⟩
      (by
        intro i s _ hi hcol
        have hit := hitems i items[i] (List.getElem?_eq_getElem hi)
        rw [List.take_succ_eq_append_getElem hi]
        generalize items[i] = it at hit
        unfold TiffIFD.entryStep
        dsimp only
        rw [show pos + 2 + i * 12 = pos + 2 + 12 * i by omega]
        cases it with
        | plain f =>
          obtain ⟨⟨hst, hp, hnt⟩, hR⟩ := hit
          obtain ⟨ent, hent, hcar, hdo, hpar⟩ := carries_of (b := b) (parent := pos) (e := ⟨big⟩) hst
          refine ⟨_, ?_, hcol.plain ⟨hcar, by rw [hpar, hdo]; exact hR⟩⟩
          rw [stored_tag (e := ⟨big⟩) hst, ok_bind]
          by_cases hk : f.tag ∈ knownTags
          · rw [if_neg (fun h => h hk), hent, ok_bind, if_pos hk]
            rw [if_neg (by rw [hcar.tag]; exact not_pointer hp), if_neg (by rw [hcar.tag]; exact hnt), hcar.tag]
          · rw [if_pos hk, if_neg hk]
        | pointer tag ds =>
          obtain ⟨htag, typ, offs, htyp, hl, hst, hds⟩ := hit
          obtain ⟨ent, hent, hcar, _⟩ := carries_of (b := b) (parent := pos) (e := ⟨big⟩) hst
          have hkn := pointer_known tag htag
          rw [stored_tag (e := ⟨big⟩) hst, ok_bind]
          dsimp only
          rw [if_neg (fun h => h hkn.1), hent, ok_bind, if_pos (by rw [hcar.tag]; exact hkn.2)]
          have hcnt : ent.count = offs.length := hcar.count
          by_cases hdep : depth < 10
          · rw [if_pos hdep, hcnt]
            obtain ⟨s', hs', hP⟩ := forRange_inv (fun k s' => s'.1 = s.1 ∧ PairsWith R (Dir.subdirsFrom (start, .mk big (items.take i)) ++ (ds.take k).map fun d => (start, d)) s'.2)
              (Nat.zero_le offs.length)
              (f := fun i s => do
                let o ← ent.getU32 i
                TiffIFD.keepIfd ent (TiffIFD.new b m buf o 0 start (depth + 1) ⟨big⟩) s) (s := s)
              ⟨rfl, by rw [List.take_zero, List.map_nil, List.append_nil]; exact hcol.subs⟩
              (by
                intro k s' _ hk hP
                have hk' : k < ds.length := by omega
                have hv := hcar.values (by
                  show typ ∈ _
                  simp only [List.mem_cons, List.not_mem_nil, or_false] at htyp
                  rcases htyp with h | h <;> rw [h] <;> decide) k hk
                rw [hv, ok_bind]
                obtain ⟨hbig, next', hsub⟩ := hds k _ _ (List.getElem?_eq_getElem hk) (List.getElem?_eq_getElem hk')
                obtain ⟨ifd, hifd, _, hh⟩ := ih m buf offs[k] start (depth + 1) ds[k] next' (by omega) (by omega) hsub
                rw [hbig] at hifd
                refine ⟨(s'.1, s'.2 ++ [ifd]), ?_, hP.1, ?_⟩
                · show TiffIFD.keepIfd ent (TiffIFD.new b m buf offs[k] 0 start (depth + 1) ⟨big⟩) s' = _
                  rw [hifd]
                  rfl
                · rw [List.take_succ_eq_append_getElem hk', List.map_append, ← List.append_assoc]
                  exact hP.2.snoc (s := (start, ds[k])) hh)
            refine ⟨s', hs', ?_⟩
            rw [hl, List.take_of_length_le (Nat.le_refl _)] at hP
            have := hcol.dirs (it := .pointer tag ds) rfl hP.2
            rw [← hP.1] at this
            exact this
          · rw [if_neg hdep]
            have hds0 : ds = [] := by
              cases hcase : ds with
              | nil => rfl
              | cons d0 ds' =>
                exfalso
                subst hcase
                have h0 : 0 < offs.length := by rw [hl]; exact Nat.succ_pos _
                obtain ⟨_, next', hsub⟩ := hds 0 offs[0] d0 (List.getElem?_eq_getElem h0) rfl
                have : n = 0 := by omega
                subst this
                exact hsub
            subst hds0
            refine ⟨s, rfl, ?_⟩
            exact hcol.dirs (it := .pointer tag []) rfl (by rw [show Item.dirsFrom start (.pointer tag []) = [] from rfl, List.append_nil]; exact hcol.subs)
        | note d0 =>
          obtain ⟨f, hft, hlong, hst, o, buf', pos', ho, ho32, horoom, hnote, next', hsub⟩ := hit
          obtain ⟨ent, hent, hcar, hdo, _⟩ := carries_of (b := b) (parent := pos) (e := ⟨big⟩) hst
          rw [stored_tag (e := ⟨big⟩) hst, ok_bind, hft]
          rw [if_neg (fun h => h (by decide)), hent, ok_bind, if_neg (by rw [hcar.tag, hft]; decide), if_pos (by rw [hcar.tag, hft]; rfl)]
          have hn0 : n ≠ 0 := by rintro rfl; exact hsub
          rw [if_pos (by omega)]
          dsimp only at hdo
          rw [if_neg (by omega), ho, number_encode _ _ _ ho32] at hdo
          rw [hdo]
          obtain ⟨ifd, hifd, _, hh⟩ := ih m buf' pos' 0 (depth + 1) d0 next' (by omega) (by omega) hsub
          have htgt : TiffIFD.makernoteTarget buf o ⟨big⟩ = .ok (buf', pos', ⟨d0.big⟩) := by
            obtain ⟨n, rfl⟩ : ∃ k, n = k + 1 := ⟨n - 1, by omega⟩
            obtain ⟨big0, items0⟩ := d0
            obtain ⟨g1, g2, _, g3, _⟩ := hsub
            exact note_target hnote horoom (by omega) g1 g3
          rw [htgt, ok_bind]
          dsimp only
          rw [hifd]
          exact ⟨(s.1, s.2 ++ [ifd]), rfl, hcol.dirs (it := .note d0) rfl (hcol.subs.snoc (s := (0, d0)) hh)⟩)
    rw [hs, ok_bind, show pos + (2 + items.length * 12) = pos + 2 + 12 * items.length by omega, ru32_number (by omega), hlast,
      number_encode _ _ _ (by omega), ok_bind]
    rw [List.take_of_length_le (Nat.le_refl _)] at hcol
    exact ⟨_, rfl, rfl, ⟨_, _, _, rfl, rfl, hcol.absent, hcol.present, hcol.subs.1, hcol.subs.2⟩⟩

/-- C63. A directory in a buffer that was taken out of a file, with positions counted from the start of the file, is read back. -/
theorem tiff_part_roundtrip (b : Build) (base : Nat) (buf : Bytes) (pos start : Nat) (big : Bool) (fields : List Field) (h : PlainDirAt base big buf pos fields) :
    ∃ ifd, TiffIFD.parse b buf pos base start ⟨big⟩ = .ok ifd ∧ Holds (.mk big (fields.map .plain)) ifd := by
  obtain ⟨hlen, hroom, hcount, hitems⟩ := h
  unfold TiffIFD.parse
  rw [TiffIFD.new]
  have e1 : (Endian.mk big).ru16 buf pos = .ok fields.length := by
    rw [ru16_number (by omega), hcount, number_encode _ _ _ (by omega)]
  rw [e1, ok_bind, if_neg (by omega)]
  obtain ⟨s, hs, hcol⟩ := forRange_inv (fun i s => Collected (fun _ _ _ => True) start (.mk big ((fields.take i).map .plain)) s) (Nat.zero_le fields.length)
    (f := TiffIFD.entryStep b (fun buf o so d e => TiffIFD.new b 10 buf o base so d e) buf pos base start 0 ⟨big⟩) (s := ([], []))
    ⟨fun tag _ => rfl, no_field (R := fun _ _ _ => True) big, ⟨rfl, fun k s c hk => by cases hk⟩⟩
    (by
      intro i s _ hi hcol
      obtain ⟨hst, hp, hnt⟩ := hitems i fields[i] (List.getElem?_eq_getElem hi)
      rw [List.take_succ_eq_append_getElem hi, List.map_append, List.map_singleton]
      generalize fields[i] = f at hst hp hnt
      unfold TiffIFD.entryStep
      dsimp only
      rw [show pos + 2 + i * 12 = pos + 2 + 12 * i by omega]
      obtain ⟨ent, hent, a2, a3, a4, a5, a6, _, a8⟩ := tiff_field_from b buf (pos + 2 + 12 * i) base pos ⟨big⟩ f hst
      have hcar : Carries big f ent := ⟨a2, a3, a4, a5, by rw [a6], a8⟩
      refine ⟨_, ?_, hcol.plain ⟨hcar, trivial⟩⟩
      have htag : (Endian.mk big).ru16 buf (pos + 2 + 12 * i) = .ok f.tag := by
        rw [ru16_number (by have := hst.room; omega), hst.tag, number_encode _ _ _ (by have := hst.tag_lt; omega)]
      rw [htag, ok_bind]
      by_cases hk : f.tag ∈ knownTags
      · rw [if_neg (fun h => h hk), hent, ok_bind, if_pos hk]
        rw [if_neg (by rw [hcar.tag]; exact not_pointer hp), if_neg (by rw [hcar.tag]; exact hnt), hcar.tag]
      · rw [if_pos hk, if_neg hk])
  rw [hs, ok_bind, show pos + (2 + fields.length * 12) = pos + 2 + 12 * fields.length by omega, ru32_number (by omega), ok_bind]
  rw [List.take_of_length_le (Nat.le_refl _)] at hcol
  exact ⟨_, rfl, HoldsWith.holds (R := fun _ _ _ => True) (start := start) ⟨_, _, _, rfl, rfl, hcol.absent, hcol.present, hcol.subs.1, hcol.subs.2⟩⟩

/-- C63. A directory at any position, with its sub-directories, is read back. -/
theorem tiff_dir_roundtrip (b : Build) (buf : Bytes) (pos start : Nat) (d : Dir) (next : Nat) (h : d.StoredAt 11 buf pos next) :
    ∃ ifd, TiffIFD.parse b buf pos 0 start ⟨d.big⟩ = .ok ifd ∧ Holds d ifd := by
  obtain ⟨ifd, h1, _, h3⟩ := dir_read b 11 11 buf pos start 0 d next (by omega) (by omega) (stored_with_any _ _ _ _ _ h)
  exact ⟨ifd, h1, h3.holds⟩

/-- Chained directories are read back. -/
private theorem chain_read (b : Build) (buf : Bytes) (start : Nat) (big : Bool) : ∀ (dirs : List Dir) (n pos : Nat) (l : List (Nat × Dir)) (acc : List TiffIFD),
    dirs.length ≤ n → ChainedWith R 11 big buf pos dirs → PairsWith R l acc →
    ∃ ifds, TiffIFD.chain b buf start ⟨big⟩ n pos acc = .ok ifds ∧ PairsWith R (l ++ dirs.map fun d => (start, d)) ifds := by
  intro dirs
  induction dirs with
  | nil => intro n pos l acc _ h; exact absurd h id
  | cons d rest ih =>
    intro n pos l acc hn h hp
    obtain ⟨n, rfl⟩ : ∃ k, n = k + 1 := ⟨n - 1, by simp at hn; omega⟩
    rw [TiffIFD.chain, TiffIFD.parse]
    obtain ⟨hbig, h⟩ := h
    cases hrest : rest with
    | nil =>
      subst hrest
      obtain ⟨ifd, hifd, hnx, hh⟩ := dir_read b 11 11 buf pos start 0 d 0 (by omega) (by omega) h
      rw [hbig] at hifd
      rw [hifd, ok_bind, if_pos hnx]
      exact ⟨_, rfl, hp.snoc (s := (start, d)) hh⟩
    | cons d' rest' =>
      subst hrest
      obtain ⟨next, hne, hst, hch⟩ := h
      obtain ⟨ifd, hifd, hnx, hh⟩ := dir_read b 11 11 buf pos start 0 d next (by omega) (by omega) hst
      rw [hbig] at hifd
      rw [hifd, ok_bind, if_neg (by rw [hnx]; exact hne), hnx]
      obtain ⟨ifds, h1, h2⟩ := ih n next (l ++ [(start, d)]) (acc ++ [ifd]) (by simp at hn ⊢; omega) hch (hp.snoc (s := (start, d)) hh)
      exact ⟨ifds, h1, by rw [List.append_assoc] at h2; exact h2⟩

/-- The same, with the positions. -/
theorem tiff_file_positions (b : Build) (buf : Bytes) (offset : Nat) (big : Bool) (dirs : List Dir) (ho : offset ≤ buf.length)
    (h : TiffFileWith R 11 big (buf.drop offset) dirs) (hn : dirs.length ≤ 100) :
    ∃ root, TiffIFD.newRoot b buf offset = .ok root ∧ HoldsWith R offset (fileRoot big dirs) root := by
  obtain ⟨pos, hpos, hfirst, hch⟩ := h.first
  have hroom := h.room
  rw [List.length_drop] at hroom
  have shift : ∀ i n, bytesAt (buf.drop offset) i n = bytesAt buf (offset + i) n := by
    intro i n; unfold bytesAt; rw [List.drop_drop]
  unfold TiffIFD.newRoot
  have e1 : LEu16 buf offset = .ok (number false (orderMark big)) := by
    rw [← h.mark, shift]
    exact ru16_number (e := LITTLE_ENDIAN) (by omega)
  have e2 : TiffIFD.markerEndian (number false (orderMark big)) = .ok ⟨big⟩ := by cases big <;> decide
  have e3 : (Endian.mk big).ru32 buf (offset + 4) = .ok pos := by
    rw [ru32_number (by omega), ← shift, hfirst, number_encode _ _ _ (by omega)]
  rw [e1, ok_bind, e2, ok_bind, e3, ok_bind, sliceFrom_le ho, ok_bind]
  obtain ⟨ifds, h1, h2⟩ := chain_read b (buf.drop offset) offset big dirs 100 pos [] [] hn hch ⟨rfl, fun k s c hk => by cases hk⟩
  rw [h1, ok_bind]
  have hsub : Dir.subdirsFrom (offset, fileRoot big dirs) = dirs.map fun d => (offset, d) := by
    unfold fileRoot Dir.subdirsFrom
    simp [Dir.items, Item.dirsFrom]
  refine ⟨_, rfl, ⟨_, _, _, rfl, rfl, fun _ _ => rfl, ?_, by rw [hsub]; exact h2.1, by rw [hsub]; exact h2.2⟩⟩
  intro tag f hf
  unfold knownField at hf
  split at hf
  · cases hf
  · cases hf

/-- C63. A file of at most 100 chained directories with at most ten levels of sub-directories and maker notes, in either byte
order and starting anywhere in the buffer, is read back: a directory without entries whose sub-directories are the chained ones,
each with exactly the stored fields that have a known tag and with the stored sub-directories in their order. -/
theorem tiff_file_roundtrip (b : Build) (buf : Bytes) (offset : Nat) (big : Bool) (dirs : List Dir) (ho : offset ≤ buf.length)
    (h : TiffFile 11 big (buf.drop offset) dirs) (hn : dirs.length ≤ 100) :
    ∃ root, TiffIFD.newRoot b buf offset = .ok root ∧ root.startOffset = offset ∧ Holds (fileRoot big dirs) root := by
  obtain ⟨root, h1, h2⟩ := tiff_file_positions b buf offset big dirs ho (tiff_with_any h) hn
  exact ⟨root, h1, by cases h2 with | mk _ _ _ _ from_ _ _ _ _ => exact from_, h2.holds⟩

/-! ## Lookup -/

/-- The field of a directory with a known tag, and the byte order. -/
def orderedField (tag : Nat) (d : Dir) : Option (Bool × Field) := (knownField tag d).map fun f => (d.big, f)

theorem holds_path {d : Dir} {ifd : TiffIFD} (h : Holds d ifd) (p : List Nat) :
    (∀ d', atPath Dir.subdirs d p = some d' → ∃ c, atPath TiffIFD.subifds ifd p = some c ∧ Holds d' c) ∧
    (∀ c, atPath TiffIFD.subifds ifd p = some c → ∃ d', atPath Dir.subdirs d p = some d' ∧ Holds d' c) := by
  induction p generalizing d ifd with
  | nil =>
    refine ⟨fun d' hd => ⟨ifd, rfl, ?_⟩, fun c hc => ⟨d, rfl, ?_⟩⟩
    · injection hd with hd; rw [← hd]; exact h
    · injection hc with hc; rw [← hc]; exact h
  | cons i p ih =>
    cases h with
    | mk _ _ order absent present number subs =>
      by_cases hi : i < d.subdirs.length
      · have hi' : i < ifd.subifds.length := by omega
        have e1 := List.getElem?_eq_getElem hi
        have e2 := List.getElem?_eq_getElem hi'
        have := ih (subs i _ _ e1 e2)
        simp only [atPath, e1, e2]
        exact this
      · have hi' : ¬ i < ifd.subifds.length := by omega
        simp only [atPath, List.getElem?_eq_none (Nat.le_of_not_lt hi), List.getElem?_eq_none (Nat.le_of_not_lt hi')]
        exact ⟨fun d' hd => (by cases hd), fun c hc => (by cases hc)⟩

/-- C63. Looking a tag up in what has been read gives the field with that tag of the first stored directory, in document order,
that has one. -/
theorem tiff_lookup_stored {d : Dir} {ifd : TiffIFD} (h : Holds d ifd) (tag : Nat) (big : Bool) (f : Field)
    (hf : FirstIn Dir.subdirs (orderedField tag) d (big, f)) :
    ∃ ent, TiffIFD.findEntry tag ifd = some ent ∧ Carries big f ent := by
  obtain ⟨p, d', hp, hget, hbefore⟩ := hf
  obtain ⟨c, hc, hh⟩ := (holds_path h p).1 d' hp
  unfold orderedField at hget
  cases hk : knownField tag d' with
  | none => rw [hk] at hget; cases hget
  | some g =>
    rw [hk] at hget
    injection hget with hget
    injection hget with hb hg
    obtain ⟨ent, he, hcar⟩ : ∃ ent, Map.get c.entries tag = some ent ∧ Carries d'.big g ent := by
      cases hh with | mk _ _ _ _ present _ _ => exact present tag g hk
    rw [hb, hg] at hcar
    refine ⟨ent, (find_entry_first tag ifd ent).mpr ⟨p, c, hc, he, ?_⟩, hcar⟩
    intro q c' hq hc'
    obtain ⟨d'', hd'', hh'⟩ := (holds_path h q).2 c' hc'
    have hnone := hbefore q d'' hq hd''
    unfold orderedField at hnone
    cases hk' : knownField tag d'' with
    | some _ => rw [hk'] at hnone; cases hnone
    | none => cases hh' with | mk _ _ _ absent _ _ _ => exact absent tag hk'

/-- C63. A tag that no stored directory has, or that the code has no name for, is not found. -/
theorem tiff_lookup_missing {d : Dir} {ifd : TiffIFD} (h : Holds d ifd) (tag : Nat) (hf : NoneIn Dir.subdirs (knownField tag) d) :
    TiffIFD.findEntry tag ifd = none := by
  refine (find_entry_none tag ifd).mpr ?_
  rintro c ⟨p, hc⟩
  obtain ⟨d', hd', hh⟩ := (holds_path h p).2 c hc
  cases hh with | mk _ _ _ absent _ _ _ => exact absent tag (hf d' ⟨p, hd'⟩)

/-- C63, for a whole file: opening it gives a tree in which every lookup gives the stored field. -/
theorem tiff_open_and_look (b : Build) (buf : Bytes) (big : Bool) (dirs : List Dir) (h : TiffFile 11 big buf dirs) (hn : dirs.length ≤ 100) :
    ∃ root, TiffIFD.newFile b buf = .ok root ∧
      (∀ tag big' f, FirstIn Dir.subdirs (orderedField tag) (fileRoot big dirs) (big', f) →
        ∃ ent, TiffIFD.findEntry tag root = some ent ∧ Carries big' f ent) ∧
      (∀ tag, NoneIn Dir.subdirs (knownField tag) (fileRoot big dirs) → TiffIFD.findEntry tag root = none) := by
  obtain ⟨root, hroot, _, hh⟩ := tiff_file_roundtrip b buf 0 big dirs (Nat.zero_le _) h hn
  refine ⟨root, ?_, fun tag big' f => tiff_lookup_stored hh tag big' f, fun tag => tiff_lookup_missing hh tag⟩
  unfold TiffIFD.newFile
  rw [slice_le (by omega) h.room, ok_bind, if_neg, hroot]
  intro hm
  have : bytesAt buf 0 2 = [0x46, 0x55] := by
    unfold bytesAt
    have := congrArg (List.take 2) hm
    rw [List.drop_zero, List.take_take] at this
    exact this
  rw [h.mark] at this
  cases big <;> exact absurd this (by decide)

/-! ## A file -/

section Example

/-- A big endian file with one directory at 8: a width, a pointer to a directory at 62 with a length and no maker note, a tag
without a name, and a Nikon maker note in little endian order. -/
private def exampleFile : Bytes :=
  [0x4d, 0x4d, 0, 42, 0, 0, 0, 8] ++
  -- 8: four fields
  [0, 4] ++
  [1, 0, 0, 3, 0, 0, 0, 1, 2, 0x80, 0, 0] ++             -- width 640
  [0x01, 0x4a, 0, 4, 0, 0, 0, 1, 0, 0, 0, 62] ++          -- directory at 62
  [0x12, 0x34, 0, 1, 0, 0, 0, 1, 7, 0, 0, 0] ++           -- a tag without a name
  [0x92, 0x7c, 0, 7, 0, 0, 0, 36, 0, 0, 0, 80] ++         -- maker note at 80
  [0, 0, 0, 0] ++
  -- 62: one field
  [0, 1] ++
  [1, 1, 0, 4, 0, 0, 0, 1, 0, 0, 1, 0xe0] ++              -- length 480
  [0, 0, 0, 0] ++
  -- 80
  [0x4e, 0x69, 0x6b, 0x6f, 0x6e, 0, 2, 0, 0, 0] ++ [0x49, 0x49, 42, 0, 8, 0, 0, 0] ++
  [1, 0] ++ [0x0c, 0, 3, 0, 1, 0, 0, 0, 5, 1, 0, 0] ++ [0, 0, 0, 0]

private def exampleNote : Dir := .mk false [.plain ⟨0x0c, 3, [0x105]⟩]
private def exampleSub : Dir := .mk true [.plain ⟨0x101, 4, [480]⟩]
private def exampleDir : Dir := .mk true [.plain ⟨0x100, 3, [640]⟩, .pointer 0x14a [exampleSub], .plain ⟨0x1234, 1, [7]⟩, .note exampleNote]

private theorem exampleNote_stored : exampleNote.StoredAt 10 (exampleFile.drop 90) 8 0 := by
  refine ⟨by decide, by decide, by decide, by decide, by decide, ?_⟩
  intro i it hi
  match i with
  | 0 =>
    injection hi with hi
    subst hi
    exact ⟨⟨by decide, by decide, by decide, by decide, by decide, by decide, by decide, by decide, fun _ => by decide, fun h => absurd h (by decide)⟩,
      by decide, by decide⟩
  | i + 1 => cases hi

private theorem exampleSub_stored : exampleSub.StoredAt 10 exampleFile 62 0 := by
  refine ⟨by decide, by decide, by decide, by decide, by decide, ?_⟩
  intro i it hi
  match i with
  | 0 =>
    injection hi with hi
    subst hi
    exact ⟨⟨by decide, by decide, by decide, by decide, by decide, by decide, by decide, by decide, fun _ => by decide, fun h => absurd h (by decide)⟩,
      by decide, by decide⟩
  | i + 1 => cases hi

/-- The bytes after the width are those of the directories above. -/
private theorem example_stored : TiffFile 11 true exampleFile [exampleDir] := by
  refine ⟨by decide, by decide, 8, by decide, by decide, rfl, ?_⟩
  refine ⟨by decide, by decide, by decide, by decide, by decide, ?_⟩
  intro i it hi
  match i with
  | 0 =>
    injection hi with hi
    subst hi
    exact ⟨⟨by decide, by decide, by decide, by decide, by decide, by decide, by decide, by decide, fun _ => by decide, fun h => absurd h (by decide)⟩,
      by decide, by decide⟩
  | 1 =>
    injection hi with hi
    subst hi
    refine ⟨by decide, 4, [62], by decide, rfl,
      ⟨by decide, by decide, by decide, by decide, by decide, by decide, by decide, by decide, fun _ => by decide, fun h => absurd h (by decide)⟩, ?_⟩
    intro k o d hk hd
    match k with
    | 0 =>
      injection hk with hk; injection hd with hd
      subst hk hd
      exact ⟨rfl, 0, exampleSub_stored⟩
    | k + 1 => cases hk
  | 2 =>
    injection hi with hi
    subst hi
    exact ⟨⟨by decide, by decide, by decide, by decide, by decide, by decide, by decide, by decide, fun _ => by decide, fun h => absurd h (by decide)⟩,
      by decide, by decide⟩
  | 3 =>
    injection hi with hi
    subst hi
    refine ⟨⟨0x927c, 7, (exampleFile.drop 80).map UInt8.toNat⟩, rfl, by decide +kernel, ?_, 80, _, _, by decide, by decide, by decide,
      .nikon false (by decide) (by decide), 0, exampleNote_stored⟩
    exact ⟨by decide, by decide, by decide, by decide +kernel, by decide, by decide, by decide, by decide, fun h => absurd h (by decide +kernel),
      fun _ => ⟨80, by decide, by decide, by decide +kernel⟩⟩
  | i + 4 => cases hi

/-- The length is found in the sub-directory, the white balance in the maker note, and the tag without a name nowhere. -/
example : ∃ root, TiffIFD.newFile .debug exampleFile = .ok root ∧
    (∃ ent, TiffIFD.findEntry 0x101 root = some ent ∧ ent.getU32 0 = .ok 480) ∧
    (∃ ent, TiffIFD.findEntry 0x0c root = some ent ∧ ent.getU32 0 = .ok 0x105) := by
  obtain ⟨root, h1, h2, _⟩ := tiff_open_and_look .debug exampleFile true [exampleDir] example_stored (by decide)
  refine ⟨root, h1, ?_, ?_⟩
  · have key : FirstIn Dir.subdirs (orderedField 0x101) (fileRoot true [exampleDir]) (true, ⟨0x101, 4, [480]⟩) := by
      refine ⟨[0, 0], exampleSub, rfl, rfl, ?_⟩
      intro q d'' hq hd''
      match q with
      | [] => obtain rfl : fileRoot true [exampleDir] = d'' := Option.some.inj hd''; rfl
      | [0] => obtain rfl : exampleDir = d'' := Option.some.inj hd''; rfl
      | 0 :: 0 :: q => simp [List.cons_lt_cons_iff] at hq
      | 0 :: (k + 1) :: q => simp [List.cons_lt_cons_iff] at hq
      | (k + 1) :: q => simp [List.cons_lt_cons_iff] at hq
    obtain ⟨ent, e1, e2⟩ := h2 _ _ _ key
    exact ⟨ent, e1, e2.values (by decide) 0 (by decide)⟩
  · have key : FirstIn Dir.subdirs (orderedField 0x0c) (fileRoot true [exampleDir]) (false, ⟨0x0c, 3, [0x105]⟩) := by
      refine ⟨[0, 1], exampleNote, rfl, rfl, ?_⟩
      intro q d'' hq hd''
      match q with
      | [] => obtain rfl : fileRoot true [exampleDir] = d'' := Option.some.inj hd''; rfl
      | [0] => obtain rfl : exampleDir = d'' := Option.some.inj hd''; rfl
      | [0, 0] => obtain rfl : exampleSub = d'' := Option.some.inj hd''; rfl
      | 0 :: 0 :: (k + 0) :: q => cases hd''
      | 0 :: (k + 1) :: q => simp [List.cons_lt_cons_iff] at hq
      | (k + 1) :: q => simp [List.cons_lt_cons_iff] at hq
    obtain ⟨ent, e1, e2⟩ := h2 _ _ _ key
    exact ⟨ent, e1, e2.values (by decide) 0 (by decide)⟩

end Example

end Props

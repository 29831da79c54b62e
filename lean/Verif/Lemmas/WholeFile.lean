import Verif.Props.TiffFile
import Verif.Props.Dispatch
/-!
# Lemmas about whole files
-/

namespace Props
open Rust Spec Model

/-! ## Zeros after the end of the file -/

theorem bytesAt_append {buf pad : Bytes} {pos n : Nat} (h : pos + n ≤ buf.length) : bytesAt (buf ++ pad) pos n = bytesAt buf pos n := by
  unfold bytesAt
  rw [List.drop_append_of_le_length (by omega), List.take_append_of_le_length (by rw [List.length_drop]; omega)]

/-- Bytes that are known are inside. -/
theorem bytesAt_known {buf : Bytes} {pos n : Nat} {l : Bytes} (h : bytesAt buf pos n = l) (hl : l.length = n) (hn : 0 < n) : pos + n ≤ buf.length := by
  have := congrArg List.length h
  unfold bytesAt at this
  rw [List.length_take, List.length_drop] at this
  omega

theorem bytesAt_pad {buf pad : Bytes} {pos n : Nat} {l : Bytes} (h : bytesAt buf pos n = l) (hl : l.length = n) : bytesAt (buf ++ pad) pos n = l := by
  rcases Nat.eq_zero_or_pos n with rfl | hn
  · rw [List.length_eq_zero_iff] at hl; subst hl; unfold bytesAt; simp
  · rw [bytesAt_append (bytesAt_known h hl hn), h]

theorem encode_length (big : Bool) (n v : Nat) : (encode big n v).length = n := by
  have : ∀ n v, (encodeLE n v).length = n := by
    intro n
    induction n with
    | zero => intro v; rfl
    | succ n ih => intro v; simp [encodeLE, ih]
  unfold encode
  split <;> simp [this]

theorem orderMark_length (big : Bool) : (orderMark big).length = 2 := by cases big <;> rfl

theorem field_pad {big : Bool} {buf pad : Bytes} {pos : Nat} {f : Field} (h : f.StoredAt big buf pos) : f.StoredAt big (buf ++ pad) pos where
  tag_lt := h.tag_lt
  typ_ok := h.typ_ok
  count_lt := h.count_lt
  fits := h.fits
  tag := bytesAt_pad h.tag (encode_length _ _ _)
  typ := bytesAt_pad h.typ (encode_length _ _ _)
  count := bytesAt_pad h.count (encode_length _ _ _)
  room := by have := h.room; simp; omega
  inline := fun hl => bytesAt_pad (h.inline hl) rfl
  outside := fun hl => by
    obtain ⟨o, h1, h2, h3⟩ := h.outside hl
    exact ⟨o, h1, bytesAt_pad h2 (encode_length _ _ _), bytesAt_pad h3 rfl⟩

theorem dir_pad (pad : Bytes) : ∀ (n : Nat) (buf : Bytes) (pos : Nat) (d : Dir) (next : Nat), d.StoredAt n buf pos next →
    d.StoredAt n (buf ++ pad) pos next := by
  intro n
  induction n with
  | zero => intro buf pos d next h; exact h
  | succ n ih =>
    intro buf pos d next h
    obtain ⟨big, items⟩ := d
    obtain ⟨h1, h2, h3, h4, h5, h6⟩ := h
    refine ⟨h1, by simp; omega, h3, bytesAt_pad h4 (encode_length _ _ _), bytesAt_pad h5 (encode_length _ _ _), ?_⟩
    intro i it hi
    have hit := h6 i it hi
    cases it with
    | plain f => exact ⟨field_pad hit.1, hit.2⟩
    | pointer tag ds =>
      obtain ⟨ht, typ, offs, h7, h8, h9, h10⟩ := hit
      refine ⟨ht, typ, offs, h7, h8, field_pad h9, ?_⟩
      intro k o d' ho hd'
      obtain ⟨hb, next', hs⟩ := h10 k o d' ho hd'
      exact ⟨hb, next', ih _ _ _ _ hs⟩
    | note d' =>
      obtain ⟨f, h7, h8, h9, o, buf', pos', h10, h11, h12, hn, next', hs⟩ := hit
      have hs' := ih _ _ _ _ hs
      refine ⟨f, h7, h8, field_pad h9, o, buf' ++ pad, pos', bytesAt_pad h10 (encode_length _ _ _), h11, by simp; omega, ?_, next', hs'⟩
      generalize hdb : d'.big = db at hn
      cases hn with
      | headed head skip hh hb => exact .headed head skip hh (bytesAt_pad hb rfl)
      | marked head skip _ hh hb hm => exact .marked head skip _ hh (bytesAt_pad hb rfl) (bytesAt_pad hm (orderMark_length _))
      | pentax _ hb hm =>
        have := bytesAt_known hm (orderMark_length _) (by omega)
        rw [← List.drop_append_of_le_length (by omega)]
        exact .pentax _ (bytesAt_pad hb rfl) (bytesAt_pad hm (orderMark_length _))
      | nikon _ hb hm =>
        have := bytesAt_known hm (orderMark_length _) (by omega)
        rw [← List.drop_append_of_le_length (by omega)]
        exact .nikon _ (bytesAt_pad hb rfl) (bytesAt_pad hm (orderMark_length _))

theorem chain_pad (pad : Bytes) (n : Nat) (big : Bool) (buf : Bytes) : ∀ (dirs : List Dir) (pos : Nat), ChainedAt n big buf pos dirs →
    ChainedAt n big (buf ++ pad) pos dirs := by
  intro dirs
  induction dirs with
  | nil => intro pos h; exact h
  | cons d rest ih =>
    intro pos h
    obtain ⟨hb, h⟩ := h
    cases rest with
    | nil => exact ⟨hb, dir_pad pad _ _ _ _ _ h⟩
    | cons d' rest' =>
      obtain ⟨next, h1, h2, h3⟩ := h
      exact ⟨hb, next, h1, dir_pad pad _ _ _ _ _ h2, ih _ h3⟩

theorem tiff_pad (pad : Bytes) {n : Nat} {big : Bool} {buf : Bytes} {dirs : List Dir} (h : TiffFile n big buf dirs) : TiffFile n big (buf ++ pad) dirs := by
  obtain ⟨h1, h2, pos, h3, h4, h5⟩ := h
  exact ⟨by simp; omega, bytesAt_pad h2 (orderMark_length _), pos, h3, bytesAt_pad h4 (encode_length _ _ _), chain_pad pad _ _ _ _ _ h5⟩

/-! ## Texts -/

private theorem takeWhile_text {l rest : Bytes} (h : ∀ c ∈ l, c ≠ 0) (hr : rest = [] ∨ rest.head? = some 0) :
    (l ++ rest).takeWhile (· ≠ 0) = l := by
  induction l with
  | nil =>
    rcases hr with rfl | hr
    · rfl
    · cases rest with
      | nil => rfl
      | cons a t => injection hr with hr; subst hr; rfl
  | cons a t ih =>
    rw [List.cons_append, List.takeWhile_cons, if_pos (by simpa using h a (by simp)), ih fun c hc => h c (by simp [hc])]

theorem ascii_valid (l : Bytes) (h : ∀ c ∈ l, c < 0x80) : utf8Valid l = true := by
  unfold utf8Valid
  induction l with
  | nil => rfl
  | cons a t ih =>
    unfold utf8From utf8Step
    rw [if_pos rfl, if_pos (h a (by simp))]
    exact ih fun c hc => h c (by simp [hc])

/-- A word list whose words are none of the bytes from 33 to 126 alone, and that has the space. -/
structure Blanks (ws : List Bytes) : Prop where
  space : ∀ t, ws.find? (fun w => w.isPrefixOf (32 :: t)) = some [32]
  other : ∀ c t, 33 ≤ c → c < 127 → ws.find? (fun w => w.isPrefixOf (c :: t)) = none
  nil : ws.find? (fun w => w.isPrefixOf []) = none

private theorem blanks_of {ws : List Bytes} (pre post : List Bytes) (he : ws = pre ++ [32] :: post)
    (hpre : ∀ w ∈ pre, ∃ a t, w = a :: t ∧ (a < 32 ∨ 127 ≤ a)) (hpost : ∀ w ∈ post, ∃ a t, w = a :: t ∧ (a < 32 ∨ 127 ≤ a)) : Blanks ws := by
  have no : ∀ (l : List Bytes) (c : UInt8) (t : Bytes), 32 ≤ c → c < 127 → (∀ w ∈ l, ∃ a t, w = a :: t ∧ (a < 32 ∨ 127 ≤ a)) →
      l.find? (fun w => w.isPrefixOf (c :: t)) = none := by
    intro l c t h1 h2 hl
    rw [List.find?_eq_none]
    intro w hw
    obtain ⟨a, t', rfl, ha⟩ := hl w hw
    simp only [List.isPrefixOf, Bool.and_eq_true, beq_iff_eq, not_and]
    rintro rfl
    rw [UInt8.le_iff_toNat_le] at h1
    rw [UInt8.lt_iff_toNat_lt] at h2
    rcases ha with ha | ha
    · rw [UInt8.lt_iff_toNat_lt] at ha; omega
    · rw [UInt8.le_iff_toNat_le] at ha; omega
  refine ⟨fun t => ?_, fun c t h1 h2 => ?_, ?_⟩
  · rw [he, List.find?_append, no pre 32 t (by decide) (by decide) hpre]
    rfl
  · have h1' : (32 : UInt8) ≤ c := by
      rw [UInt8.le_iff_toNat_le] at h1 ⊢
      have : (33 : UInt8).toNat = 33 := rfl
      have : (32 : UInt8).toNat = 32 := rfl
      omega
    rw [he, List.find?_append, no pre c t h1' h2 hpre, List.find?_cons, no post c t h1' h2 hpost]
    have : List.isPrefixOf [32] (c :: t) = false := by
      simp only [List.isPrefixOf, Bool.and_true]
      rw [beq_eq_false_iff_ne]
      rintro rfl
      exact absurd h1 (by decide)
    rw [this]
    rfl
  · rw [List.find?_eq_none]
    intro w hw
    rw [he] at hw
    rcases List.mem_append.mp hw with h | h
    · obtain ⟨a, t, rfl, _⟩ := hpre w h; simp [List.isPrefixOf]
    · rcases List.mem_cons.mp h with h | h
      · subst h; simp [List.isPrefixOf]
      · obtain ⟨a, t, rfl, _⟩ := hpost w h; simp [List.isPrefixOf]

private theorem starts_of (l : List Bytes) (h : (l.all fun w => match w with | [] => false | a :: _ => decide (a < 32 ∨ 127 ≤ a)) = true) :
    ∀ w ∈ l, ∃ a t, w = a :: t ∧ (a < 32 ∨ 127 ≤ a) := by
  intro w hw
  have := List.all_eq_true.mp h w hw
  cases w with
  | nil => simp at this
  | cons a t => exact ⟨a, t, rfl, by simpa using this⟩

theorem blanks_whitespace : Blanks whitespace :=
  blanks_of (whitespace.take 5) (whitespace.drop 6) (by decide) (starts_of _ (by decide)) (starts_of _ (by decide))

theorem blanks_reversed : Blanks (whitespace.map List.reverse) :=
  blanks_of ((whitespace.map List.reverse).take 5) ((whitespace.map List.reverse).drop 6) (by decide) (starts_of _ (by decide)) (starts_of _ (by decide))

private theorem trimLeft_text {ws : List Bytes} (hws : Blanks ws) {l : Bytes} (hl : ∀ c ∈ l, 32 ≤ c ∧ c < 127) (hf : l.head? ≠ some 32) :
    ∀ (k n : Nat), k ≤ n → trimLeft ws n (List.replicate k 32 ++ l) = l := by
  have stop : ∀ n, trimLeft ws n l = l := by
    intro n
    cases n with
    | zero => rfl
    | succ n =>
      unfold trimLeft
      cases l with
      | nil => rw [hws.nil]
      | cons c t =>
        have hc := hl c (by simp)
        have h33 : (33 : UInt8) ≤ c := by
          have hne : c ≠ 32 := fun h => hf (by rw [h]; rfl)
          have h1 := hc.1
          rw [UInt8.le_iff_toNat_le] at h1 ⊢
          have e1 : (33 : UInt8).toNat = 33 := rfl
          have e2 : (32 : UInt8).toNat = 32 := rfl
          have : c.toNat ≠ 32 := fun h => hne (UInt8.toNat_inj.mp h)
          omega
        rw [hws.other c t h33 hc.2]
  intro k
  induction k with
  | zero => intro n _; exact stop n
  | succ k ih =>
    intro n hn
    obtain ⟨m, rfl⟩ : ∃ m, n = m + 1 := ⟨n - 1, by omega⟩
    unfold trimLeft
    rw [List.replicate_succ, List.cons_append, hws.space]
    exact ih m (by omega)

theorem trim_text {text : Bytes} (h : IsName text) (i j : Nat) : trim (List.replicate i 32 ++ text ++ List.replicate j 32) = text := by
  unfold trim
  by_cases hne : text = []
  · subst hne
    have e : (List.replicate i (32 : UInt8) ++ [] ++ List.replicate j 32) = List.replicate (i + j) 32 ++ [] := by
      simp
    rw [e, trimLeft_text blanks_whitespace (by simp) (by simp) (i + j) _ (by simp)]
    rfl
  have h1 : trimLeft whitespace (List.replicate i 32 ++ text ++ List.replicate j 32).length (List.replicate i 32 ++ text ++ List.replicate j 32) =
      text ++ List.replicate j 32 := by
    rw [List.append_assoc]
    refine trimLeft_text blanks_whitespace ?_ ?_ i _ (by simp)
    · intro c hc
      rcases List.mem_append.mp hc with hc | hc
      · exact h.printable c hc
      · rw [List.eq_of_mem_replicate hc]; decide
    · cases text with
      | nil => exact absurd rfl hne
      | cons a t => exact h.first
  dsimp only
  rw [h1, List.reverse_append, List.reverse_replicate, trimLeft_text blanks_reversed]
  · rw [List.reverse_reverse]
  · intro c hc; exact h.printable c (List.mem_reverse.mp hc)
  · rw [List.head?_reverse]; exact h.last
  · simp

private theorem bytes_ascii (big : Bool) {f : Field} {l : Bytes} (ht : f.typ = 2) (hv : f.values = l.map UInt8.toNat) : f.bytes big = l := by
  unfold Field.bytes
  rw [ht, hv]
  clear hv
  have e : ∀ v, encode big (tiffSize 2) v = [UInt8.ofNat v] := by
    intro v; unfold encode tiffSize encodeLE encodeLE; cases big <;> rfl
  rw [funext e]
  induction l with
  | nil => rfl
  | cons a t ih => rw [List.map_cons, List.flatMap_cons, ih]; simp

/-- The text of a field is read without the spaces around it. -/
theorem carries_text {big : Bool} {f : Field} {ent : TiffEntry} {text : Bytes} (hc : Carries big f ent) (hn : IsName text) (hs : f.Says text) :
    ent.getStr = .ok text := by
  obtain ⟨ht, i, j, rest, hr, hv⟩ := hs
  have hd := hc.data
  rw [bytes_ascii big ht hv] at hd
  unfold TiffEntry.getStr
  have hall : ∀ c ∈ List.replicate i 32 ++ text ++ List.replicate j 32, (32 : UInt8) ≤ c ∧ c < 127 := by
    intro c hc
    rcases List.mem_append.mp hc with hc | hc
    · rcases List.mem_append.mp hc with hc | hc
      · rw [List.eq_of_mem_replicate hc]; decide
      · exact hn.printable c hc
    · rw [List.eq_of_mem_replicate hc]; decide
  dsimp only
  rw [hd, takeWhile_text (fun c hc => by
    have := (hall c hc).1
    rintro rfl
    exact absurd this (by decide)) hr, if_pos, trim_text hn]
  refine ascii_valid _ fun c hc => ?_
  have := (hall c hc).2
  rw [UInt8.lt_iff_toNat_lt] at this ⊢
  have e1 : (127 : UInt8).toNat = 127 := rfl
  have e2 : (0x80 : UInt8).toNat = 128 := rfl
  omega

/-! ## Lookup -/

private theorem known_of {tag : Nat} (h : tag ∈ knownTags) (d : Dir) : knownField tag d = d.field tag := if_pos h

theorem find_first {d : Dir} {ifd : TiffIFD} (hh : Holds d ifd) {tag : Nat} (hk : tag ∈ knownTags) {big : Bool} {f : Field} (h : d.First tag big f) :
    ∃ ent, TiffIFD.findEntry tag ifd = some ent ∧ Carries big f ent := by
  refine tiff_lookup_stored hh tag big f ?_
  unfold orderedField
  rw [funext (known_of hk)]
  exact h

theorem find_lacks {d : Dir} {ifd : TiffIFD} (hh : Holds d ifd) {tag : Nat} (h : d.Lacks tag) : TiffIFD.findEntry tag ifd = none := by
  refine tiff_lookup_missing hh tag fun d' hd' => ?_
  unfold knownField
  split
  · exact h d' hd'
  · rfl

theorem find_numbers {d : Dir} {ifd : TiffIFD} (hh : Holds d ifd) {tag : Nat} (hk : tag ∈ knownTags) {values : List Nat} (h : d.Numbers tag values) :
    ∃ ent, TiffIFD.findEntry tag ifd = some ent ∧ ent.count = values.length ∧ (∀ i (hi : i < values.length), ent.getU32 i = .ok values[i]) ∧
      ∀ i (hi : i < values.length), ent.getF32 i = .ok (F32.ofNat values[i]) := by
  obtain ⟨big, f, h1, h2, rfl⟩ := h
  obtain ⟨ent, e1, e2⟩ := find_first hh hk h1
  have hv := e2.values (by
    simp only [List.mem_cons, List.not_mem_nil, or_false] at h2 ⊢
    omega)
  refine ⟨ent, e1, e2.count, hv, fun i hi => ?_⟩
  simp only [List.mem_cons, List.not_mem_nil, or_false] at h2
  unfold TiffEntry.getF32
  rw [e2.typ, if_neg (by omega), if_neg (by omega), hv i hi]
  rfl

theorem fetch_number {d : Dir} {ifd : TiffIFD} (hh : Holds d ifd) {tag : Nat} (hk : tag ∈ knownTags) {v : Nat} {t : List Nat}
    (h : d.Numbers tag (v :: t)) : fetchUsize ifd tag = .ok v := by
  obtain ⟨ent, e1, _, e2, _⟩ := find_numbers hh hk h
  unfold fetchUsize TiffIFD.fetchTag
  rw [e1]
  exact e2 0 (by simp)

theorem fetch_text {d : Dir} {ifd : TiffIFD} (hh : Holds d ifd) {tag : Nat} (hk : tag ∈ knownTags) {text : Bytes} (h : d.Text tag text) :
    ∃ ent, TiffIFD.findEntry tag ifd = some ent ∧ ent.getStr = .ok text := by
  obtain ⟨hn, big, f, h1, h2⟩ := h
  obtain ⟨ent, e1, e2⟩ := find_first hh hk h1
  exact ⟨ent, e1, carries_text e2 hn h2⟩

theorem fetch_dir {d : Dir} {ifd : TiffIFD} (hh : Holds d ifd) {tag : Nat} (hk : tag ∈ knownTags) {d' : Dir} (h : d.FirstWith tag d') :
    ∃ ifd', ifd.fetchIfd tag = .ok ifd' ∧ Holds d' ifd' := by
  obtain ⟨p, d1, hp, hget, hbefore⟩ := h
  obtain ⟨c, hc, hhc⟩ := (holds_path hh p).1 d1 hp
  dsimp only at hget
  have hd1 : d1 = d' := by
    cases hf : d1.field tag with
    | none => rw [hf] at hget; cases hget
    | some f => rw [hf] at hget; exact Option.some.inj hget
  subst hd1
  have hfirst : ifd.findFirstIfd tag = some c := by
    rw [find_first_ifd_first]
    refine ⟨p, c, hc, ?_, ?_⟩
    · cases hf : d1.field tag with
      | none => rw [hf] at hget; cases hget
      | some f =>
        cases hhc with
        | mk _ _ _ _ present _ _ =>
          obtain ⟨ent, he, _⟩ := present tag f (by rw [known_of hk]; exact hf)
          show (Map.get c.entries tag).map (fun _ => c) = some c
          rw [he]
          rfl
    · intro q c' hq hc'
      obtain ⟨d2, hd2, hh2⟩ := (holds_path hh q).2 c' hc'
      have := hbefore q d2 hq hd2
      have hnone : d2.field tag = none := by
        cases hf : d2.field tag with
        | none => rfl
        | some f => simp only [hf, Option.map_some] at this; cases this
      cases hh2 with
      | mk _ _ _ absent _ _ _ =>
        show (Map.get c'.entries tag).map (fun _ => c') = none
        rw [absent tag (by rw [known_of hk]; exact hnone)]
        rfl
  refine ⟨c, ?_, hhc⟩
  unfold TiffIFD.fetchIfd
  rw [hfirst]

/-! ## Opening -/

/-- The camera settings with the orientation of the file. -/
def turned (cam : Camera) (orientation : Option Nat) : Camera :=
  { cam with orientation := match orientation with | none => .unknown | some o => Orientation.fromU16 (o % 65536) }

/-- A TIFF file has no other magic number, unless it has that of a CIFF file. -/
theorem tiff_magic {contents : Bytes} {big : Bool} {dirs : List Dir} (ht : TiffFile 11 big contents dirs)
    (hciff : bytesAt contents 6 8 ≠ [0x48, 0x45, 0x41, 0x50, 0x43, 0x43, 0x44, 0x52]) : magicKind contents = none := by
  have hm := ht.mark
  have hroom := ht.room
  unfold magicKind magics
  have h2 : ∃ x y t, contents = x :: y :: t ∧ (x = 0x4d ∨ x = 0x49) := by
    cases contents with
    | nil => simp at hroom
    | cons x t =>
      cases t with
      | nil => simp at hroom
      | cons y t =>
        refine ⟨x, y, t, rfl, ?_⟩
        unfold bytesAt orderMark at hm
        cases big
        · right; exact (List.cons.inj hm).1
        · left; exact (List.cons.inj hm).1
  obtain ⟨x, y, t, rfl, hx⟩ := h2
  have no : ∀ (a : UInt8) (m : Bytes), a ≠ x → hasMagic (x :: y :: t) 0 (a :: m) = false := by
    intro a m ha
    unfold hasMagic
    rw [beq_eq_false_iff_ne]
    intro h
    rw [List.drop_zero, List.length_cons, List.take_succ_cons] at h
    injection h with h
    exact ha h.symm
  have hc : hasMagic (x :: y :: t) 6 (b! "HEAPCCDR") = false := by
    unfold hasMagic
    rw [beq_eq_false_iff_ne]
    exact hciff
  have hx' : (0 : UInt8) ≠ x ∧ (0x41 : UInt8) ≠ x ∧ (0x46 : UInt8) ≠ x := by rcases hx with rfl | rfl <;> decide
  rw [List.find?_cons, no _ _ hx'.1, List.find?_cons, hc, List.find?_cons, no _ _ hx'.2.1, List.find?_cons, no _ _ hx'.2.2]
  rfl

theorem camera_magic {contents : Bytes} {big : Bool} {dirs : List Dir} {make model : Bytes} {o : Option Nat}
    (h : CameraFile contents big dirs make model o) : magicKind contents = none := tiff_magic h.tiff h.notCiff

/-- The directories of a stored file are read, also with the zeros after it. -/
theorem tiff_read (b : Build) {contents : Bytes} {big : Bool} {dirs : List Dir} (ht : TiffFile 11 big contents dirs) (hfew : dirs.length ≤ 100) :
    ∃ root, TiffIFD.newFile b (Buffer.new contents).buf = .ok root ∧ Holds (fileRoot big dirs) root := by
  obtain ⟨root, hroot, _, hh⟩ := tiff_file_roundtrip b (Buffer.new contents).buf 0 big dirs (Nat.zero_le _) (by
    rw [List.drop_zero]; exact tiff_pad _ ht) hfew
  refine ⟨root, ?_, hh⟩
  have hp : TiffFile 11 big (Buffer.new contents).buf dirs := tiff_pad _ ht
  unfold TiffIFD.newFile
  rw [slice_le (by omega) hp.room, ok_bind, if_neg, hroot]
  intro hm
  have : bytesAt (Buffer.new contents).buf 0 2 = [0x46, 0x55] := by
    unfold bytesAt
    have := congrArg (List.take 2) hm
    rw [List.drop_zero, List.take_take] at this
    exact this
  rw [hp.mark] at this
  cases big <;> exact absurd this (by decide)

/-- The orientation tag is read. -/
theorem orientation_read {d : Dir} {root : TiffIFD} (hh : Holds d root) {o : Option Nat}
    (ho : match o with | none => d.Lacks 0x112 | some o => d.Numbers 0x112 [o]) :
    RawLoader.orientationFromTiff root = .ok (match o with | none => .unknown | some o => Orientation.fromU16 (o % 65536)) := by
  unfold RawLoader.orientationFromTiff
  cases o with
  | none =>
    rw [show TiffIFD.findEntry Tag.Orientation root = none from find_lacks hh ho]
  | some o =>
    obtain ⟨ent, e1, _, e2, _⟩ := find_numbers hh (tag := 0x112) (by decide) ho
    rw [show TiffIFD.findEntry Tag.Orientation root = some ent from e1]
    dsimp only
    rw [e2 0 (by simp)]
    rfl

/-- A file whose directories name its camera is opened, the decoder for the maker is used on them, and the camera is found. -/
theorem tree_opens (s : RawLoader) (b : Build) {contents : Bytes} {d : Dir} {root root' : TiffIFD} {make model : Bytes} {o : Option Nat}
    (hmagic : magicKind contents = none) (hnew : TiffIFD.newFile b (Buffer.new contents).buf = .ok root) (hh : Holds d root')
    (notDng : d.Lacks 0xc612) (hmake : d.Text 0x10f make) (hmodel : d.Text 0x110 model)
    (horient : match o with | none => d.Lacks 0x112 | some o => d.Numbers 0x112 [o])
    (same : ∀ tag, tag ∈ [0xc612, 0x10f, 0x110, 0x112] → TiffIFD.findEntry tag root = TiffIFD.findEntry tag root')
    {k : Kind} (hk : makers.lookup make = some k) (h560 : model ≠ b! "DCS560C") :
    ∃ dec, s.getDecoder b (Buffer.new contents) = .ok dec ∧ dec.kind = k ∧ dec.tree = some root ∧
      ∀ mode cam, Map.get s.cameras (make, model, mode) = some cam → s.checkSupportedWithMode root mode = .ok (turned cam o) := by
  obtain ⟨emake, m1, m2⟩ := fetch_text hh (tag := 0x10f) (by decide) hmake
  obtain ⟨emodel, n1, n2⟩ := fetch_text hh (tag := 0x110) (by decide) hmodel
  rw [← same 0x10f (by decide)] at m1
  rw [← same 0x110 (by decide)] at n1
  have hv : IsView root ⟨false, some model, some make, none⟩ := by
    refine ⟨⟨fun hf => by simp at hf, ?_⟩, fun _ => ⟨emodel, (find_entry_first _ _ _).mp n1, n2⟩, fun _ _ => ⟨emake, (find_entry_first _ _ _).mp m1, m2⟩,
      fun _ _ hn => by simp at hn⟩
    rintro ⟨d, e, hb, he⟩
    rw [(find_entry_none 0xc612 root).mp (by rw [same _ (by decide)]; exact find_lacks hh notDng) d hb] at he
    cases he
  have hkind : viewKind ⟨false, some model, some make, none⟩ = some k := by
    unfold viewKind
    rw [if_neg (by simp), if_neg (fun hm => h560 (Option.some.inj hm))]
    exact hk
  have hd := dispatch_complete s b contents root _ hmagic hnew hv
  rw [hkind] at hd
  have hnkd : k ≠ .nkd := by
    rintro rfl
    have : ∀ (l : List (Bytes × Kind)), (l.all fun p => decide (p.2 ≠ .nkd)) = true → l.lookup make ≠ some .nkd := by
      intro l
      induction l with
      | nil => intro _ h; cases h
      | cons p t ih =>
        intro hall h
        rw [List.all_cons, Bool.and_eq_true] at hall
        obtain ⟨p1, p2⟩ := p
        rw [List.lookup_cons] at h
        split at h
        · injection h with h; exact absurd h (by simpa using hall.1)
        · exact ih hall.2 h
    exact this makers (by decide) hk
  obtain ⟨d, h1, h2, h3⟩ : ∃ d, s.getDecoder b (Buffer.new contents) = .ok d ∧ d.kind = k ∧ d.tree = some root := by
    cases k <;> first | exact hd | exact absurd rfl hnkd
  refine ⟨d, h1, h2, h3, ?_⟩
  intro mode cam hcam
  unfold RawLoader.checkSupportedWithMode TiffIFD.fetchTag
  rw [show TiffIFD.findEntry Tag.Make root = some emake from m1]
  simp only [ok_bind]
  rw [m2, show TiffIFD.findEntry Tag.Model root = some emodel from n1]
  simp only [ok_bind]
  rw [n2, ok_bind]
  unfold RawLoader.checkSupportedWithEverything
  rw [hcam]
  simp only [ok_bind]
  rw [show RawLoader.orientationFromTiff root = RawLoader.orientationFromTiff root' by
    unfold RawLoader.orientationFromTiff; rw [show TiffIFD.findEntry Tag.Orientation root = TiffIFD.findEntry Tag.Orientation root' from same 0x112 (by decide)], orientation_read hh horient]
  cases o <;> rfl

/-- A file naming its camera is opened, the decoder for the maker is used on its directories, and the camera is found. -/
theorem camera_opens (s : RawLoader) (b : Build) {contents : Bytes} {big : Bool} {dirs : List Dir} {make model : Bytes} {o : Option Nat}
    (h : CameraFile contents big dirs make model o) {k : Kind} (hk : makers.lookup make = some k) (h560 : model ≠ b! "DCS560C") :
    ∃ root d, s.getDecoder b (Buffer.new contents) = .ok d ∧ d.kind = k ∧ d.tree = some root ∧ Holds (fileRoot big dirs) root ∧
      ∀ mode cam, Map.get s.cameras (make, model, mode) = some cam → s.checkSupportedWithMode root mode = .ok (turned cam o) := by
  obtain ⟨root, hnew, hh⟩ := tiff_read b h.tiff h.few
  obtain ⟨d, h1, h2, h3, h4⟩ := tree_opens s b (camera_magic h) hnew hh h.notDng h.make h.model h.orientation (fun _ _ => rfl) hk h560
  exact ⟨root, d, h1, h2, h3, hh, h4⟩

end Props

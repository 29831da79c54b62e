import Verif.Spec.FujiFile
import Verif.Lemmas.Positions
/-!
# Lemmas about opening the files of Fuji
-/

namespace Props
open Rust Spec Model

private theorem encodeLE_numberLE (l : Bytes) : encodeLE l.length (numberLE l) = l := by
  induction l with
  | nil => rfl
  | cons a t ih =>
    have ha := a.toNat_lt
    rw [List.length_cons, numberLE, encodeLE, show (a.toNat + 256 * numberLE t) / 256 = numberLE t by omega, ih]
    congr 1
    apply UInt8.toNat_inj.mp
    simp only [UInt8.toNat_ofNat']
    omega

theorem encode_number (big : Bool) {n : Nat} {l : Bytes} (h : l.length = n) : encode big n (number big l) = l := by
  unfold encode number
  cases big
  · subst h; exact encodeLE_numberLE l
  · simp only [if_true]
    have := encodeLE_numberLE l.reverse
    rw [List.length_reverse, h] at this
    rw [this, List.reverse_reverse]

theorem number_lt (big : Bool) (l : Bytes) : number big l < 256 ^ l.length := by
  have key : ∀ l : Bytes, numberLE l < 256 ^ l.length := by
    intro l
    induction l with
    | nil => simp [numberLE]
    | cons a t ih =>
      have ha := a.toNat_lt
      rw [List.length_cons, numberLE, Nat.pow_succ]
      omega
  unfold number
  cases big
  · exact key l
  · simp only [if_true]; have := key l.reverse; rwa [List.length_reverse] at this

/-- An entry with the bytes of a field carries it. -/
theorem carries_made {big : Bool} {f : Field} {ent : TiffEntry} (tag : ent.tag = f.tag) (typ : ent.typ = f.typ) (count : ent.count = f.values.length)
    (data : ent.data = f.bytes big) (order : ent.endian.big = big) (fits : ∀ v ∈ f.values, v < 256 ^ tiffSize f.typ) : Carries big f ent := by
  refine ⟨tag, typ, count, data, order, fun ht i hi => ?_⟩
  have hnb := Field.bytes_length big f
  rw [tiff_component_partial ent i (by rw [typ]; exact ht) (by rw [data, count, typ, hnb]) (by rw [count]; exact hi), data, order, typ]
  unfold Field.bytes
  rw [flatMap_chunk _ _ (fun _ => encode_length _ _ _) _ _ hi, number_encode _ _ _ (fits _ (List.getElem_mem _))]

/-! ## The table -/

private theorem bytesAt_within {buf bytes : Bytes} {pos n i k : Nat} (h : bytesAt buf pos n = bytes) (hk : i + k ≤ n) :
    bytesAt buf (pos + i) k = bytesAt bytes i k := by
  rw [← h]
  unfold bytesAt
  rw [← List.drop_drop, List.drop_take, List.take_take]
  congr 1
  omega

/-- Consecutive two byte numbers of a record make up its bytes. -/
private theorem shorts_bytes (tag : Nat) (bytes : Bytes) (n : Nat) (h : 2 * n ≤ bytes.length) :
    (Spec.Field.mk tag 3 ((List.range n).map (fujiShort bytes))).bytes true = bytes.take (2 * n) := by
  induction n with
  | zero => rfl
  | succ n ih =>
    have ih := ih (by omega)
    unfold Field.bytes at ih ⊢
    dsimp only at ih ⊢
    rw [List.range_succ, List.map_append, List.flatMap_append, ih, List.map_singleton, List.flatMap_singleton]
    unfold fujiShort
    rw [show tiffSize 3 = 2 from rfl, encode_number true (by unfold bytesAt; rw [List.length_take, List.length_drop]; omega), Nat.mul_succ, List.take_add]
    rfl

private theorem shorts_fit (tag : Nat) (bytes : Bytes) (n : Nat) : ∀ v ∈ (Spec.Field.mk tag 3 ((List.range n).map (fujiShort bytes))).values,
    v < 256 ^ tiffSize (Spec.Field.mk tag 3 ((List.range n).map (fujiShort bytes))).typ := by
  intro v hv
  obtain ⟨i, _, rfl⟩ := List.mem_map.mp hv
  unfold fujiShort
  refine Nat.lt_of_lt_of_le (number_lt true _) (Nat.pow_le_pow_right (by decide) ?_)
  unfold bytesAt
  rw [List.length_take]
  exact Nat.min_le_left _ _

private theorem record_entry {buf bytes : Bytes} {pos n : Nat} (tag : Nat) (hb : bytesAt buf (pos + 4) bytes.length = bytes) (h : 2 * n ≤ bytes.length) (hn : 0 < n) :
    slice buf (pos + 4) (pos + 4 + 2 * n) = .ok (bytes.take (2 * n)) ∧
      Carries true ⟨tag, 3, (List.range n).map (fujiShort bytes)⟩ ⟨tag, 3, n, 0, pos + 4, bytes.take (2 * n), BIG_ENDIAN⟩ := by
  have hroom : pos + 4 + bytes.length ≤ buf.length := bytesAt_known hb rfl (by omega)
  refine ⟨?_, carries_made rfl rfl (by simp) (shorts_bytes tag bytes n h).symm rfl (shorts_fit tag bytes n)⟩
  rw [slice_le (by omega) (by omega), List.drop_take, Nat.add_sub_cancel_left]
  have := bytesAt_within (i := 0) (k := 2 * n) hb (by omega)
  unfold bytesAt at this
  rw [Nat.add_zero, List.drop_zero] at this
  rw [this]

private theorem table_step (b : Build) {buf bytes : Bytes} {pos tag : Nat} {l : List Item} {s : TiffIFD.Acc}
    (ht : tag < 65536) (hlen : bytes.length < 65532) (h1 : bytesAt buf pos 2 = encode true 2 tag) (h2 : bytesAt buf (pos + 2) 2 = encode true 2 bytes.length)
    (hb : bytesAt buf (pos + 4) bytes.length = bytes) (size : tag = 0x100 → 4 ≤ bytes.length) (levels : tag = 0x2ff0 → 8 ≤ bytes.length)
    (hcol : Collected (fun _ _ _ => True) 0 (.mk true l) (s.1, [])) :
    ∃ entries, TiffIFD.fujiStep b buf (s.1, pos) = .ok (entries, pos + 4 + bytes.length) ∧
      Collected (fun _ _ _ => True) 0 (.mk true (l ++ (fujiField (tag, bytes)).toList.map .plain)) (entries, []) := by
  unfold TiffIFD.fujiStep
  dsimp only
  rw [be16_known ht h1, ok_bind, be16_known (by omega) h2, ok_bind]
  unfold TiffIFD.fujiEntry fujiField
  dsimp only
  have hstep : ∀ e : Map Nat TiffEntry, (do
      let step ← addU 16 b bytes.length 4
      (.ok (e, pos + step) : M (Map Nat TiffEntry × Nat))) = .ok (e, pos + 4 + bytes.length) := by
    intro e
    rw [addU_ok (by omega), ok_bind, show pos + (bytes.length + 4) = pos + 4 + bytes.length by omega]
  by_cases c1 : tag = 0x100
  · have hr := record_entry (n := 2) 0x100 hb (size c1) (by decide)
    rw [if_pos (show tag = Tag.ImageWidth from c1), if_pos c1, show pos + 8 = pos + 4 + 2 * 2 by omega, hr.1]
    refine ⟨_, hstep _, ?_⟩
    have := hcol.plain (f := ⟨0x100, 3, [fujiShort bytes 0, fujiShort bytes 1]⟩) ⟨hr.2, trivial⟩
    rw [if_pos (show 0x100 ∈ knownTags by decide)] at this
    exact this
  · rw [if_neg (show ¬tag = Tag.ImageWidth from c1), if_neg c1]
    by_cases c2 : tag = 0x2ff0
    · have hr := record_entry (n := 4) 0x2ff0 hb (levels c2) (by decide)
      rw [if_pos (show tag = Tag.RafOldWB from c2), if_pos c2, show pos + 12 = pos + 4 + 2 * 4 by omega, hr.1]
      refine ⟨_, hstep _, ?_⟩
      have := hcol.plain (f := ⟨0x2ff0, 3, [fujiShort bytes 0, fujiShort bytes 1, fujiShort bytes 2, fujiShort bytes 3]⟩) ⟨hr.2, trivial⟩
      rw [if_pos (show 0x2ff0 ∈ knownTags by decide)] at this
      exact this
    · rw [if_neg (show ¬tag = Tag.RafOldWB from c2), if_neg c2, ok_bind]
      refine ⟨_, hstep _, ?_⟩
      rw [show Option.toList (none : Option Field) = [] from rfl, List.map_nil, List.append_nil]
      exact hcol

private theorem table_rest {buf : Bytes} {table : List (Nat × Bytes)} {i pos : Nat} (hi : i < table.length) (h : FujiTableAt buf pos (table.drop i)) :
    table[i].1 < 65536 ∧ table[i].2.length < 65532 ∧ bytesAt buf pos 2 = encode true 2 table[i].1 ∧ bytesAt buf (pos + 2) 2 = encode true 2 table[i].2.length ∧
      bytesAt buf (pos + 4) table[i].2.length = table[i].2 ∧ FujiTableAt buf (pos + 4 + table[i].2.length) (table.drop (i + 1)) := by
  rw [List.drop_eq_getElem_cons hi] at h
  exact h

theorem fuji_table_read (b : Build) {buf : Bytes} {pos : Nat} {table : List (Nat × Bytes)} (h : FujiTableIn buf pos table) :
    ∃ ifd, TiffIFD.newFuji b buf pos = .ok ifd ∧ Holds (fujiTable table) ifd := by
  unfold TiffIFD.newFuji
  have hfew := h.few
  rw [be32_known (by omega) h.number, ok_bind, if_neg (by omega)]
  obtain ⟨s, hs, _, hcol⟩ := forRange_inv (fun i (s : Map Nat TiffEntry × Nat) => FujiTableAt buf s.2 (table.drop i) ∧
      Collected (fun _ _ _ => True) 0 (.mk true (((table.take i).filterMap fujiField).map .plain)) (s.1, [])) (Nat.zero_le table.length)
    (f := fun _ s => TiffIFD.fujiStep b buf s) (s := ([], pos + 4))
    ⟨h.records, ⟨fun tag _ => rfl, no_field (R := fun _ _ _ => True) (s := ([], [])) true, ⟨rfl, fun k s c hk => by cases hk⟩⟩⟩
    (by
      rintro i ⟨entries, p⟩ _ hi ⟨h1, h2⟩
      obtain ⟨a1, a2, a3, a4, a5, a6⟩ := table_rest hi h1
      have hmem := List.getElem_mem hi
      obtain ⟨e', r1, r2⟩ := table_step b (s := (entries, [])) a1 a2 a3 a4 a5 (h.size _ hmem) (h.levels _ hmem) h2
      refine ⟨(e', p + 4 + table[i].2.length), r1, a6, ?_⟩
      rw [List.take_succ_eq_append_getElem hi, List.filterMap_append, List.map_append]
      cases hf : fujiField table[i] with
      | none =>
        rw [show fujiField (table[i].1, table[i].2) = none from hf] at r2
        rw [List.filterMap_cons_none hf]
        exact r2
      | some f =>
        rw [show fujiField (table[i].1, table[i].2) = some f from hf] at r2
        rw [List.filterMap_cons_some hf]
        exact r2)
  rw [hs, ok_bind]
  rw [List.take_length] at hcol
  exact ⟨_, rfl, HoldsWith.holds (R := fun _ _ _ => True) (start := 0) ⟨_, _, _, rfl, rfl, hcol.absent, hcol.present, hcol.subs.1, hcol.subs.2⟩⟩

/-! ## The zeros after the file -/

theorem fuji_table_pad (pad : Bytes) {contents : Bytes} {pos : Nat} {table : List (Nat × Bytes)} (h : FujiTableIn contents pos table) :
    FujiTableIn (contents ++ pad) pos table := by
  refine ⟨h.few, bytesAt_pad h.number (encode_length _ _ _), ?_, h.size, h.levels⟩
  have key : ∀ (t : List (Nat × Bytes)) (p : Nat), FujiTableAt contents p t → FujiTableAt (contents ++ pad) p t := by
    intro t
    induction t with
    | nil => intro p _; trivial
    | cons e t ih =>
      obtain ⟨tag, bytes⟩ := e
      rintro p ⟨h1, h2, h3, h4, h5, h6⟩
      exact ⟨h1, h2, bytesAt_pad h3 (encode_length _ _ _), bytesAt_pad h4 (encode_length _ _ _), bytesAt_pad h5 rfl, ih _ h6⟩
  exact key _ _ h.records

/-! ## The file -/

private theorem part_pad {contents : Bytes} {o : Nat} (pad : Bytes) (h : o ≤ contents.length) : (contents ++ pad).drop o = contents.drop o ++ pad :=
  List.drop_append_of_le_length h

private theorem not_marked (b : Build) {buf : Bytes} {o : Nat} (hroom : o + 2 ≤ buf.length) (h : ∀ big, bytesAt buf o 2 ≠ orderMark big) :
    ∃ m, TiffIFD.newRoot b buf o = .error (.err m) := by
  unfold TiffIFD.newRoot
  rw [show LEu16 buf o = .ok (number false (bytesAt buf o 2)) from ru16_number (e := LITTLE_ENDIAN) hroom, ok_bind]
  unfold TiffIFD.markerEndian
  have hne : ∀ big, number false (bytesAt buf o 2) ≠ number false (orderMark big) := by
    intro big he
    refine h big ?_
    have e1 := encode_number false (l := bytesAt buf o 2) (bytesAt_length hroom)
    have e2 := encode_number false (l := orderMark big) (orderMark_length big)
    rw [← e1, ← e2, he]
  rw [if_neg (show ¬number false (bytesAt buf o 2) = 0x4949 from hne false), if_neg (show ¬number false (bytesAt buf o 2) = 0x4d4d from hne true)]
  exact ⟨_, rfl⟩

/-- A Fuji file has no other magic number. -/
theorem fuji_magic {contents : Bytes} (h : bytesAt contents 0 8 = [0x46, 0x55, 0x4a, 0x49, 0x46, 0x49, 0x4c, 0x4d]) : magicKind contents = none := by
  obtain ⟨rest, rfl⟩ : ∃ rest, contents = [0x46, 0x55, 0x4a, 0x49, 0x46, 0x49, 0x4c, 0x4d] ++ rest := by
    refine ⟨contents.drop 8, ?_⟩
    rw [← h]
    unfold bytesAt
    rw [List.drop_zero, List.take_append_drop]
  unfold magicKind magics
  have no : ∀ (pos : Nat) (a : UInt8) (m : Bytes), (([0x46, 0x55, 0x4a, 0x49, 0x46, 0x49, 0x4c, 0x4d] : Bytes)[pos]?).map (fun x => decide (x ≠ a)) = some true →
      hasMagic ([0x46, 0x55, 0x4a, 0x49, 0x46, 0x49, 0x4c, 0x4d] ++ rest) pos (a :: m) = false := by
    intro pos a m hp
    obtain ⟨x, hx, hxa⟩ := Option.map_eq_some_iff.mp hp
    unfold hasMagic
    rw [beq_eq_false_iff_ne]
    intro he
    have := congrArg List.head? he
    rw [List.head?_take, if_neg (by simp), List.head?_drop, List.getElem?_append_left (by
      have := (List.getElem?_eq_some_iff.mp hx).1; exact this), hx] at this
    injection this with this
    exact (of_decide_eq_true hxa) this
  have two : hasMagic ([0x46, 0x55, 0x4a, 0x49, 0x46, 0x49, 0x4c, 0x4d] ++ rest) 0 (b! "FOVb") = false := by
    unfold hasMagic
    rw [beq_eq_false_iff_ne]
    intro he
    have := congrArg (fun l => l[1]?) he
    simp at this
  rw [List.find?_cons, no _ _ _ rfl, List.find?_cons, no _ _ _ rfl, List.find?_cons, no _ _ _ rfl, List.find?_cons, two]
  rfl

/-- What opening a Fuji file gives: a directory over those of the file, with at most an entry of its own for the position of the
data. -/
structure FujiOpened (big : Bool) (dirs : List Dir) (second : FujiSecond) (table : List (Nat × Bytes)) (root : TiffIFD) : Prop where
  order : root.endian.big = big
  from_ : root.startOffset = 0
  parts : match second with
    | .part o big' dirs' => root.entries = [] ∧ ∃ r1 r2 t, root.subifds = [r1, r2, t] ∧ Holds (fileRoot big dirs) r1 ∧
        HoldsWith (fun _ _ _ => True) o (fileRoot big' dirs') r2
    | .data o => root.entries = Map.insert [] 0xf007 ⟨0xf007, 4, 1, 0, 100, encode true 4 o, BIG_ENDIAN⟩
  holds : Holds (fujiTree big dirs second table) (.mk [] root.subifds 0 0 root.endian)

private theorem holds_over {big : Bool} {ds : List Dir} {subs : List TiffIFD} {n s : Nat} {e : Endian} (he : e.big = big) (hl : subs.length = ds.length)
    (h : ∀ (k : Nat) (d : Dir) (c : TiffIFD), ds[k]? = some d → subs[k]? = some c → Holds d c) :
    Holds (.mk big [.pointer 0 ds]) (.mk [] subs n s e) := by
  have hsub : (Dir.mk big [.pointer 0 ds]).subdirs = ds := by
    unfold Dir.subdirs
    simp [Dir.items, Item.dirs]
  refine ⟨_, _, he, fun _ _ => rfl, ?_, by rw [hsub]; exact hl, by rw [hsub]; exact h⟩
  intro tag f hf
  unfold knownField at hf
  split at hf
  · cases hf
  · cases hf

theorem fuji_opens (b : Build) {contents : Bytes} {big : Bool} {dirs : List Dir} {second : FujiSecond} {table : List (Nat × Bytes)}
    (h : FujiFile contents big dirs second table) :
    ∃ root, TiffIFD.newFile b (contents ++ List.replicate 16 0) = .ok root ∧ FujiOpened big dirs second table root := by
  obtain ⟨p, hp1, hp2, hp3, hp4⟩ := h.first
  obtain ⟨q, hq1, hq2, hq3⟩ := h.table
  have hname := bytesAt_pad (pad := List.replicate 16 0) h.name rfl
  have hroom := bytesAt_known h.name rfl (by decide)
  have hplace := h.place
  have hroom2 := bytesAt_known hplace (encode_length _ _ _) (by decide)
  obtain ⟨r1, a1, a2, a3⟩ := tiff_file_roundtrip b (contents ++ List.replicate 16 0) (p + 12) big dirs (by simp; omega)
    (by rw [part_pad _ hp2]; exact tiff_pad _ hp4) h.few
  obtain ⟨t, t1, t2⟩ := fuji_table_read b (fuji_table_pad (List.replicate 16 0) hq3)
  have horder : r1.endian.big = big := by cases a3 with | mk _ _ order _ _ _ _ => exact order
  have hmagic : slice (contents ++ List.replicate 16 0) 0 8 = .ok (b! "FUJIFILM") := by
    rw [slice_le (by omega) (by simp)]
    unfold bytesAt at hname
    rw [List.drop_zero] at hname
    rw [List.drop_take, List.drop_zero, hname]
  unfold TiffIFD.newFile
  rw [hmagic, ok_bind, if_pos rfl, be32_known (by omega) (bytesAt_pad hp3 (encode_length _ _ _)), ok_bind, addU_ok (by omega), ok_bind, a1, ok_bind,
    be32_known h.small (bytesAt_pad hplace (encode_length _ _ _)), ok_bind]
  cases second with
  | part o big' dirs' =>
    obtain ⟨s1, s2, s3⟩ := h.second
    obtain ⟨r2, b1, b2⟩ := tiff_file_positions b (contents ++ List.replicate 16 0) o big' dirs' (by simp; omega)
      (by rw [part_pad _ s1]; exact tiff_with_any (tiff_pad _ s3)) s2
    unfold FujiSecond.offset
    dsimp only
    rw [b1]
    unfold TiffIFD.fujiSecond
    dsimp only
    rw [ok_bind, be32_known hq1 (bytesAt_pad hq2 (encode_length _ _ _)), ok_bind, t1]
    unfold TiffIFD.fujiThird
    dsimp only
    rw [ok_bind]
    refine ⟨_, rfl, horder, rfl, ⟨rfl, r1, r2, t, rfl, a3, b2⟩, ?_⟩
    refine holds_over horder rfl ?_
    intro k d c h1 h2
    match k with
    | 0 => injection h1 with h1; injection h2 with h2; subst h1 h2; exact a3
    | 1 => injection h1 with h1; injection h2 with h2; subst h1 h2; exact b2.holds
    | 2 => injection h1 with h1; injection h2 with h2; subst h1 h2; exact t2
    | k + 3 => cases h1
  | data o =>
    obtain ⟨s1, s2⟩ := h.second
    obtain ⟨m, hm⟩ := not_marked b (buf := contents ++ List.replicate 16 0) (o := o) (by simp; omega) (fun big => by rw [bytesAt_append (by omega)]; exact s2 big)
    unfold FujiSecond.offset at hplace ⊢
    dsimp only at hplace ⊢
    rw [hm]
    unfold TiffIFD.fujiSecond
    dsimp only
    have hsl : slice (contents ++ List.replicate 16 0) 100 104 = .ok (encode true 4 o) := by
      rw [slice_le (by omega) (by simp; omega), List.drop_take]
      exact congrArg Except.ok (bytesAt_pad hplace (encode_length _ _ _))
    rw [hsl, ok_bind, ok_bind, be32_known hq1 (bytesAt_pad hq2 (encode_length _ _ _)), ok_bind, t1]
    unfold TiffIFD.fujiThird
    dsimp only
    rw [ok_bind]
    refine ⟨_, rfl, horder, rfl, rfl, ?_⟩
    refine holds_over horder rfl ?_
    intro k d c h1 h2
    match k with
    | 0 => injection h1 with h1; injection h2 with h2; subst h1 h2; exact a3
    | 1 => injection h1 with h1; injection h2 with h2; subst h1 h2; exact t2
    | k + 2 => cases h1

/-- The entry for the position of the data changes no other lookup. -/
theorem fuji_lookup {big : Bool} {dirs : List Dir} {second : FujiSecond} {table : List (Nat × Bytes)} {root : TiffIFD}
    (h : FujiOpened big dirs second table root) {tag : Nat} (ht : tag ≠ 0xf007) :
    TiffIFD.findEntry tag root = TiffIFD.findEntry tag (.mk [] root.subifds 0 0 root.endian) := by
  obtain ⟨entries, subs, n, s, e⟩ := root
  have hp := h.parts
  cases second with
  | part o big' dirs' =>
    obtain ⟨rfl, _⟩ := hp
    rfl
  | data o =>
    have he : entries = [(0xf007, ⟨0xf007, 4, 1, 0, 100, encode true 4 o, BIG_ENDIAN⟩)] := hp
    subst he
    unfold TiffIFD.findEntry
    have : Map.containsKey [(0xf007, (⟨0xf007, 4, 1, 0, 100, encode true 4 o, BIG_ENDIAN⟩ : TiffEntry))] tag = false := by
      simp [Map.containsKey, Map.get, Ne.symm ht]
    rw [this]
    rfl

end Props

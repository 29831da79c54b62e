import Verif.Spec.Ciff
import Verif.Props.Ciff
import Verif.Lemmas.TiffEntry
/-!
# C64: CIFF heaps are read back
-/

namespace Props
open Rust Spec Model

/-! ## What is read -/

/-- An entry carries a stored value: its tag, the type from the tag, the bytes, the number of elements, and every element of the
integer types. -/
structure CarriesCiff (tag : Nat) (data : List UInt8) (ent : CiffEntry) : Prop where
  tag_eq : ent.tag = tag
  typ : ent.typ = ciffType tag * 2048
  bytesize : ent.bytesize = data.length
  data_eq : ent.data = data
  count : ent.count = data.length / ciffSize (ciffType tag)
  values : ciffType tag ∈ [0, 2, 3, 4] → ∀ i, i < ent.count →
    ent.getU32 i = .ok (number false (bytesAt data (i * ciffSize (ciffType tag)) (ciffSize (ciffType tag))))

/-- A heap read holds a stored one: the entries are exactly the values, and the sub-directories the heaps within it. -/
inductive HoldsHeap : Heap → CiffIFD → Prop
  | mk (h : Heap) (ifd : CiffIFD)
    (absent : ∀ tag, h.find tag = none → Map.get ifd.entries tag = none)
    (present : ∀ tag data, h.find tag = some data → ∃ ent, Map.get ifd.entries tag = some ent ∧ CarriesCiff tag data ent)
    (number : ifd.subifds.length = h.subs.length)
    (subs : ∀ (k : Nat) (s : Heap) (c : CiffIFD), h.subs[k]? = some s → ifd.subifds[k]? = some c → HoldsHeap s c) : HoldsHeap h ifd

/-! ## Records -/

private theorem and_shl (a m k : Nat) : a &&& (m <<< k) = ((a >>> k) &&& m) <<< k := by
  apply Nat.eq_of_testBit_eq
  intro i
  simp only [Nat.testBit_and, Nat.testBit_shiftLeft, Nat.testBit_shiftRight]
  by_cases h : k ≤ i
  · simp [h]
  · simp [h]

private theorem tag_bits (p : Nat) : p &&& 0x3fff = p % 16384 := Nat.and_two_pow_sub_one_eq_mod p 14

private theorem where_bits (p : Nat) : p &&& 0xc000 = p / 16384 % 4 * 16384 := by
  have := and_shl p 3 14
  rw [show (3 <<< 14 : Nat) = 0xc000 from rfl, show (3 : Nat) = 2 ^ 2 - 1 from rfl, Nat.and_two_pow_sub_one_eq_mod, Nat.shiftLeft_eq,
    Nat.shiftRight_eq_div_pow] at this
  exact this

private theorem type_bits (p : Nat) : p &&& 0x3800 = p / 2048 % 8 * 2048 := by
  have := and_shl p 7 11
  rw [show (7 <<< 11 : Nat) = 0x3800 from rfl, show (7 : Nat) = 2 ^ 3 - 1 from rfl, Nat.and_two_pow_sub_one_eq_mod, Nat.shiftLeft_eq,
    Nat.shiftRight_eq_div_pow] at this
  exact this

private theorem elementShift_size (t : Nat) (ht : t < 8) (hh : t ≠ 5 ∧ t ≠ 6) : 2 ^ CiffEntry.elementShift (t * 2048) = ciffSize t := by
  have : t = 0 ∨ t = 1 ∨ t = 2 ∨ t = 3 ∨ t = 4 ∨ t = 7 := by omega
  rcases this with rfl | rfl | rfl | rfl | rfl | rfl <;> rfl

private theorem read16 {buf : Bytes} {pos v : Nat} (hl : pos + 2 ≤ buf.length) (h : bytesAt buf pos 2 = encode false 2 v) (hv : v < 65536) :
    LEu16 buf pos = .ok v := by
  have := ru16_number (e := LITTLE_ENDIAN) hl
  rw [show LITTLE_ENDIAN.big = false from rfl, h, number_encode _ _ _ (by omega)] at this
  exact this

private theorem read32 {buf : Bytes} {pos v : Nat} (hl : pos + 4 ≤ buf.length) (h : bytesAt buf pos 4 = encode false 4 v) (hv : v < 4294967296) :
    LEu32 buf pos = .ok v := by
  have := ru32_number (e := LITTLE_ENDIAN) hl
  rw [show LITTLE_ENDIAN.big = false from rfl, h, number_encode _ _ _ (by omega)] at this
  exact this

/-- The entry made of a value. -/
private theorem carries_ciff {tag o : Nat} {data : Bytes} (hh : ¬ isHeapTag tag) :
    CarriesCiff tag data ⟨tag, ciffType tag * 2048, data.length >>> CiffEntry.elementShift (ciffType tag * 2048), data.length, o, data⟩ := by
  have ht8 : ciffType tag < 8 := Nat.mod_lt _ (by decide)
  have hne : ciffType tag ≠ 5 ∧ ciffType tag ≠ 6 := ⟨fun h => hh (Or.inl h), fun h => hh (Or.inr h)⟩
  have hcount : data.length >>> CiffEntry.elementShift (ciffType tag * 2048) = data.length / ciffSize (ciffType tag) := by
    rw [Nat.shiftRight_eq_div_pow, elementShift_size _ ht8 hne]
  refine ⟨rfl, rfl, rfl, rfl, hcount, ?_⟩
  intro ht i hi
  dsimp only at hi
  rw [hcount] at hi
  have hin : i * ciffSize (ciffType tag) + ciffSize (ciffType tag) ≤ data.length := by
    have := Nat.div_mul_le_self data.length (ciffSize (ciffType tag))
    have h2 := Nat.mul_le_mul_right (ciffSize (ciffType tag)) (Nat.succ_le_of_lt hi)
    rw [Nat.succ_mul] at h2
    omega
  unfold CiffEntry.getU32
  dsimp only
  simp only [List.mem_cons, List.not_mem_nil, or_false] at ht
  rcases ht with h | h | h | h <;> rw [h] at hin ⊢
  · rw [show ciffSize 0 = 1 from rfl] at *
    rw [if_pos (by decide), byteAt_lt (by omega), Nat.mul_one, bytesAt_one (by omega), bytesOf_getElem (by omega)]
    rfl
  · rw [if_neg (by decide), if_pos (by decide)]
    exact ru16_number (e := LITTLE_ENDIAN) hin
  · rw [if_neg (by decide), if_neg (by decide), if_pos (by decide)]
    exact ru32_number (e := LITTLE_ENDIAN) hin
  · rw [if_neg (by decide), if_neg (by decide), if_pos (by decide)]
    exact ru32_number (e := LITTLE_ENDIAN) hin

private theorem slice_bytes {buf data : Bytes} {o : Nat} (ho : o ≤ buf.length) (h : bytesAt buf o data.length = data) :
    slice buf o (o + data.length) = .ok data := by
  have hle : o + data.length ≤ buf.length := by
    have := congrArg List.length h
    unfold bytesAt at this
    rw [List.length_take, List.length_drop] at this
    omega
  rw [slice_le (by omega) hle, List.drop_take, Nat.add_sub_cancel_left]
  exact congrArg _ h

/-! ## Heaps -/

private def HeapPairs (l : List Heap) (m : List CiffIFD) : Prop :=
  m.length = l.length ∧ ∀ (k : Nat) (s : Heap) (c : CiffIFD), l[k]? = some s → m[k]? = some c → HoldsHeap s c

private theorem HeapPairs.snoc {l : List Heap} {m : List CiffIFD} (h : HeapPairs l m) {s : Heap} {c : CiffIFD} (hs : HoldsHeap s c) :
    HeapPairs (l ++ [s]) (m ++ [c]) := by
  refine ⟨by rw [List.length_append, List.length_append, h.1]; rfl, ?_⟩
  intro k s' c' h1 h2
  by_cases hk : k < l.length
  · rw [List.getElem?_append_left hk] at h1
    rw [List.getElem?_append_left (by rw [h.1]; exact hk)] at h2
    exact h.2 k s' c' h1 h2
  · rw [List.getElem?_append_right (by omega)] at h1
    rw [List.getElem?_append_right (by rw [h.1]; omega), h.1] at h2
    have hk0 : k - l.length = 0 := by
      by_cases h0 : k - l.length = 0
      · exact h0
      · rw [List.getElem?_eq_none (by simp; omega)] at h1; cases h1
    rw [hk0] at h1 h2
    injection h1 with h1; injection h2 with h2
    subst h1 h2
    exact hs

private structure HeapCollected (h : Heap) (s : CiffIFD.Acc) : Prop where
  absent : ∀ tag, h.find tag = none → Map.get s.1 tag = none
  present : ∀ tag data, h.find tag = some data → ∃ ent, Map.get s.1 tag = some ent ∧ CarriesCiff tag data ent
  subs : HeapPairs h.subs s.2

private theorem find_snoc_value (l : List HeapRecord) (t : Nat) (inside : Bool) (data : Bytes) (tag : Nat) :
    (Heap.mk (l ++ [.value t inside data])).find tag = if t = tag then some data else (Heap.mk l).find tag := by
  unfold Heap.find
  simp only [Heap.records, List.filterMap_append, List.filterMap_cons, List.filterMap_nil, HeapRecord.value?, List.reverse_append, List.reverse_cons,
    List.reverse_nil, List.nil_append, List.cons_append, List.find?_cons]
  by_cases h : t = tag
  · rw [if_pos h, show (t == tag) = true by simpa using h]
    rfl
  · rw [if_neg h, show (t == tag) = false by simpa using h]

private theorem find_snoc_heap (l : List HeapRecord) (t : Nat) (h : Heap) (tag : Nat) :
    (Heap.mk (l ++ [.heap t h])).find tag = (Heap.mk l).find tag := by
  unfold Heap.find
  simp only [Heap.records, List.filterMap_append]
  rw [show List.filterMap HeapRecord.value? [.heap t h] = [] from rfl, List.append_nil]

private theorem HeapCollected.value {l : List HeapRecord} {s : CiffIFD.Acc} (h : HeapCollected (.mk l) s) {t : Nat} {inside : Bool} {data : Bytes}
    {ent : CiffEntry} (hc : CarriesCiff t data ent) : HeapCollected (.mk (l ++ [.value t inside data])) (Map.insert s.1 t ent, s.2) := by
  have hsub : (Heap.mk (l ++ [.value t inside data])).subs = (Heap.mk l).subs := by
    unfold Heap.subs; simp [Heap.records, HeapRecord.heap?]
  refine ⟨?_, ?_, by rw [hsub]; exact h.subs⟩
  · intro tag ht
    rw [find_snoc_value] at ht
    have hne : tag ≠ t := by
      rintro rfl
      rw [if_pos rfl] at ht
      cases ht
    rw [if_neg (fun h : t = tag => hne h.symm)] at ht
    rw [Map.get_insert_ne _ _ hne]
    exact h.absent tag ht
  · intro tag g ht
    rw [find_snoc_value] at ht
    by_cases hne : tag = t
    · subst hne
      rw [if_pos rfl] at ht
      injection ht with ht
      subst ht
      exact ⟨ent, Map.get_insert_self _ _ _, hc⟩
    · rw [if_neg (fun h : t = tag => hne h.symm)] at ht
      rw [Map.get_insert_ne _ _ hne]
      exact h.present tag g ht

private theorem HeapCollected.heap {l : List HeapRecord} {s : CiffIFD.Acc} (h : HeapCollected (.mk l) s) {t : Nat} {sub : Heap} {c : CiffIFD}
    (hc : HoldsHeap sub c) : HeapCollected (.mk (l ++ [.heap t sub])) (s.1, s.2 ++ [c]) := by
  have hsub : (Heap.mk (l ++ [.heap t sub])).subs = (Heap.mk l).subs ++ [sub] := by
    unfold Heap.subs; simp [Heap.records, HeapRecord.heap?]
  exact ⟨fun tag ht => h.absent tag (by rw [← find_snoc_heap l t sub]; exact ht),
    fun tag g ht => h.present tag g (by rw [← find_snoc_heap l t sub]; exact ht), by rw [hsub]; exact h.subs.snoc hc⟩

/-- A stored heap is read back. -/
private theorem heap_read (b : Build) (buf : Bytes) : ∀ (n m start stop depth : Nat) (h : Heap),
    n ≤ m → depth + n ≤ 11 → h.StoredAt n buf start stop →
    ∃ ifd, CiffIFD.new b buf m start stop depth = .ok ifd ∧ HoldsHeap h ifd := by
  intro n
  induction n with
  | zero => intro m start stop depth h _ _ hs; exact absurd hs id
  | succ n ih =>
    intro m start stop depth h hm hd hs
    obtain ⟨m, rfl⟩ : ∃ k, m = k + 1 := ⟨m - 1, by omega⟩
    obtain ⟨records⟩ := h
    obtain ⟨dir, h4, hstop, hdir, hlen, hlast, hroom, hcount, hrec⟩ := hs
    rw [CiffIFD.new, subU_ok h4, ok_bind, read32 (by omega) hlast hdir, ok_bind, read16 (by omega) hcount hlen, ok_bind]
    obtain ⟨s, hs, hcol⟩ := forRange_inv (fun i s => HeapCollected (.mk (records.take i)) s) (Nat.zero_le records.length)
      (f := CiffIFD.entryStep (fun st en => CiffIFD.new b buf m st en (depth + 1)) buf start (start + dir) depth) (s := ([], []))
      ⟨fun tag _ => rfl, fun tag f hf => (by cases hf), ⟨rfl, fun k s c hk => by cases hk⟩⟩
      (by
        intro i s _ hi hcol
        have hit := hrec i records[i] (List.getElem?_eq_getElem hi)
        rw [List.take_succ_eq_append_getElem hi]
        have hpos : start + dir + 2 + 10 * i + 10 ≤ buf.length := by omega
        generalize records[i] = r at hit
        unfold CiffIFD.entryStep CiffEntry.new
        rw [show start + dir + 2 + i * 10 = start + dir + 2 + 10 * i by omega]
        generalize start + dir + 2 + 10 * i = pos at hit hpos
        match r with
        | .value tag true data =>
          obtain ⟨htag, hh, hl, hp, hdata⟩ := hit
          rw [read16 (by omega) hp (by omega), ok_bind]
          dsimp only
          rw [where_bits, tag_bits, type_bits, show (16384 + tag) / 16384 % 4 * 16384 = 16384 by omega, if_neg (by decide), if_pos rfl,
            show (16384 + tag) % 16384 = tag by omega, show (16384 + tag) / 2048 % 8 = ciffType tag by unfold ciffType; omega]
          rw [← hl] at hdata
          simp only [ok_bind]
          rw [← hl, slice_bytes (by omega) hdata]
          simp only [ok_bind]
          have hne : ciffType tag ≠ 5 ∧ ciffType tag ≠ 6 := ⟨fun h => hh (Or.inl h), fun h => hh (Or.inr h)⟩
          rw [if_neg (by omega)]
          exact ⟨_, rfl, hcol.value (carries_ciff hh)⟩
        | .value tag false data =>
          obtain ⟨htag, hh, hl, hp, hsz, o, ho, hov, hol, hdata⟩ := hit
          rw [read16 (by omega) hp (by omega), ok_bind]
          dsimp only
          rw [where_bits, tag_bits, type_bits, show tag / 16384 % 4 * 16384 = 0 by omega, if_pos rfl,
            show tag % 16384 = tag by omega, show tag / 2048 % 8 = ciffType tag from rfl, read32 (by omega) hsz hl, ok_bind,
            read32 (by omega) hov ho, ok_bind]
          simp only [ok_bind]
          rw [Nat.add_comm o start, slice_bytes hol hdata]
          simp only [ok_bind]
          have hne : ciffType tag ≠ 5 ∧ ciffType tag ≠ 6 := ⟨fun h => hh (Or.inl h), fun h => hh (Or.inr h)⟩
          rw [if_neg (by omega)]
          exact ⟨_, rfl, hcol.value (carries_ciff hh)⟩
        | .heap tag sub =>
          obtain ⟨htag, hh, hp, size, o, hsize, ho, hsz, hov, hsub⟩ := hit
          have hn0 : n ≠ 0 := by rintro rfl; exact hsub
          have hbound : start + o + size ≤ buf.length := by
            obtain ⟨n, rfl⟩ : ∃ k, n = k + 1 := ⟨n - 1, by omega⟩
            obtain ⟨recs⟩ := sub
            obtain ⟨_, _, hst, _⟩ := hsub
            exact hst
          obtain ⟨ifd, hifd, hhold⟩ := ih m (start + o) (start + o + size) (depth + 1) sub (by omega) (by omega) hsub
          rw [read16 (by omega) hp (by omega), ok_bind]
          dsimp only
          rw [where_bits, tag_bits, type_bits, show tag / 16384 % 4 * 16384 = 0 by omega, if_pos rfl,
            show tag % 16384 = tag by omega, show tag / 2048 % 8 = ciffType tag from rfl, read32 (by omega) hsz hsize, ok_bind,
            read32 (by omega) hov ho, ok_bind]
          simp only [ok_bind]
          rw [Nat.add_comm o start, slice_le (by omega) hbound]
          simp only [ok_bind]
          have hne : ciffType tag = 5 ∨ ciffType tag = 6 := hh
          rw [if_pos (by omega), if_pos (by omega), hifd]
          exact ⟨_, rfl, hcol.heap hhold⟩)
    rw [hs, ok_bind]
    rw [List.take_of_length_le (Nat.le_refl _)] at hcol
    exact ⟨_, rfl, ⟨_, _, hcol.absent, hcol.present, hcol.subs.1, hcol.subs.2⟩⟩

private theorem bytesAt_append {l r : Bytes} {pos n : Nat} (h : pos + n ≤ l.length) : bytesAt (l ++ r) pos n = bytesAt l pos n := by
  unfold bytesAt
  rw [List.drop_append_of_le_length (by omega), List.take_append_of_le_length (by rw [List.length_drop]; omega)]

private theorem bytesAt_value_append {l r data : Bytes} {pos : Nat} (hp : pos ≤ l.length) (h : bytesAt l pos data.length = data) :
    bytesAt (l ++ r) pos data.length = data := by
  rw [bytesAt_append, h]
  have := congrArg List.length h
  unfold bytesAt at this
  rw [List.length_take, List.length_drop] at this
  omega

/-- Bytes after the heap do not matter. -/
private theorem stored_append {buf : Bytes} (r : Bytes) : ∀ (n start stop : Nat) (h : Heap), h.StoredAt n buf start stop → h.StoredAt n (buf ++ r) start stop := by
  intro n
  induction n with
  | zero => intro start stop h hs; exact absurd hs id
  | succ n ih =>
    intro start stop h hs
    obtain ⟨records⟩ := h
    obtain ⟨dir, h4, hstop, hdir, hlen, hlast, hroom, hcount, hrec⟩ := hs
    refine ⟨dir, h4, by rw [List.length_append]; omega, hdir, hlen, by rw [bytesAt_append (by omega)]; exact hlast,
      by rw [List.length_append]; omega, by rw [bytesAt_append (by omega)]; exact hcount, ?_⟩
    intro i rec hi
    have hit := hrec i rec hi
    have hil : i < records.length := by
      by_cases h : i < records.length
      · exact h
      · rw [List.getElem?_eq_none (by omega)] at hi; cases hi
    match rec with
    | .value tag true data =>
      obtain ⟨htag, hh, hl, hp, hdata⟩ := hit
      exact ⟨htag, hh, hl, by rw [bytesAt_append (by omega)]; exact hp, by rw [bytesAt_append (by omega)]; exact hdata⟩
    | .value tag false data =>
      obtain ⟨htag, hh, hl, hp, hsz, o, ho, hov, hol, hdata⟩ := hit
      exact ⟨htag, hh, hl, by rw [bytesAt_append (by omega)]; exact hp, by rw [bytesAt_append (by omega)]; exact hsz, o, ho,
        by rw [bytesAt_append (by omega)]; exact hov, by rw [List.length_append]; omega, bytesAt_value_append hol hdata⟩
    | .heap tag sub =>
      obtain ⟨htag, hh, hp, size, o, hsize, ho, hsz, hov, hsub⟩ := hit
      exact ⟨htag, hh, by rw [bytesAt_append (by omega)]; exact hp, size, o, hsize, ho, by rw [bytesAt_append (by omega)]; exact hsz,
        by rw [bytesAt_append (by omega)]; exact hov, ih _ _ _ hsub⟩

/-- C64. A file holding a heap with at most nine levels of heaps within it is read back: every heap with exactly the stored
values, and with the heaps within it in their order. -/
theorem ciff_file_roundtrip (b : Build) (file : Bytes) (h : Heap) (hf : CiffFile 10 file h) :
    ∃ root, CiffIFD.newFile b (Buffer.new file) = .ok root ∧ HoldsHeap h root := by
  obtain ⟨start, hst, hread, hheap⟩ := hf.start
  have hroom := hf.room
  unfold CiffIFD.newFile Buffer.new
  dsimp only
  rw [read32 (v := start) (by rw [List.length_append]; omega) (by rw [bytesAt_append (by omega)]; exact hread) hst, ok_bind]
  exact heap_read b _ 10 10 start file.length 1 h (by omega) (by omega) (stored_append _ 10 _ _ h hheap)

private theorem holdsHeap_path {h : Heap} {ifd : CiffIFD} (hh : HoldsHeap h ifd) (p : List Nat) :
    (∀ h', atPath Heap.subs h p = some h' → ∃ c, atPath CiffIFD.subifds ifd p = some c ∧ HoldsHeap h' c) ∧
    (∀ c, atPath CiffIFD.subifds ifd p = some c → ∃ h', atPath Heap.subs h p = some h' ∧ HoldsHeap h' c) := by
  induction p generalizing h ifd with
  | nil =>
    refine ⟨fun d' hd => ⟨ifd, rfl, ?_⟩, fun c hc => ⟨h, rfl, ?_⟩⟩
    · injection hd with hd; rw [← hd]; exact hh
    · injection hc with hc; rw [← hc]; exact hh
  | cons i p ih =>
    cases hh with
    | mk _ _ absent present number subs =>
      by_cases hi : i < h.subs.length
      · have hi' : i < ifd.subifds.length := by omega
        have e1 := List.getElem?_eq_getElem hi
        have e2 := List.getElem?_eq_getElem hi'
        have := ih (subs i _ _ e1 e2)
        simp only [atPath, e1, e2]
        exact this
      · have hi' : ¬ i < ifd.subifds.length := by omega
        simp only [atPath, List.getElem?_eq_none (Nat.le_of_not_lt hi), List.getElem?_eq_none (Nat.le_of_not_lt hi')]
        exact ⟨fun d' hd => (by cases hd), fun c hc => (by cases hc)⟩

/-- C64. Looking a tag up gives the value with that tag of the first heap, in document order, that has one, and nothing if no heap
has one. -/
theorem ciff_open_and_look (b : Build) (file : Bytes) (h : Heap) (hf : CiffFile 10 file h) :
    ∃ root, CiffIFD.newFile b (Buffer.new file) = .ok root ∧
      (∀ tag data, FirstIn Heap.subs (Heap.find · tag) h data → ∃ ent, CiffIFD.findEntry tag root = some ent ∧ CarriesCiff tag data ent) ∧
      (∀ tag, NoneIn Heap.subs (Heap.find · tag) h → CiffIFD.findEntry tag root = none) := by
  obtain ⟨root, hroot, hh⟩ := ciff_file_roundtrip b file h hf
  refine ⟨root, hroot, ?_, ?_⟩
  · rintro tag data ⟨p, h', hp, hget, hbefore⟩
    obtain ⟨c, hc, hh'⟩ := (holdsHeap_path hh p).1 h' hp
    obtain ⟨ent, he, hcar⟩ : ∃ ent, Map.get c.entries tag = some ent ∧ CarriesCiff tag data ent := by
      cases hh' with | mk _ _ _ present _ _ => exact present tag data hget
    refine ⟨ent, (ciff_find_entry_first tag root ent).mpr ⟨p, c, hc, he, ?_⟩, hcar⟩
    intro q c' hq hc'
    obtain ⟨h'', hd'', hh''⟩ := (holdsHeap_path hh q).2 c' hc'
    cases hh'' with | mk _ _ absent _ _ _ => exact absent tag (hbefore q h'' hq hd'')
  · intro tag hf
    refine (ciff_find_entry_none tag root).mpr ?_
    rintro c ⟨p, hc⟩
    obtain ⟨h', hd', hh'⟩ := (holdsHeap_path hh p).2 c hc
    cases hh' with | mk _ _ absent _ _ _ => exact absent tag (hf h' ⟨p, hd'⟩)

/-! ## A file -/

section Example

/-- A heap at 14 with four value bytes, a heap within it holding one value in the record, and the directory of two records. -/
private def exampleHeapFile : Bytes :=
  [0x49, 0x49, 14, 0, 0, 0] ++ [0x48, 0x45, 0x41, 0x50, 0x43, 0x43, 0x44, 0x52] ++
  [7, 0, 9, 1] ++                                                              -- 14: shorts 7 and 265
  [1, 0] ++ [0x10, 0x58, 1, 0, 0, 0, 2, 0, 0, 0] ++ [0, 0, 0, 0] ++            -- 18: the heap within
  [2, 0] ++ [0x2a, 0x10, 4, 0, 0, 0, 0, 0, 0, 0] ++ [0x0a, 0x30, 16, 0, 0, 0, 4, 0, 0, 0] ++ [20, 0, 0, 0]

private def exampleInner : Heap := .mk [.value 0x1810 true [1, 0, 0, 0, 2, 0, 0, 0]]
private def exampleHeap : Heap := .mk [.value 0x102a false [7, 0, 9, 1], .heap 0x300a exampleInner]

private theorem exampleHeap_stored : CiffFile 10 exampleHeapFile exampleHeap := by
  refine ⟨by decide, 14, by decide, by decide, 20, by decide, by decide, by decide, by decide, by decide, by decide, by decide, ?_⟩
  intro i r hi
  match i with
  | 0 =>
    obtain rfl := Option.some.inj hi
    exact ⟨by decide, by unfold isHeapTag; decide, by decide, by decide, by decide, 0, by decide, by decide, by decide, by decide⟩
  | 1 =>
    obtain rfl := Option.some.inj hi
    refine ⟨by decide, by unfold isHeapTag; decide, by decide, 16, 4, by decide, by decide, by decide, by decide, 0, by decide, by decide, by decide,
      by decide, by decide, by decide, by decide, ?_⟩
    intro k r hk
    match k with
    | 0 =>
      obtain rfl := Option.some.inj hk
      exact ⟨by decide, by unfold isHeapTag; decide, by decide, by decide, by decide⟩
    | k + 1 => cases hk
  | i + 2 => cases hi

/-- The second short of one value and the second long of the value in the inner heap. -/
example : ∃ root, CiffIFD.newFile .debug (Buffer.new exampleHeapFile) = .ok root ∧
    (∃ ent, CiffIFD.findEntry 0x102a root = some ent ∧ ent.getU32 1 = .ok 265) ∧
    (∃ ent, CiffIFD.findEntry 0x1810 root = some ent ∧ ent.getU32 1 = .ok 2) := by
  obtain ⟨root, h1, h2, _⟩ := ciff_open_and_look .debug exampleHeapFile exampleHeap exampleHeap_stored
  refine ⟨root, h1, ?_, ?_⟩
  · obtain ⟨ent, e1, e2⟩ := h2 0x102a [7, 0, 9, 1] ⟨[], exampleHeap, rfl, rfl, fun q _ hq _ => by simp at hq⟩
    exact ⟨ent, e1, by rw [e2.values (by decide) 1 (by rw [e2.count]; decide)]; decide⟩
  · have key : FirstIn Heap.subs (Heap.find · 0x1810) exampleHeap [1, 0, 0, 0, 2, 0, 0, 0] := by
      refine ⟨[0], exampleInner, rfl, rfl, ?_⟩
      intro q d'' hq hd''
      match q with
      | [] => obtain rfl : exampleHeap = d'' := Option.some.inj hd''; rfl
      | k :: q => simp [List.cons_lt_cons_iff] at hq
    obtain ⟨ent, e1, e2⟩ := h2 _ _ key
    exact ⟨ent, e1, by rw [e2.values (by decide) 1 (by rw [e2.count]; decide)]; decide⟩

end Example

end Props

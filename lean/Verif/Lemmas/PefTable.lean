import Mathlib.Data.List.Range
import Mathlib.Data.List.Perm.Basic
import Verif.Lemmas.Pairs
/-!
# Reading Pentax's table
-/

namespace Props
open Rust Spec Model Model.HuffTable Model.Ljpeg

/-! ## Streams in either byte order -/

/-- The stream has `l` in front of it. -/
def Ahead (src : Bytes) (e : Endian) (s : ByteStream) (l : Bytes) : Prop := s.buffer = src ∧ s.endian = e ∧ src.drop s.pos = l ∧ s.pos ≤ src.length

theorem ahead_new (src : Bytes) (e : Endian) : Ahead src e (ByteStream.new src e) src := ⟨rfl, rfl, rfl, Nat.zero_le _⟩

theorem bytesOf_drop {src l : Bytes} {n i : Nat} (h : src.drop n = l) : bytesOf src (n + i) = bytesOf l i := by
  unfold bytesOf
  rw [← h, List.getElem?_drop]

theorem Ahead.len {src : Bytes} {e : Endian} {s : ByteStream} {l : Bytes} (h : Ahead src e s l) : s.pos + l.length = src.length := by
  have := congrArg List.length h.2.2.1
  rw [List.length_drop] at this
  have := h.2.2.2
  omega

theorem Ahead.skip {src : Bytes} {e : Endian} {s : ByteStream} {l m : Bytes} (h : Ahead src e s (l ++ m)) : Ahead src e (s.consumeBytes l.length) m := by
  have hl := h.len
  rw [List.length_append] at hl
  refine ⟨h.1, h.2.1, ?_, ?_⟩
  · show src.drop (s.pos + l.length) = m
    rw [← List.drop_drop, h.2.2.1, List.drop_left]
  · show s.pos + l.length ≤ _
    omega

theorem Ahead.u8 {src : Bytes} {e : Endian} {s : ByteStream} {n : Nat} {l : Bytes} (hn : n < 256) (h : Ahead src e s (UInt8.ofNat n :: l)) : ∃ s', s.getU8 = .ok (n, s') ∧ Ahead src e s' l := by
  have hl := h.len
  rw [List.length_cons] at hl
  refine ⟨s.consumeBytes 1, ?_, Ahead.skip (l := [UInt8.ofNat n]) h⟩
  have b0 := bytesOf_drop (i := 0) h.2.2.1
  rw [Nat.add_zero] at b0
  have hv : byteAt s.buffer s.pos = .ok n := by
    rw [h.1, byteAt_lt (by omega), b0]
    congr 1
    simp [bytesOf, hn]
  unfold ByteStream.getU8 ByteStream.peekU8
  rw [hv]
  rfl

theorem Ahead.word {src : Bytes} {e : Endian} {s : ByteStream} {n : Nat} {l : Bytes} (hn : n < 65536) (h : Ahead src e s (storeWord e.big n ++ l)) : ∃ s', s.getU16 = .ok (n, s') ∧ Ahead src e s' l := by
  have h2 : (storeWord e.big n).length = 2 := by unfold storeWord word16; split <;> rfl
  have hl := h.len
  rw [List.length_append, h2] at hl
  have hk := Ahead.skip h
  rw [h2] at hk
  refine ⟨_, ?_, hk⟩
  have b0 := bytesOf_drop (i := 0) h.2.2.1
  have b1 := bytesOf_drop (i := 1) h.2.2.1
  rw [Nat.add_zero] at b0
  have hv : s.endian.ru16 s.buffer s.pos = .ok n := by
    unfold Endian.ru16
    rw [h.1, h.2.1]
    by_cases hb : e.big = true
    · rw [if_pos hb, BEu16_eq (by omega), b0, b1]
      congr 1
      unfold storeWord word16
      rw [if_pos hb]
      simp [bytesOf]
      omega
    · rw [if_neg hb, LEu16_eq (by omega), b0, b1]
      congr 1
      unfold storeWord
      rw [if_neg hb]
      simp [bytesOf]
      omega
  unfold ByteStream.getU16 ByteStream.peekU16
  rw [hv]
  rfl

/-! ## Lists given by a function -/

theorem set_map_range {α : Type} {n i : Nat} (f : Nat → α) (v : α) (hi : i < n) : setIdx ((List.range n).map f) i v = .ok ((List.range n).map fun j => if j = i then v else f j) := by
  rw [setIdx_lt (by simpa using hi)]
  congr 1
  apply List.ext_getElem?
  intro j
  rw [List.getElem?_set]
  simp only [List.length_map, List.length_range]
  by_cases hj : j < n
  · rw [range_map_getElem? _ hj, range_map_getElem? _ hj]
    by_cases h : i = j
    · subst h; rw [if_pos rfl, if_pos hi, if_pos rfl]
    · rw [if_neg h, if_neg (fun h' => h h'.symm)]
  · rw [if_neg (by omega), List.getElem?_eq_none (by simp; omega), List.getElem?_eq_none (by simp; omega)]

theorem replicate_map_range (n : Nat) {α : Type} (v : α) : List.replicate n v = (List.range n).map fun _ => v := by
  rw [List.map_const', List.length_range]

theorem map_range_congr {α : Type} {n : Nat} {f g : Nat → α} (h : ∀ j, j < n → f j = g j) : (List.range n).map f = (List.range n).map g :=
  List.map_congr_left fun j hj => h j (List.mem_range.mp hj)

/-! ## The table -/

/-- A table that Pentax's format can store: fewer than 16 symbols, numbered from zero, with codes of at most 12 bits. -/
structure PefTable (t : TableSpec) : Prop where
  usable : UsableTable t 16 false
  count : t.vals.length < 16
  perm : t.vals.Perm (List.range t.vals.length)
  short : ∀ k, k < t.vals.length → t.lens.getD k 0 ≤ 12

variable {t : TableSpec}

theorem PefTable.mem (h : PefTable t) {c : Nat} : c ∈ t.vals ↔ c < t.vals.length := by rw [h.perm.mem_iff, List.mem_range]

theorem PefTable.idx (h : PefTable t) {c : Nat} (hc : c < t.vals.length) : t.vals.idxOf c < t.vals.length := List.idxOf_lt_length_of_mem (h.mem.mpr hc)

theorem PefTable.nodup (h : PefTable t) : t.vals.Nodup := (h.perm.nodup_iff).mpr List.nodup_range

theorem PefTable.len (h : PefTable t) {k : Nat} (hk : k < t.vals.length) : 1 ≤ t.lens.getD k 0 ∧ t.lens.getD k 0 ≤ 12 :=
  ⟨((codeLengths_lens (HuffTable.counts (0 :: t.counts))).range k (by
    have := h.usable.length
    show k < t.lens.length
    omega)).1, h.short k hk⟩

theorem PefTable.code (h : PefTable t) {k : Nat} (hk : k < t.vals.length) : canonical t.lens k < 4096 := by
  have h1 := canonical_lt (L := t.lens) (codeLengths_lens (HuffTable.counts (0 :: t.counts))) h.usable.prefixCode.kraft (k := k) (by rw [h.usable.length]; exact hk)
  have h2 : 2 ^ t.lens.getD k 0 ≤ 2 ^ 12 := Nat.pow_le_pow_right (by omega) (h.len hk).2
  omega

theorem canonical_succ_gt (L : List Nat) (k : Nat) : canonical L k < canonical L (k + 1) := by
  rw [canonical]
  have := Nat.mul_le_mul_left (canonical L k + 1) (Nat.one_le_two_pow (n := L.getD (k + 1) 0 - L.getD k 0))
  omega

theorem canonical_strict (L : List Nat) {j k : Nat} (h : j < k) : canonical L j < canonical L k := by
  induction k with
  | zero => omega
  | succ k ih =>
    have := canonical_succ_gt L k
    by_cases hj : j = k
    · subst hj; exact this
    · have := ih (by omega); omega

theorem pefCode_lt (h : PefTable t) {c : Nat} (hc : c < t.vals.length) : pefCode t c < 65536 ∧ pefCode t c >>> (12 - t.lens.getD (t.vals.idxOf c) 0) = canonical t.lens (t.vals.idxOf c) := by
  unfold pefCode
  refine ⟨?_, by rw [Nat.shiftRight_eq_div_pow, Nat.mul_div_cancel _ (Nat.two_pow_pos _)]⟩
  have hi := h.idx hc
  have h1 := canonical_lt (L := t.lens) (codeLengths_lens (HuffTable.counts (0 :: t.counts))) h.usable.prefixCode.kraft (k := t.vals.idxOf c) (by rw [h.usable.length]; exact hi)
  have h2 : canonical t.lens (t.vals.idxOf c) * 2 ^ (12 - t.lens.getD (t.vals.idxOf c) 0) < 2 ^ t.lens.getD (t.vals.idxOf c) 0 * 2 ^ (12 - t.lens.getD (t.vals.idxOf c) 0) :=
    Nat.mul_lt_mul_of_pos_right h1 (Nat.two_pow_pos _)
  rw [← Nat.pow_add, show t.lens.getD (t.vals.idxOf c) 0 + (12 - t.lens.getD (t.vals.idxOf c) 0) = 12 by have := h.short _ hi; omega] at h2
  omega

/-- How often a length occurs. -/
theorem count_codeLengths (cs : Nat → Nat) (l : Nat) : (codeLengths cs).count l = if 1 ≤ l ∧ l ≤ 16 then cs l else 0 := by
  unfold codeLengths
  have key : ∀ n, ((List.range n).flatMap fun i => List.replicate (cs (i + 1)) (i + 1)).count l = if 1 ≤ l ∧ l ≤ n then cs l else 0 := by
    intro n
    induction n with
    | zero => rw [if_neg (by omega)]; rfl
    | succ n ih =>
      rw [List.range_succ, List.flatMap_append, List.count_append, ih, List.flatMap_cons, List.flatMap_nil, List.append_nil, List.count_replicate]
      by_cases h : l = n + 1
      · subst h
        rw [if_neg (by omega), if_pos (by simp), if_pos (by omega), Nat.zero_add]
      · have : (n + 1 == l) = false := by simp; omega
        rw [this]
        simp only [Bool.false_eq_true, if_false, Nat.add_zero]
        by_cases h2 : 1 ≤ l ∧ l ≤ n
        · rw [if_pos h2, if_pos (by omega)]
        · rw [if_neg h2, if_neg (by omega)]
  exact key 16

/-- The lengths in the order of the symbols are the lengths in the order of the codes, permuted. -/
theorem PefTable.lens_perm (h : PefTable t) : ((List.range t.vals.length).map fun c => t.lens.getD (t.vals.idxOf c) 0).Perm t.lens := by
  have e : t.lens = t.vals.map fun c => t.lens.getD (t.vals.idxOf c) 0 := by
    apply List.ext_getElem
    · rw [List.length_map, h.usable.length]
    · intro i h1 h2
      rw [List.length_map] at h2
      rw [List.getElem_map, h.nodup.idxOf_getElem, List.getD_eq_getElem?_getD, List.getElem?_eq_getElem h1]
      rfl
  refine List.Perm.trans ?_ (List.Perm.of_eq e.symm)
  exact (h.perm.map _).symm

theorem PefTable.counts_eq (h : PefTable t) : ((List.range 17).map fun y => ((List.range t.vals.length).map fun c => t.lens.getD (t.vals.idxOf c) 0).count y) = 0 :: t.counts := by
  apply List.ext_getElem?
  intro y
  by_cases hy : y < 17
  · rw [range_map_getElem? _ hy, h.lens_perm.count_eq]
    unfold TableSpec.lens
    rw [count_codeLengths]
    match y with
    | 0 => rw [if_neg (by omega)]; rfl
    | y + 1 =>
      rw [if_pos (by omega), List.getElem?_cons_succ, List.getD_cons_succ, List.getD_eq_getElem?_getD, List.getElem?_eq_getElem (by rw [h.usable.counts.1]; omega)]
      rfl
  · rw [List.getElem?_eq_none (by simp; omega), List.getElem?_eq_none (by rw [List.length_cons, h.usable.counts.1]; omega)]

/-- The codes when the first `i` of them have been taken. -/
def remaining (t : TableSpec) (i : Nat) : List Nat :=
  (List.range 16).map fun j => if j < t.vals.length then if t.vals.idxOf j < i then 0xffffffff else canonical t.lens (t.vals.idxOf j) else 0

theorem smallest_ok (h : PefTable t) {i : Nat} (hi : i < t.vals.length) : Pef.smallest (remaining t i) t.vals.length = .ok (canonical t.lens i, t.vals.getD i 0) := by
  have hv : t.vals.getD i 0 = t.vals[i] := by rw [List.getD_eq_getElem?_getD, List.getElem?_eq_getElem hi]; rfl
  have hvlt : t.vals[i] < t.vals.length := h.mem.mp (List.getElem_mem hi)
  have hidx : t.vals.idxOf t.vals[i] = i := h.nodup.idxOf_getElem i hi
  have hcode := h.code hi
  have h16 := h.count
  rw [hv]
  obtain ⟨s', h1, h2, h3⟩ := forRange_inv (fun j (s : Nat × Nat) => (t.vals[i] < j → s = (canonical t.lens i, t.vals[i])) ∧ (j ≤ t.vals[i] → canonical t.lens i < s.1 ∧ s.1 ≤ 0xfffffff))
    (f := fun j (s : Nat × Nat) => do
      let v ← Rust.idx (remaining t i) j
      .ok (if v ≤ s.1 then (v, j) else s)) (lo := 0) (hi := t.vals.length) (s := (0xfffffff, 0xff)) (Nat.zero_le _)
    ⟨fun h => absurd h (by omega), fun _ => ⟨by show _ < 0xfffffff; omega, Nat.le_refl _⟩⟩ (by
      rintro j ⟨m, k⟩ _ hj ⟨i1, i2⟩
      have hr : (remaining t i)[j]? = some (if t.vals.idxOf j < i then 0xffffffff else canonical t.lens (t.vals.idxOf j)) := by
        unfold remaining
        rw [range_map_getElem? _ (by omega), if_pos hj]
      rw [idx_eq_ok.mpr hr, ok_bind]
      refine ⟨_, rfl, ?_⟩
      dsimp only
      by_cases hji : j = t.vals[i]
      · subst hji
        obtain ⟨a1, a2⟩ := i2 (Nat.le_refl _)
        dsimp only at a1 a2
        rw [hidx, if_neg (Nat.lt_irrefl i), if_pos (by omega)]
        exact ⟨fun _ => rfl, fun h => absurd h (by omega)⟩
      · have hne : t.vals.idxOf j ≠ i := by
          intro he
          apply hji
          have := List.getElem_idxOf (List.idxOf_lt_length_of_mem (h.mem.mpr hj))
          rw [← this]
          congr 1
        by_cases hlt : t.vals.idxOf j < i
        · rw [if_pos hlt]
          by_cases hf : t.vals[i] < j
          · have e := i1 hf
            injection e with e1 e2
            subst e1 e2
            rw [if_neg (by omega)]
            exact ⟨fun _ => rfl, fun h => absurd h (by omega)⟩
          · obtain ⟨a1, a2⟩ := i2 (by omega)
            dsimp only at a1 a2
            rw [if_neg (by omega)]
            exact ⟨fun h => absurd h (by omega), fun _ => ⟨a1, a2⟩⟩
        · rw [if_neg hlt]
          have hgt := canonical_strict t.lens (show i < t.vals.idxOf j by omega)
          have hc2 := h.code (h.idx hj)
          by_cases hf : t.vals[i] < j
          · have e := i1 hf
            injection e with e1 e2
            subst e1 e2
            rw [if_neg (by omega)]
            exact ⟨fun _ => rfl, fun h => absurd h (by omega)⟩
          · obtain ⟨a1, a2⟩ := i2 (by omega)
            dsimp only at a1 a2
            refine ⟨fun h => absurd h (by omega), fun _ => ?_⟩
            split
            · exact ⟨hgt, by show canonical t.lens (t.vals.idxOf j) ≤ _; omega⟩
            · exact ⟨a1, a2⟩)
  unfold Pef.smallest
  rw [h1, h2 hvlt]

theorem remaining_next (h : PefTable t) {i : Nat} (hi : i < t.vals.length) : setIdx (remaining t i) (t.vals.getD i 0) 0xffffffff = .ok (remaining t (i + 1)) := by
  have hv : t.vals.getD i 0 = t.vals[i] := by rw [List.getD_eq_getElem?_getD, List.getElem?_eq_getElem hi]; rfl
  have hvlt : t.vals[i] < t.vals.length := h.mem.mp (List.getElem_mem hi)
  have hidx : t.vals.idxOf t.vals[i] = i := h.nodup.idxOf_getElem i hi
  have h16 := h.count
  rw [hv]
  unfold remaining
  rw [set_map_range _ _ (by omega)]
  congr 1
  apply map_range_congr
  intro j _
  by_cases hj : j = t.vals[i]
  · subst hj
    rw [if_pos rfl, if_pos hvlt, hidx, if_pos (by omega)]
  · rw [if_neg hj]
    by_cases hjl : j < t.vals.length
    · rw [if_pos hjl, if_pos hjl]
      have hne : t.vals.idxOf j ≠ i := by
        intro he
        apply hj
        have := List.getElem_idxOf (List.idxOf_lt_length_of_mem (h.mem.mpr hjl))
        rw [← this]
        congr 1
      by_cases hlt : t.vals.idxOf j < i
      · rw [if_pos hlt, if_pos (by omega)]
      · rw [if_neg hlt, if_neg (by omega)]
    · rw [if_neg hjl, if_neg hjl]

/-- The table that is read is the one that was stored. -/
theorem readTable_ok (b : Build) (h : PefTable t) (e : Endian) (d : Nat) (hd : d < 65536) (hd4 : (d + 12) % 16 = t.vals.length) (unused tail : Bytes) (hu : unused.length = 12) :
    Pef.readTable b (pefTable e.big d unused t ++ tail) e = .ok (0 :: t.counts, padded t) := by
  generalize hsrc : pefTable e.big d unused t ++ tail = src
  have hA := ahead_new src e
  rw [← hsrc] at hA
  unfold pefTable at hA
  simp only [List.append_assoc] at hA
  have h16 := h.count
  obtain ⟨s1, g1, g2⟩ := Ahead.word hd hA
  have g3 := Ahead.skip g2
  rw [hu] at g3
  obtain ⟨⟨v0, s2⟩, k1, k2, k3⟩ := forRange_inv (fun i (s : List Nat × ByteStream) => s.1 = ((List.range 16).map fun j => if j < i then pefCode t j else 0) ∧
      Ahead _ e s.2 (((List.range t.vals.length).drop i).flatMap (fun c => storeWord e.big (pefCode t c)) ++ ((List.range t.vals.length).map (fun c => UInt8.ofNat (t.lens.getD (t.vals.idxOf c) 0)) ++ tail)))
    (f := fun i (s : List Nat × ByteStream) => do
      let (v, st) ← s.2.getU16
      let l ← setIdx s.1 i v
      .ok (l, st)) (lo := 0) (hi := t.vals.length) (s := (List.replicate 16 0, s1.consumeBytes 12)) (Nat.zero_le _) ⟨replicate_map_range 16 0, by rw [List.drop_zero]; exact g3⟩ (by
      rintro i ⟨l, s⟩ _ hi ⟨i1, i2⟩
      dsimp only at i1 i2
      rw [List.drop_eq_getElem_cons (by simpa using hi), List.flatMap_cons, List.getElem_range, List.append_assoc] at i2
      obtain ⟨s', j1, j2⟩ := Ahead.word (pefCode_lt h hi).1 i2
      refine ⟨((List.range 16).map fun j => if j < i + 1 then pefCode t j else 0, s'), ?_, rfl, j2⟩
      dsimp only
      rw [j1, ok_bind]
      dsimp only
      rw [i1, set_map_range _ _ (by omega), ok_bind]
      congr 2
      apply map_range_congr
      intro j _
      by_cases hj : j = i
      · subst hj; rw [if_pos rfl, if_pos (by omega)]
      · rw [if_neg hj]
        by_cases hlt : j < i
        · rw [if_pos hlt, if_pos (by omega)]
        · rw [if_neg hlt, if_neg (by omega)])
  rw [List.drop_eq_nil_of_le (by simp), List.flatMap_nil, List.nil_append] at k3
  obtain ⟨⟨v1, s3⟩, l1, l2, _⟩ := forRange_inv (fun i (s : List Nat × ByteStream) => s.1 = ((List.range 16).map fun j => if j < i then t.lens.getD (t.vals.idxOf j) 0 else 0) ∧
      Ahead _ e s.2 (((List.range t.vals.length).drop i).map (fun c => UInt8.ofNat (t.lens.getD (t.vals.idxOf c) 0)) ++ tail))
    (f := fun i (s : List Nat × ByteStream) => do
      let (v, st) ← s.2.getU8
      let l ← setIdx s.1 i v
      .ok (l, st)) (lo := 0) (hi := t.vals.length) (s := (List.replicate 16 0, s2)) (Nat.zero_le _) ⟨replicate_map_range 16 0, by rw [List.drop_zero]; exact k3⟩ (by
      rintro i ⟨l, s⟩ _ hi ⟨i1, i2⟩
      dsimp only at i1 i2
      rw [List.drop_eq_getElem_cons (by simpa using hi), List.map_cons, List.getElem_range, List.cons_append] at i2
      obtain ⟨s', j1, j2⟩ := Ahead.u8 (by have := (h.len (h.idx hi)).2; omega) i2
      refine ⟨((List.range 16).map fun j => if j < i + 1 then t.lens.getD (t.vals.idxOf j) 0 else 0, s'), ?_, rfl, j2⟩
      dsimp only
      rw [j1, ok_bind]
      dsimp only
      rw [i1, set_map_range _ _ (by omega), ok_bind]
      congr 2
      apply map_range_congr
      intro j _
      by_cases hj : j = i
      · subst hj; rw [if_pos rfl, if_pos (by omega)]
      · rw [if_neg hj]
        by_cases hlt : j < i
        · rw [if_pos hlt, if_pos (by omega)]
        · rw [if_neg hlt, if_neg (by omega)])
  dsimp only at k2 l2
  obtain ⟨⟨v2, bits⟩, m1, m2, m3⟩ := forRange_inv (fun c (s : List Nat × List Nat) => s.1 = ((List.range 16).map fun j => if j < c then canonical t.lens (t.vals.idxOf j) else 0) ∧
      s.2 = (List.range 17).map fun y => ((List.range c).map fun c => t.lens.getD (t.vals.idxOf c) 0).count y)
    (f := fun c (s : List Nat × List Nat) => do
      let x ← idx v0 c
      let y ← idx v1 c
      let k ← subU 32 b 12 y
      let x ← shrU 32 b x k
      let v2 ← setIdx s.1 c x
      let n ← idx s.2 y
      let bits ← setIdx s.2 y (n + 1)
      .ok (v2, bits)) (lo := 0) (hi := t.vals.length) (s := (List.replicate 16 0, List.replicate 17 0)) (Nat.zero_le _) ⟨replicate_map_range 16 0, replicate_map_range 17 0⟩ (by
      rintro c ⟨l, bs⟩ _ hc ⟨i1, i2⟩
      dsimp only at i1 i2
      obtain ⟨n1, n2⟩ := h.len (h.idx hc)
      obtain ⟨_, n4⟩ := pefCode_lt h hc
      refine ⟨((List.range 16).map fun j => if j < c + 1 then canonical t.lens (t.vals.idxOf j) else 0, (List.range 17).map fun y => ((List.range (c + 1)).map fun c => t.lens.getD (t.vals.idxOf c) 0).count y), ?_, rfl, rfl⟩
      dsimp only
      rw [k2, idx_eq_ok.mpr (range_map_getElem? _ (by omega)), ok_bind, if_pos hc, l2, idx_eq_ok.mpr (range_map_getElem? _ (by omega)), ok_bind, if_pos hc, subU_ok n2, ok_bind]
      unfold shrU
      rw [if_pos (by omega), ok_bind, n4, i1, set_map_range _ _ (by omega), ok_bind, i2, idx_eq_ok.mpr (range_map_getElem? _ (by omega)), ok_bind, set_map_range _ _ (by omega), ok_bind]
      congr 2
      · apply map_range_congr
        intro j _
        by_cases hj : j = c
        · subst hj; rw [if_pos rfl, if_pos (by omega)]
        · rw [if_neg hj]
          by_cases hlt : j < c
          · rw [if_pos hlt, if_pos (by omega)]
          · rw [if_neg hlt, if_neg (by omega)]
      · apply map_range_congr
        intro j _
        rw [List.range_succ, List.map_append, List.count_append, List.map_singleton, List.count_singleton]
        by_cases hj : j = t.lens.getD (t.vals.idxOf c) 0
        · rw [if_pos hj, ← hj]; simp
        · rw [if_neg hj, if_neg (fun h => hj (eq_of_beq h).symm), Nat.add_zero])
  dsimp only at m2 m3
  rw [h.counts_eq] at m3
  obtain ⟨⟨hv, v3⟩, o1, o2, _⟩ := forRange_inv (fun i (s : List Nat × List Nat) => s.1 = ((List.range 256).map fun j => if j < i then t.vals.getD j 0 else 0) ∧ s.2 = remaining t i)
    (f := fun i (s : List Nat × List Nat) => do
      let (_, num) ← Pef.smallest s.2 t.vals.length
      let h ← setIdx s.1 i num
      let v2 ← setIdx s.2 num 0xffffffff
      .ok (h, v2)) (lo := 0) (hi := t.vals.length) (s := (List.replicate 256 0, v2)) (Nat.zero_le _) ⟨replicate_map_range 256 0, by
        dsimp only
        rw [m2]
        unfold remaining
        apply map_range_congr
        intro j _
        rw [if_neg (show ¬ t.vals.idxOf j < 0 by omega)]⟩ (by
      rintro i ⟨l, vs⟩ _ hi ⟨i1, i2⟩
      dsimp only at i1 i2
      refine ⟨((List.range 256).map fun j => if j < i + 1 then t.vals.getD j 0 else 0, remaining t (i + 1)), ?_, rfl, rfl⟩
      dsimp only
      rw [i2, smallest_ok h hi, ok_bind]
      dsimp only
      rw [i1, set_map_range _ _ (by omega), ok_bind, remaining_next h hi, ok_bind]
      congr 2
      apply map_range_congr
      intro j _
      by_cases hj : j = i
      · subst hj; rw [if_pos rfl, if_pos (by omega)]
      · rw [if_neg hj]
        by_cases hlt : j < i
        · rw [if_pos hlt, if_pos (by omega)]
        · rw [if_neg hlt, if_neg (by omega)])
  dsimp only at o2
  have hpad : ((List.range 256).map fun j => if j < t.vals.length then t.vals.getD j 0 else 0) = padded t := by
    unfold padded
    apply List.ext_getElem?
    intro j
    by_cases hj : j < 256
    · rw [range_map_getElem? _ hj]
      by_cases hl : j < t.vals.length
      · rw [if_pos hl, List.getElem?_append_left hl, List.getD_eq_getElem?_getD, List.getElem?_eq_getElem hl]; rfl
      · rw [if_neg hl, List.getElem?_append_right (by omega), List.getElem?_replicate, if_pos (by omega)]
    · rw [List.getElem?_eq_none (by simp; omega), List.getElem?_eq_none (by simp; omega)]
  unfold Pef.readTable
  rw [← hsrc]
  unfold pefTable
  simp only [List.append_assoc]
  rw [g1, ok_bind]
  dsimp only
  rw [hd4, k1, ok_bind]
  dsimp only
  rw [l1, ok_bind]
  dsimp only
  rw [m1, ok_bind]
  dsimp only
  rw [o1, ok_bind]
  dsimp only
  rw [m3, o2, hpad]

end Props

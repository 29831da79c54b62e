import Verif.Lemmas.PefTable
import Verif.Spec.Nef
import Verif.Model.Dec.Nef
/-!
# Nikon's maker note
-/

namespace Props
open Rust Spec Model Model.HuffTable Model.Ljpeg

theorem idx_map_range {α : Type} {n i : Nat} (f : Nat → α) (hi : i < n) : idx ((List.range n).map f) i = .ok (f i) := by
  rw [idx_lt (by simpa using hi)]
  simp

theorem range_map_id (n : Nat) : List.range n = (List.range n).map fun j => j := by simp

theorem lt_of_getD {l : List Nat} {B : Nat} (h : ∀ v ∈ l, v < B) (hB : 0 < B) (k : Nat) : l.getD k 0 < B := by
  by_cases hk : k < l.length
  · rw [List.getD_eq_getElem?_getD, List.getElem?_eq_getElem hk]
    exact h _ (List.getElem_mem hk)
  · rw [List.getD_eq_getElem?_getD, List.getElem?_eq_none (by omega)]
    exact hB

/-- Reading words and storing them at every `step`-th position. -/
theorem read_words {src : Bytes} {e : Endian} {s : ByteStream} {values : List Nat} {rest : Bytes} (hv : ∀ v ∈ values, v < 65536) (step n : Nat) (hstep : 0 < step)
    (hroom : values.length = 0 ∨ (values.length - 1) * step < n) (hs : Ahead src e s (values.flatMap (storeWord e.big) ++ rest)) :
    ∃ s', forRange 0 values.length (fun i (s : List Nat × ByteStream) => do
      let (v, st) ← s.2.getU16
      let p ← setIdx s.1 (i * step) v
      .ok (p, st)) (List.range n, s) = .ok ((List.range n).map (fun j => if j % step = 0 ∧ j / step < values.length then values.getD (j / step) 0 else j), s') := by
  obtain ⟨⟨l, s'⟩, k1, k2, k3⟩ := forRange_inv (fun i (s : List Nat × ByteStream) => s.1 = ((List.range n).map fun j => if j % step = 0 ∧ j / step < i then values.getD (j / step) 0 else j) ∧
      Ahead src e s.2 ((values.drop i).flatMap (storeWord e.big) ++ rest))
    (f := fun i (s : List Nat × ByteStream) => do
      let (v, st) ← s.2.getU16
      let p ← setIdx s.1 (i * step) v
      .ok (p, st)) (lo := 0) (hi := values.length) (s := (List.range n, s)) (Nat.zero_le _) ⟨by
        simp only [Nat.not_lt_zero, and_false, if_false]
        exact range_map_id n, hs⟩ (by
      rintro i ⟨l, s⟩ _ hi ⟨i1, i2⟩
      dsimp only at i1 i2
      rw [List.drop_eq_getElem_cons hi, List.flatMap_cons, List.append_assoc] at i2
      obtain ⟨s', j1, j2⟩ := Ahead.word (hv _ (List.getElem_mem hi)) i2
      have hlt : i * step < n := by
        rcases hroom with h | h
        · omega
        · exact Nat.lt_of_le_of_lt (Nat.mul_le_mul_right _ (by omega)) h
      refine ⟨((List.range n).map fun j => if j % step = 0 ∧ j / step < i + 1 then values.getD (j / step) 0 else j, s'), ?_, rfl, j2⟩
      dsimp only
      rw [j1, ok_bind]
      dsimp only
      rw [i1, set_map_range _ _ hlt, ok_bind]
      refine congrArg (fun l => Except.ok (l, s')) (map_range_congr fun j _ => ?_)
      by_cases hj : j = i * step
      · subst hj
        rw [if_pos rfl, if_pos ⟨Nat.mul_mod_left _ _, by rw [Nat.mul_div_cancel _ hstep]; omega⟩, Nat.mul_div_cancel _ hstep, List.getD_eq_getElem?_getD, List.getElem?_eq_getElem hi]
        rfl
      · rw [if_neg hj]
        have : j % step = 0 → j / step ≠ i := by
          rintro h0 rfl
          apply hj
          have := Nat.div_add_mod j step
          rw [Nat.mul_comm, h0] at this
          exact this.symm
        by_cases h0 : j % step = 0
        · by_cases hlt : j / step < i
          · rw [if_pos ⟨h0, hlt⟩, if_pos ⟨h0, by omega⟩]
          · rw [if_neg (by omega), if_neg (by have := this h0; omega)]
        · rw [if_neg (by omega), if_neg (by omega)])
  exact ⟨s', by rw [k1, ← k2]⟩

theorem point_lt {m : NefMeta} {bps k : Nat} (hv : ∀ v ∈ m.values, v < 65536) (hk : k * m.spread bps < 65536) : m.point bps k < 65536 := by
  unfold NefMeta.point
  split
  · exact lt_of_getD hv (by decide) k
  · exact hk

theorem line_mul {m : NefMeta} {bps k : Nat} (hs : 0 < m.spread bps) : m.line bps (k * m.spread bps) = m.point bps k := by
  unfold NefMeta.line
  rw [Nat.mul_div_cancel _ hs, Nat.mul_mod_left, Nat.mul_zero, Nat.add_zero, Nat.sub_zero, Nat.mul_div_cancel _ hs]

/-- The interpolated curve. -/
theorem interpolate_ok {m : NefMeta} {bps : Nat} (hs : 0 < m.spread bps) (hv : ∀ v ∈ m.values, v < 65536) (hc : m.values.length = m.csize) (hbps : 2 ^ bps ≤ 16384)
    {src : Bytes} {e : Endian} {s : ByteStream} {rest : Bytes} (hA : Ahead src e s (m.values.flatMap (storeWord e.big) ++ rest)) :
    ∃ l, Nef.interpolate (List.range 65536) m.csize (m.spread bps) (2 ^ bps) s = .ok l ∧ l.length = 65536 ∧ l.take (2 ^ bps) = (List.range (2 ^ bps)).map (m.line bps) := by
  have hc1 : 1 < m.csize := by
    unfold NefMeta.spread at hs
    split at hs
    · assumption
    · omega
  have hmul : (m.csize - 1) * m.spread bps ≤ 2 ^ bps := by
    unfold NefMeta.spread
    rw [if_pos hc1]
    exact Nat.mul_div_le _ _
  have hsp : m.spread bps ≤ 16384 := by
    have : 1 * m.spread bps ≤ (m.csize - 1) * m.spread bps := Nat.mul_le_mul_right _ (by omega)
    omega
  obtain ⟨s', k⟩ := read_words hv (m.spread bps) 65536 hs (Or.inr (by rw [hc]; omega)) hA
  rw [hc] at k
  unfold Nef.interpolate
  rw [k, ok_bind]
  dsimp only
  generalize hst : m.spread bps = step at *
  have hfst : ∀ k, k * step < 65536 → (if k * step % step = 0 ∧ k * step / step < m.csize then m.values.getD (k * step / step) 0 else k * step) = m.point bps k := by
    intro k _
    unfold NefMeta.point
    rw [Nat.mul_div_cancel _ hs, Nat.mul_mod_left, hst]
    by_cases h : k < m.csize
    · rw [if_pos ⟨rfl, h⟩, if_pos h]
    · rw [if_neg (by omega), if_neg h]
  obtain ⟨l, k1, k2⟩ := forRange_inv (fun i (l : List Nat) => l = (List.range 65536).map fun j => if j < i then m.line bps j else if j % step = 0 ∧ j / step < m.csize then m.values.getD (j / step) 0 else j)
    (f := fun i points => do
      let v0 ← idx points (i - i % step)
      let v1 ← idx points (i - i % step + step)
      setIdx points i ((v0 * (step - i % step) + v1 * (i % step)) / step % 65536)) (lo := 0) (hi := 2 ^ bps)
    (s := (List.range 65536).map fun j => if j % step = 0 ∧ j / step < m.csize then m.values.getD (j / step) 0 else j) (Nat.zero_le _) (by simp) (by
      rintro i l _ hi i1
      have hm := Nat.mod_lt i hs
      have hdm := Nat.div_add_mod i step
      rw [Nat.mul_comm] at hdm
      have e0 : i - i % step = i / step * step := by omega
      have e1 : i - i % step + step = (i / step + 1) * step := by rw [Nat.succ_mul]; omega
      have l0 : i / step * step < 65536 := by omega
      have l1 : (i / step + 1) * step < 65536 := by rw [Nat.succ_mul]; omega
      have p0 := point_lt (m := m) (bps := bps) (k := i / step) hv (by rw [hst]; exact l0)
      have p1 := point_lt (m := m) (bps := bps) (k := i / step + 1) hv (by rw [hst]; exact l1)
      have v0 : idx l (i - i % step) = .ok (m.point bps (i / step)) := by
        rw [i1, e0, idx_map_range _ l0, hfst _ l0]
        split
        · have := line_mul (m := m) (bps := bps) (k := i / step) (by rw [hst]; exact hs)
          rw [hst] at this
          rw [this]
        · rfl
      have v1 : idx l (i - i % step + step) = .ok (m.point bps (i / step + 1)) := by
        rw [i1, e1, idx_map_range _ l1, hfst _ l1, if_neg (by omega)]
      have hv' : (m.point bps (i / step) * (step - i % step) + m.point bps (i / step + 1) * (i % step)) / step % 65536 = m.line bps i := by
        unfold NefMeta.line
        rw [hst]
        apply Nat.mod_eq_of_lt
        rw [Nat.div_lt_iff_lt_mul hs]
        have a := Nat.mul_le_mul_right (step - i % step) (Nat.le_of_lt_succ p0)
        have b := Nat.mul_le_mul_right (i % step) (Nat.le_of_lt_succ p1)
        have c : 65535 * (step - i % step) + 65535 * (i % step) = 65535 * step := by rw [← Nat.mul_add]; congr 1; omega
        omega
      refine ⟨(List.range 65536).map fun j => if j < i + 1 then m.line bps j else if j % step = 0 ∧ j / step < m.csize then m.values.getD (j / step) 0 else j, ?_, rfl⟩
      rw [v0, ok_bind, v1, ok_bind, hv', i1, set_map_range _ _ (by omega)]
      refine congrArg Except.ok (map_range_congr fun j _ => ?_)
      by_cases hj : j = i
      · subst hj; rw [if_pos rfl, if_pos (by omega)]
      · rw [if_neg hj]
        by_cases hlt : j < i
        · rw [if_pos hlt, if_pos (by omega)]
        · rw [if_neg hlt, if_neg (show ¬ j < i + 1 by omega)])
  refine ⟨l, k1, by rw [k2]; simp, ?_⟩
  rw [k2, ← List.map_take, List.take_range, Nat.min_eq_left (by omega)]
  apply map_range_congr
  intro j hj
  rw [if_pos hj]

/-- The curve and the split row. -/
theorem curvePoints_ok (b : Build) {m : NefMeta} {bps : Nat} {e : Endian} (hm : m.Ok e.big bps) {tag : TiffEntry} (htag : tag.data = m.bytes e.big) {src : Bytes} {s : ByteStream}
    (hA : Ahead src e s (storeWord e.big m.csize ++ (m.values.flatMap (storeWord e.big) ++ m.rest))) :
    Nef.curvePoints b m.v0 m.v1 bps tag e s = .ok (m.curve bps, m.split e.big bps) := by
  have hpow : 2 ^ bps ≤ 16384 := by rcases hm.bps with h | h <;> subst h <;> decide
  obtain ⟨s1, g1, g2⟩ := Ahead.word hm.csize hA
  have hone : shlU 64 b 1 bps = .ok (2 ^ bps) := by rcases hm.bps with h | h <;> subst h <;> cases b <;> decide
  have hmod : 2 ^ bps % 32768 = 2 ^ bps := Nat.mod_eq_of_lt (by omega)
  unfold Nef.curvePoints
  rw [hone, ok_bind]
  dsimp only
  rw [g1, ok_bind]
  dsimp only
  rw [hmod]
  have hsp : (if m.csize > 1 then 2 ^ bps / (m.csize - 1) else 0) = m.spread bps := rfl
  rw [hsp]
  unfold NefMeta.curve NefMeta.split
  by_cases hi : m.Interpolated bps
  · rw [if_pos hi, if_pos hi, if_pos (show m.v0 = 68 ∧ m.v1 = 32 ∧ m.spread bps > 0 from hi)]
    obtain ⟨l, k1, k2, k3⟩ := interpolate_ok hi.2.2 hm.values (hm.count (Or.inl hi)) hpow g2
    have hr := hm.room hi
    have hw : e.ru16 tag.data 562 = .ok (NefMeta.wordAt e.big (m.bytes e.big) 562) := by
      rw [htag]
      generalize m.bytes e.big = d at *
      have hb : ∀ i, bytesOf d i = (d.getD i 0).toNat := by
        intro i
        unfold bytesOf
        rw [List.getD_eq_getElem?_getD]
        cases d[i]? <;> rfl
      unfold Endian.ru16 NefMeta.wordAt
      split
      · rw [BEu16_eq (by omega), hb, hb, Nat.mul_comm]
      · rw [LEu16_eq (by omega), hb, hb]
        congr 1; omega
    rw [k1, ok_bind, hw, ok_bind, slice_le (by omega) (by omega), ok_bind, k3]
    rfl
  · rw [if_neg hi, if_neg hi, if_neg (show ¬ (m.v0 = 68 ∧ m.v1 = 32 ∧ m.spread bps > 0) from hi)]
    by_cases hst : m.Stored
    · rw [if_pos hst, if_pos (show m.v0 ≠ 70 ∧ m.csize ≤ 16385 from hst)]
      have hc := hm.count (Or.inr hst)
      obtain ⟨s2, k⟩ := read_words hm.values 1 65536 (by decide) (by have := hm.csize; omega) g2
      simp only [Nat.mul_one, Nat.mod_one, Nat.div_one, true_and, hc] at k
      rw [k, ok_bind]
      dsimp only
      rw [slice_le (by omega) (by have := hm.csize; simp; omega), ok_bind, List.drop_zero, ← List.map_take, List.take_range, Nat.min_eq_left (by have := hm.csize; omega)]
      congr 2
      apply List.ext_getElem?
      intro i
      by_cases h : i < m.csize
      · rw [List.getElem?_map, List.getElem?_range h, Option.map_some, if_pos h, List.getD_eq_getElem?_getD, List.getElem?_eq_getElem (by omega)]
        rfl
      · rw [List.getElem?_eq_none (by simpa using h), List.getElem?_eq_none (by omega)]
    · rw [if_neg hst, if_neg (show ¬ (m.v0 ≠ 70 ∧ m.csize ≤ 16385) from hst), slice_le (by omega) (by simp; omega), ok_bind, List.drop_zero, List.take_range, Nat.min_eq_left (by omega)]

end Props

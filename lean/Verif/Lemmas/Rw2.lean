import Verif.Spec.Rw2
import Verif.Lemmas.TiffEntry
import Verif.Lemmas.Codes
import Verif.Lemmas.Pumps
import Verif.Lemmas.Strips
import Verif.Model.Dec.Rw2
/-!
# Lemmas on Panasonic's compressed images
-/

namespace Spec

/-! ## Packed fields -/

theorem fieldsWidth_append (a b : List (Nat × Nat)) : fieldsWidth (a ++ b) = fieldsWidth a + fieldsWidth b := by
  unfold fieldsWidth; rw [List.map_append, List.sum_append_nat]

theorem foldl_pack (l : List (Nat × Nat)) : ∀ acc, l.foldl (fun acc f => acc * 2 ^ f.1 + f.2) acc = acc * 2 ^ fieldsWidth l + packFields l := by
  induction l with
  | nil => intro acc; simp [fieldsWidth, packFields]
  | cons f l ih =>
    intro acc
    unfold packFields
    rw [List.foldl_cons, ih, List.foldl_cons, ih]
    have : fieldsWidth (f :: l) = f.1 + fieldsWidth l := by simp [fieldsWidth]
    rw [this, Nat.pow_add]
    simp only [Nat.zero_mul, Nat.zero_add, Nat.add_mul, Nat.mul_assoc, Nat.add_assoc]

theorem packFields_append (a b : List (Nat × Nat)) : packFields (a ++ b) = packFields a * 2 ^ fieldsWidth b + packFields b := by
  unfold packFields
  rw [List.foldl_append, foldl_pack b]
  rfl

theorem packFields_lt {l : List (Nat × Nat)} (h : ∀ f ∈ l, f.2 < 2 ^ f.1) : packFields l < 2 ^ fieldsWidth l := by
  induction l with
  | nil => decide
  | cons f l ih =>
    have h1 := ih fun g hg => h g (List.mem_cons_of_mem _ hg)
    have h2 := h f List.mem_cons_self
    rw [show f :: l = [f] ++ l from rfl, packFields_append, fieldsWidth_append]
    have e1 : packFields [f] = f.2 := by simp [packFields]
    have e2 : fieldsWidth [f] = f.1 := by simp [fieldsWidth]
    rw [e1, e2, Nat.pow_add]
    have := Nat.mul_le_mul_right (2 ^ fieldsWidth l) (Nat.succ_le_of_lt h2)
    rw [Nat.succ_mul] at this
    omega

/-- A field of packed fields. -/
theorem packFields_field {pre post : List (Nat × Nat)} {w v : Nat} (hv : v < 2 ^ w) (hp : ∀ f ∈ post, f.2 < 2 ^ f.1) :
    packFields (pre ++ (w, v) :: post) / 2 ^ fieldsWidth post % 2 ^ w = v := by
  have e : pre ++ (w, v) :: post = (pre ++ [(w, v)]) ++ post := by simp
  rw [e, packFields_append, packFields_append]
  have e1 : packFields [(w, v)] = v := by simp [packFields]
  have e2 : fieldsWidth [(w, v)] = w := by simp [fieldsWidth]
  rw [e1, e2, Nat.mul_comm _ (2 ^ fieldsWidth post), Nat.mul_add_div (Nat.two_pow_pos _), Nat.div_eq_of_lt (packFields_lt hp), Nat.add_zero,
    Nat.mul_comm, Nat.mul_add_mod, Nat.mod_eq_of_lt hv]

namespace PanaGroup

/-! ## The layout of a group -/

theorem started_succ (g : PanaGroup) (s i : Nat) : g.started s (i + 1) = (g.started s i || (decide (i % 2 = s) && decide (g.code i ≠ 0))) := by
  unfold started
  rw [List.range_succ, List.any_append]
  simp

theorem before_succ (g : PanaGroup) (i : Nat) : g.before (i + 1) = g.before i ++ g.fields i := by
  unfold before
  rw [List.range_succ, List.flatMap_append]
  simp

theorem fields_width (g : PanaGroup) (i : Nat) : fieldsWidth (g.fields i) = 8 + (if i % 3 = 2 then 2 else 0) + 4 * (g.opens i).toNat := by
  unfold fields
  rw [fieldsWidth_append, fieldsWidth_append]
  cases g.opens i <;> by_cases h : i % 3 = 2 <;> simp [h, fieldsWidth]

theorem fields_fit {g : PanaGroup} (h : g.Fits) (i : Nat) : ∀ f ∈ g.fields i, f.2 < 2 ^ f.1 := by
  intro f hf
  have h1 := h.code i
  have h2 := h.low (i % 2)
  have h3 := h.sel (i / 3)
  unfold fields at hf
  simp only [List.mem_append, List.mem_singleton] at hf
  rcases hf with (hf | hf) | hf
  · split at hf
    · rw [List.mem_singleton] at hf; subst hf; exact h3
    · cases hf
  · subst hf; exact h1
  · split at hf
    · rw [List.mem_singleton] at hf; subst hf; exact h2
    · cases hf

/-- The bits of the samples before `i`, while both kinds may still be unopened. -/
theorem before_width (g : PanaGroup) : ∀ i, i ≤ 12 → fieldsWidth (g.before i) = 8 * i + 2 * ((i + 0) / 3) + 4 * ((g.started 0 i).toNat + (g.started 1 i).toNat) := by
  intro i
  induction i with
  | zero => intro _; rfl
  | succ i ih =>
    intro hi
    rw [before_succ, fieldsWidth_append, ih (by omega), fields_width, started_succ, started_succ]
    have hop : g.opens i = (!g.started (i % 2) i && decide (g.code i ≠ 0)) := by
      unfold opens
      rw [show decide (11 < i) = false by simp; omega, Bool.or_false]
    rw [hop]
    have hdiv : 2 * ((i + 1 + 0) / 3) = 2 * ((i + 0) / 3) + (if i % 3 = 2 then 2 else 0) := by split <;> omega
    rw [hdiv]
    have h2 : i % 2 = 0 ∨ i % 2 = 1 := by omega
    rcases h2 with h2 | h2 <;> rw [h2] <;> cases g.started 0 i <;> cases g.started 1 i <;> by_cases hc : g.code i = 0 <;> simp [hc] <;> omega

/-- A group has 128 bits. -/
theorem width_128 (g : PanaGroup) : fieldsWidth (g.before 14) = 128 := by
  have h12 := before_width g 12 (by omega)
  rw [show (14 : Nat) = 12 + 1 + 1 from rfl, before_succ, before_succ, fieldsWidth_append, fieldsWidth_append, h12, fields_width, fields_width]
  have h0 : g.opens 12 = !g.started 0 12 := by unfold opens; simp
  have h1 : g.opens 13 = !g.started 1 12 := by
    unfold opens
    rw [show (13 % 2 : Nat) = 1 from rfl, started_succ]
    simp
  rw [h0, h1]
  cases g.started 0 12 <;> cases g.started 1 12 <;> simp

theorem before_mono (g : PanaGroup) {i j : Nat} (h : i ≤ j) : ∃ l, g.before j = g.before i ++ l := by
  induction j with
  | zero => exact ⟨[], by rw [show i = 0 by omega]; simp⟩
  | succ j ih =>
    by_cases hij : i ≤ j
    · obtain ⟨l, hl⟩ := ih hij
      exact ⟨l ++ g.fields j, by rw [before_succ, hl, List.append_assoc]⟩
    · exact ⟨[], by rw [show i = j + 1 by omega, List.append_nil]⟩

end PanaGroup

/-! ## Reading a group field by field -/

/-- Reading with `get`, which is given a position and a width, gives the fields one after the other from `p` on. -/
def GivesFields (get : Nat → Nat → Nat) : Nat → List (Nat × Nat) → Prop
  | _, [] => True
  | p, (w, v) :: l => get p w = v ∧ GivesFields get (p + w) l

theorem givesFields_append {get : Nat → Nat → Nat} {a b : List (Nat × Nat)} : ∀ {p : Nat}, GivesFields get p (a ++ b) ↔ GivesFields get p a ∧ GivesFields get (p + fieldsWidth a) b := by
  induction a with
  | nil => intro p; simp [GivesFields, fieldsWidth]
  | cons f a ih =>
    intro p
    obtain ⟨w, v⟩ := f
    rw [List.cons_append, GivesFields, GivesFields, ih, and_assoc, show fieldsWidth ((w, v) :: a) = w + fieldsWidth a by simp [fieldsWidth],
      Nat.add_assoc]

/-- The bits of the packed fields give the fields. -/
theorem gives_packed {l : List (Nat × Nat)} (hf : ∀ f ∈ l, f.2 < 2 ^ f.1) {total : Nat} (ht : fieldsWidth l = total) :
    GivesFields (fun p n => packFields l / 2 ^ (total - p - n) % 2 ^ n) 0 l := by
  have key : ∀ (post pre : List (Nat × Nat)), pre ++ post = l → GivesFields (fun p n => packFields l / 2 ^ (total - p - n) % 2 ^ n) (fieldsWidth pre) post := by
    intro post
    induction post with
    | nil => intro pre _; trivial
    | cons f post ih =>
      intro pre he
      obtain ⟨w, v⟩ := f
      refine ⟨?_, ?_⟩
      · have hw : fieldsWidth pre + (w + fieldsWidth post) = total := by
          rw [← ht, ← he, fieldsWidth_append]
          simp [fieldsWidth]
        have := packFields_field (pre := pre) (post := post) (w := w) (v := v) (hf (w, v) (by rw [← he]; simp))
          (fun g hg => hf g (by rw [← he]; simp [hg]))
        rw [he] at this
        dsimp only
        rw [show total - fieldsWidth pre - w = fieldsWidth post by omega]
        exact this
      · have := ih (pre ++ [(w, v)]) (by rw [← he]; simp)
        rw [fieldsWidth_append, show fieldsWidth [(w, v)] = w by simp [fieldsWidth]] at this
        exact this
  exact key l [] rfl

namespace PanaGroup

theorem started_congr {g g' : PanaGroup} {s i : Nat} (h : ∀ k, k < i → g.code k = g'.code k) : g.started s i = g'.started s i := by
  unfold started
  rw [Bool.eq_iff_iff, List.any_eq_true, List.any_eq_true]
  constructor
  · rintro ⟨k, hk, hp⟩
    exact ⟨k, hk, by rw [← h k (List.mem_range.mp hk)]; exact hp⟩
  · rintro ⟨k, hk, hp⟩
    exact ⟨k, hk, by rw [h k (List.mem_range.mp hk)]; exact hp⟩

theorem opens_congr {g g' : PanaGroup} {i : Nat} (h : ∀ k, k ≤ i → g.code k = g'.code k) : g.opens i = g'.opens i := by
  unfold opens
  rw [started_congr fun k hk => h k (Nat.le_of_lt hk), h i (Nat.le_refl _)]

theorem fields_congr {g g' : PanaGroup} {i : Nat} (h : ∀ k, k ≤ i → g.code k = g'.code k) (hs : i % 3 = 2 → g.sel (i / 3) = g'.sel (i / 3))
    (hl : g.opens i = true → g.low (i % 2) = g'.low (i % 2)) : g.fields i = g'.fields i := by
  unfold fields
  rw [← opens_congr h, h i (Nat.le_refl _)]
  have e1 : (if i % 3 = 2 then [(2, g.sel (i / 3))] else []) = (if i % 3 = 2 then [(2, g'.sel (i / 3))] else []) := by
    by_cases h3 : i % 3 = 2
    · rw [if_pos h3, if_pos h3, hs h3]
    · rw [if_neg h3, if_neg h3]
  have e2 : (if g.opens i = true then [(4, g.low (i % 2))] else []) = (if g.opens i = true then [(4, g'.low (i % 2))] else []) := by
    by_cases h3 : g.opens i = true
    · rw [if_pos h3, if_pos h3, hl h3]
    · rw [if_neg h3, if_neg h3]
  rw [e1, e2]

theorem before_congr {g g' : PanaGroup} {i : Nat} (h : ∀ k, k < i → g.fields k = g'.fields k) : g.before i = g'.before i := by
  induction i with
  | zero => rfl
  | succ i ih => rw [before_succ, before_succ, ih fun k hk => h k (by omega), h i (by omega)]

/-- A sample that is given in full and not among the last two starts its kind. -/
theorem started_of_opens {g : PanaGroup} {k i : Nat} (hk : k < i) (h11 : k ≤ 11) (h : g.opens k = true) : g.started (k % 2) i = true := by
  unfold opens at h
  rw [Bool.and_eq_true, Bool.or_eq_true] at h
  have hc : g.code k ≠ 0 := by
    rcases h.2 with h | h
    · exact of_decide_eq_true h
    · exact absurd (of_decide_eq_true h) (by omega)
  unfold started
  rw [List.any_eq_true]
  exact ⟨k, List.mem_range.mpr hk, by simp [hc]⟩

/-- Whatever is read, there is a group with these fields. -/
theorem exists_group (get : Nat → Nat → Nat) (hget : ∀ p n, get p n < 2 ^ n) :
    ∃ g : PanaGroup, g.Fits ∧ GivesFields get 0 (g.before 14) := by
  have key : ∀ i, i ≤ 14 → ∃ g : PanaGroup, g.Fits ∧ GivesFields get 0 (g.before i) := by
    intro i
    induction i with
    | zero => intro _; exact ⟨⟨fun _ => 0, fun _ => 0, fun _ => 0⟩, ⟨fun _ => by show 0 < 256; decide, fun _ => by show 0 < 16; decide, fun _ => by show 0 < 4; decide⟩, trivial⟩
    | succ i ih =>
      intro hi
      obtain ⟨g, hfit, hg⟩ := ih (by omega)
      let p := fieldsWidth (g.before i)
      let p1 := p + (if i % 3 = 2 then 2 else 0)
      let g1 : PanaGroup := ⟨fun k => if k = i then get p1 8 else g.code k, g.low, fun t => if i % 3 = 2 ∧ t = i / 3 then get p 2 else g.sel t⟩
      let g2 : PanaGroup := ⟨g1.code, fun s => if g1.opens i = true ∧ s = i % 2 then get (p1 + 8) 4 else g.low s, g1.sel⟩
      have hbefore : g2.before i = g.before i := by
        apply before_congr
        intro k hk
        refine (fields_congr ?_ ?_ ?_).symm
        · intro m hm
          show g.code m = if m = i then _ else g.code m
          rw [if_neg (by omega)]
        · intro _
          show g.sel (k / 3) = if i % 3 = 2 ∧ k / 3 = i / 3 then _ else g.sel (k / 3)
          rw [if_neg (by omega)]
        · intro hop
          show g.low (k % 2) = if g1.opens i = true ∧ k % 2 = i % 2 then _ else g.low (k % 2)
          rw [if_neg]
          rintro ⟨ho, hpar⟩
          have hk11 : k ≤ 11 := by omega
          have hst := started_of_opens (g := g) hk hk11 hop
          have hst1 : g1.started (i % 2) i = g.started (i % 2) i := started_congr fun m hm => by
            show (if m = i then _ else g.code m) = g.code m
            rw [if_neg (by omega)]
          unfold opens at ho
          rw [hst1, ← hpar, hst] at ho
          simp at ho
      refine ⟨g2, ⟨?_, ?_, ?_⟩, ?_⟩
      · intro k
        show (if k = i then get p1 8 else g.code k) < 256
        split
        · exact hget _ _
        · exact hfit.code k
      · intro s
        show (if g1.opens i = true ∧ s = i % 2 then get (p1 + 8) 4 else g.low s) < 16
        split
        · exact hget _ _
        · exact hfit.low s
      · intro t
        show (if i % 3 = 2 ∧ t = i / 3 then get p 2 else g.sel t) < 4
        split
        · exact hget _ _
        · exact hfit.sel t
      · rw [before_succ, givesFields_append, hbefore]
        refine ⟨hg, ?_⟩
        have hop : g2.opens i = g1.opens i := opens_congr fun _ _ => rfl
        rw [Nat.zero_add]
        have hc : g2.code i = get p1 8 := if_pos rfl
        unfold fields
        rw [hop, hc]
        have hlow : g1.opens i = true → g2.low (i % 2) = get (p1 + 8) 4 := fun h => if_pos ⟨h, rfl⟩
        have hsel : i % 3 = 2 → g2.sel (i / 3) = get p 2 := fun h => if_pos ⟨h, rfl⟩
        rw [givesFields_append, givesFields_append]
        by_cases h3 : i % 3 = 2
        · have hp1 : p1 = p + 2 := by show p + _ = _; rw [if_pos h3]
          rw [if_pos h3]
          refine ⟨⟨⟨(hsel h3).symm, trivial⟩, ?_⟩, ?_⟩
          · rw [show fieldsWidth [(2, g2.sel (i / 3))] = 2 from rfl, show fieldsWidth (g.before i) + 2 = p1 from hp1.symm]
            exact ⟨rfl, trivial⟩
          · by_cases ho : g1.opens i = true
            · rw [if_pos ho, fieldsWidth_append]
              refine ⟨?_, trivial⟩
              rw [hlow ho, show fieldsWidth [(2, g2.sel (i / 3))] = 2 from rfl, show fieldsWidth [(8, get p1 8)] = 8 from rfl,
                ← Nat.add_assoc, show fieldsWidth (g.before i) + 2 = p1 from hp1.symm]
            · rw [if_neg ho]; trivial
        · have hp1 : p1 = p := by show p + _ = _; rw [if_neg h3, Nat.add_zero]
          rw [if_neg h3]
          refine ⟨⟨trivial, ?_⟩, ?_⟩
          · rw [show fieldsWidth ([] : List (Nat × Nat)) = 0 from rfl, Nat.add_zero, show fieldsWidth (g.before i) = p1 from hp1.symm]
            exact ⟨rfl, trivial⟩
          · by_cases ho : g1.opens i = true
            · rw [if_pos ho, fieldsWidth_append]
              refine ⟨?_, trivial⟩
              rw [hlow ho, show fieldsWidth ([] : List (Nat × Nat)) = 0 from rfl, Nat.zero_add, show fieldsWidth [(8, get p1 8)] = 8 from rfl,
                show fieldsWidth (g.before i) = p1 from hp1.symm]
            · rw [if_neg ho]; trivial
  exact key 14 (Nat.le_refl _)

/-! ## The samples -/

theorem shift_mem (g : PanaGroup) (i : Nat) : g.shift i ∈ [0, 1, 2, 4] := by
  unfold shift; split <;> simp

theorem next_le {pred sh code : Nat} (hs : sh ∈ [0, 1, 2, 4]) (hc : code < 256) : next pred sh code ≤ max 4095 (pred + 508) := by
  unfold next
  simp only [List.mem_cons, List.not_mem_nil, or_false] at hs
  rcases hs with rfl | rfl | rfl | rfl <;> simp <;> split <;> (try split) <;> omega

/-- The last sample before `i` of the parity `s`, or 0. -/
def last (g : PanaGroup) (s : Nat) : Nat → Nat
  | 0 => 0
  | i + 1 => if i % 2 = s then g.sample i else last g s i

theorem sample_eq (g : PanaGroup) (i : Nat) : g.sample i = g.sampleAfter i (g.last (i % 2) i) := by
  match i with
  | 0 => rfl
  | 1 => rfl
  | i + 2 =>
    show g.sampleAfter (i + 2) (g.sample i) = _
    congr 1
    show _ = if (i + 1) % 2 = (i + 2) % 2 then _ else if i % 2 = (i + 2) % 2 then g.sample i else _
    rw [if_neg (by omega), if_pos (by omega)]

theorem last_zero {g : PanaGroup} {s : Nat} : ∀ i, i ≤ 12 → g.started s i = false → g.last s i = 0 := by
  intro i
  induction i with
  | zero => intros; rfl
  | succ i ih =>
    intro hi hs
    rw [started_succ, Bool.or_eq_false_iff] at hs
    show (if i % 2 = s then g.sample i else g.last s i) = 0
    split
    · rename_i h
      have hc : g.code i = 0 := by simpa [h] using hs.2
      have ho : g.opens i = false := by
        unfold opens
        simp [hc]
        omega
      rw [sample_eq, sampleAfter, h, hs.1, ho]
      rfl
    · exact ih (by omega) hs.1

theorem last_le {g : PanaGroup} (hf : g.Fits) (s : Nat) : ∀ i, g.last s i ≤ 4095 + 508 * i := by
  intro i
  induction i using Nat.strongRecOn generalizing s with
  | _ i ih =>
    match i with
    | 0 => show 0 ≤ _; omega
    | i + 1 =>
      show (if i % 2 = s then g.sample i else g.last s i) ≤ _
      split
      · rw [sample_eq, sampleAfter]
        have h1 := ih i (by omega) (i % 2)
        have h2 := next_le (pred := g.last (i % 2) i) (g.shift_mem i) (hf.code i)
        have h3 := hf.code i
        have h4 := hf.low (i % 2)
        split
        · omega
        · split <;> omega
      · have := ih i (by omega) s
        omega

theorem sample_lt {g : PanaGroup} (hf : g.Fits) {i : Nat} (hi : i < 14) : g.sample i < 65536 := by
  have := last_le hf (i % 2) (i + 1)
  rw [show g.last (i % 2) (i + 1) = g.sample i from if_pos rfl] at this
  omega

end PanaGroup

/-! ## The bits of a group in a file -/

/-- `n` bits at bit `c` of the sequence, as the reader gets them: from two bytes that follow each other in the file. -/
def panaRaw (st : Nat → Nat) (split : Bool) (c n : Nat) : Nat :=
  let k := 128 - c % 128 - n
  let l := c % 131072 / 128 * 16 + k / 8
  let pos := c / 131072 * 16384 + if split then (l + 8184) % 16384 else l
  (st (pos + 1) * 256 + st pos) / 2 ^ (k % 8) % 2 ^ n

theorem div_mod_congr {x y r n m : Nat} (h : x % 2 ^ m = y % 2 ^ m) (hm : r + n ≤ m) : x / 2 ^ r % 2 ^ n = y / 2 ^ r % 2 ^ n := by
  have key : ∀ z : Nat, z / 2 ^ r % 2 ^ n = z % 2 ^ m % 2 ^ (r + n) / 2 ^ r := by
    intro z
    rw [Nat.mod_mod_of_dvd _ (Nat.pow_dvd_pow 2 hm), Nat.pow_add, Nat.mod_mul_right_div_self]
  rw [key, key, h]

theorem numberLE_cons (a : UInt8) (l : List UInt8) : numberLE (a :: l) = a.toNat + 256 * numberLE l := rfl

theorem numberLE_drop (l : List UInt8) : ∀ j, numberLE l / 256 ^ j = numberLE (l.drop j) := by
  induction l with
  | nil => intro j; rw [List.drop_nil]; exact Nat.zero_div _
  | cons a l ih =>
    intro j
    cases j with
    | zero => rw [Nat.pow_zero, Nat.div_one]; rfl
    | succ j =>
      rw [List.drop_succ_cons, ← ih j, Nat.pow_succ, Nat.mul_comm, ← Nat.div_div_eq_div_mul, numberLE_cons]
      have := a.toNat_lt
      rw [show (a.toNat + 256 * numberLE l) / 256 = numberLE l by omega]

/-- Where the bytes of a group follow each other, the reader gets its bits. -/
theorem panaRaw_whole {src : List UInt8} {split : Bool} {G p n : Nat} (hw : panaWhole split G) (hn : 1 ≤ n) (hp : p + n ≤ 128)
    (hn8 : n ≤ 8) (hlen : panaStart split G + 16 ≤ src.length) :
    panaRaw (bytesOf src) split (128 * G + p) n = numberLE (bytesAt src (panaStart split G) 16) / 2 ^ (128 - p - n) % 2 ^ n := by
  have e1 : (128 * G + p) % 128 = p := by omega
  have e2 : (128 * G + p) % 131072 / 128 = G % 1024 := by omega
  have e3 : (128 * G + p) / 131072 = G / 1024 := by omega
  unfold panaRaw
  dsimp only
  rw [e1, e2, e3]
  generalize hk : 128 - p - n = k
  have hpos : (G / 1024 * 16384 + if split then (G % 1024 * 16 + k / 8 + 8184) % 16384 else G % 1024 * 16 + k / 8) = panaStart split G + k / 8 := by
    unfold panaStart
    rcases hw with hw | hw
    · rw [hw]; simp; omega
    · cases split
      · simp; omega
      · simp; omega
  rw [hpos]
  generalize hS : panaStart split G = S at *
  have hN : numberLE (bytesAt src S 16) / 2 ^ k = numberLE ((bytesAt src S 16).drop (k / 8)) / 2 ^ (k % 8) := by
    rw [← numberLE_drop, Nat.div_div_eq_div_mul, show (256 : Nat) = 2 ^ 8 from rfl, ← Nat.pow_mul, ← Nat.pow_add]
    congr 2
    omega
  rw [hN]
  have hl : (bytesAt src S 16).length = 16 := bytesAt_length hlen
  have hb : ∀ j, j < 16 → (bytesAt src S 16)[j]? = some (UInt8.ofNat (bytesOf src (S + j))) := by
    intro j hj
    unfold bytesAt bytesOf
    rw [List.getElem?_take_of_lt hj, List.getElem?_drop]
    have : S + j < src.length := by omega
    rw [List.getElem?_eq_getElem this]
    simp
  have hlt : ∀ j, bytesOf src j < 256 := bytesOf_lt src
  have hj : k / 8 < 16 := by omega
  have hd : ∃ t, (bytesAt src S 16).drop (k / 8) = UInt8.ofNat (bytesOf src (S + k / 8)) :: t ∧ t = (bytesAt src S 16).drop (k / 8 + 1) := by
    refine ⟨_, ?_, rfl⟩
    have hj' : k / 8 < (bytesAt src S 16).length := by omega
    rw [List.drop_eq_getElem_cons hj']
    congr 1
    exact (List.getElem_eq_iff _).mpr (hb _ hj)
  obtain ⟨t, hd, ht⟩ := hd
  rw [hd, numberLE_cons]
  have ho : ∀ j, (UInt8.ofNat (bytesOf src j)).toNat = bytesOf src j := by
    intro j
    rw [UInt8.toNat_ofNat']
    exact Nat.mod_eq_of_lt (hlt j)
  rw [ho]
  by_cases hk15 : k / 8 = 15
  · apply div_mod_congr (m := 8)
    · omega
    · omega
  · have hd2 : t = UInt8.ofNat (bytesOf src (S + (k / 8 + 1))) :: (bytesAt src S 16).drop (k / 8 + 2) := by
      rw [ht]
      have hj' : k / 8 + 1 < (bytesAt src S 16).length := by omega
      rw [List.drop_eq_getElem_cons hj']
      congr 1
      exact (List.getElem_eq_iff _).mpr (hb _ (by omega))
    rw [hd2, numberLE_cons, ho]
    apply div_mod_congr (m := 16)
    · rw [Nat.add_assoc S]; omega
    · omega

end Spec

import Verif.Model.Cfa
import Verif.Lemmas.Loops
import Verif.Spec.Cfa
/-!
# C31 to C34: colour filter arrays
-/

namespace Props
open Rust Spec Model

theorem cfaByte_eq (c : UInt8) : cfaByte c = match letterColour c with | some v => .ok v | none => crash := by
  have key : ∀ n : Nat, (c.toNat = n ∧ n < 256) ↔ (c = UInt8.ofNat n ∧ n < 256) := by
    intro n
    constructor
    · rintro ⟨h, h'⟩; exact ⟨by rw [← h]; simp, h'⟩
    · rintro ⟨h, h'⟩; exact ⟨by rw [h]; simp [Nat.mod_eq_of_lt h'], h'⟩
  have k : ∀ n, n < 256 → (c.toNat = n ↔ c = UInt8.ofNat n) := fun n hn => by have := key n; simp [hn] at this; exact this
  have e82 := k 82 (by omega); have e71 := k 71 (by omega); have e66 := k 66 (by omega)
  have e69 := k 69 (by omega); have e77 := k 77 (by omega); have e89 := k 89 (by omega)
  simp only [UInt8.reduceOfNat] at e82 e71 e66 e69 e77 e89
  unfold cfaByte letterColour
  simp only [Char.reduceToNat, e82, e71, e66, e69, e77, e89]
  by_cases h82 : c = 82
  · simp [h82]
  · by_cases h71 : c = 71
    · simp [h71]
    · by_cases h66 : c = 66
      · simp [h66]
      · by_cases h69 : c = 69
        · simp [h69]
        · by_cases h77 : c = 77
          · simp [h77]
          · by_cases h89 : c = 89
            · simp [h89]
            · simp [h82, h71, h66, h69, h77, h89]

theorem letterColour_lt {c : UInt8} {v : Nat} (h : letterColour c = some v) : v < 4 := by
  unfold letterColour at h
  split at h
  · simp at h; omega
  · split at h
    · simp at h; omega
    · split at h
      · simp at h; omega
      · split at h
        · simp at h; omega
        · simp at h

theorem cfaDims_eq (len : Nat) : cfaDims len = match patternSize len with | some d => .ok d | none => crash := by
  unfold cfaDims
  by_cases h0 : len = 0
  · subst h0; rfl
  · by_cases h4 : len = 4
    · subst h4; rfl
    · by_cases h36 : len = 36
      · subst h36; rfl
      · by_cases h16 : len = 16
        · subst h16; rfl
        · by_cases h144 : len = 144
          · subst h144; rfl
          · simp only [h0, h4, h36, h16, h144, if_false]
            unfold patternSize
            split <;> simp_all

theorem cfaCopy_ok {w : Nat} (hw : 0 < w) : ∀ (name : Bytes) (i : Nat) (p : List (List Nat)), IsGrid 48 48 p →
    (∀ k, k < name.length → (i + k) / w < 48 ∧ w ≤ 48) → (∀ c ∈ name, (letterColour c).isSome = true) →
    ∃ q, cfaCopy w i name p = .ok q ∧ IsGrid 48 48 q ∧
      ∀ r c, c < w → cell q r c = if i ≤ r * w + c ∧ r * w + c < i + name.length then (name[r * w + c - i]?).bind letterColour else cell p r c := by
  intro name
  induction name with
  | nil => intro i p hp _ _; exact ⟨p, rfl, hp, fun r c _ => by rw [if_neg (by simp)]⟩
  | cons ch rest ih =>
    intro i p hp hk hcol
    have hs := hcol ch (by simp)
    cases hv : letterColour ch with
    | none => rw [hv] at hs; simp at hs
    | some v =>
      obtain ⟨h1, h2⟩ := hk 0 (by simp)
      simp only [Nat.add_zero] at h1
      obtain ⟨p1, e1, e2, e3⟩ := setIdx2_grid hp h1 (show i % w < 48 by have := Nat.mod_lt i hw; omega) v
      obtain ⟨q, f1, f2, f3⟩ := ih (i + 1) p1 e2 (fun k hk' => by
          have := hk (k + 1) (by simp; omega)
          rwa [show i + (k + 1) = i + 1 + k by omega] at this) (fun c hc => hcol c (by simp [hc]))
      refine ⟨q, ?_, f2, ?_⟩
      · rw [cfaCopy, cfaByte_eq, hv]
        simp only [ok_bind]
        rw [e1, ok_bind, f1]
      · intro r c hc
        rw [f3 r c hc, List.length_cons]
        have hdm := Nat.div_add_mod i w
        by_cases heq : r * w + c = i
        · have hr : r = i / w := by
            rw [← heq, Nat.add_comm, Nat.add_mul_div_right _ _ hw, Nat.div_eq_of_lt hc]; omega
          have hc' : c = i % w := by
            rw [← heq, Nat.add_comm, Nat.add_mul_mod_self_right, Nat.mod_eq_of_lt hc]
          rw [if_neg (by omega), if_pos (by omega), e3 r c, if_pos ⟨hr, hc'⟩, heq]
          simp [hv]
        · by_cases hin : i + 1 ≤ r * w + c ∧ r * w + c < i + 1 + rest.length
          · rw [if_pos hin, if_pos (by omega)]
            rw [show r * w + c - i = (r * w + c - (i + 1)) + 1 by omega, List.getElem?_cons_succ]
          · rw [if_neg hin, if_neg (by omega), e3 r c, if_neg]
            rintro ⟨rfl, rfl⟩
            apply heq
            rw [Nat.mul_comm]; exact hdm

theorem cfaCopy_crash {w : Nat} (hw : 0 < w) : ∀ (name : Bytes) (i : Nat) (p : List (List Nat)), IsGrid 48 48 p →
    (∀ k, k < name.length → (i + k) / w < 48 ∧ w ≤ 48) → (∃ c ∈ name, letterColour c = none) →
    cfaCopy w i name p = crash := by
  intro name
  induction name with
  | nil => intro i p _ _ h; simp at h
  | cons ch rest ih =>
    intro i p hp hk hcol
    rw [cfaCopy, cfaByte_eq]
    cases hv : letterColour ch with
    | none => rfl
    | some v =>
      obtain ⟨h1, h2⟩ := hk 0 (by simp)
      simp only [Nat.add_zero] at h1
      obtain ⟨p1, e1, e2, e3⟩ := setIdx2_grid hp h1 (show i % w < 48 by have := Nat.mod_lt i hw; omega) v
      simp only [ok_bind]
      rw [e1, ok_bind]
      refine ih (i + 1) p1 e2 (fun k hk' => by
          have := hk (k + 1) (by simp; omega)
          rwa [show i + (k + 1) = i + 1 + k by omega] at this) ?_
      obtain ⟨c, hc, hn⟩ := hcol
      simp only [List.mem_cons] at hc
      rcases hc with rfl | hc
      · rw [hv] at hn; simp at hn
      · exact ⟨c, hc, hn⟩

theorem cfaExtend_ok {w h : Nat} (hw : 0 < w) (hh : 0 < h) (hw48 : w ≤ 48) (hh48 : h ≤ 48) (m : List (List Nat)) (hm : IsGrid 48 48 m)
    (g : Nat → Nat → Nat) (hg : ∀ r c, r < h → c < w → cell m r c = some (g r c)) :
    ∃ p, cfaExtend w h m = .ok p ∧ IsGrid 48 48 p ∧ ∀ r c, r < 48 → c < 48 → cell p r c = some (g (r % h) (c % w)) := by
  unfold cfaExtend
  apply grid_loop hm (g := fun r c => g (r % h) (c % w))
  intro row col p hrow hcol hp hcells
  have hr := Nat.mod_lt row hh
  have hc := Nat.mod_lt col hw
  have hread : cell p (row % h) (col % w) = some (g (row % h) (col % w)) := by
    rw [hcells (row % h) (col % w) (by omega) (by omega)]
    split
    · rw [Nat.mod_mod, Nat.mod_mod]
    · exact hg _ _ hr hc
  obtain ⟨p', e1, e2, e3⟩ := setIdx2_grid hp hrow hcol (g (row % h) (col % w))
  refine ⟨p', ?_, e2, e3⟩
  unfold cfaExtendCell
  rw [idx2_eq hread, ok_bind, e1]

theorem patternSize_cases {len w h : Nat} (hs : patternSize len = some (w, h)) :
    (len = 0 ∧ w = 0 ∧ h = 0) ∨ (len = w * h ∧ 0 < w ∧ 0 < h ∧ w ∣ 48 ∧ h ∣ 48 ∧ w ≤ 48 ∧ h ≤ 48) := by
  unfold patternSize at hs
  split at hs <;> simp at hs <;> obtain ⟨rfl, rfl⟩ := hs
  · exact .inl ⟨rfl, rfl, rfl⟩
  all_goals right; refine ⟨rfl, by omega, by omega, by decide, by decide, by omega, by omega⟩

/-- What `CFA::new` returns. -/
theorem cfa_new_cells (name : Bytes) (w h : Nat) (hs : patternSize name.length = some (w, h)) (hw : 0 < w)
    (hc : ∀ c ∈ name, (letterColour c).isSome = true) :
    ∃ p, CFA.new name = .ok ⟨name, w, h, p⟩ ∧ IsGrid 48 48 p ∧
      ∀ r c, r < 48 → c < 48 → cell p r c = patternColour name w h r c ∧ (cell p r c).isSome = true := by
  rcases patternSize_cases hs with ⟨_, h0, _⟩ | ⟨hlen, _, hh, _, _, hw48, hh48⟩
  · omega
  · obtain ⟨q, q1, q2, q3⟩ := cfaCopy_ok hw name 0 _ (isGrid_replicate 48 48 0)
      (fun k hk => ⟨by
        rw [Nat.zero_add, hlen] at *
        have : k / w < h := Nat.div_lt_of_lt_mul hk
        omega, hw48⟩) hc
    have hpos : ∀ r c, r < h → c < w → r * w + c < name.length := by
      intro r c hr hcw
      have h1 : (r + 1) * w ≤ h * w := Nat.mul_le_mul_right w hr
      rw [Nat.add_mul] at h1
      have h2 : w * h = h * w := Nat.mul_comm w h
      omega
    have hread : ∀ r c, r < h → c < w → ∃ v, (name[r * w + c]?).bind letterColour = some v := by
      intro r c hr hcw
      have hlt := hpos r c hr hcw
      have := hc (name[r * w + c]) (List.getElem_mem hlt)
      rw [Option.isSome_iff_exists] at this
      obtain ⟨v, hv⟩ := this
      exact ⟨v, by simp [hlt, hv]⟩
    let g : Nat → Nat → Nat := fun r c => ((name[r * w + c]?).bind letterColour).getD 0
    have hg : ∀ r c, r < h → c < w → (name[r * w + c]?).bind letterColour = some (g r c) := by
      intro r c hr hcw
      obtain ⟨v, hv⟩ := hread r c hr hcw
      show _ = some (((name[r * w + c]?).bind letterColour).getD 0)
      rw [hv]; rfl
    obtain ⟨p, p1, p2, p3⟩ := cfaExtend_ok hw hh hw48 hh48 q q2 g (by
      intro r c hr hcw
      rw [q3 r c hcw, if_pos ⟨Nat.zero_le _, by rw [Nat.zero_add]; exact hpos r c hr hcw⟩, Nat.sub_zero]
      exact hg r c hr hcw)
    refine ⟨p, ?_, p2, ?_⟩
    · unfold CFA.new
      rw [cfaDims_eq, hs]
      simp only [ok_bind]
      rw [if_pos hw, q1, ok_bind, p1, ok_bind]
    · intro r c hr hcc
      rw [p3 r c hr hcc]
      refine ⟨?_, rfl⟩
      unfold patternColour
      rw [hg _ _ (Nat.mod_lt _ hh) (Nat.mod_lt _ hw)]

theorem colorAt_eq (b : Build) (s : CFA) (row col : Nat) (hr : row + 48 < 2 ^ 64) (hc : col + 48 < 2 ^ 64) :
    s.colorAt b row col = idx2 s.pattern (row % 48) (col % 48) := by
  unfold CFA.colorAt
  rw [addU_ok hr, ok_bind, addU_ok hc, ok_bind]
  rw [Nat.add_mod_right, Nat.add_mod_right]

/-! ## C31 -/

/-- C31: for every accepted name and all positions of any image that fits in memory, the colour at `(row, col)` is the one the
name gives at `(row mod height, col mod width)`. -/
theorem cfa_matches_name (b : Build) (name : Bytes) (cfa : CFA) (h : CFA.new name = .ok cfa) (h0 : name ≠ []) (row col : Nat)
    (hr : row + 48 < 2 ^ 64) (hc : col + 48 < 2 ^ 64) :
    ∃ v, cfa.colorAt b row col = .ok v ∧ patternColour name cfa.width cfa.height row col = some v ∧
      patternSize name.length = some (cfa.width, cfa.height) := by
  cases hs : patternSize name.length with
  | none => unfold CFA.new at h; rw [cfaDims_eq, hs] at h; simp at h
  | some d =>
    obtain ⟨w, hgt⟩ := d
    rcases patternSize_cases hs with ⟨hl, _, _⟩ | ⟨hlen, hw, hh, hw48, hh48, hwle, hhle⟩
    · exact absurd (List.eq_nil_of_length_eq_zero hl) h0
    · by_cases hall : ∀ c ∈ name, (letterColour c).isSome = true
      · obtain ⟨p, p1, p2, p3⟩ := cfa_new_cells name w hgt hs hw hall
        rw [p1] at h
        simp only [Except.ok.injEq] at h
        subst h
        rw [colorAt_eq b _ row col hr hc]
        have hr48 := Nat.mod_lt row (show 0 < 48 by omega)
        have hc48 := Nat.mod_lt col (show 0 < 48 by omega)
        obtain ⟨e1, e2⟩ := p3 (row % 48) (col % 48) hr48 hc48
        rw [Option.isSome_iff_exists] at e2
        obtain ⟨v, hv⟩ := e2
        refine ⟨v, idx2_eq hv, ?_, rfl⟩
        rw [← hv, e1]
        unfold patternColour
        rw [Nat.mod_mod_of_dvd _ hh48, Nat.mod_mod_of_dvd _ hw48]
      · exfalso
        have : ∃ c ∈ name, letterColour c = none := by
          have ⟨c, hc⟩ := Classical.not_forall.mp hall
          have ⟨hm, hn⟩ := Classical.not_imp.mp hc
          exact ⟨c, hm, by simpa using hn⟩
        unfold CFA.new at h
        rw [cfaDims_eq, hs] at h
        simp only [ok_bind] at h
        rw [if_pos hw, cfaCopy_crash hw name 0 _ (isGrid_replicate 48 48 0) (fun k hk => ⟨by
            rw [Nat.zero_add, hlen] at *
            have : k / w < hgt := Nat.div_lt_of_lt_mul hk
            omega, hwle⟩) this] at h
        simp at h

/-- Positions in the last 48 rows of the address space are outside C31: there the sum wraps, and 2^64 is not a multiple
of the pattern. -/
theorem cfa_wraps (cfa : CFA) : cfa.colorAt .debug (2 ^ 64 - 1) 0 = crash ∧
    cfa.colorAt .release (2 ^ 64 - 1) 0 = idx2 cfa.pattern 47 0 ∧ (2 ^ 64 - 1) % 48 = 15 := by
  refine ⟨rfl, ?_, by decide⟩
  unfold CFA.colorAt
  rfl

/-! ## C34 -/

/-- C34: a pattern is built exactly for the listed lengths and known letters; anything else panics. -/
theorem cfa_accepts (name : Bytes) :
    ((∃ cfa, CFA.new name = .ok cfa) ↔
      (name.length = 0 ∨ name.length = 4 ∨ name.length = 16 ∨ name.length = 36 ∨ name.length = 144) ∧
        ∀ c ∈ name, c.toNat ∈ ['R'.toNat, 'G'.toNat, 'B'.toNat, 'E'.toNat, 'M'.toNat, 'Y'.toNat]) ∧
    ((¬ ∃ cfa, CFA.new name = .ok cfa) → CFA.new name = crash) := by
  have hletter : ∀ c : UInt8, (letterColour c).isSome = true ↔
      c.toNat ∈ ['R'.toNat, 'G'.toNat, 'B'.toNat, 'E'.toNat, 'M'.toNat, 'Y'.toNat] := by
    intro c
    unfold letterColour
    simp only [Char.reduceToNat, List.mem_cons, List.not_mem_nil, or_false]
    split
    · simp_all
    · split
      · simp_all; omega
      · split
        · simp_all
        · split
          · simp_all
          · simp_all
  have hsize : (patternSize name.length).isSome = true ↔
      (name.length = 0 ∨ name.length = 4 ∨ name.length = 16 ∨ name.length = 36 ∨ name.length = 144) := by
    unfold patternSize
    split <;> simp_all
  simp only [← hletter, ← hsize]
  cases hs : patternSize name.length with
  | none =>
    have : CFA.new name = crash := by unfold CFA.new; rw [cfaDims_eq, hs]; rfl
    rw [this]
    simp
  | some d =>
    obtain ⟨w, hgt⟩ := d
    simp only [Option.isSome_some, true_and]
    rcases patternSize_cases hs with ⟨hl, h0, _⟩ | ⟨hlen, hw, hh, _, _, hwle, hhle⟩
    · have hnil : name = [] := List.eq_nil_of_length_eq_zero hl
      subst hnil
      have : ∃ cfa, CFA.new [] = .ok cfa := ⟨_, rfl⟩
      exact ⟨⟨fun _ => by simp, fun _ => this⟩, fun hn => absurd this hn⟩
    · by_cases hall : ∀ c ∈ name, (letterColour c).isSome = true
      · obtain ⟨p, p1, _⟩ := cfa_new_cells name w hgt hs hw hall
        exact ⟨⟨fun _ => hall, fun _ => ⟨_, p1⟩⟩, fun hn => absurd ⟨_, p1⟩ hn⟩
      · have hex : ∃ c ∈ name, letterColour c = none := by
          have ⟨c, hc⟩ := Classical.not_forall.mp hall
          have ⟨hm, hn⟩ := Classical.not_imp.mp hc
          exact ⟨c, hm, by simpa using hn⟩
        have hcr : CFA.new name = crash := by
          unfold CFA.new
          rw [cfaDims_eq, hs]
          simp only [ok_bind]
          rw [if_pos hw, cfaCopy_crash hw name 0 _ (isGrid_replicate 48 48 0) (fun k hk => ⟨by
              rw [Nat.zero_add, hlen] at *
              have : k / w < hgt := Nat.div_lt_of_lt_mul hk
              omega, hwle⟩) hex]
          rfl
        rw [hcr]
        exact ⟨⟨fun ⟨_, h⟩ => by simp at h, fun h => absurd h hall⟩, fun _ => rfl⟩

/-- The patterns a program can hold: built from a name, or shifted. -/
inductive Reachable (b : Build) : CFA → Prop
  | new {name : Bytes} {cfa : CFA} : CFA.new name = .ok cfa → Reachable b cfa
  | shift {cfa cfa' : CFA} {x y : Nat} : Reachable b cfa → cfa.shift b x y = .ok cfa' → Reachable b cfa'

theorem cfa_new_grid {name : Bytes} {cfa : CFA} (h : CFA.new name = .ok cfa) :
    IsGrid 48 48 cfa.pattern ∧ ∀ r c v, cell cfa.pattern r c = some v → v < 4 := by
  have hacc := (cfa_accepts name).1.mp ⟨cfa, h⟩
  cases hs : patternSize name.length with
  | none => unfold CFA.new at h; rw [cfaDims_eq, hs] at h; simp at h
  | some d =>
    obtain ⟨w, hgt⟩ := d
    rcases patternSize_cases hs with ⟨hl, h0, _⟩ | ⟨hlen, hw, hh, _, _, hwle, hhle⟩
    · have hnil : name = [] := List.eq_nil_of_length_eq_zero hl
      subst hnil
      simp only [CFA.new, cfaDims, List.length_nil, if_true, ok_bind, Nat.lt_irrefl, gt_iff_lt, if_false, Except.ok.injEq] at h
      subst h
      refine ⟨isGrid_replicate 48 48 0, ?_⟩
      intro r c v hv
      have := cell_replicate_some hv
      omega
    · by_cases hall : ∀ c ∈ name, (letterColour c).isSome = true
      · obtain ⟨p, p1, p2, p3⟩ := cfa_new_cells name w hgt hs hw hall
        rw [p1] at h
        simp only [Except.ok.injEq] at h
        subst h
        refine ⟨p2, ?_⟩
        intro r c v hv
        by_cases hr : r < 48
        · by_cases hc : c < 48
          · have := (p3 r c hr hc).1
            rw [hv] at this
            unfold patternColour at this
            cases hx : name[r % hgt * w + c % w]? with
            | none => rw [hx] at this; simp at this
            | some ch => rw [hx] at this; simp at this; exact letterColour_lt this.symm
          · obtain ⟨l, l1, l2⟩ := p2.row hr
            simp [cell, l1, List.getElem?_eq_none (show l.length ≤ c by omega)] at hv
        · simp [cell, List.getElem?_eq_none (show p.length ≤ r by rw [p2.1]; omega)] at hv
      · exfalso
        have hex : ∃ c ∈ name, letterColour c = none := by
          have ⟨c, hc⟩ := Classical.not_forall.mp hall
          have ⟨hm, hn⟩ := Classical.not_imp.mp hc
          exact ⟨c, hm, by simpa using hn⟩
        unfold CFA.new at h
        rw [cfaDims_eq, hs] at h
        simp only [ok_bind] at h
        rw [if_pos hw, cfaCopy_crash hw name 0 _ (isGrid_replicate 48 48 0) (fun k hk => ⟨by
            rw [Nat.zero_add, hlen] at *
            have : k / w < hgt := Nat.div_lt_of_lt_mul hk
            omega, hwle⟩) hex] at h
        simp at h

/-! ## C32 -/

theorem shift_grid (b : Build) (s : CFA) (hg : IsGrid 48 48 s.pattern) (x y : Nat) (hx : x + 96 < 2 ^ 64) (hy : y + 96 < 2 ^ 64) :
    ∃ t, s.shift b x y = .ok t ∧ IsGrid 48 48 t.pattern ∧ t.width = s.width ∧ t.height = s.height ∧
      ∀ r c, r < 48 → c < 48 → cell t.pattern r c = cell s.pattern ((r + y) % 48) ((c + x) % 48) := by
  let g : Nat → Nat → Nat := fun r c => (cell s.pattern ((r + y) % 48) ((c + x) % 48)).getD 0
  have hmod : ∀ n : Nat, n % 48 < 48 := fun n => Nat.mod_lt n (by omega)
  have hgv : ∀ r c, cell s.pattern ((r + y) % 48) ((c + x) % 48) = some (g r c) := by
    intro r c
    obtain ⟨v, hv⟩ := hg.cell (hmod (r + y)) (hmod (c + x))
    show _ = some ((cell s.pattern ((r + y) % 48) ((c + x) % 48)).getD 0)
    rw [hv]; rfl
  obtain ⟨p, p1, p2, p3⟩ := grid_loop (f := fun row col p => s.shiftCell b x y row col p) (isGrid_replicate 48 48 0) g (by
    intro row col p hrow hcol hp _
    obtain ⟨p', e1, e2, e3⟩ := setIdx2_grid hp hrow hcol (g row col)
    refine ⟨p', ?_, e2, e3⟩
    show s.shiftCell b x y row col p = .ok p'
    unfold CFA.shiftCell
    rw [addU_ok (by omega), ok_bind, addU_ok (by omega), ok_bind, colorAt_eq b s _ _ (by omega) (by omega),
      idx2_eq (hgv row col), ok_bind, e1])
  refine ⟨⟨CFA.shiftName x y s.name, s.width, s.height, p⟩, ?_, p2, rfl, rfl, ?_⟩
  · unfold CFA.shift; rw [p1]; rfl
  · intro r c hr hc
    show cell p r c = _
    rw [p3 r c hr hc, hgv]

theorem reachable_grid {b : Build} {cfa : CFA} (h : Reachable b cfa) : IsGrid 48 48 cfa.pattern := by
  induction h with
  | new h => exact (cfa_new_grid h).1
  | @shift cfa cfa' x y _ hs ih =>
    unfold CFA.shift at hs
    rw [bind_eq_ok] at hs
    obtain ⟨p, h1, h2⟩ := hs
    simp only [Except.ok.injEq] at h2
    subst h2
    refine forRange_ok (P := fun _ p => IsGrid 48 48 p) (Nat.zero_le 48) (isGrid_replicate 48 48 0) ?_ h1
    intro row p p' _ hrow hp hf
    refine forRange_ok (P := fun _ p => IsGrid 48 48 p) (Nat.zero_le 48) hp ?_ hf
    intro col q q' _ hcol hq hf
    unfold CFA.shiftCell at hf
    simp only [bind_eq_ok] at hf
    obtain ⟨_, _, _, _, v, _, hset⟩ := hf
    obtain ⟨m, e1, e2, _⟩ := setIdx2_grid hq hrow hcol v
    rw [e1] at hset
    simp only [Except.ok.injEq] at hset
    rw [← hset]; exact e2

/-- C34: colour indexes are always below 4, for every pattern a program can hold and all positions. -/
theorem cfa_colour_below_four (b : Build) (cfa : CFA) (h : Reachable b cfa) (row col v : Nat) (hv : cfa.colorAt b row col = .ok v) :
    v < 4 := by
  suffices hcell : ∀ r c v, cell cfa.pattern r c = some v → v < 4 by
    unfold CFA.colorAt at hv
    simp only [bind_eq_ok] at hv
    obtain ⟨r, _, c, _, hv⟩ := hv
    unfold idx2 at hv
    rw [bind_eq_ok] at hv
    obtain ⟨l, h1, h2⟩ := hv
    rw [idx_eq_ok] at h1 h2
    exact hcell (r % 48) (c % 48) v (by unfold cell; rw [h1]; exact h2)
  clear hv
  induction h with
  | new h => exact (cfa_new_grid h).2
  | @shift cfa cfa' x y hreach hs ih =>
    unfold CFA.shift at hs
    rw [bind_eq_ok] at hs
    obtain ⟨p, h1, h2⟩ := hs
    simp only [Except.ok.injEq] at h2
    subst h2
    have := forRange_ok (P := fun _ p => IsGrid 48 48 p ∧ ∀ r c v, cell p r c = some v → v < 4) (Nat.zero_le 48)
      ⟨isGrid_replicate 48 48 0, fun r c v hv => by
        have := cell_replicate_some hv
        omega⟩ (by
      intro row p p' _ hrow hp hf
      refine forRange_ok (P := fun _ p => IsGrid 48 48 p ∧ ∀ r c v, cell p r c = some v → v < 4) (Nat.zero_le 48) hp ?_ hf
      intro col q q' _ hcol hq hf
      unfold CFA.shiftCell CFA.colorAt at hf
      simp only [bind_eq_ok] at hf
      obtain ⟨_, _, _, _, v, hv, hset⟩ := hf
      obtain ⟨r', _, c', _, hv⟩ := hv
      unfold idx2 at hv
      rw [bind_eq_ok] at hv
      obtain ⟨l, g1, g2⟩ := hv
      rw [idx_eq_ok] at g1 g2
      have hv4 := ih (r' % 48) (c' % 48) v (by unfold cell; rw [g1]; exact g2)
      obtain ⟨m, e1, e2, e3⟩ := setIdx2_grid hq.1 hrow hcol v
      rw [e1] at hset
      simp only [Except.ok.injEq] at hset
      rw [← hset]
      refine ⟨e2, fun r c v' hv' => ?_⟩
      rw [e3 r c] at hv'
      split at hv'
      · simp at hv'; omega
      · exact hq.2 r c v' hv') h1
    exact this.2

/-- C32: the colour at `(row, col)` of the shifted pattern is the colour at `(row + y, col + x)` of the original. -/
theorem cfa_shift (b : Build) (s : CFA) (hs : Reachable b s) (x y : Nat) (hx : x + 96 < 2 ^ 64) (hy : y + 96 < 2 ^ 64) :
    ∃ t, s.shift b x y = .ok t ∧ t.width = s.width ∧ t.height = s.height ∧
      ∀ row col, row + y + 48 < 2 ^ 64 → col + x + 48 < 2 ^ 64 → t.colorAt b row col = s.colorAt b (row + y) (col + x) := by
  obtain ⟨t, h1, h2, h3, h4, h5⟩ := shift_grid b s (reachable_grid hs) x y hx hy
  refine ⟨t, h1, h3, h4, ?_⟩
  intro row col hr hc
  rw [colorAt_eq b t row col (by omega) (by omega), colorAt_eq b s _ _ hr hc]
  have hr48 := Nat.mod_lt row (show 0 < 48 by omega)
  have hc48 := Nat.mod_lt col (show 0 < 48 by omega)
  have e := h5 (row % 48) (col % 48) hr48 hc48
  obtain ⟨v, hv⟩ := h2.cell hr48 hc48
  rw [idx2_eq hv]
  rw [hv] at e
  have er : (row % 48 + y) % 48 = (row + y) % 48 := by omega
  have ec : (col % 48 + x) % 48 = (col + x) % 48 := by omega
  rw [er, ec] at e
  rw [idx2_eq e.symm]

/-- C32: shifts compose additively. -/
theorem cfa_shift_shift (b : Build) (s t u v : CFA) (hs : Reachable b s) (x y x' y' : Nat) (hx : x + x' + 96 < 2 ^ 64)
    (hy : y + y' + 96 < 2 ^ 64) (ht : s.shift b x y = .ok t) (hu : t.shift b x' y' = .ok u)
    (hv : s.shift b (x + x') (y + y') = .ok v) (row col : Nat) (hr : row + (y + y') + 48 < 2 ^ 64)
    (hc : col + (x + x') + 48 < 2 ^ 64) : u.colorAt b row col = v.colorAt b row col := by
  obtain ⟨t', e1, _, _, e2⟩ := cfa_shift b s hs x y (by omega) (by omega)
  rw [ht] at e1; simp only [Except.ok.injEq] at e1; subst e1
  obtain ⟨u', f1, _, _, f2⟩ := cfa_shift b t (.shift hs ht) x' y' (by omega) (by omega)
  rw [hu] at f1; simp only [Except.ok.injEq] at f1; subst f1
  obtain ⟨v', g1, _, _, g2⟩ := cfa_shift b s hs (x + x') (y + y') (by omega) (by omega)
  rw [hv] at g1; simp only [Except.ok.injEq] at g1; subst g1
  rw [f2 row col (by omega) (by omega), e2 _ _ (by omega) (by omega), g2 row col hr hc]
  rw [show row + y' + y = row + (y + y') by omega, show col + x' + x = col + (x + x') by omega]

/-- C32: shifting by whole periods of the pattern changes no colour. -/
theorem cfa_shift_period (b : Build) (name : Bytes) (s t : CFA) (hs : CFA.new name = .ok s) (h0 : name ≠ []) (i j : Nat)
    (hx : i * s.width + 96 < 2 ^ 64) (hy : j * s.height + 96 < 2 ^ 64)
    (ht : s.shift b (i * s.width) (j * s.height) = .ok t) (row col : Nat)
    (hr : row + j * s.height + 48 < 2 ^ 64) (hc : col + i * s.width + 48 < 2 ^ 64) :
    t.colorAt b row col = s.colorAt b row col := by
  obtain ⟨t', e1, _, _, e2⟩ := cfa_shift b s (.new hs) (i * s.width) (j * s.height) hx hy
  rw [ht] at e1; simp only [Except.ok.injEq] at e1; subst e1
  rw [e2 row col hr hc]
  obtain ⟨v, h1, h2, _⟩ := cfa_matches_name b name s hs h0 (row + j * s.height) (col + i * s.width) hr hc
  obtain ⟨v', h3, h4, _⟩ := cfa_matches_name b name s hs h0 row col (by omega) (by omega)
  rw [h1, h3]
  unfold patternColour at h2 h4
  rw [Nat.add_mul_mod_self_right, Nat.add_mul_mod_self_right, h4] at h2
  simp only [Option.some.injEq] at h2
  rw [h2]

/-! ## C33 (pattern part) -/

/-- C33: the pattern of the cropped area gives each of its positions the colour of the same sensor position. Together with
C37, which says that pixel `(row, col)` of the cropped image is sample `(row + top, col + left)`, colours and pixels stay aligned. -/
theorem cropped_cfa_aligned (b : Build) (s : CFA) (hs : Reachable b s) (top right bottom left : Nat)
    (ht : top + 96 < 2 ^ 64) (hl : left + 96 < 2 ^ 64) :
    ∃ t, croppedCfa b s [top, right, bottom, left] = .ok t ∧
      ∀ row col, row + top + 48 < 2 ^ 64 → col + left + 48 < 2 ^ 64 → t.colorAt b row col = s.colorAt b (row + top) (col + left) := by
  obtain ⟨t, h1, _, _, h2⟩ := cfa_shift b s hs left top hl ht
  exact ⟨t, h1, h2⟩

/-! ## Concrete cases -/

/-- "RGGB" -/
def rggb : Bytes := [82, 71, 71, 66]

example : ∃ cfa, CFA.new rggb = .ok cfa := (cfa_accepts rggb).1.mpr (by decide)
example : patternColour rggb 2 2 1001 4000 = some 1 ∧ patternColour rggb 2 2 1001 4001 = some 2 := by decide
example : CFA.new [82, 71, 71, 88] = crash := (cfa_accepts _).2 (by rw [(cfa_accepts _).1]; decide)
example : CFA.new [82, 71, 71] = crash := by decide
example : ∃ t, ∃ s, CFA.new rggb = .ok s ∧ s.shift .debug 3 5 = .ok t := by
  obtain ⟨s, hs⟩ := (cfa_accepts rggb).1.mpr (by decide)
  obtain ⟨t, ht, _⟩ := cfa_shift .debug s (.new hs) 3 5 (by decide) (by decide)
  exact ⟨t, s, hs, ht⟩

end Props

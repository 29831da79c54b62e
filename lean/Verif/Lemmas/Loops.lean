import Verif.Lemmas.Rust
/-!
# Invariant rules for the loop combinators
-/

namespace Rust

/-- A loop whose body preserves an invariant and never stops early runs to the end. -/
theorem loopN_inv {σ : Type} (P : Nat → σ → Prop) (f : Nat → σ → M σ) : ∀ (n i : Nat) (s : σ), P i s →
    (∀ j s, i ≤ j → j < i + n → P j s → ∃ s', f j s = .ok s' ∧ P (j + 1) s') →
    ∃ s', loopN f n i s = .ok s' ∧ P (i + n) s' := by
  intro n
  induction n with
  | zero => intro i s hs _; exact ⟨s, rfl, hs⟩
  | succ n ih =>
    intro i s hs hf
    obtain ⟨s1, h1, h2⟩ := hf i s (Nat.le_refl _) (by omega) hs
    obtain ⟨s2, h3, h4⟩ := ih (i + 1) s1 h2 (fun j s hj hj' => hf j s (by omega) (by omega))
    refine ⟨s2, ?_, by rw [show i + (n + 1) = i + 1 + n by omega]; exact h4⟩
    rw [loopN, h1]; exact h3

/-- What holds after a loop that ran to its end. -/
theorem loopN_ok {σ : Type} (P : Nat → σ → Prop) (f : Nat → σ → M σ) : ∀ (n i : Nat) (s r : σ), P i s →
    (∀ j s s', i ≤ j → j < i + n → P j s → f j s = .ok s' → P (j + 1) s') → loopN f n i s = .ok r → P (i + n) r := by
  intro n
  induction n with
  | zero => intro i s r hs _ h; simp only [loopN, Except.ok.injEq] at h; subst h; exact hs
  | succ n ih =>
    intro i s r hs hf h
    rw [loopN, bind_eq_ok] at h
    obtain ⟨s1, h1, h2⟩ := h
    have := ih (i + 1) s1 r (hf i s s1 (Nat.le_refl _) (by omega) hs h1)
      (fun j s s' hj hj' => hf j s s' (by omega) (by omega)) h2
    rw [show i + (n + 1) = i + 1 + n by omega]; exact this

theorem forRange_inv {σ : Type} (P : Nat → σ → Prop) {f : Nat → σ → M σ} {lo hi : Nat} {s : σ} (hle : lo ≤ hi) (h0 : P lo s)
    (hf : ∀ j s, lo ≤ j → j < hi → P j s → ∃ s', f j s = .ok s' ∧ P (j + 1) s') :
    ∃ s', forRange lo hi f s = .ok s' ∧ P hi s' := by
  have := loopN_inv P f (hi - lo) lo s h0 (fun j s h1 h2 => hf j s h1 (by omega))
  rwa [show lo + (hi - lo) = hi by omega] at this

theorem forRange_ok {σ : Type} (P : Nat → σ → Prop) {f : Nat → σ → M σ} {lo hi : Nat} {s r : σ} (hle : lo ≤ hi) (h0 : P lo s)
    (hf : ∀ j s s', lo ≤ j → j < hi → P j s → f j s = .ok s' → P (j + 1) s') (h : forRange lo hi f s = .ok r) : P hi r := by
  have := loopN_ok P f (hi - lo) lo s r h0 (fun j s s' h1 h2 => hf j s s' h1 (by omega)) h
  rwa [show lo + (hi - lo) = hi by omega] at this

theorem forRange_nil {σ : Type} {f : Nat → σ → M σ} {lo hi : Nat} {s : σ} (h : hi ≤ lo) : forRange lo hi f s = .ok s := by
  unfold forRange; rw [show hi - lo = 0 by omega]; rfl

theorem loopN_congr {σ : Type} {f g : Nat → σ → M σ} : ∀ (n i : Nat) (s : σ), (∀ j s, i ≤ j → j < i + n → f j s = g j s) →
    loopN f n i s = loopN g n i s := by
  intro n
  induction n with
  | zero => intro i s _; rfl
  | succ n ih =>
    intro i s h
    rw [loopN, loopN, h i s (Nat.le_refl _) (by omega)]
    congr 1
    funext s'
    exact ih (i + 1) s' (fun j s h1 h2 => h j s (by omega) (by omega))

/-- Writing `g i` into cell `i` for every `i` of a range. -/
theorem forRange_fill {α : Type} {lo hi : Nat} {f : Nat → List α → M (List α)} {g : Nat → α} {out : List α} (hle : lo ≤ hi)
    (hh : hi ≤ out.length)
    (hf : ∀ j s, lo ≤ j → j < hi → s.length = out.length → f j s = .ok (s.set j (g j))) :
    ∃ r, forRange lo hi f out = .ok r ∧ r.length = out.length ∧
      ∀ k, r[k]? = if lo ≤ k ∧ k < hi then some (g k) else out[k]? := by
  obtain ⟨r, h1, h2, h3⟩ := forRange_inv (P := fun j s => s.length = out.length ∧
      ∀ k, s[k]? = if lo ≤ k ∧ k < j then some (g k) else out[k]?) (f := f) (s := out) hle
    ⟨rfl, fun k => by rw [if_neg (by omega)]⟩ (by
      intro j s hj1 hj2 ⟨hl, hs⟩
      refine ⟨_, hf j s hj1 hj2 hl, by simp [hl], fun k => ?_⟩
      rw [List.getElem?_set]
      by_cases hk : j = k
      · subst hk
        rw [if_pos rfl, if_pos (by omega), if_pos (by omega)]
      · rw [if_neg hk, hs k]
        by_cases hc : lo ≤ k ∧ k < j
        · rw [if_pos hc, if_pos (by omega)]
        · rw [if_neg hc, if_neg (by omega)])
  exact ⟨r, h1, h2, h3⟩

/-- Filling all cells. -/
theorem forRange_fill_all {α : Type} {n : Nat} {f : Nat → List α → M (List α)} {g : Nat → α} {out : List α}
    (hh : out.length = n) (hf : ∀ j s, j < n → s.length = n → f j s = .ok (s.set j (g j))) :
    forRange 0 n f out = .ok ((List.range n).map g) := by
  obtain ⟨r, h1, h2, h3⟩ := forRange_fill (lo := 0) (hi := n) (f := f) (g := g) (out := out) (Nat.zero_le _) (by omega)
    (fun j s _ hj hs => hf j s hj (by omega))
  rw [h1]
  congr 1
  apply List.ext_getElem?
  intro k
  rw [h3 k]
  by_cases hk : k < n
  · rw [if_pos ⟨Nat.zero_le _, hk⟩]; simp [hk]
  · rw [if_neg (by omega), List.getElem?_eq_none (by omega), List.getElem?_eq_none (by simp; omega)]

/-! ### Two-dimensional arrays -/

/-- Cell `(r, c)` of a list of rows. -/
def cell {α : Type} (m : List (List α)) (r c : Nat) : Option α := (m[r]?).bind (·[c]?)

/-- `h` rows of `w` cells. -/
def IsGrid {α : Type} (h w : Nat) (m : List (List α)) : Prop := m.length = h ∧ ∀ l ∈ m, l.length = w

theorem IsGrid.row {α : Type} {h w : Nat} {m : List (List α)} (hm : IsGrid h w m) {r : Nat} (hr : r < h) :
    ∃ l, m[r]? = some l ∧ l.length = w := by
  refine ⟨m[r]'(by rw [hm.1]; exact hr), by simp [hm.1, hr], hm.2 _ (List.getElem_mem _)⟩

theorem isGrid_replicate {α : Type} (h w : Nat) (a : α) : IsGrid h w (List.replicate h (List.replicate w a)) :=
  ⟨by simp, fun l hl => by rw [List.mem_replicate] at hl; rw [hl.2]; simp⟩

theorem cell_replicate {α : Type} (h w : Nat) (a : α) {r c : Nat} (hr : r < h) (hc : c < w) :
    cell (List.replicate h (List.replicate w a)) r c = some a := by
  simp [cell, hr, hc]

theorem cell_replicate_some {α : Type} {h w : Nat} {a v : α} {r c : Nat}
    (hv : cell (List.replicate h (List.replicate w a)) r c = some v) : v = a := by
  unfold cell at hv
  rw [List.getElem?_replicate] at hv
  split at hv
  · rw [Option.bind_some, List.getElem?_replicate] at hv
    split at hv
    · simp at hv; exact hv.symm
    · simp at hv
  · simp at hv

theorem IsGrid.cell {α : Type} {h w : Nat} {m : List (List α)} (hm : IsGrid h w m) {r c : Nat} (hr : r < h) (hc : c < w) :
    ∃ v, cell m r c = some v := by
  obtain ⟨l, h1, h2⟩ := hm.row hr
  exact ⟨l[c]'(by omega), by simp [Rust.cell, h1, h2, hc]⟩

theorem idx2_eq {α : Type} {m : List (List α)} {r c : Nat} {v : α} (h : cell m r c = some v) : idx2 m r c = .ok v := by
  unfold cell at h
  unfold idx2
  cases hr : m[r]? with
  | none => rw [hr] at h; simp at h
  | some l =>
    rw [hr] at h
    rw [idx_eq_ok.mpr hr, ok_bind, idx_eq_ok]
    simpa using h

theorem setIdx2_grid {α : Type} {h w : Nat} {m : List (List α)} (hm : IsGrid h w m) {r c : Nat} (hr : r < h) (hc : c < w) (v : α) :
    ∃ m', setIdx2 m r c v = .ok m' ∧ IsGrid h w m' ∧
      ∀ r' c', cell m' r' c' = if r' = r ∧ c' = c then some v else cell m r' c' := by
  obtain ⟨l, h1, h2⟩ := hm.row hr
  have hml : r < m.length := by rw [hm.1]; exact hr
  refine ⟨m.set r (l.set c v), ?_, ⟨by simp [hm.1], ?_⟩, ?_⟩
  · unfold setIdx2
    rw [idx_eq_ok.mpr h1, ok_bind, setIdx_lt (by omega), ok_bind, setIdx_lt hml]
  · intro x hx
    rcases List.mem_or_eq_of_mem_set hx with hx | hx
    · exact hm.2 x hx
    · rw [hx]; simp [h2]
  · intro r' c'
    unfold cell
    by_cases hr' : r' = r
    · subst hr'
      rw [List.getElem?_set_self hml, h1]
      simp only [Option.bind_some, true_and]
      by_cases hc' : c' = c
      · subst hc'; rw [if_pos rfl, List.getElem?_set_self (by omega)]
      · rw [if_neg hc', List.getElem?_set_ne (by omega)]
    · rw [List.getElem?_set_ne (by omega), if_neg (by omega)]

/-- A double loop that sets every cell of a grid, possibly reading the partly filled grid. -/
theorem grid_loop {α : Type} {h w : Nat} {m : List (List α)} (hm : IsGrid h w m)
    {f : Nat → Nat → List (List α) → M (List (List α))} (g : Nat → Nat → α)
    (hf : ∀ row col p, row < h → col < w → IsGrid h w p →
      (∀ r c, r < h → c < w → cell p r c = if r < row ∨ (r = row ∧ c < col) then some (g r c) else cell m r c) →
      ∃ p', f row col p = .ok p' ∧ IsGrid h w p' ∧
        ∀ r c, cell p' r c = if r = row ∧ c = col then some (g row col) else cell p r c) :
    ∃ p, forRange 0 h (fun row p => forRange 0 w (fun col p => f row col p) p) m = .ok p ∧ IsGrid h w p ∧
      ∀ r c, r < h → c < w → cell p r c = some (g r c) := by
  obtain ⟨p, h1, h2, h3⟩ := forRange_inv (P := fun row p => IsGrid h w p ∧
      ∀ r c, r < h → c < w → cell p r c = if r < row then some (g r c) else cell m r c)
    (f := fun row p => forRange 0 w (fun col p => f row col p) p) (s := m) (Nat.zero_le h)
    ⟨hm, fun r c _ _ => by rw [if_neg (by omega)]⟩ (by
      intro row p _ hrow ⟨hp, hc⟩
      obtain ⟨q, q1, q2, q3⟩ := forRange_inv (P := fun col q => IsGrid h w q ∧
          ∀ r c, r < h → c < w → cell q r c = if r < row ∨ (r = row ∧ c < col) then some (g r c) else cell m r c)
        (f := fun col p => f row col p) (s := p) (Nat.zero_le w)
        ⟨hp, fun r c hr hc' => by
          rw [hc r c hr hc']
          by_cases hlt : r < row
          · rw [if_pos hlt, if_pos (.inl hlt)]
          · rw [if_neg hlt, if_neg (by omega)]⟩ (by
          intro col q _ hcol ⟨hq, hqc⟩
          obtain ⟨q', e1, e2, e3⟩ := hf row col q hrow hcol hq hqc
          refine ⟨q', e1, e2, fun r c hr hc' => ?_⟩
          rw [e3 r c]
          by_cases heq : r = row ∧ c = col
          · rw [if_pos heq, if_pos (by omega), heq.1, heq.2]
          · rw [if_neg heq, hqc r c hr hc']
            by_cases hlt : r < row ∨ (r = row ∧ c < col)
            · rw [if_pos hlt, if_pos (by omega)]
            · rw [if_neg hlt, if_neg (by omega)])
      refine ⟨q, q1, q2, fun r c hr hc' => ?_⟩
      rw [q3 r c hr hc']
      by_cases hlt : r < row + 1
      · rw [if_pos hlt, if_pos (by omega)]
      · rw [if_neg hlt, if_neg (by omega)])
  exact ⟨p, h1, h2, fun r c hr hc => by rw [h3 r c hr hc, if_pos hr]⟩

end Rust

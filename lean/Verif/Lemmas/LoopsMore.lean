import Verif.Lemmas.Loops
/-!
# Loops in two parts, and loops that stop
-/

namespace Rust

theorem loopN_add {σ : Type} (f : Nat → σ → M σ) : ∀ (n m i : Nat) (s : σ),
    loopN f (n + m) i s = (loopN f n i s >>= fun s' => loopN f m (i + n) s') := by
  intro n
  induction n with
  | zero => intro m i s; rw [Nat.zero_add]; rfl
  | succ n ih =>
    intro m i s
    rw [show n + 1 + m = n + m + 1 by omega, loopN, loopN]
    cases f i s with
    | error e => rfl
    | ok s' => rw [ok_bind, ok_bind, ih, show i + 1 + n = i + (n + 1) by omega]

theorem forRange_split {σ : Type} (f : Nat → σ → M σ) {lo mid hi : Nat} (h1 : lo ≤ mid) (h2 : mid ≤ hi) (s : σ) :
    forRange lo hi f s = (forRange lo mid f s >>= fun s' => forRange mid hi f s') := by
  unfold forRange
  rw [show hi - lo = (mid - lo) + (hi - mid) by omega, loopN_add, show lo + (mid - lo) = mid by omega]

theorem forRange_cons {σ : Type} (f : Nat → σ → M σ) {lo hi : Nat} (h : lo < hi) (s : σ) :
    forRange lo hi f s = (f lo s >>= fun s' => forRange (lo + 1) hi f s') := by
  unfold forRange
  rw [show hi - lo = hi - (lo + 1) + 1 by omega, loopN]

theorem forRange_snoc {σ : Type} (f : Nat → σ → M σ) {lo hi : Nat} (h : lo ≤ hi) (s : σ) :
    forRange lo (hi + 1) f s = (forRange lo hi f s >>= fun s' => f hi s') := by
  rw [forRange_split f h (by omega : hi ≤ hi + 1)]
  congr 1
  funext s'
  rw [forRange_cons f (by omega)]
  have : (fun s'' => forRange (hi + 1) (hi + 1) f s'') = pure := funext fun s'' => forRange_nil (Nat.le_refl _)
  rw [this, bind_pure]

/-- A loop that keeps an invariant up to iteration `k` and stops there. -/
theorem forRange_stop {σ : Type} (P : Nat → σ → Prop) {f : Nat → σ → M σ} {lo k hi : Nat} {s : σ} {e : Stop} (h1 : lo ≤ k) (h2 : k < hi) (h0 : P lo s)
    (hf : ∀ j s, lo ≤ j → j < k → P j s → ∃ s', f j s = .ok s' ∧ P (j + 1) s') (hk : ∀ s, P k s → f k s = .error e) :
    forRange lo hi f s = .error e := by
  obtain ⟨s', e1, e2⟩ := forRange_inv P h1 h0 hf
  rw [forRange_split f h1 (by omega : k ≤ hi), e1, ok_bind, forRange_cons f h2, hk s' e2]
  rfl

end Rust

namespace Rust

/-- The cells a loop over rows and columns has written: `p` gives the cell, `v` the value, `D` the pairs done. -/
def Wrote {α : Type} (out0 : List α) (p : Nat → Nat → Nat) (v : Nat → Nat → α) (D : Nat → Nat → Prop) (out : List α) : Prop :=
  out.length = out0.length ∧ (∀ row col, D row col → out[p row col]? = some (v row col)) ∧
    ∀ k, (∀ row col, D row col → p row col ≠ k) → out[k]? = out0[k]?

theorem Wrote.congr {α : Type} {out0 out : List α} {p : Nat → Nat → Nat} {v : Nat → Nat → α} {D E : Nat → Nat → Prop} (h : Wrote out0 p v D out)
    (hd : ∀ row col, D row col ↔ E row col) : Wrote out0 p v E out :=
  ⟨h.1, fun row col hr => h.2.1 row col ((hd row col).mpr hr), fun k hk => h.2.2 k fun row col hr => hk row col ((hd row col).mp hr)⟩

theorem Wrote.set {α : Type} {out0 out : List α} {p : Nat → Nat → Nat} {v : Nat → Nat → α} {D : Nat → Nat → Prop} {row col : Nat} (h : Wrote out0 p v D out)
    (hlt : p row col < out0.length) (hi : ∀ r c, D r c → p r c ≠ p row col) :
    Wrote out0 p v (fun r c => D r c ∨ (r = row ∧ c = col)) (out.set (p row col) (v row col)) := by
  have hl : p row col < out.length := by rw [h.1]; exact hlt
  refine ⟨by rw [List.length_set]; exact h.1, ?_, ?_⟩
  · rintro r c (hd | ⟨rfl, rfl⟩)
    · rw [List.getElem?_set_ne (fun e => hi r c hd e.symm)]; exact h.2.1 r c hd
    · rw [List.getElem?_set_self hl]
  · intro k hk
    rw [List.getElem?_set_ne (hk row col (Or.inr ⟨rfl, rfl⟩))]
    exact h.2.2 k fun r c hd => hk r c (Or.inl hd)

/-- One row. -/
theorem forRange_row {α : Type} {R C : Nat} {f : Nat → List α → M (List α)} {p : Nat → Nat → Nat} {v : Nat → Nat → α} {out0 s : List α} {row : Nat} (hr : row < R)
    (hp : ∀ row col, row < R → col < C → p row col < out0.length)
    (hi : ∀ r c r' c', r < R → c < C → r' < R → c' < C → p r c = p r' c' → r = r' ∧ c = c')
    (hs : Wrote out0 p v (fun r c => r < row ∧ c < C) s)
    (hf : ∀ col s, col < C → s.length = out0.length → f col s = .ok (s.set (p row col) (v row col))) :
    ∃ s', forRange 0 C f s = .ok s' ∧ Wrote out0 p v (fun r c => r < row + 1 ∧ c < C) s' := by
  obtain ⟨s', e1, e2⟩ := forRange_inv (P := fun col s => Wrote out0 p v (fun r c => (r < row ∧ c < C) ∨ (r = row ∧ c < col)) s) (f := f) (Nat.zero_le C)
    (hs.congr fun r c => by omega) (fun col s _ hc hs => by
      refine ⟨_, hf col s hc hs.1, (hs.set (hp row col hr hc) ?_).congr fun r c => by omega⟩
      intro r c hd e
      have := hi r c row col (by omega) (by omega) hr hc e
      omega)
  exact ⟨s', e1, e2.congr fun r c => by omega⟩

/-- A loop over rows and columns that writes distinct cells. -/
theorem forRange2_write {α : Type} {R C : Nat} {f : Nat → List α → M (List α)} {p : Nat → Nat → Nat} {v : Nat → Nat → α} {out : List α}
    (hp : ∀ row col, row < R → col < C → p row col < out.length)
    (hi : ∀ r c r' c', r < R → c < C → r' < R → c' < C → p r c = p r' c' → r = r' ∧ c = c')
    (hf : ∀ row s, row < R → s.length = out.length → ∃ g, f row s = forRange 0 C g s ∧
      ∀ col s, col < C → s.length = out.length → g col s = .ok (s.set (p row col) (v row col))) :
    ∃ r, forRange 0 R f out = .ok r ∧ Wrote out p v (fun r c => r < R ∧ c < C) r := by
  refine forRange_inv (P := fun row s => Wrote out p v (fun r c => r < row ∧ c < C) s) (Nat.zero_le R)
    ⟨rfl, fun _ _ h => by omega, fun _ _ => rfl⟩ (fun row s _ hr hs => ?_)
  obtain ⟨g, e, hg⟩ := hf row s hr hs.1
  rw [e]
  exact forRange_row hr hp hi hs hg

end Rust

namespace Rust

theorem copySlice_ok {α : Type} {out vals : List α} {pos : Nat} (h : pos + vals.length ≤ out.length) :
    ∃ r, copySlice out pos vals = .ok r ∧ r.length = out.length ∧ ∀ k, r[k]? = if pos ≤ k ∧ k < pos + vals.length then vals[k - pos]? else out[k]? := by
  refine ⟨_, by unfold copySlice; rw [if_pos h], by simp; omega, fun k => ?_⟩
  by_cases h1 : k < pos
  · rw [if_neg (by omega), List.append_assoc, List.getElem?_append_left (by simp; omega), List.getElem?_take, if_pos h1]
  · by_cases h2 : k < pos + vals.length
    · rw [if_pos (by omega), List.getElem?_append_left (by simp; omega), List.getElem?_append_right (by simp; omega), List.length_take, Nat.min_eq_left (by omega)]
    · rw [if_neg (by omega), List.getElem?_append_right (by simp; omega), List.getElem?_drop]
      congr 1
      simp
      omega

/-- Copying a whole row to its place. -/
theorem Wrote.copyRow {α : Type} {out0 s vals : List α} {p : Nat → Nat → Nat} {v : Nat → Nat → α} {D : Nat → Nat → Prop} {row C pos : Nat} (h : Wrote out0 p v D s)
    (hv : vals.length = C) (hval : ∀ col, col < C → vals[col]? = some (v row col)) (hpos : ∀ col, col < C → p row col = pos + col) (hlt : pos + C ≤ out0.length)
    (hi : ∀ r c col, D r c → col < C → p r c ≠ pos + col) :
    ∃ s', copySlice s pos vals = .ok s' ∧ Wrote out0 p v (fun r c => D r c ∨ (r = row ∧ c < C)) s' := by
  obtain ⟨r, e1, e2, e3⟩ := copySlice_ok (out := s) (vals := vals) (pos := pos) (by rw [hv, h.1]; exact hlt)
  refine ⟨r, e1, by rw [e2, h.1], ?_, ?_⟩
  · rintro r' c (hd | ⟨rfl, hc⟩)
    · rw [e3, if_neg]
      · exact h.2.1 r' c hd
      · rintro ⟨h1, h2⟩
        exact hi r' c (p r' c - pos) hd (by omega) (by omega)
    · rw [e3, hpos c hc, if_pos (by omega), show pos + c - pos = c by omega]
      exact hval c hc
  · intro k hk
    rw [e3, if_neg]
    · exact h.2.2 k fun r' c hd => hk r' c (Or.inl hd)
    · rintro ⟨h1, h2⟩
      exact hk row (k - pos) (Or.inr ⟨rfl, by omega⟩) (by rw [hpos _ (by omega)]; omega)

end Rust

namespace Rust

/-- Copying part of a row to its place. -/
theorem Wrote.copySeg {α : Type} {out0 s vals : List α} {p : Nat → Nat → Nat} {v : Nat → Nat → α} {D : Nat → Nat → Prop} {row S C pos : Nat} (h : Wrote out0 p v D s)
    (hv : vals.length = C) (hval : ∀ col, col < C → vals[col]? = some (v row (S + col))) (hpos : ∀ col, col < C → p row (S + col) = pos + col)
    (hlt : pos + C ≤ out0.length) (hi : ∀ r c col, D r c → col < C → p r c ≠ pos + col) :
    ∃ s', copySlice s pos vals = .ok s' ∧ Wrote out0 p v (fun r c => D r c ∨ (r = row ∧ S ≤ c ∧ c < S + C)) s' := by
  obtain ⟨r, e1, e2, e3⟩ := copySlice_ok (out := s) (vals := vals) (pos := pos) (by rw [hv, h.1]; exact hlt)
  refine ⟨r, e1, by rw [e2, h.1], ?_, ?_⟩
  · rintro r' c (hd | ⟨rfl, hc1, hc2⟩)
    · rw [e3, if_neg]
      · exact h.2.1 r' c hd
      · rintro ⟨h1, h2⟩
        exact hi r' c (p r' c - pos) hd (by omega) (by omega)
    · obtain ⟨col, rfl⟩ : ∃ col, c = S + col := ⟨c - S, by omega⟩
      rw [e3, hpos col (by omega), if_pos (by omega), show pos + col - pos = col by omega]
      exact hval col (by omega)
  · intro k hk
    rw [e3, if_neg]
    · exact h.2.2 k fun r' c hd => hk r' c (Or.inl hd)
    · rintro ⟨h1, h2⟩
      exact hk row (S + (k - pos)) (Or.inr ⟨rfl, by omega, by omega⟩) (by rw [hpos _ (by omega)]; omega)

theorem slice_getElem? {α : Type} {l : List α} {i j : Nat} (h1 : i ≤ j) (h2 : j ≤ l.length) :
    ∃ r, slice l i j = .ok r ∧ r.length = j - i ∧ ∀ k, k < j - i → r[k]? = l[i + k]? := by
  refine ⟨_, slice_le h1 h2, ?_, fun k hk => ?_⟩
  · simp; omega
  · rw [List.getElem?_drop, List.getElem?_take, if_pos (by omega)]

end Rust

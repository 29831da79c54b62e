import Verif.Lemmas.Tiff
import Verif.Model.Dec.Simple
/-!
# Lemmas about the block list of MRW files
-/

namespace Model
open Rust
namespace Mrw

theorem ends_block (buf : Bytes) (tag : Nat) (s : Walk) : Ends (block buf tag s) := by unfold block; ends

theorem post_block (buf : Bytes) (tag : Nat) (s : Walk) (h : s.wbVals.length = 4) :
    Post (block buf tag s) (fun s' => s'.currpos = s.currpos ∧ s'.wbVals.length = 4) := by
  unfold block
  refine post_ite (fun _ => ?_) fun _ => post_ite (fun _ => ?_) fun _ => post_ite (fun _ => post_ok ⟨rfl, h⟩) fun _ => post_ok ⟨rfl, h⟩
  · exact post_bind (post_ends (ends_BEu16 _ _)) fun _ _ => post_bind (post_ends (ends_BEu16 _ _)) fun _ _ =>
      post_bind (post_ends (ends_byteAt _ _)) fun _ _ => post_ok ⟨rfl, h⟩
  · refine post_bind (post_loop (fun wb => wb.length = 4) h fun j wb hw => ?_) fun wb hw => post_ok ⟨rfl, hw⟩
    refine post_bind (post_ends (ends_BEu16 _ _)) fun v _ => ?_
    exact post_weaken post_setIdx fun r hr => by rw [hr.2, List.length_set, hw]

/-- Whether a block can be read depends only on its position. -/
theorem block_again {buf : Bytes} {tag : Nat} {s s' t : Walk} (h : block buf tag s = .ok t) (hp : s'.currpos = s.currpos)
    (h' : s'.wbVals.length = 4) : ∃ t', block buf tag s' = .ok t' := by
  unfold block at h ⊢
  rw [hp]
  split at h
  · rename_i h1
    rw [if_pos h1]
    simp only [bind_eq_ok] at h
    obtain ⟨_, e1, _, e2, _, e3, _⟩ := h
    rw [e1, ok_bind, e2, ok_bind, e3, ok_bind]
    exact ⟨_, rfl⟩
  · rename_i h1
    rw [if_neg h1]
    split at h
    · rename_i h2
      rw [if_pos h2]
      rw [bind_eq_ok] at h
      obtain ⟨wb, hw, _⟩ := h
      have hread : ∀ i, i < 4 → ∃ v, BEu16 buf (s.currpos + 12 + i * 2) = .ok v := by
        have key : ∀ (n i : Nat) (w w' : List Nat), loopN (fun i wb => do
            let v ← BEu16 buf (s.currpos + 12 + i * 2)
            setIdx wb i v) n i w = .ok w' → ∀ j, i ≤ j → j < i + n → ∃ v, BEu16 buf (s.currpos + 12 + j * 2) = .ok v := by
          intro n
          induction n with
          | zero => intro i w w' _ j h1 h2; omega
          | succ n ih =>
            intro i w w' h j h1 h2
            rw [loopN, bind_eq_ok] at h
            obtain ⟨w1, h3, h4⟩ := h
            rcases Nat.eq_or_lt_of_le h1 with rfl | h1
            · rw [bind_eq_ok] at h3
              obtain ⟨v, hv, _⟩ := h3
              exact ⟨v, hv⟩
            · exact ih (i + 1) _ _ h4 j h1 (by omega)
        intro i hi
        exact key 4 0 _ _ hw i (by omega) (by omega)
      obtain ⟨w, hw⟩ := forRange_inv (f := fun i wb => do
          let v ← BEu16 buf (s.currpos + 12 + i * 2)
          setIdx wb i v) (lo := 0) (hi := 4) (s := s'.wbVals) (fun _ wb => wb.length = 4) (by omega) h' (by
        intro j wb _ hj hwb
        obtain ⟨v, hv⟩ := hread j hj
        exact ⟨_, by rw [hv, ok_bind, setIdx_lt (by omega)], by rw [List.length_set, hwb]⟩)
      rw [hw.1, ok_bind]
      exact ⟨_, rfl⟩
    · rename_i h2
      rw [if_neg h2]
      split
      · exact ⟨_, rfl⟩
      · exact ⟨_, rfl⟩

/-- A block of step zero is visited forever. -/
theorem walk_stuck {b : Build} {buf : Bytes} {dataOffset tag len p : Nat} {s0 t : Walk} (hp : p + 20 < dataOffset)
    (h1 : BEu32 buf p = .ok tag) (h2 : BEu32 buf (p + 4) = .ok len) (h3 : block buf tag s0 = .ok t) (hs0 : s0.currpos = p)
    (h4 : addU 32 b len 8 = .ok 0) : ∀ (m : Nat) (s : Walk), s.currpos = p → s.wbVals.length = 4 → walk b buf dataOffset m s = .error .fuel := by
  intro m
  induction m with
  | zero => intro s hs _; rw [walk, if_pos (by omega)]
  | succ m ih =>
    intro s hs hw
    rw [walk, if_pos (by omega), hs, h1, ok_bind, h2, ok_bind]
    obtain ⟨t', ht'⟩ := block_again h3 (hs.trans hs0.symm) hw
    have := (post_block buf tag s hw).2 t' ht'
    rw [ht', ok_bind, h4, ok_bind]
    exact ih _ (by simp [this.1, hs]) this.2

/-- A walk that uses up one step per byte never ends. -/
theorem walk_fuel {b : Build} {buf : Bytes} {dataOffset : Nat} : ∀ (n : Nat) (s : Walk), s.wbVals.length = 4 → dataOffset ≤ s.currpos + n →
    walk b buf dataOffset n s = .error .fuel → ∀ m, walk b buf dataOffset m s = .error .fuel := by
  intro n
  induction n with
  | zero => intro s _ h1 h2; rw [walk, if_neg (by omega)] at h2; cases h2
  | succ n ih =>
    intro s hw h1 h2 m
    rw [walk] at h2
    by_cases hc : s.currpos + 20 < dataOffset
    · rw [if_pos hc] at h2
      cases e1 : BEu32 buf s.currpos with
      | error x => rw [e1, error_bind] at h2; injection h2 with h2; subst h2; exact absurd e1 (ends_BEu32 _ _)
      | ok tag =>
      cases e2 : BEu32 buf (s.currpos + 4) with
      | error x => rw [e1, ok_bind, e2, error_bind] at h2; injection h2 with h2; subst h2; exact absurd e2 (ends_BEu32 _ _)
      | ok len =>
      cases e3 : block buf tag s with
      | error x => rw [e1, ok_bind, e2, ok_bind, e3, error_bind] at h2; injection h2 with h2; subst h2; exact absurd e3 (ends_block _ _ _)
      | ok t =>
      cases e4 : addU 32 b len 8 with
      | error x =>
        rw [e1, ok_bind, e2, ok_bind, e3, ok_bind, e4, error_bind] at h2; injection h2 with h2; subst h2; exact absurd e4 (ends_addU _ _ _ _)
      | ok step =>
        rw [e1, ok_bind, e2, ok_bind, e3, ok_bind, e4, ok_bind] at h2
        have ht := (post_block buf tag s hw).2 t e3
        by_cases h0 : step = 0
        · subst h0
          exact walk_stuck hc e1 e2 e3 rfl e4 m s rfl hw
        · have := ih _ (by exact ht.2) (by dsimp only; rw [ht.1]; omega) h2
          cases m with
          | zero => rw [walk, if_pos hc]
          | succ m => rw [walk, if_pos hc, e1, ok_bind, e2, ok_bind, e3, ok_bind, e4, ok_bind]; exact this m
    · rw [if_neg hc] at h2; cases h2

/-- More steps do not change a result. -/
theorem walk_mono {b : Build} {buf : Bytes} {dataOffset : Nat} : ∀ (n : Nat) (s : Walk),
    walk b buf dataOffset n s ≠ .error .fuel → ∀ m, n ≤ m → walk b buf dataOffset m s = walk b buf dataOffset n s := by
  intro n
  induction n with
  | zero =>
    intro s h m _
    rw [walk] at h ⊢
    by_cases hc : s.currpos + 20 < dataOffset
    · rw [if_pos hc] at h; exact absurd rfl h
    · rw [if_neg hc]
      cases m <;> rw [walk, if_neg hc]
  | succ n ih =>
    intro s h m hm
    obtain ⟨m, rfl⟩ : ∃ k, m = k + 1 := ⟨m - 1, by omega⟩
    rw [walk] at h ⊢
    rw [walk]
    by_cases hc : s.currpos + 20 < dataOffset
    · rw [if_pos hc] at h ⊢
      rw [if_pos hc]
      cases e1 : BEu32 buf s.currpos with
      | error x => rfl
      | ok tag =>
      cases e2 : BEu32 buf (s.currpos + 4) with
      | error x => rfl
      | ok len =>
      cases e3 : block buf tag s with
      | error x => simp only [ok_bind, e3, error_bind]
      | ok t =>
      cases e4 : addU 32 b len 8 with
      | error x => simp only [ok_bind, e3, e4, error_bind]
      | ok step =>
        simp only [ok_bind, e1, e2, e3, e4] at h ⊢
        exact ih _ h m (by omega)
    · rw [if_neg hc, if_neg hc]

/-- The walk ends if every length field it might read gives a nonzero step. -/
theorem walk_ends {b : Build} {buf : Bytes} {dataOffset : Nat} (hstep : ∀ pos len step, BEu32 buf pos = .ok len → addU 32 b len 8 = .ok step → 0 < step) :
    ∀ (n : Nat) (s : Walk), s.wbVals.length = 4 → dataOffset ≤ s.currpos + n → Ends (walk b buf dataOffset n s) := by
  intro n
  induction n with
  | zero => intro s _ h; rw [walk, if_neg (by omega)]; exact ends_ok _
  | succ n ih =>
    intro s hw h
    rw [walk]
    refine ends_ite (fun _ => ?_) fun _ => ends_ok _
    refine ends_bind (ends_BEu32 _ _) fun tag _ => ends_bind (ends_BEu32 _ _) fun len e2 => ends_bind (ends_block _ _ _) fun t e3 =>
      ends_bind (ends_addU _ _ _ _) fun step e4 => ?_
    have := (post_block buf tag s hw).2 t e3
    have := hstep _ _ _ e2 e4
    exact ih _ (by simp_all) (by simp_all; omega)

theorem ends_newWithin {b : Build} {buf : Bytes} {budget : Nat → Nat} (h : ∀ d, Ends (walk b buf d (budget d) start)) : Ends (newWithin b budget buf) := by
  unfold newWithin
  refine ends_bind (ends_BEu32 _ _) fun d _ => ends_bind (ends_addU _ _ _ _) fun dd _ => ends_bind (h dd) fun s _ =>
    ends_bind (ends_sliceFrom _ _) fun sub _ => ?_
  have := (TiffIFD.post_parse b sub 8 0 0 BIG_ENDIAN).1
  generalize TiffIFD.parse b sub 8 0 0 BIG_ENDIAN = r at this
  split
  · exact ends_ok _
  · exact absurd rfl this
  · exact ends_crash

end Mrw
end Model

import Verif.Lemmas.Loops
/-!
# Computations that end

Loops whose number of iterations depends on the data carry a step budget in the model. `Ends` says the budget was enough.
-/

namespace Rust

/-- The computation ends: with a value, an error or a panic. -/
def Ends {α : Type} (x : M α) : Prop := x ≠ .error .fuel

theorem ends_ok {α : Type} (a : α) : Ends (.ok a : M α) := nofun
theorem ends_crash {α : Type} : Ends (crash : M α) := nofun
theorem ends_fail {α : Type} (m : String) : Ends (fail m : M α) := nofun

theorem ends_bind {α β : Type} {x : M α} {f : α → M β} (hx : Ends x) (hf : ∀ a, x = .ok a → Ends (f a)) : Ends (x >>= f) := by
  cases x with
  | error e => intro h; rw [error_bind] at h; injection h with h; subst h; exact hx rfl
  | ok a => rw [ok_bind]; exact hf a rfl

theorem ends_ite {α : Type} {p : Prop} [Decidable p] {x y : M α} (hx : p → Ends x) (hy : ¬ p → Ends y) : Ends (if p then x else y) := by
  split
  · exact hx ‹_›
  · exact hy ‹_›

theorem ends_idx {α : Type} (l : List α) (i : Nat) : Ends (idx l i) := by
  unfold idx; split <;> first | exact ends_ok _ | exact ends_crash

theorem ends_setIdx {α : Type} (l : List α) (i : Nat) (v : α) : Ends (setIdx l i v) := by
  unfold setIdx; split <;> first | exact ends_ok _ | exact ends_crash

theorem ends_slice {α : Type} (l : List α) (i j : Nat) : Ends (slice l i j) := by
  unfold slice; split <;> first | exact ends_ok _ | exact ends_crash

theorem ends_sliceFrom {α : Type} (l : List α) (i : Nat) : Ends (sliceFrom l i) := by
  unfold sliceFrom; split <;> first | exact ends_ok _ | exact ends_crash

theorem ends_addU (w : Nat) (b : Build) (x y : Nat) : Ends (addU w b x y) := by
  unfold addU; split
  · exact ends_ok _
  · cases b
    · exact ends_crash
    · exact ends_ok _

theorem ends_subU (w : Nat) (b : Build) (x y : Nat) : Ends (subU w b x y) := by
  unfold subU; split
  · exact ends_ok _
  · cases b
    · exact ends_crash
    · exact ends_ok _

theorem ends_mulU (w : Nat) (b : Build) (x y : Nat) : Ends (mulU w b x y) := by
  unfold mulU; split
  · exact ends_ok _
  · cases b
    · exact ends_crash
    · exact ends_ok _

theorem ends_loopN {σ : Type} {f : Nat → σ → M σ} (hf : ∀ j s, Ends (f j s)) : ∀ (n i : Nat) (s : σ), Ends (loopN f n i s) := by
  intro n
  induction n with
  | zero => intro i s; exact ends_ok _
  | succ n ih => intro i s; exact ends_bind (hf _ _) fun _ _ => ih _ _

theorem ends_forRange {σ : Type} {f : Nat → σ → M σ} (hf : ∀ j s, Ends (f j s)) (lo hi : Nat) (s : σ) : Ends (forRange lo hi f s) :=
  ends_loopN hf _ _ _

theorem ends_mapM {α β : Type} {f : α → M β} (hf : ∀ a, Ends (f a)) (l : List α) : Ends (l.mapM f) := by
  induction l with
  | nil => exact ends_ok _
  | cons a l ih =>
    rw [List.mapM_cons]
    exact ends_bind (hf a) fun _ _ => ends_bind ih fun _ _ => ends_ok _

end Rust

import Verif.Lemmas.Ends
/-!
# Postconditions

`Post x Q`: the computation ends, and if it gives a value, the value satisfies `Q`. It may also end with an error or a panic.
-/

namespace Rust

/-- The computation ends, and its value (if any) satisfies `Q`. -/
def Post {α : Type} (x : M α) (Q : α → Prop) : Prop := Ends x ∧ ∀ a, x = .ok a → Q a

theorem post_ok {α : Type} {Q : α → Prop} {a : α} (h : Q a) : Post (.ok a : M α) Q := ⟨ends_ok _, fun _ e => by injection e with e; exact e ▸ h⟩
theorem post_crash {α : Type} {Q : α → Prop} : Post (crash : M α) Q := ⟨ends_crash, fun _ e => absurd e (crash_ne_ok _)⟩
theorem post_fail {α : Type} {Q : α → Prop} {m : String} : Post (fail m : M α) Q := ⟨ends_fail _, fun _ e => absurd e (fail_ne_ok _ _)⟩

theorem post_of {α : Type} {Q : α → Prop} {x : M α} (h : Ends x) (hq : ∀ a, x = .ok a → Q a) : Post x Q := ⟨h, hq⟩

theorem post_ends {α : Type} {x : M α} (h : Ends x) : Post x (fun _ => True) := ⟨h, fun _ _ => trivial⟩

theorem post_bind {α β : Type} {x : M α} {f : α → M β} {Q : α → Prop} {R : β → Prop} (hx : Post x Q) (hf : ∀ a, Q a → Post (f a) R) : Post (x >>= f) R := by
  refine ⟨ends_bind hx.1 fun a e => (hf a (hx.2 a e)).1, ?_⟩
  intro r e
  rw [bind_eq_ok] at e
  obtain ⟨a, h1, h2⟩ := e
  exact (hf a (hx.2 a h1)).2 r h2

theorem post_weaken {α : Type} {x : M α} {Q R : α → Prop} (hx : Post x Q) (h : ∀ a, Q a → R a) : Post x R := ⟨hx.1, fun a e => h a (hx.2 a e)⟩

theorem post_ite {α : Type} {p : Prop} [Decidable p] {x y : M α} {Q : α → Prop} (hx : p → Post x Q) (hy : ¬ p → Post y Q) : Post (if p then x else y) Q := by
  split
  · exact hx ‹_›
  · exact hy ‹_›

theorem post_loopN {σ : Type} (P : Nat → σ → Prop) {f : Nat → σ → M σ} : ∀ (n i : Nat) (s : σ), P i s →
    (∀ j s, i ≤ j → j < i + n → P j s → Post (f j s) (P (j + 1))) → Post (loopN f n i s) (P (i + n)) := by
  intro n
  induction n with
  | zero => intro i s hs _; exact post_ok hs
  | succ n ih =>
    intro i s hs hf
    refine post_bind (hf i s (Nat.le_refl _) (by omega) hs) fun s' hs' => ?_
    have := ih (i + 1) s' hs' fun j s h1 h2 => hf j s (by omega) (by omega)
    rwa [show i + (n + 1) = i + 1 + n by omega]

theorem post_forRange {σ : Type} (P : Nat → σ → Prop) {f : Nat → σ → M σ} {lo hi : Nat} {s : σ} (hle : lo ≤ hi) (h0 : P lo s)
    (hf : ∀ j s, lo ≤ j → j < hi → P j s → Post (f j s) (P (j + 1))) : Post (forRange lo hi f s) (P hi) := by
  have := post_loopN P (hi - lo) lo s h0 (fun j s h1 h2 => hf j s h1 (by omega))
  rwa [show lo + (hi - lo) = hi by omega] at this

/-- An invariant that does not depend on the iteration. -/
theorem post_loop {σ : Type} (P : σ → Prop) {f : Nat → σ → M σ} {n i : Nat} {s : σ} (h0 : P s)
    (hf : ∀ j s, P s → Post (f j s) P) : Post (loopN f n i s) P :=
  post_loopN (fun _ => P) n i s h0 fun j s _ _ => hf j s

theorem post_idx {α : Type} {l : List α} {i : Nat} : Post (idx l i) (fun a => l[i]? = some a) := ⟨ends_idx _ _, fun _ e => idx_eq_ok.mp e⟩

theorem post_idx_mem {α : Type} {l : List α} {i : Nat} : Post (idx l i) (fun a => a ∈ l) :=
  post_weaken post_idx fun _ h => List.mem_of_getElem? h

theorem post_setIdx {α : Type} {l : List α} {i : Nat} {v : α} : Post (setIdx l i v) (fun r => i < l.length ∧ r = l.set i v) := by
  unfold setIdx
  exact post_ite (fun h => post_ok ⟨h, rfl⟩) fun _ => post_crash

theorem post_mapM {α β : Type} {f : α → M β} {Q : α → β → Prop} {l : List α} (hf : ∀ a ∈ l, Post (f a) (Q a)) :
    Post (l.mapM f) (fun r => r.length = l.length ∧ ∀ (i : Nat) a b, l[i]? = some a → r[i]? = some b → Q a b) := by
  induction l with
  | nil => exact post_ok ⟨rfl, fun i a b h => by simp at h⟩
  | cons a l ih =>
    rw [List.mapM_cons]
    refine post_bind (hf a (by simp)) fun b hb => post_bind (ih fun a ha => hf a (by simp [ha])) fun r hr => post_ok ⟨by simp [hr.1], ?_⟩
    intro i a' b' h1 h2
    cases i with
    | zero => simp at h1 h2; subst h1; subst h2; exact hb
    | succ i => exact hr.2 i a' b' (by simpa using h1) (by simpa using h2)

end Rust

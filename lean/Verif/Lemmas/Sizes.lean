import Verif.Lemmas.EndsTac
import Verif.Lemmas.Tiff
import Verif.Lemmas.HuffAny
import Verif.Lemmas.LjpegHeader
import Verif.Model.Loader
/-!
# Computations that end and keep the number of pixels

`size` is the length of the pixel buffer in a loop state. The tactic `sized` shows `Post x (fun r => size r = n)`: it takes the
computation apart as `ends` does and carries the equations on sizes along.
-/

namespace Rust

/-- The length of the buffer in a state. -/
class Size (α : Type) where
  size : α → Nat

export Size (size)

instance {α : Type} : Size (List α) := ⟨List.length⟩
instance {α β : Type} [Size α] : Size (α × β) := ⟨fun p => size p.1⟩

@[simp] theorem size_list {α : Type} (l : List α) : size l = l.length := rfl
@[simp] theorem size_pair {α β : Type} [Size α] (p : α × β) : size p = size p.1 := rfl

/-! ## Computations that end -/

theorem ends_shlU (w : Nat) (b : Build) (x y : Nat) : Ends (shlU w b x y) := by
  unfold shlU; split
  · exact ends_ok _
  · cases b
    · exact ends_crash
    · exact ends_ok _

theorem ends_shrU (w : Nat) (b : Build) (x y : Nat) : Ends (shrU w b x y) := by
  unfold shrU; split
  · exact ends_ok _
  · cases b
    · exact ends_crash
    · exact ends_ok _

theorem ends_i32Result (b : Build) (x : Int) : Ends (i32Result b x) := by
  unfold i32Result; split
  · exact ends_ok _
  · cases b
    · exact ends_crash
    · exact ends_ok _

macro_rules | `(tactic| ends_leaf) => `(tactic| with_reducible exact ends_shlU _ _ _ _)
macro_rules | `(tactic| ends_leaf) => `(tactic| with_reducible exact ends_shrU _ _ _ _)
macro_rules | `(tactic| ends_leaf) => `(tactic| with_reducible exact ends_i32Result _ _)

theorem ends_idx2 {α : Type} (m : List (List α)) (r c : Nat) : Ends (idx2 m r c) := by unfold idx2; ends
theorem ends_setIdx2 {α : Type} (m : List (List α)) (r c : Nat) (v : α) : Ends (setIdx2 m r c v) := by unfold setIdx2; ends
theorem ends_copySlice {α : Type} (l : List α) (i : Nat) (v : List α) : Ends (copySlice l i v) := by unfold copySlice; ends

macro_rules | `(tactic| ends_leaf) => `(tactic| with_reducible exact ends_idx2 _ _ _)
macro_rules | `(tactic| ends_leaf) => `(tactic| with_reducible exact ends_setIdx2 _ _ _ _)
macro_rules | `(tactic| ends_leaf) => `(tactic| with_reducible exact ends_copySlice _ _ _)

theorem ends_forStep {σ : Type} {f : Nat → σ → M σ} (hf : ∀ j s, Ends (f j s)) (lo hi k : Nat) (s : σ) : Ends (forStep lo hi k f s) :=
  ends_loopN (fun _ _ => hf _ _) _ _ _

theorem ends_foldlM {α σ : Type} {f : σ → α → M σ} (hf : ∀ s a, Ends (f s a)) : ∀ (l : List α) (s : σ), Ends (l.foldlM f s)
  | [], _ => ends_ok _
  | a :: l, s => ends_bind (hf s a) fun _ _ => ends_foldlM hf l _

theorem ends_filterM {α : Type} {p : α → M Bool} (hp : ∀ a, Ends (p a)) : ∀ l : List α, Ends (l.filterM p) := by
  have haux : ∀ l acc : List α, Ends (l.filterAuxM p acc) := by
    intro l
    induction l with
    | nil => intro acc; exact ends_ok _
    | cons a l ih => intro acc; exact ends_bind (hp a) fun _ _ => ih _
  intro l
  exact ends_bind (haux _ _) fun _ _ => ends_ok _

macro_rules | `(tactic| ends_step) => `(tactic| with_reducible refine ends_forStep (fun _ _ => ?_) _ _ _ _)
macro_rules | `(tactic| ends_step) => `(tactic| with_reducible refine ends_mapM (fun _ => ?_) _)
macro_rules | `(tactic| ends_step) => `(tactic| with_reducible refine ends_foldlM (fun _ _ => ?_) _ _)
macro_rules | `(tactic| ends_step) => `(tactic| with_reducible refine ends_filterM (fun _ => ?_) _)

/-! ## Sizes of the basic operations -/

theorem post_setIdx_size {α : Type} (l : List α) (i : Nat) (v : α) : Post (setIdx l i v) (fun r => size r = size l) :=
  post_weaken post_setIdx fun r h => by rw [h.2]; simp

theorem post_copySlice_size {α : Type} (l : List α) (i : Nat) (v : List α) : Post (copySlice l i v) (fun r => size r = size l) := by
  unfold copySlice
  refine post_ite (fun h => post_ok ?_) fun _ => post_crash
  simp only [size_list, List.length_append, List.length_take, List.length_drop]
  omega

theorem post_forRange_size {σ : Type} [Size σ] {f : Nat → σ → M σ} {lo hi : Nat} {s : σ}
    (hf : ∀ j t, size t = size s → Post (f j t) (fun r => size r = size t)) : Post (forRange lo hi f s) (fun r => size r = size s) :=
  post_loop (fun r => size r = size s) rfl fun j t ht => post_weaken (hf j t ht) fun _ h => h.trans ht

theorem post_forStep_size {σ : Type} [Size σ] {f : Nat → σ → M σ} {lo hi k : Nat} {s : σ}
    (hf : ∀ j t, size t = size s → Post (f j t) (fun r => size r = size t)) : Post (forStep lo hi k f s) (fun r => size r = size s) :=
  post_loop (fun r => size r = size s) rfl fun j t ht => post_weaken (hf _ t ht) fun _ h => h.trans ht

theorem post_foldlM_size {α σ : Type} [Size σ] {f : σ → α → M σ} (hf : ∀ t a, Post (f t a) (fun r => size r = size t)) :
    ∀ (l : List α) (s : σ), Post (l.foldlM f s) (fun r => size r = size s)
  | [], _ => post_ok rfl
  | a :: l, s => post_bind (hf s a) fun t ht => post_weaken (post_foldlM_size hf l t) fun _ h => h.trans ht

theorem chunksFuel_sum {α : Type} (n : Nat) (hn : 0 < n) : ∀ (fuel : Nat) (l : List α), l.length ≤ fuel →
    ((chunksFuel n fuel l).map List.length).sum = l.length := by
  intro fuel
  induction fuel with
  | zero => intro l h; have : l = [] := List.eq_nil_of_length_eq_zero (by omega); subst this; rfl
  | succ fuel ih =>
    intro l h
    rw [chunksFuel]
    cases l with
    | nil => rfl
    | cons a l =>
      rw [if_neg (by simp), List.map_cons, List.sum_cons, ih _ (by simp at h ⊢; omega)]
      simp; omega

/-- The pieces of a list together are as long as the list. -/
theorem chunks_sum {α : Type} (n : Nat) (hn : 0 < n) (l : List α) : ((chunks n l).map List.length).sum = l.length :=
  chunksFuel_sum n hn _ l (Nat.le_refl _)

theorem post_mapM_sum {α β : Type} {f : α → M (List β)} {len : α → Nat} (hf : ∀ a, Post (f a) (fun r => r.length = len a)) :
    ∀ l : List α, Post (l.mapM f) (fun r => r.flatten.length = (l.map len).sum)
  | [] => post_ok rfl
  | a :: l => by
    rw [List.mapM_cons]
    refine post_bind (hf a) fun r hr => post_bind (post_mapM_sum hf l) fun rs hrs => post_ok ?_
    rw [List.flatten_cons, List.length_append, hr, hrs, List.map_cons, List.sum_cons]

theorem post_mapChunks_size {α : Type} {k : Nat} (hk : 0 < k) {f : List α → M (List α)} (hf : ∀ o, Post (f o) (fun r => size r = size o))
    (out : List α) : Post (mapChunks k f out) (fun r => size r = size out) := by
  unfold mapChunks
  refine post_bind (post_mapM_sum hf _) fun r hr => post_ok ?_
  exact hr.trans (chunks_sum k hk out)

theorem post_parChunksMut_size {α : Type} {n : Nat} {out : List α} {f : List α → Nat → M (List α)}
    (hf : ∀ o i, Post (f o i) (fun r => size r = size o)) : Post (parChunksMut n out f) (fun r => size r = size out) := by
  unfold parChunksMut
  refine post_ite (fun _ => post_crash) fun hn => ?_
  refine post_bind (post_mapM_sum (len := fun p : List α × Nat => p.1.length) (fun p => hf p.1 p.2) _) fun r hr => post_ok ?_
  have e : ((chunks n out).zipIdx.map fun p : List α × Nat => p.1.length) = (chunks n out).map List.length := by
    rw [show (fun p : List α × Nat => p.1.length) = List.length ∘ Prod.fst from rfl, ← List.map_map, List.zipIdx_map_fst]
  rw [e, chunks_sum n (by omega)] at hr
  exact hr

theorem post_zipChunksFuel_size {α β : Type} {ko ki : Nat} {f : List α → List β → M (List α)} (hf : ∀ o i, Post (f o i) (fun r => size r = size o)) :
    ∀ (fuel : Nat) (out : List α) (inb : List β), Post (zipChunksFuel ko ki f fuel out inb) (fun r => size r = size out) := by
  intro fuel
  induction fuel with
  | zero => intro out inb; exact post_ok rfl
  | succ fuel ih =>
    intro out inb
    rw [zipChunksFuel]
    refine post_ite (fun _ => post_ok rfl) fun _ => post_bind (hf _ _) fun o ho => post_bind (ih _ _) fun r hr => post_ok ?_
    simp only [size_list, List.length_append, List.length_take, List.length_drop] at *
    omega

theorem post_zipChunks_size {α β : Type} {ko ki : Nat} {f : List α → List β → M (List α)} (hf : ∀ o i, Post (f o i) (fun r => size r = size o))
    (out : List α) (inb : List β) : Post (zipChunks ko ki f out inb) (fun r => size r = size out) := post_zipChunksFuel_size hf _ _ _

/-- A known fact on the result of a computation. -/
syntax "post_leaf" : tactic

macro_rules | `(tactic| post_leaf) => `(tactic| with_reducible exact post_setIdx_size _ _ _)
macro_rules | `(tactic| post_leaf) => `(tactic| with_reducible exact post_copySlice_size _ _ _)

/-- Goals about sizes. -/
macro "size_done" : tactic => `(tactic| first
  | trivial
  | with_reducible assumption
  | (simp only [size_list, size_pair, List.length_replicate] at * <;> first | done | with_reducible assumption | omega))

/-- One step of `sized`. -/
syntax "sized_step" : tactic
macro_rules | `(tactic| sized_step) => `(tactic| first
  | with_reducible exact post_crash
  | with_reducible exact post_fail
  | (with_reducible refine post_ok ?_; try size_done)
  | (with_reducible refine post_bind (by post_leaf) (fun _ _ => ?_))
  | (with_reducible refine post_bind (post_forRange_size (fun _ _ _ => ?_)) (fun _ _ => ?_))
  | (with_reducible refine post_bind (post_forStep_size (fun _ _ _ => ?_)) (fun _ _ => ?_))
  | (with_reducible refine post_bind (post_ends (by ends; done)) (fun _ _ => ?_))
  | (with_reducible refine post_weaken (by post_leaf) (fun _ _ => ?_); try size_done)
  | (with_reducible refine post_weaken (post_forRange_size (fun _ _ _ => ?_)) (fun _ _ => ?_); on_goal 2 => try size_done)
  | (with_reducible refine post_weaken (post_forStep_size (fun _ _ _ => ?_)) (fun _ _ => ?_); on_goal 2 => try size_done)
  | with_reducible refine post_ite (fun _ => ?_) (fun _ => ?_)
  | split)

/-- Shows that a computation ends and keeps the size. -/
macro "sized" : tactic => `(tactic| repeat' (first | sized_step | (dsimp only <;> sized_step)))

end Rust

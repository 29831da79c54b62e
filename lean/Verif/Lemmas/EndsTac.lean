import Verif.Lemmas.Post
import Verif.Model.Pumps
/-!
# A tactic for computations that end

`ends` takes a computation apart along binds, conditionals and matches. Facts about the pieces are added to `ends_leaf`.
-/

namespace Rust

/-- A known fact that a computation ends. -/
syntax "ends_leaf" : tactic

macro_rules | `(tactic| ends_leaf) => `(tactic| with_reducible exact ends_ok _)
macro_rules | `(tactic| ends_leaf) => `(tactic| with_reducible exact ends_crash)
macro_rules | `(tactic| ends_leaf) => `(tactic| with_reducible exact ends_fail _)
macro_rules | `(tactic| ends_leaf) => `(tactic| with_reducible exact ends_idx _ _)
macro_rules | `(tactic| ends_leaf) => `(tactic| with_reducible exact ends_setIdx _ _ _)
macro_rules | `(tactic| ends_leaf) => `(tactic| with_reducible exact ends_slice _ _ _)
macro_rules | `(tactic| ends_leaf) => `(tactic| with_reducible exact ends_sliceFrom _ _)
macro_rules | `(tactic| ends_leaf) => `(tactic| with_reducible exact ends_addU _ _ _ _)
macro_rules | `(tactic| ends_leaf) => `(tactic| with_reducible exact ends_subU _ _ _ _)
macro_rules | `(tactic| ends_leaf) => `(tactic| with_reducible exact ends_mulU _ _ _ _)

/-- One step of `ends`. -/
syntax "ends_step" : tactic
macro_rules | `(tactic| ends_step) => `(tactic| first
  | with_reducible assumption
  | ends_leaf
  | with_reducible refine ends_bind ?_ (fun _ _ => ?_)
  | with_reducible refine ends_forRange (fun _ _ => ?_) _ _ _
  | with_reducible refine ends_loopN (fun _ _ => ?_) _ _ _
  | with_reducible refine ends_ite (fun _ => ?_) (fun _ => ?_)
  | split)

/-- Shows that a computation ends. -/
macro "ends" : tactic => `(tactic| repeat' (first | ends_step | (dsimp only <;> ends_step)))

end Rust

namespace Model
open Rust

theorem ends_byteAt (l : Bytes) (i : Nat) : Ends (byteAt l i) := by unfold byteAt; ends
macro_rules | `(tactic| ends_leaf) => `(tactic| with_reducible exact ends_byteAt _ _)

theorem ends_BEu16 (l : Bytes) (i : Nat) : Ends (BEu16 l i) := by unfold BEu16; ends
theorem ends_LEu16 (l : Bytes) (i : Nat) : Ends (LEu16 l i) := by unfold LEu16; ends
theorem ends_BEu32 (l : Bytes) (i : Nat) : Ends (BEu32 l i) := by unfold BEu32; ends
theorem ends_LEu32 (l : Bytes) (i : Nat) : Ends (LEu32 l i) := by unfold LEu32; ends
macro_rules | `(tactic| ends_leaf) => `(tactic| with_reducible exact ends_BEu16 _ _)
macro_rules | `(tactic| ends_leaf) => `(tactic| with_reducible exact ends_LEu16 _ _)
macro_rules | `(tactic| ends_leaf) => `(tactic| with_reducible exact ends_BEu32 _ _)
macro_rules | `(tactic| ends_leaf) => `(tactic| with_reducible exact ends_LEu32 _ _)

theorem ends_BEi32 (l : Bytes) (i : Nat) : Ends (BEi32 l i) := by unfold BEi32; ends
theorem ends_LEi32 (l : Bytes) (i : Nat) : Ends (LEi32 l i) := by unfold LEi32; ends
macro_rules | `(tactic| ends_leaf) => `(tactic| with_reducible exact ends_BEi32 _ _)
macro_rules | `(tactic| ends_leaf) => `(tactic| with_reducible exact ends_LEi32 _ _)

theorem ends_ru16 (e : Endian) (l : Bytes) (i : Nat) : Ends (e.ru16 l i) := by unfold Endian.ru16; ends
theorem ends_ru32 (e : Endian) (l : Bytes) (i : Nat) : Ends (e.ru32 l i) := by unfold Endian.ru32; ends
theorem ends_ri32 (e : Endian) (l : Bytes) (i : Nat) : Ends (e.ri32 l i) := by unfold Endian.ri32; ends
macro_rules | `(tactic| ends_leaf) => `(tactic| with_reducible exact ends_ru16 _ _ _)
macro_rules | `(tactic| ends_leaf) => `(tactic| with_reducible exact ends_ru32 _ _ _)
macro_rules | `(tactic| ends_leaf) => `(tactic| with_reducible exact ends_ri32 _ _ _)

end Model

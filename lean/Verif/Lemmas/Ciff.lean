import Verif.Lemmas.Tiff
/-!
# Lemmas about CIFF directories
-/

namespace Model
open Rust Spec

namespace CiffIFD

/-- The entry stored in the directory itself. -/
abbrev own (tag : Nat) (d : CiffIFD) : Option CiffEntry := Map.get d.entries tag

mutual
  theorem findEntry_spec (tag : Nat) : ∀ d : CiffIFD, match findEntry tag d with
      | some e => FirstIn subifds (own tag) d e
      | none => NoneIn subifds (own tag) d
    | mk entries subs => by
      rw [findEntry]
      by_cases h : Map.containsKey entries tag = true
      · rw [if_pos h]
        obtain ⟨v, hv⟩ := (Map.containsKey_iff _ _).mp h
        rw [hv]
        exact firstIn_root (get := own tag) hv
      · rw [if_neg h]
        rw [Map.not_containsKey] at h
        have hl := findEntryList_spec tag subs
        generalize hr : findEntryList tag subs = r at hl
        cases r with
        | none => exact noneIn_of h hl
        | some e =>
          obtain ⟨pre, c, post, rfl, h1, h2⟩ := hl
          exact firstIn_child (d := mk entries _) (get := own tag) h rfl h1 h2
  theorem findEntryList_spec (tag : Nat) : ∀ l : List CiffIFD, match findEntryList tag l with
      | some e => ∃ pre c post, l = pre ++ c :: post ∧ (∀ c' ∈ pre, NoneIn subifds (own tag) c') ∧ FirstIn subifds (own tag) c e
      | none => ∀ c ∈ l, NoneIn subifds (own tag) c
    | [] => by rw [findEntryList]; intro c hc; cases hc
    | ifd :: rest => by
      have h1 := findEntry_spec tag ifd
      have h2 := findEntryList_spec tag rest
      rw [findEntryList]
      generalize findEntry tag ifd = r at h1
      cases r with
      | some e => exact ⟨[], ifd, rest, rfl, by simp, h1⟩
      | none =>
        dsimp only at h1 ⊢
        generalize findEntryList tag rest = r at h2
        cases r with
        | none =>
          intro c hc
          rcases List.mem_cons.mp hc with rfl | hc
          · exact h1
          · exact h2 c hc
        | some e =>
          obtain ⟨pre, c, post, rfl, ha, hb⟩ := h2
          refine ⟨ifd :: pre, c, post, rfl, ?_, hb⟩
          intro c' hc'
          rcases List.mem_cons.mp hc' with rfl | hc'
          · exact h1
          · exact ha c' hc'
end

theorem ends_entryNew (buf : Bytes) (v o : Nat) : Ends (CiffEntry.new buf v o) := by
  unfold CiffEntry.new; ends

theorem post_entryStep {parse : Nat → Nat → M CiffIFD} {buf : Bytes} {start dir depth : Nat} {Q : CiffIFD → Prop}
    (hp : depth < 10 → ∀ st en, Post (parse st en) Q) (i : Nat) (s : Acc) (h2 : ∀ c ∈ s.2, Q c) :
    Post (entryStep parse buf start dir depth i s) (fun s => ∀ c ∈ s.2, Q c) := by
  unfold entryStep
  refine post_bind (post_ends (ends_entryNew _ _ _)) fun e _ => ?_
  refine post_ite (fun _ => post_ite (fun hd => ?_) fun _ => post_ok h2) fun _ => post_ok h2
  have hr := hp hd e.dataOffset (e.dataOffset + e.bytesize)
  generalize parse e.dataOffset (e.dataOffset + e.bytesize) = r at hr
  split
  · refine post_ok ?_
    intro c hc
    rcases List.mem_append.mp hc with hc | hc
    · exact h2 c hc
    · simp at hc; subst hc; exact hr.2 _ rfl
  · exact post_ok h2
  · refine ⟨?_, fun a h => by cases h⟩
    intro h
    injection h with h
    exact hr.1 (by rw [h])

theorem post_new (b : Build) (buf : Bytes) : ∀ (n start stop depth : Nat), depth ≤ 10 → 11 ≤ depth + n →
    Post (new b buf n start stop depth) (DepthAtMost subifds (10 - depth)) := by
  intro n
  induction n with
  | zero => intro start stop depth h1 h2; omega
  | succ n ih =>
    intro start stop depth h1 h2
    rw [new]
    refine post_bind (post_ends (ends_subU _ _ _ _)) fun p _ => ?_
    refine post_bind (post_ends (ends_LEu32 _ _)) fun v _ => ?_
    refine post_bind (post_ends (ends_LEu16 _ _)) fun num _ => ?_
    refine post_bind (post_loop (fun s => ∀ c ∈ s.2, depth < 10 ∧ DepthAtMost subifds (10 - (depth + 1)) c) (by simp) fun j s hs => ?_)
      fun s hs => post_ok ?_
    · refine post_entryStep (fun hd st en => ?_) j s hs
      exact post_weaken (ih st en (depth + 1) (by omega) (by omega)) fun c hc => ⟨hd, hc⟩
    · by_cases hd : depth < 10
      · rw [show 10 - depth = 10 - (depth + 1) + 1 by omega]
        exact depthAtMost_of (d := mk s.1 s.2) fun c hc => (hs c hc).2
      · refine depthAtMost_leaf (d := mk s.1 s.2) ?_
        cases h : s.2 with
        | nil => rfl
        | cons c l => exact absurd (hs c (by rw [h]; simp)).1 hd

theorem post_newFile (b : Build) (buf : Buffer) : Post (newFile b buf) (DepthAtMost subifds 9) := by
  unfold newFile
  refine post_bind (post_ends (ends_LEu32 _ _)) fun st _ => ?_
  exact post_new b buf.buf 10 st buf.size 1 (by omega) (by omega)

end CiffIFD
end Model

import Verif.Lemmas.Ciff
/-!
# C28: CIFF directories
-/

namespace Props
open Rust Spec Model

/-- C28. For every file and both kinds of build, reading the CIFF heap ends, with at most nine levels below the root. -/
theorem ciff_parsing_ends (b : Build) (contents : Bytes) :
    CiffIFD.newFile b (Buffer.new contents) ≠ .error .fuel ∧
    ∀ d, CiffIFD.newFile b (Buffer.new contents) = .ok d → DepthAtMost CiffIFD.subifds 9 d :=
  CiffIFD.post_newFile b (Buffer.new contents)

/-- C28. `find_entry` gives the entry of the first directory in document order that stores the tag. -/
theorem ciff_find_entry_first (tag : Nat) (d : CiffIFD) (e : CiffEntry) :
    CiffIFD.findEntry tag d = some e ↔ FirstIn CiffIFD.subifds (fun d => Map.get d.entries tag) d e := by
  have h := CiffIFD.findEntry_spec tag d
  constructor
  · intro he
    rw [he] at h
    exact h
  · intro he
    cases hr : CiffIFD.findEntry tag d with
    | none => rw [hr] at h; exact absurd he (noneIn_not_firstIn h)
    | some e' => rw [hr] at h; rw [firstIn_unique h he]

/-- C28. Nothing is found exactly if no directory of the tree stores the tag. -/
theorem ciff_find_entry_none (tag : Nat) (d : CiffIFD) :
    CiffIFD.findEntry tag d = none ↔ ∀ d', Below CiffIFD.subifds d d' → Map.get d'.entries tag = none := by
  have h := CiffIFD.findEntry_spec tag d
  constructor
  · intro he
    rw [he] at h
    exact h
  · intro he
    cases hr : CiffIFD.findEntry tag d with
    | none => rfl
    | some e' => rw [hr] at h; exact absurd h (noneIn_not_firstIn (get := CiffIFD.own tag) he)

/-- A heap of 26 bytes at offset 14 whose only entry is a sub-heap: the heap itself. -/
def cyclicHeap : Bytes :=
  [0x49, 0x49, 14, 0, 0, 0] ++ [0x48, 0x45, 0x41, 0x50, 0x43, 0x43, 0x44, 0x52] ++ [1, 0] ++
  [0x0a, 0x28, 16, 0, 0, 0, 0, 0, 0, 0] ++ [0, 0, 0, 0]

/-- Depth of the leftmost branch. -/
def ciffLeftDepth : Nat → CiffIFD → Nat
  | 0, _ => 0
  | n + 1, d => match d.subifds with
    | [] => 0
    | c :: _ => ciffLeftDepth n c + 1

/-- The cyclic heap is cut off after nine levels. -/
example : ∃ d, CiffIFD.newFile .debug (Buffer.new cyclicHeap) = .ok d ∧ ciffLeftDepth 50 d = 9 := by
  have h : (match CiffIFD.newFile .debug (Buffer.new cyclicHeap) with
      | .ok d => decide (ciffLeftDepth 50 d = 9)
      | .error _ => false) = true := by decide +kernel
  cases hd : CiffIFD.newFile .debug (Buffer.new cyclicHeap) with
  | error e => rw [hd] at h; cases h
  | ok d => rw [hd] at h; exact ⟨d, rfl, of_decide_eq_true h⟩

/-- The first match in document order wins. -/
example : (CiffIFD.findEntry 5 (.mk [] [.mk [] [.mk [(5, ⟨5, 0, 1, 1, 0, [7]⟩)] []], .mk [(5, ⟨5, 0, 1, 1, 0, [8]⟩)] []])).map (·.data) = some [7] := by
  decide

end Props

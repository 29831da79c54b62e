import Verif.Lemmas.Mrw
import Verif.Lemmas.Words
/-!
# C29: the block list of MRW files

The loop over the blocks has no bound in the code. `Mrw.newWithin b budget` runs it for `budget dataOffset` steps and gives
`fuel` if it is not finished then; a loop that does not end is one that gives `fuel` for every budget.
-/

namespace Props
open Rust Model

/-- C29. With overflow checks, opening an MRW file ends for every file. -/
theorem mrw_terminates_debug (buf : Bytes) : Mrw.new .debug buf ≠ .error .fuel := by
  refine Mrw.ends_newWithin fun d => Mrw.walk_ends (fun pos len step _ h => ?_) d Mrw.start rfl (by simp [Mrw.start])
  unfold addU at h
  split at h
  · injection h with h; omega
  · exact absurd h (crash_ne_ok _)

/-- C29. The step bound of the model is never the reason for not finishing: if `data_offset` steps are not enough, the loop never
ends, and if they are, any larger number gives the same result. -/
theorem mrw_budget_enough (b : Build) (buf : Bytes) :
    (Mrw.new b buf = .error .fuel → ∀ budget, Mrw.newWithin b budget buf = .error .fuel) ∧
    (Mrw.new b buf ≠ .error .fuel → ∀ budget, (∀ d, d ≤ budget d) → Mrw.newWithin b budget buf = Mrw.new b buf) := by
  have hrest : ∀ (dd : Nat) (s : Mrw.Walk), Ends (do
      let sub ← sliceFrom buf s.tiffpos
      match TiffIFD.parse b sub 8 0 0 BIG_ENDIAN with
      | .ok tiff => .ok ⟨dd, s.rawWidth, s.rawHeight, s.packed, s.wbVals, tiff⟩
      | .error .fuel => .error .fuel
      | .error _ => crash : M Mrw.Decoder) := by
    intro dd s
    refine ends_bind (ends_sliceFrom _ _) fun sub _ => ?_
    have := (TiffIFD.post_parse b sub 8 0 0 BIG_ENDIAN).1
    generalize TiffIFD.parse b sub 8 0 0 BIG_ENDIAN = r at this
    split
    · exact ends_ok _
    · exact absurd rfl this
    · exact ends_crash
  constructor
  · intro h budget
    unfold Mrw.new Mrw.newWithin at h
    unfold Mrw.newWithin
    cases e1 : BEu32 buf 4 with
    | error x => rw [e1] at h; exact h
    | ok d =>
      rw [e1, ok_bind] at h
      rw [ok_bind]
      cases e2 : addU 32 b d 8 with
      | error x => rw [e2] at h; exact h
      | ok dd =>
        rw [e2, ok_bind] at h
        rw [ok_bind]
        have hf : Mrw.walk b buf dd dd Mrw.start = .error .fuel := by
          cases e3 : Mrw.walk b buf dd dd Mrw.start with
          | error x => rw [e3, error_bind] at h; injection h with h; rw [h]
          | ok s => rw [e3, ok_bind] at h; exact absurd h (hrest dd s)
        rw [Mrw.walk_fuel dd Mrw.start rfl (by simp [Mrw.start]) hf (budget dd), error_bind]
  · intro h budget hb
    unfold Mrw.new Mrw.newWithin at h ⊢
    cases e1 : BEu32 buf 4 with
    | error x => rfl
    | ok d =>
      rw [e1, ok_bind] at h
      simp only [ok_bind]
      cases e2 : addU 32 b d 8 with
      | error x => rfl
      | ok dd =>
        rw [e2, ok_bind] at h
        simp only [ok_bind]
        have hf : Mrw.walk b buf dd dd Mrw.start ≠ .error .fuel := by
          intro hf
          rw [hf, error_bind] at h
          exact h rfl
        rw [Mrw.walk_mono dd Mrw.start hf (budget dd) (hb dd)]

/-- C29, the part that holds with wrapping arithmetic: opening an MRW file ends if the number `0xfffffff8` is not stored in it.
What is missing is false, see `mrw_release_hangs`. -/
theorem mrw_terminates_release_partial (buf : Bytes) (h : ∀ pos, BEu32 buf pos ≠ .ok 0xfffffff8) : Mrw.new .release buf ≠ .error .fuel := by
  refine Mrw.ends_newWithin fun d => Mrw.walk_ends (fun pos len step h1 h2 => ?_) d Mrw.start rfl (by simp [Mrw.start])
  have hne : len ≠ 0xfffffff8 := fun hh => h pos (hh ▸ h1)
  have hlt : len < 4294967296 := by
    by_cases hl : pos + 4 ≤ buf.length
    · rw [BEu32_eq hl] at h1
      injection h1 with h1
      have := Spec.bytesOf_lt buf pos
      have := Spec.bytesOf_lt buf (pos + 1)
      have := Spec.bytesOf_lt buf (pos + 2)
      have := Spec.bytesOf_lt buf (pos + 3)
      omega
    · rw [BEu32_short (by omega)] at h1; exact absurd h1 (crash_ne_ok _)
  unfold addU at h2
  split at h2
  · injection h2 with h2; omega
  · injection h2 with h2; omega

/-- An MRW file with one block, of length `0xfffffff8`. -/
def hangingMrw : Bytes := [0, 0x4D, 0x52, 0x4D, 0, 0, 0, 32] ++ [0, 0, 0, 0, 0xff, 0xff, 0xff, 0xf8] ++ List.replicate 40 0

/-- C29 is false for wrapping builds: this file is recognised as MRW and the loop over its blocks never ends. -/
theorem mrw_release_hangs : ∃ buf, Mrw.isMrw buf = .ok true ∧ ∀ budget, Mrw.newWithin .release budget buf = .error .fuel :=
  ⟨hangingMrw, by decide +kernel, (mrw_budget_enough .release hangingMrw).1 (by
    have h : (match Mrw.new .release hangingMrw with | .error .fuel => true | _ => false) = true := by decide +kernel
    revert h
    cases Mrw.new .release hangingMrw with
    | ok d => intro h; cases h
    | error x => cases x <;> intro h <;> first | rfl | cases h)⟩

/-- The same file makes a checked build panic instead. -/
example : (match Mrw.new .debug hangingMrw with | .error .panic => true | _ => false) = true := by decide +kernel

/-- A block list that ends: one `TTW` block holding an empty directory. -/
example : (match Mrw.new .release ([0, 0x4D, 0x52, 0x4D, 0, 0, 0, 32] ++ [0, 0x54, 0x54, 0x57, 0, 0, 0, 24] ++ List.replicate 60 0) with
    | .ok d => decide (d.dataOffset = 40) | _ => false) = true := by decide +kernel

end Props

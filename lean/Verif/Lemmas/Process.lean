import Verif.Lemmas.Pipeline
import Verif.Lemmas.Demosaic
import Verif.Lemmas.F32Ops
import Verif.Model.Process
/-!
# Lemmas for the colour stages: pixel by pixel, never a panic
-/

namespace Model
open Rust Spec

variable {α : Type}

theorem pixLine_eq_raster (w k : Nat) (p : Nat → Nat → α) : pixLine w k p = raster k w (fun c j => p c j) := by
  unfold pixLine raster
  rw [Nat.mul_comm]

theorem mapChunks_pix {w k : Nat} (hk : 0 < k) {f : List α → M (List α)} {p q : Nat → Nat → α}
    (hf : ∀ c, c < w → f ((List.range k).map (p c)) = .ok ((List.range k).map (q c))) :
    mapChunks k f (pixLine w k p) = .ok (pixLine w k q) := by
  have h := parChunks_rows (w := k) (h := w) hk p q (fun l _ => f l) hf
  unfold parChunksMut at h
  rw [if_neg (by omega)] at h
  unfold mapChunks
  rw [pixLine_eq_raster, pixLine_eq_raster, ← h]
  congr 1
  rw [chunks_raster hk]
  let g : List α → List α := fun l => (f l).toOption.getD []
  rw [mapM_ok f g, mapM_ok _ (fun x : List α × Nat => g x.1)]
  · congr 1
    rw [show (fun x : List α × Nat => g x.1) = g ∘ Prod.fst from rfl, ← List.map_map, List.zipIdx_map_fst]
  · intro x hx
    obtain ⟨r, hr, he⟩ := List.mem_map.mp (by
      have := List.mem_map_of_mem (f := Prod.fst) hx
      rwa [List.zipIdx_map_fst] at this : x.1 ∈ _)
    show f x.1 = .ok (g x.1)
    rw [← he]
    simp only [g]
    rw [hf r (List.mem_range.mp hr)]; rfl
  · intro x hx
    obtain ⟨r, hr, he⟩ := List.mem_map.mp hx
    rw [← he]
    simp only [g]
    rw [hf r (List.mem_range.mp hr)]; rfl

end Model

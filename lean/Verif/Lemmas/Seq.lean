import Verif.Lemmas.LjpegFile
import Verif.Lemmas.HuffDecode
import Verif.Lemmas.LoopsMore
/-!
# Images that are decoded pixel by pixel, and differences with additional bits
-/

namespace Props
open Rust Spec Model Model.Ljpeg

/-- An image of `n` pixels of which the first `k` have been written. -/
def filled (w n : Nat) (pix : Nat → Nat → Nat) (k : Nat) : List Nat :=
  (List.range k).map (fun i => pix (i / w) (i % w)) ++ List.replicate (n - k) 0

theorem filled_zero (w n : Nat) (pix : Nat → Nat → Nat) : filled w n pix 0 = List.replicate n 0 := by simp [filled]

theorem filled_all (w h : Nat) (pix : Nat → Nat → Nat) : filled w (w * h) pix (w * h) = raster w h pix := by simp [filled, raster]

theorem filled_length {w n k : Nat} (pix : Nat → Nat → Nat) (h : k ≤ n) : (filled w n pix k).length = n := by simp [filled]; omega

theorem cell_div {w r c : Nat} (hc : c < w) : (r * w + c) / w = r ∧ (r * w + c) % w = c := by
  constructor
  · rw [Nat.mul_comm, Nat.mul_add_div (by omega), Nat.div_eq_of_lt hc, Nat.add_zero]
  · rw [Nat.mul_comm, Nat.mul_add_mod, Nat.mod_eq_of_lt hc]

theorem cell_lt {w h r c : Nat} (hr : r < h) (hc : c < w) : r * w + c < w * h := by
  have : (r + 1) * w ≤ h * w := Nat.mul_le_mul_right w hr
  rw [Nat.add_mul, Nat.one_mul, Nat.mul_comm h] at this
  omega

/-- Writing the next pixel. -/
theorem filled_set {w n r c : Nat} {pix : Nat → Nat → Nat} (hc : c < w) (hn : r * w + c < n) :
    setIdx (filled w n pix (r * w + c)) (r * w + c) (pix r c) = .ok (filled w n pix (r * w + c + 1)) := by
  rw [setIdx_lt (by rw [filled_length pix (by omega)]; exact hn)]
  congr 1
  unfold filled
  rw [List.set_append, if_neg (by simp), List.length_map, List.length_range, Nat.sub_self, show n - (r * w + c) = n - (r * w + c + 1) + 1 by omega,
    List.replicate_succ, List.set_cons_zero, List.range_succ, List.map_append, List.append_assoc]
  congr 1
  rw [List.map_singleton, (cell_div hc).1, (cell_div hc).2]
  rfl

/-- A pixel that is not written remains black. -/
theorem filled_skip {w n k : Nat} {pix : Nat → Nat → Nat} (hn : k < n) (h0 : pix (k / w) (k % w) = 0) : filled w n pix k = filled w n pix (k + 1) := by
  unfold filled
  rw [List.range_succ, List.map_append, List.map_singleton, h0, List.append_assoc, show n - k = n - (k + 1) + 1 by omega, List.replicate_succ]
  rfl

/-- Reading an earlier pixel. -/
theorem filled_idx {w n r c k : Nat} {pix : Nat → Nat → Nat} (hc : c < w) (hk : r * w + c < k) :
    idx (filled w n pix k) (r * w + c) = .ok (pix r c) := by
  rw [idx_eq_ok]
  unfold filled
  rw [List.getElem?_append_left (by simpa using hk), List.getElem?_map, List.getElem?_range hk, Option.map_some, (cell_div hc).1, (cell_div hc).2]

/-! ## Differences -/

theorem category_lt_two {d : Int} {n : Nat} (h1 : -((2 ^ n : Nat) : Int) < d) (h2 : d < ((2 ^ n : Nat) : Int)) : category d ≤ n := by
  unfold category
  by_cases h0 : d.natAbs = 0
  · rw [if_pos h0]; omega
  · rw [if_neg h0]
    have hlt : d.natAbs.log2 < n := by rw [Nat.log2_lt h0]; omega
    omega

theorem extend_additional (d : Int) : additional (category d) d < 2 ^ category d ∧ extend (category d) (additional (category d) d) = d := by
  unfold extend additional
  by_cases h0 : d.natAbs = 0
  · have : d = 0 := by omega
    subst this
    decide
  · have hcat : category d = d.natAbs.log2 + 1 := by unfold category; rw [if_neg h0]
    obtain ⟨a1, a2⟩ := log2_bound h0
    rw [hcat]
    generalize d.natAbs.log2 = e at a1 a2
    rw [Nat.add_sub_cancel]
    have hp : (2 : Int) ^ (e + 1) = ((2 ^ (e + 1) : Nat) : Int) := by push_cast; rfl
    rw [hp]
    rw [Nat.pow_succ] at a2 ⊢
    generalize 2 ^ e = q at *
    constructor
    · split <;> omega
    · split <;> split <;> omega

variable {σ : Type} {P : PumpOps σ} {st : Nat → Nat} {limit : Option Nat} {at_ : σ → Nat → Nat → Prop}

/-- Reading the bits of a number, which may be none. -/
theorem reads_bits (hR : Reads P (fieldMSB st) limit at_) {s : σ} {c a n v : Nat} (hs : at_ s c a) (hn : n ≤ 25) (hv : v < 2 ^ n)
    (hf : Follows st c (bitsOf n v)) (hw : within limit (c + n)) : ∃ s' a', P.getBits s n = .ok (v, s') ∧ at_ s' (c + n) a' := by
  by_cases h0 : n = 0
  · subst h0
    refine ⟨s, a, ?_, hs⟩
    unfold PumpOps.getBits
    rw [if_pos rfl, show v = 0 by rw [Nat.pow_zero] at hv; omega]
  · obtain ⟨s2, a2, g3, g4⟩ := hR.get hs (n := n) (by omega) (by omega) hw
    exact ⟨s2, a2, by rw [g3, follows_bitsOf hf hv], g4⟩

/-- A file that starts with the bits. -/
theorem follows_packed {l : List Nat} (h : ∀ v ∈ l, v ≤ 1) (tail : Bytes) :
    Follows (bytesOf (packBits l ++ tail)) 0 l ∧ l.length ≤ 8 * (packBits l).length := by
  have hlen : l.length ≤ 8 * (packBits l).length := by unfold packBits; rw [List.length_map, List.length_range]; omega
  refine ⟨?_, hlen⟩
  intro i hi
  rw [← follows_packBits h i hi]
  unfold bitMSB bytesOf
  rw [List.getElem?_append_left (by omega)]

end Props

import Verif.Spec.Srw1
import Verif.Lemmas.Seq
import Verif.Props.Pumps
/-!
# Readers that stand before known bits, and images that are changed in place
-/

namespace Props
open Rust Spec Model Model.Ljpeg Model.HuffTable

variable {σ : Type} {P : PumpOps σ} {st : Nat → Nat} {limit : Option Nat} {at_ : σ → Nat → Nat → Prop}

/-- The reader stands before the bits `l`, which end at bit `e`. -/
def Before (st : Nat → Nat) (limit : Option Nat) (at_ : σ → Nat → Nat → Prop) (e : Nat) (l : List Nat) (s : σ) : Prop :=
  ∃ c a, at_ s c a ∧ Follows st c l ∧ c + l.length = e ∧ within limit e

variable {e : Nat}

theorem Before.bits (hR : Reads P (fieldMSB st) limit at_) {s : σ} {n v : Nat} {rest : List Nat} (h : Before st limit at_ e (bitsOf n v ++ rest) s) (hn : n ≤ 25)
    (hv : v < 2 ^ n) : ∃ s', P.getBits s n = .ok (v, s') ∧ Before st limit at_ e rest s' := by
  obtain ⟨c, a, h1, h2, h3, h4⟩ := h
  rw [follows_append, bitsOf_length] at h2
  rw [List.length_append, bitsOf_length] at h3
  obtain ⟨s', a', g1, g2⟩ := reads_bits hR h1 hn hv h2.1 (within_mono h4 (by omega))
  exact ⟨s', g1, c + n, a', g2, h2.2, by omega, h4⟩

/-- Bits that do not matter. -/
theorem Before.skip (hR : Reads P (fieldMSB st) limit at_) {s : σ} {n : Nat} {l rest : List Nat} (h : Before st limit at_ e (l ++ rest) s) (hl : l.length = n) (hn : n ≤ 32) (h0 : 0 < n) :
    ∃ v s', P.getBits s n = .ok (v, s') ∧ Before st limit at_ e rest s' := by
  obtain ⟨c, a, h1, h2, h3, h4⟩ := h
  rw [follows_append] at h2
  rw [List.length_append] at h3
  obtain ⟨s', a', g1, g2⟩ := hR.get h1 hn h0 (within_mono h4 (by omega))
  exact ⟨_, s', g1, c + n, a', g2, by rw [← hl]; exact h2.2, by omega, h4⟩

theorem twos_signed {n : Nat} {d : Int} (h1 : 1 ≤ n) (h : SignedFits n d) : (d % 2 ^ n).toNat < 2 ^ n ∧ twos n (d % 2 ^ n).toNat = d := by
  unfold SignedFits at h
  unfold twos
  obtain ⟨k, rfl⟩ : ∃ k, n = k + 1 := ⟨n - 1, by omega⟩
  rw [Nat.add_sub_cancel]
  have e : (2 : Int) ^ (k + 1) = 2 * ((2 ^ k : Nat) : Int) := by rw [Int.pow_succ, Int.mul_comm]; push_cast; rfl
  rw [e] at h ⊢
  rw [Nat.pow_succ]
  have hp : 0 < 2 ^ k := Nat.two_pow_pos k
  generalize 2 ^ k = q at *
  by_cases hd : 0 ≤ d
  · rw [Int.emod_eq_of_lt hd (by omega)]
    refine ⟨by omega, ?_⟩
    rw [if_pos (by omega)]; omega
  · have : d % (2 * (q : Int)) = d + 2 * q := by
      rw [← Int.add_emod_right, Int.emod_eq_of_lt (by omega) (by omega)]
    rw [this]
    refine ⟨by omega, ?_⟩
    rw [if_neg (by omega)]; omega

theorem Before.signed (b : Build) (hR : Reads P (fieldMSB st) limit at_) {s : σ} {n : Nat} {d : Int} {rest : List Nat}
    (h : Before st limit at_ e (signedBits n d ++ rest) s) (hn : n ≤ 25) (hd : SignedFits n d) :
    ∃ s', P.getIbitsSextended b s n = .ok (d, s') ∧ Before st limit at_ e rest s' := by
  unfold signedBits at h
  by_cases h0 : n = 0
  · subst h0
    obtain ⟨s', g1, g2⟩ := Before.bits hR h hn (by have := Int.emod_one d; simp only [Int.pow_zero, this]; decide)
    have hd0 : d = 0 := by unfold SignedFits at hd; simp at hd; omega
    subst hd0
    refine ⟨s', ?_, g2⟩
    unfold PumpOps.getIbitsSextended PumpOps.getIbits
    rw [g1]
    simp only [ok_bind]
    rw [subU_ok (by omega)]
    rfl
  · obtain ⟨t1, t2⟩ := twos_signed (by omega) hd
    obtain ⟨s', g1, g2⟩ := Before.bits hR h hn t1
    exact ⟨s', by rw [sign_extension P b s s' n _ (by omega) (by omega) t1 g1, t2], g2⟩

/-! ## Images -/

theorem raster_idx {w h r c : Nat} {F : Nat → Nat → Nat} (hr : r < h) (hc : c < w) : idx (raster w h F) (r * w + c) = .ok (F r c) :=
  idx_eq_ok.mpr (raster_getElem? w h F r c hr hc)

/-- Writing a pixel. -/
theorem raster_set {w h r c v : Nat} {F G : Nat → Nat → Nat} (hr : r < h) (hc : c < w) (hG : ∀ r' c', r' < h → c' < w → G r' c' = if r' = r ∧ c' = c then v else F r' c') :
    setIdx (raster w h F) (r * w + c) v = .ok (raster w h G) := by
  have hlt := cell_lt hr hc
  rw [setIdx_lt (by rw [raster_length]; exact hlt)]
  congr 1
  apply List.ext_getElem?
  intro i
  by_cases hi : i < w * h
  · have hw : 0 < w := by omega
    have hm := Nat.mod_lt i hw
    have hd : i / w < h := by rw [Nat.div_lt_iff_lt_mul hw, Nat.mul_comm]; exact hi
    have hii : i = i / w * w + i % w := by rw [Nat.mul_comm]; exact (Nat.div_add_mod i w).symm
    rw [List.getElem?_set]
    have hG := hG (i / w) (i % w) hd hm
    have e1 : (raster w h G)[i]? = some (G (i / w) (i % w)) := by conv => lhs; rw [hii]
                                                                  exact raster_getElem? w h G _ _ hd hm
    have e2 : (raster w h F)[i]? = some (F (i / w) (i % w)) := by conv => lhs; rw [hii]
                                                                  exact raster_getElem? w h F _ _ hd hm
    rw [e1, e2, hG]
    by_cases he : r * w + c = i
    · have := cell_div (r := r) hc
      rw [he] at this
      rw [if_pos he, if_pos (by rw [raster_length]; omega), if_pos this]
    · rw [if_neg he, if_neg]
      rintro ⟨h1, h2⟩
      rw [h1, h2] at hii
      omega
  · rw [List.getElem?_eq_none (by simp only [List.length_set, raster_length]; omega), List.getElem?_eq_none (by rw [raster_length]; omega)]

theorem raster_zero (w h : Nat) : raster w h (fun _ _ => 0) = List.replicate (w * h) 0 := by
  unfold raster
  rw [List.map_const', List.length_range]

/-! ## Words in the opposite byte order -/

theorem swap_swap {l : List UInt8} (h4 : l.length % 4 = 0) (tail : Bytes) (i : Nat) (hi : i < l.length) : swap32 (bytesOf (swapWords l ++ tail)) i = bytesOf l i := by
  unfold swap32
  have h1 : i / 4 * 4 + (3 - i % 4) < l.length := by omega
  unfold bytesOf swapWords
  rw [List.getElem?_append_left (by simpa using h1), List.getElem?_map, List.getElem?_range h1, Option.map_some]
  dsimp only
  rw [show (i / 4 * 4 + (3 - i % 4)) / 4 * 4 + (3 - (i / 4 * 4 + (3 - i % 4)) % 4) = i by omega]
  rw [List.getElem?_eq_getElem hi, List.getD_eq_getElem?_getD, List.getElem?_eq_getElem hi]
  rfl

/-- A file that starts with the bits, in words of four bytes with the last byte first. -/
theorem follows_swapped {l : List Nat} (h : ∀ v ∈ l, v ≤ 1) {pad : Bytes} (hp : ((packBits l).length + pad.length) % 4 = 0) (tail : Bytes) :
    Follows (swap32 (bytesOf (swapWords (packBits l ++ pad) ++ tail))) 0 l ∧ l.length ≤ 32 * ((swapWords (packBits l ++ pad) ++ tail).length / 4) := by
  have hlen : l.length ≤ 8 * (packBits l).length := by unfold packBits; rw [List.length_map, List.length_range]; omega
  have hsl : (swapWords (packBits l ++ pad)).length = (packBits l).length + pad.length := by unfold swapWords; simp
  refine ⟨?_, ?_⟩
  · intro i hi
    have hf := (follows_packed h pad).1 i hi
    rw [← hf]
    unfold bitMSB
    rw [swap_swap (by rw [List.length_append]; exact hp) tail _ (by rw [List.length_append]; omega)]
  · rw [List.length_append, hsl]
    omega

end Props

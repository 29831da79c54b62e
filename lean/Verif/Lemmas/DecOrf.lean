import Verif.Lemmas.DecSimple
import Verif.Lemmas.Pumps
/-!
# ORF: decoding ends and fills the image

The loop that looks for the number of bits ends because the number it shifts is never negative and stays below `2^20`. That in
turn holds because the reader never returns more bits than it was asked for.
-/

namespace Model
open Rust

/-! ## What an MSB-first reader returns -/

/-- No bits above the `nbits` that the reader holds, and room for another word. -/
structure Pump.Tidy (s : Pump) : Prop where
  bits : s.bits < 2 ^ s.nbits
  nbits : s.nbits ≤ 47

theorem Pump.tidy_new (src : Bytes) : (Pump.new src).Tidy := ⟨by simp [Pump.new], by simp [Pump.new]⟩

theorem post_BEu32 (buf : Bytes) (i : Nat) : Post (BEu32 buf i) (fun v => v < 2 ^ 32) := by
  by_cases h : i + 4 ≤ buf.length
  · rw [BEu32_eq h]
    have h0 := Spec.bytesOf_lt buf i
    have h1 := Spec.bytesOf_lt buf (i + 1)
    have h2 := Spec.bytesOf_lt buf (i + 2)
    have h3 := Spec.bytesOf_lt buf (i + 3)
    exact post_ok (by omega)
  · rw [BEu32_short (by omega)]; exact post_crash

theorem post_topBits {b : Build} {bits nbits num : Nat} (h : bits < 2 ^ nbits) (h1 : num ≤ nbits) (h2 : nbits ≤ 63) :
    Post (topBits b bits nbits num) (fun v => v < 2 ^ num) := by
  unfold topBits
  rw [subU_ok h1, ok_bind, shrU64_ok (by omega), ok_bind]
  refine post_ok (Nat.lt_of_le_of_lt (Nat.mod_le _ _) ((Nat.div_lt_iff_lt_mul (Nat.pow_pos (by omega))).mpr ?_))
  rwa [← Nat.pow_add, show num + (nbits - num) = nbits by omega]

theorem post_peekMSB {b : Build} {s : Pump} {num : Nat} (hs : s.Tidy) (hn : num ≤ 16) :
    Post (peekMSB b s num) (fun r => r.1 < 2 ^ num ∧ r.2.Tidy ∧ num ≤ r.2.nbits) := by
  unfold peekMSB
  dsimp only
  split
  · next h =>
    refine post_bind (post_BEu32 _ _) fun v hv => ?_
    unfold refillMSB
    have hb : s.bits * 2 ^ 32 < 2 ^ (s.nbits + 32) := by
      rw [Nat.pow_add]; exact Nat.mul_lt_mul_of_pos_right hs.bits (Nat.pow_pos (by omega))
    have h64 : (2 : Nat) ^ (s.nbits + 32) ≤ 2 ^ 64 := Nat.pow_le_pow_right (by omega) (by omega)
    rw [shlU64_ok (by omega) (by omega), ok_bind, addU_ok (by have := hs.nbits; omega), ok_bind, ok_bind]
    have hor : s.bits * 2 ^ 32 ||| v < 2 ^ (s.nbits + 32) :=
      Nat.or_lt_two_pow hb (Nat.lt_of_lt_of_le hv (Nat.pow_le_pow_right (by omega) (by omega)))
    exact post_bind (post_topBits hor (by dsimp only; omega) (by dsimp only; omega)) fun r hr => post_ok ⟨hr, ⟨hor, by dsimp only; omega⟩, by dsimp only; omega⟩
  · have := hs.nbits
    rw [ok_bind]
    exact post_bind (post_topBits hs.bits (by omega) (by omega)) fun r hr => post_ok ⟨hr, hs, by dsimp only; omega⟩

theorem post_consumeMSB {b : Build} {s : Pump} {num : Nat} (hs : s.Tidy) (hn : num ≤ s.nbits) :
    Post (consumeMSB b s num) Pump.Tidy := by
  have := hs.nbits
  unfold consumeMSB dropBits
  have hp : 1 * (2 : Nat) ^ (s.nbits - num) < 2 ^ 64 := by
    rw [Nat.one_mul]; exact Nat.pow_lt_pow_right (by omega) (by omega)
  have h1 : 0 < (2 : Nat) ^ (s.nbits - num) := Nat.pow_pos (by omega)
  rw [subU_ok hn, ok_bind, shlU64_ok (by omega) hp, ok_bind, subU_ok (by omega), ok_bind, ok_bind]
  refine post_ok ⟨?_, by dsimp only; omega⟩
  dsimp only
  rw [Nat.one_mul, Nat.and_two_pow_sub_one_eq_mod]
  exact Nat.mod_lt _ h1

theorem post_getMSB {b : Build} {s : Pump} {num : Nat} (hs : s.Tidy) (hn : num ≤ 16) :
    Post ((pumpMSB b).getBits s num) (fun r => r.1 < 2 ^ num ∧ r.2.Tidy) := by
  unfold PumpOps.getBits
  refine post_ite (fun h => post_ok ⟨by dsimp only; exact Nat.pow_pos (by omega), hs⟩) fun _ => ?_
  refine post_bind (post_peekMSB hs hn) fun r hr => ?_
  exact post_bind (post_consumeMSB hr.2.1 hr.2.2) fun p hp => post_ok ⟨hr.1, hp⟩

namespace Orf

theorem bittable_le (i : Nat) (h : bittable i ≠ 12) : bittable i ≤ 11 := by
  unfold bittable at h ⊢
  cases e : (List.range 12).find? fun high => (i >>> (11 - high)) &&& 1 ≠ 0 with
  | none => rw [e] at h; exact absurd rfl h
  | some v =>
    have := List.mem_of_find?_eq_some e
    simp at this ⊢
    omega

theorem ends_carryShift (b : Build) (a : Int) (k : Nat) : Ends (carryShift b a k) := by
  unfold carryShift; split
  · exact ends_ok _
  · cases b
    · exact ends_crash
    · exact ends_ok _

theorem ends_findNbits {b : Build} {a : Int} {i : Nat} (h0 : 0 ≤ a) (h1 : a < 2 ^ 20) : ∀ n nbits, nbits + i ≤ 20 → 20 < n + nbits + i →
    Ends (findNbits b a i n nbits)
  | 0, nbits, h, h' => by omega
  | n + 1, nbits, h, h' => by
    unfold findNbits carryShift
    rw [if_pos (by omega), ok_bind]
    refine ends_ite (fun hv => ends_findNbits h0 h1 n _ ?_ (by omega)) fun _ => ends_ok _
    by_cases hk : nbits + i = 20
    · exfalso
      rw [hk, sarI, Int.ediv_eq_zero_of_lt h0 h1] at hv
      omega
    · omega

/-- The first carry is a small number. -/
def Small (c : Carry) : Prop := 0 ≤ c.a0 ∧ c.a0 < 2 ^ 20

theorem shl_small {x k : Nat} (h : x * 2 ^ k < 2 ^ 31) : shlI32 x k = (x * 2 ^ k : Nat) := by
  unfold shlI32 toI32
  rw [Int.bmod_def]
  push_cast
  have : ((x : Int) * 2 ^ k) = ((x * 2 ^ k : Nat) : Int) := by push_cast; rfl
  rw [this]
  generalize x * 2 ^ k = v at *
  split <;> omega

theorem post_highBits {b : Build} {p : Pump} {nbits : Nat} (v : Nat) (hp : p.Tidy) (h15 : 15 ≤ p.nbits) (hn : nbits ≤ 16) :
    Post (highBits b nbits v p) (fun r => r.1 * 2 ^ nbits ≤ 11 * 2 ^ 16 ∧ r.2.Tidy) := by
  unfold highBits
  dsimp only
  refine post_ite (fun _ => ?_) fun h => ?_
  · refine post_bind (post_consumeMSB hp h15) fun p hp => post_bind (post_getMSB hp (by omega)) fun r hr => post_ok ⟨?_, hr.2⟩
    dsimp only
    have h1 : r.1 >>> 1 * 2 ^ nbits ≤ 2 ^ (16 - nbits) * 2 ^ nbits := by
      rw [Nat.shiftRight_eq_div_pow]
      exact Nat.mul_le_mul_right _ (Nat.le_trans (Nat.div_le_self _ _) (Nat.le_of_lt hr.1))
    rw [← Nat.pow_add, show 16 - nbits + nbits = 16 by omega] at h1
    omega
  · have h1 := bittable_le _ h
    refine post_bind (post_consumeMSB hp (by omega)) fun p hp => post_ok ⟨?_, hp⟩
    exact Nat.mul_le_mul h1 (Nat.pow_le_pow_right (by omega) hn)

theorem post_difference {b : Build} {c : Carry} {p : Pump} (hc : Small c) (hp : p.Tidy) :
    Post (difference b c p) (fun r => Small r.2.2.1 ∧ r.2.2.2.Tidy) := by
  unfold difference
  dsimp only
  refine post_bind (post_ends (ends_findNbits hc.1 hc.2 _ _ (by split <;> omega) (by omega))) fun nbits _ => ?_
  have hn : Nat.min nbits 16 ≤ 16 := Nat.min_le_right _ _
  refine post_bind (post_peekMSB hp (by omega)) fun r hr => ?_
  refine post_bind (post_highBits _ hr.2.1 hr.2.2 hn) fun s hs => post_bind (post_getMSB hs.2 hn) fun t ht => ?_
  refine post_bind (post_ends (by ends)) fun _ _ => post_bind (post_ends (by ends)) fun _ _ => post_bind (post_ends (by ends)) fun _ _ =>
    post_ok ⟨?_, ht.2⟩
  have hw : (2 : Nat) ^ (Nat.min nbits 16) ≤ 2 ^ 16 := Nat.pow_le_pow_right (by omega) hn
  have := hs.1
  have := ht.1
  unfold Small
  dsimp only
  rw [shl_small (by omega)]
  generalize s.1 * 2 ^ (Nat.min nbits 16) = x at *
  omega

theorem ends_predict (b : Build) (x y z : Int) : Ends (predict b x y z) := by unfold predict; ends
macro_rules | `(tactic| ends_leaf) => `(tactic| with_reducible exact Orf.ends_predict _ _ _ _)
theorem ends_newLeft (b : Build) (x y z : Int) : Ends (newLeft b x y z) := by unfold newLeft; ends
macro_rules | `(tactic| ends_leaf) => `(tactic| with_reducible exact Orf.ends_newLeft _ _ _ _)

/-- What the pixel loop keeps. -/
structure Kept (n : Nat) (st : State) : Prop where
  out : st.out.length = n
  carry : ∀ c ∈ st.carry, Small c
  pump : st.pump.Tidy

theorem small_set {l : List Carry} {i : Nat} {c : Carry} (h : ∀ c ∈ l, Small c) (hc : Small c) : ∀ d ∈ l.set i c, Small d := by
  intro d hd
  rcases List.mem_or_eq_of_mem_set hd with h' | h'
  · exact h d h'
  · exact h' ▸ hc

theorem post_pixel {b : Build} {n w r c s : Nat} {st : State} (h : Kept n st) : Post (pixel b w r c s st) (Kept n) := by
  unfold pixel
  refine post_bind post_idx_mem fun y hy => post_bind (post_difference (h.carry y hy) h.pump) fun d hd => ?_
  dsimp only
  refine post_bind post_setIdx fun car hcar => ?_
  have hk : ∀ d ∈ car, Small d := hcar.2 ▸ small_set h.carry hd.1
  split
  · have last : ∀ (nw : List Int) (pred : Int), Post (do
        let l ← newLeft b pred d.1 d.2.1
        let left ← setIdx st.left s l
        let out ← setIdx st.out (r * w + (c + s)) (toU16 l)
        .ok (⟨out, left, nw, car, d.2.2.2⟩ : State)) (Kept n) := fun nw pred =>
      post_bind (post_ends (by ends)) fun _ _ => post_bind (post_ends (by ends)) fun _ _ => post_bind post_setIdx fun o ho =>
        post_ok ⟨by rw [ho.2]; simpa using h.out, hk, hd.2⟩
    split
    · exact last _ _
    · split
      · exact post_bind (post_ends (by ends)) fun _ _ => last _ _
      · exact post_bind (post_ends (by ends)) fun _ _ => post_bind (post_ends (by ends)) fun _ _ => last _ _
  · refine post_bind (post_ends (by ends)) fun _ _ => post_bind (post_ends (by ends)) fun _ _ => post_bind (post_ends (by ends)) fun _ _ =>
      post_bind (post_ends (by ends)) fun _ _ => post_bind (post_ends (by ends)) fun _ _ => post_bind (post_ends (by ends)) fun _ _ =>
      post_bind (post_ends (by ends)) fun _ _ => post_bind post_setIdx fun o ho => post_ok ⟨by rw [ho.2]; simpa using h.out, hk, hd.2⟩

theorem post_decodeCompressed (b : Build) (buf : Bytes) (w h : Nat) : Post (decodeCompressed b buf w h) (fun r => size r = w * h) := by
  unfold decodeCompressed
  have h0 : ∀ c ∈ ([⟨0, 0, 0⟩, ⟨0, 0, 0⟩] : List Carry), Small c := by
    intro c hc
    have : c = ⟨0, 0, 0⟩ := by simpa using hc
    subst this
    exact ⟨by decide, by decide⟩
  refine post_bind (post_ends (by ends)) fun src _ => post_bind (Q := Kept (w * h)) ?_ fun st hst => post_ok hst.out
  refine post_loop _ ⟨by simp, h0, Pump.tidy_new _⟩ fun row st hst => ?_
  refine post_loop _ ⟨hst.out, h0, hst.pump⟩ fun c st hst => ?_
  exact post_loop _ hst fun s st hst => post_pixel hst
macro_rules | `(tactic| post_leaf) => `(tactic| with_reducible exact Orf.post_decodeCompressed _ _ _ _)

theorem ends_getWb (b : Build) (buf : Bytes) (t : TiffIFD) : Ends (getWb b buf t) := by unfold getWb; ends
macro_rules | `(tactic| ends_leaf) => `(tactic| with_reducible exact Orf.ends_getWb _ _ _)

end Orf

theorem full_orf (b : Build) (buffer : Bytes) (t : TiffIFD) (l : RawLoader) : Post (Orf.image b buffer t l) Full := by
  unfold Orf.image; sized

end Model

import Verif.Spec.Dcr
import Verif.Model.Dec.Dcr
import Verif.Lemmas.Seq
import Verif.Lemmas.PefTable
import Verif.Lemmas.Ljpeg
import Verif.Props.Dither
import Verif.Lemmas.OpenFile
import Verif.Lemmas.FileExample
/-!
# C74: Kodak's compressed images
-/

namespace Spec

/-- What the decoder makes of a stored value: the curve at that value, less a quarter of the rise of the curve around it. (It means to dither, which would spread the values evenly around the curve,
but its generator starts at zero and stays there.) -/
def kodakValue (curve : List Nat) (v : Nat) : Nat := curve[v]?.getD 0 - (Props.above curve v - Props.below curve v + 2) / 4

end Spec

namespace Props
open Rust Spec Model Model.Ljpeg Model.HuffTable

private theorem drop_flatMap {α : Type} {n i : Nat} (f : Nat → List α) (hi : i < n) : ((List.range n).drop i).flatMap f = f i ++ ((List.range n).drop (i + 1)).flatMap f := by
  rw [List.drop_eq_getElem_cons (by simpa using hi), List.getElem_range, List.flatMap_cons]

/-! ## Words -/

private theorem store_pair {src : Bytes} {e : Endian} {s : ByteStream} {m v : Nat} {rest : Bytes} (h : Ahead src e s (kodakStore (m + 1) v ++ rest)) :
    ∃ s1 s2, s.getU8 = .ok (v / 256 % 256, s1) ∧ s1.getU8 = .ok (v % 256, s2) ∧ Ahead src e s2 (kodakStore m (v / 65536) ++ rest) := by
  unfold kodakStore at h
  rw [List.cons_append, List.cons_append] at h
  obtain ⟨s1, g1, g2⟩ := Ahead.u8 (by omega) h
  obtain ⟨s2, g3, g4⟩ := Ahead.u8 (by omega) g2
  exact ⟨s1, s2, g1, g3, g4⟩

private theorem refill_ok {src : Bytes} {e : Endian} {s : ByteStream} {m v bits acc : Nat} {rest : Bytes} (h : Ahead src e s (kodakStore (m + 2) v ++ rest)) :
    ∃ s', Dcr.refill bits (acc, s) = .ok (acc + 2 ^ bits * (v % 2 ^ 32), s') ∧ Ahead src e s' (kodakStore m (v / 2 ^ 32) ++ rest) := by
  obtain ⟨s1, s2, g1, g2, g3⟩ := store_pair h
  obtain ⟨s3, s4, g4, g5, g6⟩ := store_pair g3
  rw [Nat.div_div_eq_div_mul] at g6
  refine ⟨s4, ?_, g6⟩
  unfold Dcr.refill
  show (do
    let s ← (do let (v, input) ← s.getU8; .ok (acc + v <<< (bits + 8), input))
    let s ← (do let (v, input) ← s.2.getU8; .ok (s.1 + v <<< (bits + 0), input))
    let s ← (do let (v, input) ← s.2.getU8; .ok (s.1 + v <<< (bits + 24), input))
    let s ← (do let (v, input) ← s.2.getU8; .ok (s.1 + v <<< (bits + 16), input))
    .ok s) = _
  rw [g1]
  simp only [ok_bind]
  rw [g2]
  simp only [ok_bind]
  rw [g4]
  simp only [ok_bind]
  rw [g5]
  simp only [ok_bind]
  congr 2
  simp only [Nat.shiftLeft_eq, Nat.pow_add]
  have : v % 2 ^ 32 = v / 256 % 256 * 256 + v % 256 + v / 65536 / 256 % 256 * 2 ^ 24 + v / 65536 % 256 * 2 ^ 16 := by omega
  rw [this]
  generalize 2 ^ bits = B
  generalize v / 256 % 256 = a
  generalize v % 256 = b
  generalize v / 65536 / 256 % 256 = c
  generalize v / 65536 % 256 = d
  simp only [Nat.mul_add]
  have e1 : ∀ y z : Nat, y * (B * z) = B * (y * z) := fun y z => Nat.mul_left_comm _ _ _
  simp only [e1]
  norm_num
  omega

/-! ## Differences -/

private theorem additional_extend (d : Int) (h : d.natAbs < 32768) : category d ≤ 15 := by
  exact category_lt_two (n := 15) (by norm_num; omega) (by norm_num; omega)

private theorem sign_bit {v n : Nat} (hn : 0 < n) (hv : v < 2 ^ n) : v &&& (1 <<< (n - 1)) = 0 ↔ v < 2 ^ (n - 1) := by
  obtain ⟨m, rfl⟩ : ∃ m, n = m + 1 := ⟨n - 1, by omega⟩
  rw [Nat.add_sub_cancel, Nat.one_shiftLeft, Nat.and_two_pow, Nat.testBit_eq_decide_div_mod_eq]
  rw [Nat.pow_succ] at hv
  have hd : v / 2 ^ m < 2 := by
    rw [Nat.div_lt_iff_lt_mul (Nat.two_pow_pos m)]; omega
  have hp := Nat.two_pow_pos m
  constructor
  · intro h
    by_cases h1 : v / 2 ^ m = 1
    · rw [h1] at h
      simp at h
    · have : v / 2 ^ m = 0 := Nat.lt_one_iff.mp (Nat.lt_of_le_of_ne (Nat.le_of_lt_succ hd) h1)
      exact (Nat.div_eq_zero_iff.mp this).resolve_left (by omega)
  · intro h
    rw [Nat.div_eq_of_lt h]
    simp

private theorem extend_code {v n : Nat} (hv : v < 2 ^ n) : (if n ≠ 0 ∧ v &&& (1 <<< (n - 1)) = 0 then (v : Int) - ((1 <<< n : Nat) - 1 : Int) else v) = extend n v := by
  unfold extend
  by_cases h0 : n = 0
  · subst h0
    have : v = 0 := by simpa using hv
    subst this
    rfl
  · by_cases h : v < 2 ^ (n - 1)
    · rw [if_pos ⟨h0, (sign_bit (by omega) hv).mpr h⟩, if_pos h, Nat.one_shiftLeft]
      push_cast
      rfl
    · rw [if_neg (fun hh => h ((sign_bit (by omega) hv).mp hh.2)), if_neg h]

/-- The differences decoded so far. -/
private def diffs (x : Nat → Nat) (n k : Nat) : List Int := (List.range k).map (kodakDiff x) ++ List.replicate (n - k) 0

private theorem diffs_set {x : Nat → Nat} {n k : Nat} (hk : k < n) : setIdx (diffs x n k) k (kodakDiff x k) = .ok (diffs x n (k + 1)) := by
  rw [setIdx_lt (by simp [diffs]; omega)]
  congr 1
  unfold diffs
  rw [List.range_succ, List.map_append, List.map_singleton, List.append_assoc, show n - k = n - (k + 1) + 1 by omega, List.replicate_succ,
    List.set_append_right _ _ (by simp)]
  simp

private theorem step_ok {b : Build} {src : Bytes} {e : Endian} {x : Nat → Nat} {n i k M acc bits : Nat} {lens : List Nat} {rest : Bytes} {s : ByteStream} (hi : i < n) (hx : (kodakDiff x i).natAbs < 32768)
    (hlens : lens[i]? = some (kodakLen x i)) (hA : Ahead src e s (kodakStore (2 * k) M ++ rest)) (hacc : acc < 2 ^ bits) (hN : acc + 2 ^ bits * M = kodakNumber x i (n - i))
    (h1 : kodakBits x i (n - i) ≤ bits + 32 * k) (h2 : bits + 32 * k < kodakBits x i (n - i) + 32) :
    ∃ k' M' acc' bits' s', Dcr.segmentStep b lens i (diffs x n i, acc, bits, s) = .ok (diffs x n (i + 1), acc', bits', s') ∧ Ahead src e s' (kodakStore (2 * k') M' ++ rest) ∧ acc' < 2 ^ bits' ∧
      acc' + 2 ^ bits' * M' = kodakNumber x (i + 1) (n - (i + 1)) ∧ kodakBits x (i + 1) (n - (i + 1)) ≤ bits' + 32 * k' ∧ bits' + 32 * k' < kodakBits x (i + 1) (n - (i + 1)) + 32 := by
  have hc := additional_extend _ hx
  obtain ⟨a1, a2⟩ := extend_additional (kodakDiff x i)
  rw [show n - i = n - (i + 1) + 1 by omega] at hN h1 h2
  rw [kodakNumber] at hN
  rw [kodakBits] at h1 h2
  change kodakLen x i ≤ 15 at hc
  change additional (kodakLen x i) (kodakDiff x i) < 2 ^ kodakLen x i at a1
  change extend (kodakLen x i) (additional (kodakLen x i) (kodakDiff x i)) = _ at a2
  generalize kodakLen x i = L at *
  generalize additional L (kodakDiff x i) = code at *
  generalize hR : kodakNumber x (i + 1) (n - (i + 1)) = R at *
  generalize kodakBits x (i + 1) (n - (i + 1)) = T at *
  -- what is left to do once there are enough bits
  have fin : ∀ (k M acc bits : Nat) (s : ByteStream), Ahead src e s (kodakStore (2 * k) M ++ rest) → acc < 2 ^ bits → acc + 2 ^ bits * M = code + 2 ^ L * R → L ≤ bits → L + T ≤ bits + 32 * k →
      bits + 32 * k < L + T + 32 → ∃ k' M' acc' bits' s', (do
        let mask ← subU 64 b 16 L
        let v := acc &&& (0xffff >>> mask)
        let bits ← subU 64 b bits L
        let diff : Int := if L ≠ 0 ∧ v &&& (1 <<< (L - 1)) = 0 then (v : Int) - ((1 <<< L : Nat) - 1 : Int) else v
        let out ← setIdx (diffs x n i) i diff
        (.ok (out, acc >>> L, bits, s) : Rust.M (List Int × Nat × Nat × ByteStream))) = .ok (diffs x n (i + 1), acc', bits', s') ∧ Ahead src e s' (kodakStore (2 * k') M' ++ rest) ∧ acc' < 2 ^ bits' ∧
      acc' + 2 ^ bits' * M' = R ∧ T ≤ bits' + 32 * k' ∧ bits' + 32 * k' < T + 32 := by
    intro k M acc bits s hA hacc hN hL h1 h2
    obtain ⟨B, rfl⟩ : ∃ B, bits = L + B := ⟨bits - L, by omega⟩
    have hp := Nat.two_pow_pos L
    rw [Nat.pow_add, Nat.mul_assoc] at hN
    have hv : acc % 2 ^ L = code := by
      have := congrArg (· % 2 ^ L) hN
      simp only [Nat.add_mul_mod_self_left] at this
      rw [this, Nat.mod_eq_of_lt a1]
    have hq : acc / 2 ^ L + 2 ^ B * M = R := by
      have := congrArg (· / 2 ^ L) hN
      simp only [Nat.add_mul_div_left _ _ hp] at this
      rw [this, Nat.div_eq_of_lt a1, Nat.zero_add]
    refine ⟨k, M, acc / 2 ^ L, B, s, ?_, hA, ?_, hq, by omega, by omega⟩
    · have hmask : 0xffff >>> (16 - L) = 2 ^ L - 1 := (by decide : ∀ L, L < 16 → 0xffff >>> (16 - L) = 2 ^ L - 1) L (by omega)
      rw [subU_ok (by omega), ok_bind, hmask, Nat.and_two_pow_sub_one_eq_mod, hv, subU_ok (by omega), ok_bind, Nat.add_sub_cancel_left]
      dsimp only
      rw [extend_code a1, a2, diffs_set hi, ok_bind, Nat.shiftRight_eq_div_pow]
    · rw [Nat.div_lt_iff_lt_mul hp, Nat.mul_comm, ← Nat.pow_add]
      exact hacc
  unfold Dcr.segmentStep
  rw [idx_eq_ok.mpr hlens, ok_bind]
  dsimp only
  by_cases hb : bits < L
  · rw [if_pos hb]
    obtain ⟨k, rfl⟩ : ∃ m, k = m + 1 := ⟨k - 1, by omega⟩
    obtain ⟨s', g1, g2⟩ := refill_ok (acc := acc) (bits := bits) (m := 2 * k) (by rw [show 2 * k + 2 = 2 * (k + 1) by omega]; exact hA)
    rw [g1, ok_bind]
    refine fin k (M / 2 ^ 32) _ (bits + 32) s' g2 ?_ ?_ (by omega) (by omega) (by omega)
    · rw [Nat.pow_add]
      have : M % 2 ^ 32 + 1 ≤ 2 ^ 32 := Nat.mod_lt _ (by decide)
      have := Nat.mul_le_mul_left (2 ^ bits) this
      rw [Nat.mul_add] at this
      omega
    · rw [← hN, Nat.pow_add, Nat.mul_assoc, Nat.add_assoc, ← Nat.mul_add, Nat.mod_add_div]
  · rw [if_neg hb]
    exact fin k M acc bits s hA hacc hN (by omega) h1 h2

/-! ## Segments -/

private theorem lengths_ok {src : Bytes} {e : Endian} {x : Nat → Nat} {n : Nat} {s : ByteStream} {rest : Bytes} (hn : n ≤ 256) (hx : ∀ i, i < n → (kodakDiff x i).natAbs < 32768)
    (hA : Ahead src e s (kodakLens x n ++ rest)) : ∃ lens s', Dcr.lengths n s = .ok (lens, s') ∧ (∀ i, i < n → lens[i]? = some (kodakLen x i)) ∧ Ahead src e s' rest := by
  have hle : ∀ i, i < n → kodakLen x i ≤ 15 := fun i hi => additional_extend _ (hx i hi)
  unfold Dcr.lengths forStep
  obtain ⟨t, k1, k2, k3, k4⟩ := loopN_inv (fun j (t : List Nat × ByteStream) => t.1.length = 256 ∧ (∀ i, i < n → i < 2 * j → t.1[i]? = some (kodakLen x i)) ∧
      Ahead src e t.2 ((((List.range ((n + 1) / 2)).drop j).map fun k => UInt8.ofNat (kodakLen x (2 * k) + 16 * (if 2 * k + 1 < n then kodakLen x (2 * k + 1) else 0))) ++ rest))
    (fun j => (fun i (s : List Nat × ByteStream) => do
      let v ← s.2.peekU8
      let lens ← setIdx s.1 i (v &&& 15)
      let (v, input) ← s.2.getU8
      let lens ← setIdx lens (i + 1) (v >>> 4)
      .ok (lens, input)) (0 + j * 2)) ((n - 0 + 2 - 1) / 2) 0 (List.replicate 256 0, s) ⟨List.length_replicate, fun i _ h => absurd h (by omega), hA⟩ (by
    rintro j ⟨lens, s⟩ _ hj ⟨h1, h2, h3⟩
    dsimp only at h1 h2 h3 ⊢
    have hj' : j < (n + 1) / 2 := by omega
    rw [List.drop_eq_getElem_cons (by simpa using hj'), List.getElem_range, List.map_cons, List.cons_append] at h3
    have l0 := hle (2 * j) (by omega)
    generalize hz : (if 2 * j + 1 < n then kodakLen x (2 * j + 1) else 0) = z at h3
    have hz15 : z ≤ 15 := by
      rw [← hz]
      split
      · exact hle _ (by omega)
      · omega
    obtain ⟨s', g1, g2⟩ := Ahead.u8 (by omega) h3
    have hpeek : s.peekU8 = .ok (kodakLen x (2 * j) + 16 * z) := by
      unfold ByteStream.getU8 at g1
      obtain ⟨v, e1, e2⟩ := bind_eq_ok.mp g1
      injection e2 with e2
      injection e2 with e2 e3
      rw [e1, e2]
    rw [hpeek, ok_bind, setIdx_lt (by omega), ok_bind, g1, ok_bind]
    dsimp only
    rw [setIdx_lt (by rw [List.length_set]; omega), ok_bind]
    refine ⟨_, rfl, by simp [h1], ?_, g2⟩
    intro i hi hij
    dsimp only
    rw [List.getElem?_set, List.getElem?_set, List.length_set, show 0 + j * 2 = 2 * j by omega]
    by_cases e1 : 2 * j + 1 = i
    · rw [if_pos e1, if_pos (by omega), Nat.shiftRight_eq_div_pow, show (kodakLen x (2 * j) + 16 * z) / 2 ^ 4 = z by omega, ← hz, if_pos (by omega), e1]
    · rw [if_neg e1]
      by_cases e2 : 2 * j = i
      · rw [if_pos e2, if_pos (by omega), show (15 : Nat) = 2 ^ 4 - 1 by rfl, Nat.and_two_pow_sub_one_eq_mod, show (kodakLen x (2 * j) + 16 * z) % 2 ^ 4 = kodakLen x (2 * j) by omega, e2]
      · rw [if_neg e2]
        exact h2 i hi (by omega))
  refine ⟨t.1, t.2, k1, fun i hi => k3 i hi (by omega), ?_⟩
  rw [List.drop_eq_nil_of_le (by simp), List.map_nil, List.nil_append] at k4
  exact k4

private theorem segment_ok {b : Build} {src : Bytes} {e : Endian} {x : Nat → Nat} {n : Nat} {s : ByteStream} {rest : Bytes} (hn : n ≤ 256) (hx : ∀ i, i < n → (kodakDiff x i).natAbs < 32768)
    (hA : Ahead src e s (kodakSegment x n ++ rest)) : ∃ s', Dcr.decodeSegment b s n = .ok ((List.range n).map (kodakDiff x), s') ∧ Ahead src e s' rest := by
  unfold kodakSegment at hA
  rw [List.append_assoc] at hA
  obtain ⟨lens, s1, g1, g2, g3⟩ := lengths_ok hn hx hA
  have fin : ∀ (k M acc bits : Nat) (s1 : ByteStream), Ahead src e s1 (kodakStore (2 * k) M ++ rest) → acc < 2 ^ bits → acc + 2 ^ bits * M = kodakNumber x 0 n →
      kodakBits x 0 n ≤ bits + 32 * k → bits + 32 * k < kodakBits x 0 n + 32 → ∃ s', (do
        let s ← forRange 0 n (Dcr.segmentStep b lens) (List.replicate n 0, acc, bits, s1)
        .ok (s.1, s.2.2.2)) = (.ok ((List.range n).map (kodakDiff x), s') : Rust.M (List Int × ByteStream)) ∧ Ahead src e s' rest := by
    intro k M acc bits s1 hA hacc hN h1 h2
    obtain ⟨t, k1, k2⟩ := forRange_inv (fun i (t : List Int × Nat × Nat × ByteStream) => t.1 = diffs x n i ∧ ∃ k M, Ahead src e t.2.2.2 (kodakStore (2 * k) M ++ rest) ∧ t.2.1 < 2 ^ t.2.2.1 ∧
        t.2.1 + 2 ^ t.2.2.1 * M = kodakNumber x i (n - i) ∧ kodakBits x i (n - i) ≤ t.2.2.1 + 32 * k ∧ t.2.2.1 + 32 * k < kodakBits x i (n - i) + 32) (Nat.zero_le n)
      (f := Dcr.segmentStep b lens) (s := (List.replicate n 0, acc, bits, s1)) ⟨by simp [diffs], k, M, hA, hacc, hN, h1, h2⟩ (by
        rintro i ⟨out, acc, bits, s⟩ _ hi ⟨rfl, k, M, p1, p2, p3, p4, p5⟩
        obtain ⟨k', M', acc', bits', s', q1, q⟩ := step_ok (b := b) hi (hx i hi) (g2 i hi) p1 p2 p3 p4 p5
        exact ⟨_, q1, rfl, k', M', q⟩)
    obtain ⟨k2, k, M, p1, -, -, -, p5⟩ := k2
    rw [Nat.sub_self] at p5
    have hk : k = 0 := by unfold kodakBits at p5; omega
    subst hk
    refine ⟨t.2.2.2, ?_, p1⟩
    rw [k1, ok_bind, k2]
    unfold diffs
    rw [Nat.sub_self, List.replicate_zero, List.append_nil]
  unfold Dcr.decodeSegment
  rw [g1, ok_bind]
  dsimp only
  rw [show n &&& 7 = n % 8 from Nat.and_two_pow_sub_one_eq_mod n 3]
  unfold kodakWords at g3
  by_cases h4 : n % 8 = 4
  · rw [if_pos h4] at g3 ⊢
    obtain ⟨s2, s3, j1, j2, j3⟩ := store_pair g3
    rw [j1, ok_bind]
    dsimp only
    rw [j2, ok_bind]
    dsimp only
    have hor : (kodakNumber x 0 n / 256 % 256) <<< 8 ||| kodakNumber x 0 n % 256 = kodakNumber x 0 n % 65536 := by
      rw [← Nat.shiftLeft_add_eq_or_of_lt (by omega), Nat.shiftLeft_eq]; omega
    rw [hor]
    exact fin _ _ _ 16 s3 j3 (by omega) (by omega) (by omega) (by omega)
  · rw [if_neg h4] at g3 ⊢
    exact fin _ _ 0 0 s1 g3 (by omega) (by omega) (by omega) (by omega)

/-! ## Samples -/

/-- The last samples of both parities. -/
private def kpreds (x : Nat → Nat) (i : Nat) : List Int := [(if i + i % 2 < 2 then 0 else (x (i + i % 2 - 2) : Int)), (if i + (i + 1) % 2 < 2 then 0 else (x (i + (i + 1) % 2 - 2) : Int))]

private theorem kpreds_get (x : Nat → Nat) (i : Nat) : idx (kpreds x i) (i % 2) = .ok ((x i : Int) - kodakDiff x i) := by
  unfold kpreds kodakDiff
  rw [show (x i : Int) - ((x i : Int) - (if i < 2 then 0 else (x (i - 2) : Int))) = (if i < 2 then 0 else (x (i - 2) : Int)) by omega]
  rcases Nat.mod_two_eq_zero_or_one i with h | h
  · rw [h]; rfl
  · rw [h, show (i + 1) % 2 = 0 by omega]; rfl

private theorem kpreds_set (x : Nat → Nat) (i : Nat) : setIdx (kpreds x i) (i % 2) (x i : Int) = .ok (kpreds x (i + 1)) := by
  unfold kpreds
  rcases Nat.mod_two_eq_zero_or_one i with h | h
  · rw [h, show (i + 1) % 2 = 1 by omega, show i + 1 + 1 = i + 2 by omega, show (i + 2) % 2 = 0 by omega, Nat.add_zero, Nat.add_sub_cancel, if_neg (show ¬i + 2 < 2 by omega)]; rfl
  · rw [h, show (i + 1) % 2 = 0 by omega, show i + 1 + 1 = i + 2 by omega, show (i + 2) % 2 = 1 by omega, show i + 1 + 1 = i + 2 by omega, Nat.add_zero, Nat.add_sub_cancel,
      if_neg (show ¬i + 2 < 2 by omega)]; rfl

private theorem pixel_ok {b : Build} {curve : List Nat} {tbl : LookupTable} {w h r col n i : Nat} {pic : Nat → Nat → Nat} (hcurve : curve.length ≤ 65536)
    (hd : ∀ i rand, i < curve.length → rand < 2 ^ 32 → tbl.dither b i rand = .ok (dithered (curve[i]?.getD 0) (above curve i - below curve i) rand, mwc rand))
    (hi : i < n) (hc : col + n ≤ w) (hr : r < h) (hp : pic r (col + i) < curve.length) :
    Dcr.pixel b tbl (r * w + col) ((List.range n).map (kodakDiff fun i => pic r (col + i))) i
        (filled w (w * h) (fun r c => kodakValue curve (pic r c)) (r * w + (col + i)), kpreds (fun i => pic r (col + i)) i, 0) =
      .ok (filled w (w * h) (fun r c => kodakValue curve (pic r c)) (r * w + (col + (i + 1))), kpreds (fun i => pic r (col + i)) (i + 1), 0) := by
  have hcell : r * w + (col + i) < w * h := by
    have := cell_lt hr (show col + i < w by omega)
    omega
  have hdith : dithered (curve[pic r (col + i)]?.getD 0) (above curve (pic r (col + i)) - below curve (pic r (col + i))) 0 = kodakValue curve (pic r (col + i)) := by
    unfold dithered kodakValue
    rw [Nat.zero_mod, Nat.mul_zero]
    split <;> omega
  unfold Dcr.pixel
  dsimp only
  rw [idx_eq_ok.mpr (by rw [List.getElem?_map, List.getElem?_range hi]; rfl), ok_bind, kpreds_get, ok_bind, Int.sub_add_cancel]
  have hi32 : i32Result b (pic r (col + i) : Int) = .ok (pic r (col + i) : Int) := by
    apply i32_small <;> omega
  have h16 : toU16 (pic r (col + i) : Int) = pic r (col + i) := by unfold toU16; omega
  rw [hi32, ok_bind, kpreds_set, ok_bind, h16, hd _ 0 hp (by decide), ok_bind]
  dsimp only
  have hset := filled_set (w := w) (n := w * h) (r := r) (c := col + i) (pix := fun r c => kodakValue curve (pic r c)) (by omega) hcell
  rw [hdith, show r * w + col + i = r * w + (col + i) by omega, hset]
  rfl

private theorem row_ok {b : Build} {curve : List Nat} {tbl : LookupTable} {w h r : Nat} {pic : Nat → Nat → Nat} {src rest : Bytes} {s : ByteStream} (hcurve : curve.length ≤ 65536)
    (hd : ∀ i rand, i < curve.length → rand < 2 ^ 32 → tbl.dither b i rand = .ok (dithered (curve[i]?.getD 0) (above curve i - below curve i) rand, mwc rand))
    (hr : r < h) (hp : ∀ c, c < w → pic r c < curve.length) (hL : KodakLegal w (pic r)) (hA : Ahead src LITTLE_ENDIAN s (kodakRow (pic r) w ++ rest)) :
    ∃ s', forStep 0 w 256 (fun col (s : List Nat × Nat × ByteStream) => do
      let (seg, input) ← Dcr.decodeSegment b s.2.2 (Nat.min 256 (w - col))
      let t ← forRange 0 seg.length (Dcr.pixel b tbl (r * w + col) seg) (s.1, [0, 0], s.2.1)
      .ok (t.1, t.2.2, input)) (filled w (w * h) (fun r c => kodakValue curve (pic r c)) (r * w), 0, s) =
        .ok (filled w (w * h) (fun r c => kodakValue curve (pic r c)) ((r + 1) * w), 0, s') ∧ Ahead src LITTLE_ENDIAN s' rest := by
  unfold forStep
  obtain ⟨t, k1, k2, k3, k4⟩ := loopN_inv (fun j (t : List Nat × Nat × ByteStream) => t.1 = filled w (w * h) (fun r c => kodakValue curve (pic r c)) (r * w + min w (256 * j)) ∧ t.2.1 = 0 ∧
      Ahead src LITTLE_ENDIAN t.2.2 (((List.range ((w + 255) / 256)).drop j).flatMap (fun s => kodakSegment (fun i => pic r (256 * s + i)) (min 256 (w - 256 * s))) ++ rest))
    (fun j => (fun col (s : List Nat × Nat × ByteStream) => do
      let (seg, input) ← Dcr.decodeSegment b s.2.2 (Nat.min 256 (w - col))
      let t ← forRange 0 seg.length (Dcr.pixel b tbl (r * w + col) seg) (s.1, [0, 0], s.2.1)
      .ok (t.1, t.2.2, input)) (0 + j * 256)) ((w - 0 + 256 - 1) / 256) 0 (filled w (w * h) (fun r c => kodakValue curve (pic r c)) (r * w), 0, s)
    ⟨by rw [Nat.mul_zero, Nat.min_zero]; rfl, rfl, hA⟩ (by
    rintro j ⟨out, rand, s⟩ _ hj ⟨h1, h2, h3⟩
    dsimp only at h1 h2 h3 ⊢
    subst h1 h2
    rw [drop_flatMap _ (by omega), List.append_assoc] at h3
    rw [show 0 + j * 256 = 256 * j by omega, show Nat.min 256 (w - 256 * j) = min 256 (w - 256 * j) from rfl, show min w (256 * j) = 256 * j by omega]
    obtain ⟨s', g1, g2⟩ := segment_ok (b := b) (n := min 256 (w - 256 * j)) (by omega) (hL j (by omega)) h3
    generalize hn : min 256 (w - 256 * j) = n at *
    rw [g1, ok_bind]
    dsimp only
    rw [List.length_map, List.length_range]
    obtain ⟨t, q1, q2, q3, q4⟩ := forRange_inv (fun i (t : List Nat × List Int × Nat) => t.1 = filled w (w * h) (fun r c => kodakValue curve (pic r c)) (r * w + (256 * j + i)) ∧
        t.2.1 = kpreds (fun i => pic r (256 * j + i)) i ∧ t.2.2 = 0) (Nat.zero_le n) (f := Dcr.pixel b tbl (r * w + 256 * j) ((List.range n).map (kodakDiff fun i => pic r (256 * j + i))))
      (s := (filled w (w * h) (fun r c => kodakValue curve (pic r c)) (r * w + 256 * j), [0, 0], 0)) ⟨rfl, rfl, rfl⟩ (by
        rintro i ⟨out, pred, rand⟩ _ hi ⟨e1, e2, e3⟩
        dsimp only at e1 e2 e3
        subst e1 e2 e3
        exact ⟨_, pixel_ok hcurve hd hi (by omega) hr (hp _ (by omega)), rfl, rfl, rfl⟩)
    rw [q1, ok_bind]
    refine ⟨_, rfl, ?_, q4, g2⟩
    rw [q2, show 256 * j + n = min w (256 * (j + 1)) by omega])
  refine ⟨t.2.2, ?_, ?_⟩
  · rw [k1]
    obtain ⟨t1, t2, t3⟩ := t
    dsimp only at k2 k3
    subst k2 k3
    rw [show min w (256 * (0 + (w - 0 + 256 - 1) / 256)) = w by omega, Nat.succ_mul]
  · rw [List.drop_eq_nil_of_le (by simp), List.flatMap_nil, List.nil_append] at k4
    exact k4

/-- **C74**: the picture comes back through the curve, for every size. -/
theorem kodak_roundtrip (b : Build) (curve : List Nat) (hcurve : curve.length ≤ 65536) (hg : ∀ i, i < curve.length → gentle curve i) (w h : Nat) (pic : Nat → Nat → Nat)
    (hp : ∀ r c, r < h → c < w → pic r c < curve.length) (hL : ∀ r, r < h → KodakLegal w (pic r)) (tail : Bytes) :
    (do let tbl ← LookupTable.new b curve
        Dcr.decodeKodak65000 b (kodakImage w h pic ++ tail) tbl w h) = .ok (raster w h fun r c => kodakValue curve (pic r c)) := by
  obtain ⟨tbl, ht, hd⟩ := dither_exact b curve hg
  rw [ht, ok_bind]
  unfold Dcr.decodeKodak65000
  obtain ⟨t, k1, k2, -⟩ := forRange_inv (fun r (t : List Nat × Nat × ByteStream) => t.1 = filled w (w * h) (fun r c => kodakValue curve (pic r c)) (r * w) ∧ t.2.1 = 0 ∧
      Ahead (kodakImage w h pic ++ tail) LITTLE_ENDIAN t.2.2 (((List.range h).drop r).flatMap (fun r => kodakRow (pic r) w) ++ tail)) (Nat.zero_le h)
    (f := fun row s => forStep 0 w 256 (fun col (s : List Nat × Nat × ByteStream) => do
      let (seg, input) ← Dcr.decodeSegment b s.2.2 (Nat.min 256 (w - col))
      let t ← forRange 0 seg.length (Dcr.pixel b tbl (row * w + col) seg) (s.1, [0, 0], s.2.1)
      .ok (t.1, t.2.2, input)) s)
    (s := (List.replicate (w * h) 0, 0, ByteStream.new (kodakImage w h pic ++ tail) LITTLE_ENDIAN)) ⟨by rw [Nat.zero_mul, filled_zero], rfl, ahead_new _ _⟩ (by
      rintro r ⟨out, rand, s⟩ _ hr ⟨h1, h2, h3⟩
      dsimp only at h1 h2 h3
      subst h1 h2
      rw [drop_flatMap _ hr, List.append_assoc] at h3
      obtain ⟨s', g1, g2⟩ := row_ok (h := h) hcurve hd hr (hp r · hr) (hL r hr) h3
      exact ⟨_, g1, rfl, rfl, g2⟩)
  rw [k1, ok_bind, k2, Nat.mul_comm h w, filled_all]

/-! ## Whole files -/

/-- The white balance in the maker note: 2048 over three big-endian numbers, at bytes 40, 42 and 44. -/
def kodakWb (count : Nat) (data : Bytes) : List F32 :=
  if count ≥ 46 then
    [(F32.ofNat 2048).div (F32.ofNat (bytesOf data 40 * 256 + bytesOf data 41)), (F32.ofNat 2048).div (F32.ofNat (bytesOf data 42 * 256 + bytesOf data 43)),
      (F32.ofNat 2048).div (F32.ofNat (bytesOf data 44 * 256 + bytesOf data 45)), .nan]
  else [.nan, .nan, .nan, .nan]

private theorem bytes_length (big : Bool) {f : Field} (ht : f.typ ∈ [1, 2, 7]) : (f.bytes big).length = f.values.length := by
  unfold Field.bytes
  rw [flatMap_const_length _ (tiffSize f.typ) (fun v => encode_length big _ v)]
  simp only [List.mem_cons, List.not_mem_nil, or_false] at ht
  rcases ht with h | h | h <;> rw [h] <;> simp [tiffSize]

/-- **C74**, whole files: the curve and the white balance are those of the maker note. -/
theorem dcr_file (s : RawLoader) (env : Platform) (b : Build) {contents : Bytes} {big : Bool} {dirs : List Dir} {model : Bytes} {o : Option Nat}
    (h : CameraFile contents big dirs (b! "Kodak") model o) (h560 : model ≠ b! "DCS560C") {cam : Camera} (hcam : Map.get s.cameras (b! "Kodak", model, []) = some cam)
    {raw : Dir} (hraw : (fileRoot big dirs).FirstWith 0x828e raw) {w ht offset : Nat} (h1 : raw.Numbers 0x100 [w]) (h2 : raw.Numbers 0x101 [ht]) (h3 : raw.Numbers 0x111 [offset])
    {curve : List Nat} (hcurve : (fileRoot big dirs).Numbers 0x90d curve) (hlen : curve.length ≤ 65536) (hg : ∀ i, i < curve.length → gentle curve i)
    {bw : Bool} {fw : Field} (hwb : (fileRoot big dirs).First 0x3fd bw fw) (htyp : fw.typ ∈ [1, 2, 7])
    (pic : Nat → Nat → Nat) (hp : ∀ r c, r < ht → c < w → pic r c < curve.length) (hL : ∀ r, r < ht → KodakLegal w (pic r))
    {blacks : List Nat} (hb : BlacksOf cam w ht (fun r c => kodakValue curve (pic r c)) blacks)
    (tail : Bytes) (ho : offset ≤ contents.length) (hdata : contents.drop offset = kodakImage w ht pic ++ tail) :
    s.decodeSafe env b (.ok contents) = .ok (pictureOf cam (orientationOf o) w ht (kodakWb fw.values.length (fw.bytes bw)) blacks
      (raster w ht fun r c => kodakValue curve (pic r c))) := by
  obtain ⟨root, hh, hc, hd⟩ := camera_decodes s env b h (k := .dcr) (by decide) h560
  obtain ⟨ifd, f1, f2⟩ := fetch_dir hh (tag := 0x828e) (by decide) hraw
  obtain ⟨ent, c1, c2, c3, -⟩ := find_numbers hh (tag := 0x90d) (by decide) hcurve
  obtain ⟨wb, w1, w2⟩ := find_first hh (tag := 0x3fd) (by decide) hwb
  have hfetch : TiffIFD.fetchTag root Tag.DcrLinearization = .ok ent := by
    unfold TiffIFD.fetchTag
    rw [show TiffIFD.findEntry Tag.DcrLinearization root = _ from c1]
  have hgetcurve : Dcr.getCurve b ent = LookupTable.new b curve := by
    unfold Dcr.getCurve
    rw [c2, mapM_ok _ (fun i => curve[i]?.getD 0) _ (by
      intro i hi
      have hi := List.mem_range.mp hi
      have hlt : curve[i]?.getD 0 < 65536 := by
        have := (hg i hi).2.2.2.2
        omega
      rw [List.getElem?_eq_getElem hi, Option.getD_some] at hlt ⊢
      rw [c3 i hi, ok_bind, Nat.mod_eq_of_lt hlt]), ok_bind]
    congr 1
    apply List.ext_getElem?
    intro i
    rw [List.getElem?_map]
    by_cases hi : i < curve.length
    · rw [List.getElem?_range hi, Option.map_some, List.getElem?_eq_getElem hi]; rfl
    · rw [List.getElem?_eq_none (by simp; omega), List.getElem?_eq_none (by omega)]; rfl
  have hwbget : Dcr.getWb root = .ok (kodakWb fw.values.length (fw.bytes bw)) := by
    unfold Dcr.getWb TiffIFD.fetchTag
    rw [show TiffIFD.findEntry Tag.DcrWB root = _ from w1]
    dsimp only
    have hl := bytes_length bw htyp
    rw [ok_bind, w2.count, w2.data]
    unfold kodakWb
    by_cases h46 : fw.values.length ≥ 46
    · rw [if_pos h46, if_pos h46, BEu16_eq (by omega), ok_bind, BEu16_eq (by omega), ok_bind, BEu16_eq (by omega), ok_bind]
    · rw [if_neg h46, if_neg h46]
      rfl
  have hsrc : (contents ++ List.replicate 16 0).drop offset = kodakImage w ht pic ++ (tail ++ List.replicate 16 0) := by
    rw [List.drop_append_of_le_length ho, hdata, List.append_assoc]
  have hround := kodak_roundtrip b curve hlen hg w ht pic hp hL (tail ++ List.replicate 16 0)
  obtain ⟨tbl, t1, t2⟩ := bind_eq_ok.mp hround
  apply hd
  intro d hk ht'
  cases d <;> cases hk
  injection ht' with ht'; subst ht'
  show Dcr.image b (contents ++ List.replicate 16 0) _ s = _
  unfold Dcr.image RawLoader.checkSupported
  rw [hc [] cam hcam, ok_bind, show TiffIFD.fetchIfd _ Tag.CFAPattern = _ from f1, ok_bind,
    show fetchUsize ifd Tag.ImageWidth = _ from fetch_number f2 (by decide) h1, ok_bind,
    show fetchUsize ifd Tag.ImageLength = _ from fetch_number f2 (by decide) h2, ok_bind,
    show fetchUsize ifd Tag.StripOffsets = _ from fetch_number f2 (by decide) h3, ok_bind,
    sliceFrom_le (by simp; omega), ok_bind, hfetch, ok_bind, hgetcurve, t1, ok_bind, hsrc, t2, ok_bind, hwbget, ok_bind]
  exact ok_image b o hb _

/-! ## Example -/

section Example

/-- Two rows of twelve samples. -/
private def kodakPicture (r c : Nat) : Nat := (5 * c + 7 * r) % 32

private def dcrFile : Bytes :=
  [73, 73, 42, 0, 8, 0, 0, 0] ++
  [9, 0] ++
  [0, 1, 3, 0, 1, 0, 0, 0, 12, 0, 0, 0] ++
  [1, 1, 3, 0, 1, 0, 0, 0, 2, 0, 0, 0] ++
  [15, 1, 2, 0, 6, 0, 0, 0, 122, 0, 0, 0] ++
  [16, 1, 2, 0, 12, 0, 0, 0, 128, 0, 0, 0] ++
  [17, 1, 4, 0, 1, 0, 0, 0, 250, 0, 0, 0] ++
  [18, 1, 3, 0, 1, 0, 0, 0, 1, 0, 0, 0] ++
  [253, 3, 7, 0, 46, 0, 0, 0, 140, 0, 0, 0] ++
  [13, 9, 3, 0, 32, 0, 0, 0, 186, 0, 0, 0] ++
  [142, 130, 1, 0, 4, 0, 0, 0, 0, 1, 1, 2] ++
  [0, 0, 0, 0] ++
  [75, 111, 100, 97, 107, 0] ++
  [68, 67, 83, 32, 80, 114, 111, 32, 49, 52, 78, 0] ++
  [0, 0, 0, 0, 0, 0, 0, 0, 0, 0, 0, 0, 0, 0, 0, 0, 0, 0, 0, 0, 0, 0, 0, 0, 0, 0, 0, 0, 0, 0, 0, 0, 0, 0, 0, 0, 0, 0, 0, 0, 4, 0, 8, 0, 2, 0] ++
  [0, 0, 4, 0, 8, 0, 12, 0, 16, 0, 20, 0, 24, 0, 28, 0, 32, 0, 36, 0, 40, 0, 44, 0, 48, 0, 52, 0, 56, 0, 60, 0, 64, 0, 68, 0, 72, 0, 76, 0, 80, 0, 84, 0, 88, 0, 92, 0, 96, 0, 100, 0, 104, 0, 108, 0, 112, 0, 116, 0, 120, 0, 124, 0] ++
  kodakImage 12 2 kodakPicture

private def dcrDir : Dir := .mk false [.plain ⟨0x100, 3, [12]⟩, .plain ⟨0x101, 3, [2]⟩, .plain ⟨0x10f, 2, [75, 111, 100, 97, 107, 0]⟩, .plain ⟨0x110, 2, [68, 67, 83, 32, 80, 114, 111, 32, 49, 52, 78, 0]⟩, .plain ⟨0x111, 4, [250]⟩, .plain ⟨0x112, 3, [1]⟩, .plain ⟨0x3fd, 7, [0, 0, 0, 0, 0, 0, 0, 0, 0, 0, 0, 0, 0, 0, 0, 0, 0, 0, 0, 0, 0, 0, 0, 0, 0, 0, 0, 0, 0, 0, 0, 0, 0, 0, 0, 0, 0, 0, 0, 0, 4, 0, 8, 0, 2, 0]⟩, .plain ⟨0x90d, 3, [0, 4, 8, 12, 16, 20, 24, 28, 32, 36, 40, 44, 48, 52, 56, 60, 64, 68, 72, 76, 80, 84, 88, 92, 96, 100, 104, 108, 112, 116, 120, 124]⟩, .plain ⟨0x828e, 1, [0, 1, 1, 2]⟩]

private theorem dcr_stored : TiffFile 11 false dcrFile [dcrDir] := by
  refine ⟨by decide +kernel, by decide +kernel, 8, by decide, by decide +kernel, rfl, ?_⟩
  refine ⟨by decide, by decide +kernel, by decide, by decide +kernel, by decide +kernel, ?_⟩
  intro i it hi
  match i with
  | 0 => injection hi with hi; subst hi; stored_inline
  | 1 => injection hi with hi; subst hi; stored_inline
  | 2 => injection hi with hi; subst hi; stored_outside 122
  | 3 => injection hi with hi; subst hi; stored_outside 128
  | 4 => injection hi with hi; subst hi; stored_inline
  | 5 => injection hi with hi; subst hi; stored_inline
  | 6 => injection hi with hi; subst hi; stored_outside 140
  | 7 => injection hi with hi; subst hi; stored_outside 186
  | 8 => injection hi with hi; subst hi; stored_inline
  | i + 9 => cases hi

private theorem dcr_camera : CameraFile dcrFile false [dcrDir] (b! "Kodak") (b! "DCS Pro 14N") (some 1) where
  tiff := dcr_stored
  few := by decide
  notCiff := by decide +kernel
  notDng := lacks_one rfl rfl
  make := ⟨⟨by decide, by decide, by decide⟩, false, _, first_one rfl, rfl, 0, 0, [0], Or.inr rfl, rfl⟩
  model := ⟨⟨by decide, by decide, by decide⟩, false, _, first_one rfl, rfl, 0, 0, [0], Or.inr rfl, rfl⟩
  orientation := numbers_one (f := ⟨0x112, 3, [1]⟩) rfl (by decide)

/-- A file of Kodak. Every value is two below the curve, which rises by four. -/
example (env : Platform) (b : Build) (cam : Camera) (hb : NoBlackAreas cam) :
    (loaderOf (b! "Kodak") (b! "DCS Pro 14N") [] cam).decodeSafe env b (.ok dcrFile) =
    .ok (pictureOf cam .normal 12 2 [(F32.ofNat 2048).div (F32.ofNat 1024), (F32.ofNat 2048).div (F32.ofNat 2048), (F32.ofNat 2048).div (F32.ofNat 512), .nan] cam.blacklevels
      [0, 18, 38, 58, 78, 98, 118, 10, 30, 50, 70, 90, 26, 46, 66, 86, 106, 0, 18, 38, 58, 78, 98, 118]) := by
  have := dcr_file (loaderOf (b! "Kodak") (b! "DCS Pro 14N") [] cam) env b dcr_camera (by decide) rfl (first_with (f := ⟨0x828e, 1, [0, 1, 1, 2]⟩) rfl)
    (numbers_here (f := ⟨0x100, 3, [12]⟩) rfl (by decide)) (numbers_here (f := ⟨0x101, 3, [2]⟩) rfl (by decide)) (numbers_here (f := ⟨0x111, 4, [250]⟩) rfl (by decide))
    (numbers_one (f := ⟨0x90d, 3, [0, 4, 8, 12, 16, 20, 24, 28, 32, 36, 40, 44, 48, 52, 56, 60, 64, 68, 72, 76, 80, 84, 88, 92, 96, 100, 104, 108, 112, 116, 120, 124]⟩) rfl (by decide)) (by decide) (by decide +kernel)
    (first_one rfl) (by decide) kodakPicture (fun r c hr hc => (by decide : ∀ r, r < 2 → ∀ c, c < 12 → kodakPicture r c < 32) r hr c hc) (by decide +kernel) (hb.blacks _ _ _) []
    (by decide +kernel) (by decide +kernel)
  rw [show raster 12 2 (fun r c => kodakValue [0, 4, 8, 12, 16, 20, 24, 28, 32, 36, 40, 44, 48, 52, 56, 60, 64, 68, 72, 76, 80, 84, 88, 92, 96, 100, 104, 108, 112, 116, 120, 124] (kodakPicture r c)) =
    [0, 18, 38, 58, 78, 98, 118, 10, 30, 50, 70, 90, 26, 46, 66, 86, 106, 0, 18, 38, 58, 78, 98, 118] by decide +kernel] at this
  exact this

end Example

end Props

import Verif.Spec.Arw2
import Verif.Model.Dec.Arw
import Verif.Lemmas.Codes
import Verif.Lemmas.Seq
import Verif.Props.Nef
/-!
# C62: Sony's compressed images
-/

namespace Props
open Rust Spec Model Model.Arw

theorem arw2_shift {d : Nat} (h : d < 2048) : 32 - leadingZeros d - 7 = arw2Shift d := by
  unfold leadingZeros arw2Shift
  by_cases h0 : d = 0
  · subst h0; rfl
  rw [if_neg h0]
  have l11 := (Nat.log2_lt h0 (k := 11)).2 h
  have l10 := Nat.log2_lt h0 (k := 10)
  have l9 := Nat.log2_lt h0 (k := 9)
  have l8 := Nat.log2_lt h0 (k := 8)
  have l7 := Nat.log2_lt h0 (k := 7)
  simp only [Nat.reducePow] at l10 l9 l8 l7
  split
  · omega
  · split
    · omega
    · split
      · omega
      · split <;> omega

theorem shlU32_ok {b : Build} {x k : Nat} (hk : k < 32) (h : x * 2 ^ k < 2 ^ 32) : shlU 32 b x k = .ok (x * 2 ^ k) := by
  unfold shlU
  rw [if_pos hk, Nat.shiftLeft_eq, Nat.mod_eq_of_lt h]

theorem arw2Shift_le (d : Nat) : arw2Shift d ≤ 4 := by unfold arw2Shift; repeat' split <;> try omega

/-- One sample of a group. -/
theorem arw2Value_ok (b : Build) {src : Bytes} {max min shift imax imin i c a : Nat} {p : Pump} (hmin : min < 2048) (hsh : shift ≤ 4) (hp : AtLSB src p c a)
    (hlim : c + 7 ≤ 32 * (src.length / 4) ∨ i = imax ∨ i = imin) :
    ∃ p' a', arw2Value b max min shift imax imin i p = .ok (if i = imax then max else if i = imin then min else
        Nat.min 2047 (min + fieldLSB (bytesOf src) c 7 * 2 ^ shift), p') ∧ AtLSB src p' (if i = imax ∨ i = imin then c else c + 7) a' := by
  unfold arw2Value
  by_cases h1 : i = imax
  · exact ⟨p, a, by rw [if_pos h1, if_pos h1], by rw [if_pos (.inl h1)]; exact hp⟩
  by_cases h2 : i = imin
  · exact ⟨p, a, by rw [if_neg h1, if_neg h1, if_pos h2, if_pos h2], by rw [if_pos (.inr h2)]; exact hp⟩
  obtain ⟨p1, a1, g1, g2⟩ := (readsLSB b src).get hp (n := 7) (by omega) (by omega) (by show _ ≤ _; omega)
  have hlt := fieldLSB_lt (bytesOf src) c 7
  have hpow : 2 ^ shift ≤ 2 ^ 4 := Nat.pow_le_pow_right (by omega) hsh
  have hmul : fieldLSB (bytesOf src) c 7 * 2 ^ shift ≤ 128 * 2 ^ 4 := Nat.mul_le_mul (by omega) hpow
  refine ⟨p1, a1, ?_, by rw [if_neg (by omega)]; exact g2⟩
  rw [if_neg h1, if_neg h1, if_neg h2, if_neg h2, g1, ok_bind]
  dsimp only
  rw [shlU32_ok (by omega) (by omega), ok_bind, addU_ok (by omega), ok_bind, Nat.add_comm min]

theorem arw2Sample_lt (st : Nat → Nat) (s i : Nat) : arw2Sample st s i < 2048 := by
  have h1 := fieldLSB_lt st s 11
  have h2 := fieldLSB_lt st (s + 11) 11
  unfold arw2Sample
  dsimp only
  split
  · omega
  · split
    · omega
    · exact Nat.lt_of_le_of_lt (Nat.min_le_left _ _) (by omega)

/-- What a dithered curve gives. -/
def Dithers (b : Build) (tbl : LookupTable) (val : Nat → Nat → Nat) : Prop :=
  ∀ i rand, i < 4095 → rand < 2 ^ 32 → tbl.dither b i rand = .ok (val i rand, mwc rand)

theorem arw2Group_ok (b : Build) {src : Bytes} {tbl : LookupTable} {val : Nat → Nat → Nat} (hd : Dithers b tbl val) {s : Nat} (hp : arw2Proper (bytesOf src) s)
    (hlim : s + 128 ≤ 32 * (src.length / 4)) {seed : Nat} (hseed : seed < 2 ^ 32) (k : Nat) (g : Nat → Nat) {j : Nat} (hj : j < 2) {p : Pump} {a : Nat} (hat : AtLSB src p s a) :
    ∃ p' a', arw2Group b tbl j ((List.range 32).map g, mwcAfter seed k, p) =
      .ok ((List.range 32).map (fun x => if x % 2 = j then val (2 * arw2Sample (bytesOf src) s (x / 2)) (mwcAfter seed (k + x / 2)) else g x), mwcAfter seed (k + 16), p') ∧
      AtLSB src p' (s + 128) a' := by
  have hR := readsLSB b src
  obtain ⟨hp1, hp2⟩ := hp
  have f1 := fieldLSB_lt (bytesOf src) s 11
  have f2 := fieldLSB_lt (bytesOf src) (s + 11) 11
  have f3 := fieldLSB_lt (bytesOf src) (s + 22) 4
  have f4 := fieldLSB_lt (bytesOf src) (s + 26) 4
  obtain ⟨p1, a1, g1, hat⟩ := hR.get hat (n := 11) (by omega) (by omega) (by show _ ≤ _; omega)
  obtain ⟨p2, a2, g2, hat⟩ := hR.get hat (n := 11) (by omega) (by omega) (by show _ ≤ _; omega)
  obtain ⟨p3, a3, g3, hat⟩ := hR.get hat (n := 4) (by omega) (by omega) (by show _ ≤ _; omega)
  obtain ⟨p4, a4, g4, hat⟩ := hR.get hat (n := 4) (by omega) (by omega) (by show _ ≤ _; omega)
  unfold arw2Group
  dsimp only
  rw [g1, ok_bind]
  dsimp only
  rw [g2, ok_bind]
  dsimp only
  rw [subU_ok hp1, ok_bind, g3, ok_bind]
  dsimp only
  rw [show s + 11 + 11 = s + 22 by omega] at g4 ⊢
  rw [show s + 22 + 4 = s + 26 by omega] at g4
  rw [g4, ok_bind]
  dsimp only
  rw [show s + 11 + 11 + 4 + 4 = s + 30 by omega] at hat
  rw [arw2_shift (by omega)]
  have hs : ∀ i, arw2Sample (bytesOf src) s i = if i = fieldLSB (bytesOf src) (s + 22) 4 then fieldLSB (bytesOf src) s 11
      else if i = fieldLSB (bytesOf src) (s + 26) 4 then fieldLSB (bytesOf src) (s + 11) 11
      else Nat.min 2047 (fieldLSB (bytesOf src) (s + 11) 11 + fieldLSB (bytesOf src) (s + 30 + 7 * arw2Rank (fieldLSB (bytesOf src) (s + 22) 4) (fieldLSB (bytesOf src) (s + 26) 4) i) 7 *
        2 ^ arw2Shift (fieldLSB (bytesOf src) s 11 - fieldLSB (bytesOf src) (s + 11) 11)) := fun i => rfl
  have hslt := arw2Sample_lt (bytesOf src) s
  generalize arw2Sample (bytesOf src) s = smp at *
  generalize fieldLSB (bytesOf src) s 11 = max at *
  generalize fieldLSB (bytesOf src) (s + 11) 11 = min at *
  generalize fieldLSB (bytesOf src) (s + 22) 4 = imax at *
  generalize fieldLSB (bytesOf src) (s + 26) 4 = imin at *
  obtain ⟨s', k1, k2, k3, a', k4⟩ := forRange_inv (P := fun i (t : List Nat × Nat × Pump) =>
      t.1 = (List.range 32).map (fun x => if x % 2 = j ∧ x / 2 < i then val (2 * smp (x / 2)) (mwcAfter seed (k + x / 2)) else g x) ∧ t.2.1 = mwcAfter seed (k + i) ∧
      ∃ a, AtLSB src t.2.2 (s + 30 + 7 * arw2Rank imax imin i) a) (lo := 0) (hi := 16) (s := ((List.range 32).map g, mwcAfter seed k, p4)) (f := fun i s => do
    let (val, p) ← arw2Value b max min (arw2Shift (max - min)) imax imin i s.2.2
    let (v, random) ← tbl.dither b (val <<< 1 % 65536) s.2.1
    let out ← setIdx s.1 (j + i * 2) v
    .ok (out, random, p)) (by omega) ⟨map_range_congr fun x _ => by rw [if_neg (by omega)], by rw [Nat.add_zero], a4, by
      show AtLSB src p4 (s + 30 + 7 * (0 - _)) a4
      rw [Nat.zero_sub]; exact hat⟩ (by
    rintro i ⟨out, rand, p⟩ _ hi ⟨e1, e2, a, hat⟩
    dsimp only at e1 e2 hat ⊢
    have hrank : arw2Rank imax imin i ≤ 13 ∨ i = imax ∨ i = imin := by unfold arw2Rank; split <;> split <;> omega
    obtain ⟨p', a', v1, v2⟩ := arw2Value_ok b (max := max) (min := min) (shift := arw2Shift (max - min)) (imax := imax) (imin := imin) (i := i) f2 (arw2Shift_le _) hat (by omega)
    rw [v1, ok_bind]
    dsimp only
    rw [← hs i]
    have := hslt i
    rw [show smp i <<< 1 % 65536 = 2 * smp i by rw [Nat.shiftLeft_eq]; omega, e2, hd _ _ (by omega) (mwcAfter_lt hseed _), ok_bind]
    dsimp only
    rw [e1, set_map_range _ _ (by omega), ok_bind, ← mwcAfter_succ]
    refine ⟨_, rfl, map_range_congr fun x hx => ?_, rfl, a', ?_⟩
    · by_cases hx1 : x = j + i * 2
      · rw [if_pos hx1, if_pos (by omega), show x / 2 = i by omega]
      · rw [if_neg hx1]
        by_cases hx2 : x % 2 = j ∧ x / 2 < i
        · rw [if_pos hx2, if_pos (by omega)]
        · rw [if_neg hx2, if_neg (by omega)]
    · have e : (if i = imax ∨ i = imin then s + 30 + 7 * arw2Rank imax imin i else s + 30 + 7 * arw2Rank imax imin i + 7) = s + 30 + 7 * arw2Rank imax imin (i + 1) := by
        unfold arw2Rank
        split <;> split <;> split <;> split <;> split <;> omega
      rw [← e]; exact v2)
  obtain ⟨o, rn, p5⟩ := s'
  dsimp only at k2 k3 k4
  refine ⟨p5, a', ?_, ?_⟩
  · rw [k1, k2, k3]
    congr 2
    exact map_range_congr fun x hx => by
      by_cases hx1 : x % 2 = j
      · rw [if_pos ⟨hx1, by omega⟩, if_pos hx1]
      · rw [if_neg (by omega), if_neg hx1]
  · have e : s + 30 + 7 * arw2Rank imax imin 16 = s + 128 := by unfold arw2Rank; rw [if_pos (by omega), if_pos (by omega)]
    rw [← e]; exact k4

theorem arw2Chunk_ok (b : Build) {src : Bytes} {tbl : LookupTable} {val : Nat → Nat → Nat} (hd : Dithers b tbl val) {i : Nat}
    (hev : ∀ j, j < 2 → arw2Proper (bytesOf src) (256 * i + 128 * j)) (hlim : 256 * i + 256 ≤ 32 * (src.length / 4)) {seed : Nat} (hseed : seed < 2 ^ 32) {p : Pump} {a : Nat}
    (hat : AtLSB src p (256 * i) a) :
    ∃ p' a', forRange 0 2 (arw2Group b tbl) (List.replicate 32 0, mwcAfter seed (32 * i), p) =
      .ok ((List.range 32).map fun x => val (2 * arw2Sample (bytesOf src) (128 * ((32 * i + x) / 32 * 2 + (32 * i + x) % 2)) ((32 * i + x) % 32 / 2))
        (mwcAfter seed (arw2Order (32 * i + x))), mwcAfter seed (32 * (i + 1)), p') ∧ AtLSB src p' (256 * (i + 1)) a' := by
  obtain ⟨p1, a1, k1, hat⟩ := arw2Group_ok b hd (hev 0 (by omega)) (by omega) hseed (32 * i) (fun _ => 0) (j := 0) (by omega) hat
  obtain ⟨p2, a2, k2, hat⟩ := arw2Group_ok b hd (hev 1 (by omega)) (by omega) hseed (32 * i + 16) (fun x => if x % 2 = 0 then
    val (2 * arw2Sample (bytesOf src) (256 * i + 128 * 0) (x / 2)) (mwcAfter seed (32 * i + x / 2)) else 0) (j := 1) (by omega) hat
  refine ⟨p2, a2, ?_, by rw [show 256 * (i + 1) = 256 * i + 128 * 1 + 128 by omega]; exact hat⟩
  rw [replicate_map_range, forRange_cons _ (by omega), k1, ok_bind, forRange_cons _ (by omega), k2, ok_bind, forRange_nil (by omega)]
  refine congrArg (fun l => (Except.ok (l, mwcAfter seed (32 * i + 16 + 16), p2) : M (List Nat × Nat × Pump))) (map_range_congr fun x hx => ?_)
  unfold arw2Order
  rw [show (32 * i + x) / 32 = i by omega, show (32 * i + x) % 2 = x % 2 by omega, show (32 * i + x) % 32 / 2 = x / 2 by omega]
  by_cases hx2 : x % 2 = 1
  · rw [if_pos hx2, hx2, show 256 * i + 128 * 1 = 128 * (i * 2 + 1) by omega, show 32 * i + 16 + x / 2 = i * 32 + 1 * 16 + x / 2 by omega]
  · rw [if_neg hx2, if_pos (by omega), show x % 2 = 0 by omega, show 256 * i + 128 * 0 = 128 * (i * 2 + 0) by omega, show 32 * i + x / 2 = i * 32 + 0 * 16 + x / 2 by omega]

theorem arw2Row_ok (b : Build) {src : Bytes} {tbl : LookupTable} {val : Nat → Nat → Nat} (hd : Dithers b tbl val) {q : Nat}
    (hp : ∀ i j, i < q → j < 2 → arw2Proper (bytesOf src) (256 * i + 128 * j)) (hlim : 32 * q ≤ src.length) {seed : Nat} (hseed : seed < 2 ^ 32) {p : Pump} {a : Nat}
    (hat : AtLSB src p 0 a) :
    ∃ s', Ljpeg.foldChunks (fun o (s : Nat × Pump) => do
        let r ← forRange 0 2 (arw2Group b tbl) (o, s.1, s.2)
        .ok (r.1, r.2)) (chunks 32 (List.replicate (32 * q) 0)) (seed, p) =
      .ok ((List.range (32 * q)).map fun c => val (2 * arw2Sample (bytesOf src) (128 * (c / 32 * 2 + c % 2)) (c % 32 / 2)) (mwcAfter seed (arw2Order c)), s') := by
  obtain ⟨hcl, hce⟩ := chunks_replicate (n := 32) (k := q) (by omega)
  generalize chunks 32 (List.replicate (32 * q) 0) = cs at hcl hce ⊢
  obtain ⟨s', f1, _⟩ := foldChunks_ok (f := fun o (s : Nat × Pump) => do
      let r ← forRange 0 2 (arw2Group b tbl) (o, s.1, s.2)
      .ok (r.1, r.2)) (fun i (s : Nat × Pump) => s.1 = mwcAfter seed (32 * i) ∧ ∃ a, AtLSB src s.2 (256 * i) a)
    (fun i => (List.range 32).map fun x => val (2 * arw2Sample (bytesOf src) (128 * ((32 * i + x) / 32 * 2 + (32 * i + x) % 2)) ((32 * i + x) % 32 / 2))
        (mwcAfter seed (arw2Order (32 * i + x))))
    cs 0 (seed, p) ⟨rfl, a, hat⟩ (by
      rintro i ⟨rand, p⟩ hi ⟨e1, a, hat⟩
      rw [hcl] at hi
      rw [Nat.zero_add] at e1 hat ⊢
      dsimp only at e1 hat ⊢
      rw [hce i (by rw [hcl]; exact hi), e1]
      obtain ⟨p', a', k1, hat⟩ := arw2Chunk_ok b hd (fun j hj => hp i j hi hj) (by omega) hseed hat
      rw [k1, ok_bind]
      exact ⟨(mwcAfter seed (32 * (i + 1)), p'), by dsimp only, by dsimp only, a', hat⟩)
  refine ⟨s', ?_⟩
  rw [f1, hcl, ← List.range_eq_range',
    ← raster_eq_flatMap 32 q (fun i x => val (2 * arw2Sample (bytesOf src) (128 * ((32 * i + x) / 32 * 2 + (32 * i + x) % 2)) ((32 * i + x) % 32 / 2)) (mwcAfter seed (arw2Order (32 * i + x))))]
  refine congrArg (fun l => (Except.ok (l, s') : M (List Nat × Nat × Pump))) ?_
  unfold raster
  exact map_range_congr fun x hx => by dsimp only; rw [Nat.div_add_mod]

/-- C62. A buffer of one byte per sample, in which every group makes sense, decodes to the dithered curve at twice the sample (the curve has two entries per sample value). The generator
behind the dithering is started anew on every line, from its first three bytes, and advances in the order of storage. -/
theorem arw2_exact (b : Build) (t : List Nat) (ht : 4095 ≤ t.length) (hg : ∀ i, i < t.length → gentle t i) (buf : Bytes) (w h : Nat) (hw : 0 < w) (hw32 : w % 32 = 0)
    (hlen : w * h ≤ buf.length) (hp : ∀ r c, r < h → c < w → arw2Proper (bytesOf buf) (arw2At w r c)) :
    (do let tbl ← LookupTable.new b t
        decodeArw2 b buf w h tbl) = .ok (raster w h fun r c =>
      dithered (t[2 * arw2Sample (bytesOf buf) (arw2At w r c) (c % 32 / 2)]?.getD 0)
        (above t (2 * arw2Sample (bytesOf buf) (arw2At w r c) (c % 32 / 2)) - below t (2 * arw2Sample (bytesOf buf) (arw2At w r c) (c % 32 / 2)))
        (mwcAfter (bytesOf buf (r * w + 2) * 65536 + bytesOf buf (r * w + 1) * 256 + bytesOf buf (r * w)) (arw2Order c))) := by
  obtain ⟨tbl, h1, h2⟩ := dither_exact b t hg
  rw [h1, ok_bind]
  unfold decodeArw2
  apply decodeThreaded_eq hw
  intro r hr
  have hrow : (r + 1) * w ≤ h * w := Nat.mul_le_mul_right _ hr
  rw [Nat.add_mul, Nat.one_mul, Nat.mul_comm h] at hrow
  rw [sliceFrom_le (by omega), ok_bind]
  have hsl : w ≤ (buf.drop (r * w)).length := by rw [List.length_drop]; omega
  have hst : bytesOf (buf.drop (r * w)) = fun i => bytesOf buf (r * w + i) := funext fun i => Spec.bytesOf_drop _ _ _
  obtain ⟨p0, a0, g1, hat, _⟩ := (readsLSB b (buf.drop (r * w))).peek _ _ _ 24 (atLSB_new _) (by omega) (by show _ ≤ _; omega)
  have hseedv : fieldLSB (bytesOf (buf.drop (r * w))) 0 24 = bytesOf buf (r * w + 2) * 65536 + bytesOf buf (r * w + 1) * 256 + bytesOf buf (r * w) := by
    have hb := bytesOf_lt (buf.drop (r * w))
    have e : (24 : Nat) = 8 + (8 + 8) := rfl
    rw [e, fieldLSB_add, fieldLSB_add, show (0 : Nat) = 8 * 0 by rfl, fieldLSB_byte _ hb, show 8 * 0 + 8 = 8 * 1 by rfl, fieldLSB_byte _ hb, show 8 * 1 + 8 = 8 * 2 by rfl,
      fieldLSB_byte _ hb, hst]
    simp only [Nat.add_zero]
    omega
  have hseed : fieldLSB (bytesOf (buf.drop (r * w))) 0 24 < 2 ^ 32 := Nat.lt_of_lt_of_le (fieldLSB_lt _ _ _) (by decide)
  rw [hseedv] at g1 hseed
  rw [g1, ok_bind]
  dsimp only
  generalize bytesOf buf (r * w + 2) * 65536 + bytesOf buf (r * w + 1) * 256 + bytesOf buf (r * w) = seed at *
  have hd : Dithers b tbl fun i rand => dithered (t[i]?.getD 0) (above t i - below t i) rand := fun i rand hi hr => h2 i rand (by omega) hr
  obtain ⟨q, hq⟩ : ∃ q, w = 32 * q := ⟨w / 32, by omega⟩
  obtain ⟨s', e⟩ := arw2Row_ok b (q := q) hd (src := buf.drop (r * w)) (fun i j hi hj => by
    have := hp r (32 * i + j) hr (by omega)
    unfold arw2At at this
    rw [show (32 * i + j) / 32 = i by omega, show (32 * i + j) % 2 = j by omega] at this
    rw [show 256 * i + 128 * j = 128 * (i * 2 + j) by omega]
    revert this
    unfold arw2Proper
    simp only [hst, fieldLSB_shift, Nat.add_assoc]
    exact id) (by omega) hseed hat
  rw [← hq] at e
  rw [e, ok_bind]
  refine congrArg Except.ok (map_range_congr fun c _ => ?_)
  have hsamp : ∀ s i, arw2Sample (bytesOf (buf.drop (r * w))) s i = arw2Sample (bytesOf buf) (8 * (r * w) + s) i := by
    intro s i
    unfold arw2Sample
    simp only [hst, fieldLSB_shift, Nat.add_assoc]
  simp only [hsamp]
  rfl

/-! ## The round trip -/

theorem mod256_bit (x r : Nat) (hr : r < 8) : x % 256 / 2 ^ r % 2 = x / 2 ^ r % 2 := by
  obtain rfl | rfl | rfl | rfl | rfl | rfl | rfl | rfl : r = 0 ∨ r = 1 ∨ r = 2 ∨ r = 3 ∨ r = 4 ∨ r = 5 ∨ r = 6 ∨ r = 7 := by omega
  all_goals omega

/-- A field of a number that is stored as sixteen bytes, the lowest first. -/
theorem fieldLSB_number {st : Nat → Nat} {k N : Nat} (h : ∀ i, i < 16 → st (k + i) = N / 256 ^ i % 256) (c : Nat) : ∀ n, c + n ≤ 128 → fieldLSB st (8 * k + c) n = N / 2 ^ c % 2 ^ n := by
  intro n
  induction n with
  | zero => intro _; rw [fieldLSB, Nat.pow_zero, Nat.mod_one]
  | succ n ih =>
    intro hn
    rw [fieldLSB, ih (by omega), bitLSB, show (8 * k + c + n) / 8 = k + (c + n) / 8 by omega, show (8 * k + c + n) % 8 = (c + n) % 8 by omega, h _ (by omega), mod256_bit _ _ (by omega),
      Nat.div_div_eq_div_mul, show (256 : Nat) = 2 ^ 8 by rfl, ← Nat.pow_mul, ← Nat.pow_add, show 8 * ((c + n) / 8) + (c + n) % 8 = c + n by omega, Nat.pow_add 2 c n, ← Nat.div_div_eq_div_mul,
      Nat.pow_succ, Nat.mod_mul]

theorem joinLSB_field : ∀ (ns vs : List Nat) (k : Nat) {n v : Nat}, ns[k]? = some n → vs[k]? = some v →
    (∀ (i n v : Nat), ns[i]? = some n → vs[i]? = some v → v < 2 ^ n) → joinLSB ns vs / 2 ^ (ns.take k).sum % 2 ^ n = v := by
  intro ns
  induction ns with
  | nil => intro vs k n v h1; simp at h1
  | cons m ns ih =>
    intro vs k n v h1 h2 hb
    cases vs with
    | nil => simp at h2
    | cons u vs =>
      have hu := hb 0 m u rfl rfl
      cases k with
      | zero =>
        simp only [List.getElem?_cons_zero, Option.some.injEq] at h1 h2
        subst h1 h2
        rw [joinLSB, List.take_zero, List.sum_nil, Nat.pow_zero, Nat.div_one, Nat.add_mul_mod_self_left, Nat.mod_eq_of_lt hu]
      | succ k =>
        rw [List.getElem?_cons_succ] at h1 h2
        rw [joinLSB, List.take_succ_cons, List.sum_cons, Nat.pow_add, ← Nat.div_div_eq_div_mul, Nat.add_mul_div_left _ _ (Nat.pow_pos (by omega)), Nat.div_eq_of_lt hu, Nat.zero_add]
        exact ih vs k h1 h2 fun i n v e1 e2 => hb (i + 1) n v (by simpa using e1) (by simpa using e2)

private theorem others_rank_fin : ∀ a c i : Fin 16, a ≠ c → i ≠ a → i ≠ c →
    ((List.range 16).filter fun i => i ≠ a.val ∧ i ≠ c.val)[arw2Rank a c i]? = some i.val ∧ arw2Rank a c i < 14 := by decide +kernel

theorem others_rank {a c i : Nat} (ha : a < 16) (hc : c < 16) (hi : i < 16) (h1 : a ≠ c) (h2 : i ≠ a) (h3 : i ≠ c) :
    ((List.range 16).filter fun i => i ≠ a ∧ i ≠ c)[arw2Rank a c i]? = some i ∧ arw2Rank a c i < 14 :=
  others_rank_fin ⟨a, ha⟩ ⟨c, hc⟩ ⟨i, hi⟩ (by simpa using h1) (by simpa using h2) (by simpa using h3)

theorem widths_sum : ∀ k, k < 14 → (([11, 11, 4, 4] ++ List.replicate 14 7).take (4 + k)).sum = 30 + 7 * k ∧ ([11, 11, 4, 4] ++ List.replicate 14 7)[4 + k]? = some 7 := by decide +kernel

section
variable {g : Arw2Group} (hg : g.Ok)
include hg

theorem Arw2Group.Ok.code_lt {i : Nat} (hi : i < 16) : g.code i < 128 := by
  have h1 := hg.le i hi
  have h2 := hg.small
  unfold Arw2Group.code Arw2Group.step arw2Shift
  generalize g.v i = x at *
  generalize g.v g.imax = y at *
  generalize g.v g.imin = z at *
  split
  · omega
  · split
    · omega
    · split
      · omega
      · split <;> omega

theorem Arw2Group.Ok.fields {k n v : Nat} (h1 : ([11, 11, 4, 4] ++ List.replicate 14 7)[k]? = some n) (h2 : ([g.v g.imax, g.v g.imin, g.imax, g.imin] ++ g.others.map g.code)[k]? = some v) :
    g.number / 2 ^ (([11, 11, 4, 4] ++ List.replicate 14 7).take k).sum % 2 ^ n = v := by
  refine joinLSB_field _ _ k h1 h2 ?_
  intro i n v e1 e2
  have hs := hg.small
  have hge := hg.ge _ hg.imax
  by_cases hi : i < 4
  · obtain rfl | rfl | rfl | rfl : i = 0 ∨ i = 1 ∨ i = 2 ∨ i = 3 := by omega
    all_goals
      simp only [List.cons_append, List.nil_append, List.getElem?_cons_zero, List.getElem?_cons_succ, Option.some.injEq] at e1 e2
      subst e1 e2
    · exact hs
    · show _ < 2048; omega
    · exact hg.imax
    · exact hg.imin
  · rw [List.getElem?_append_right (by simp; omega)] at e1 e2
    simp only [List.length_cons, List.length_nil, List.getElem?_replicate, List.getElem?_map] at e1 e2
    split at e1
    · simp only [Option.some.injEq] at e1
      rw [Option.map_eq_some_iff] at e2
      obtain ⟨j, hj, e2⟩ := e2
      subst e1 e2
      have := List.mem_of_getElem? hj
      unfold Arw2Group.others at this
      rw [List.mem_filter, List.mem_range] at this
      exact Arw2Group.Ok.code_lt hg this.1
    · cases e1

theorem Arw2Group.Ok.kept_le {i : Nat} (hi : i < 16) : g.kept i ≤ g.v i := by
  unfold Arw2Group.kept
  split
  · exact Nat.le_refl _
  · have h1 := hg.ge i hi
    have := Nat.div_mul_le_self (g.v i - g.v g.imin) g.step
    unfold Arw2Group.code
    omega

/-- What is kept of a sample is less than a step below it, and it is the sample itself if the samples of the group span less than 128. -/
theorem arw2_kept {i : Nat} (hi : i < 16) : g.kept i ≤ g.v i ∧ g.v i < g.kept i + g.step ∧ (g.v g.imax < g.v g.imin + 128 → g.kept i = g.v i) ∧ (i = g.imax ∨ i = g.imin → g.kept i = g.v i) ∧
    g.step ≤ 16 := by
  have h0 : 0 < g.step := Nat.pow_pos (by omega)
  have h1 := hg.ge i hi
  refine ⟨Arw2Group.Ok.kept_le hg hi, ?_, ?_, ?_, ?_⟩
  · unfold Arw2Group.kept
    split
    · omega
    · unfold Arw2Group.code
      have := Nat.lt_div_mul_add h0 (a := g.v i - g.v g.imin)
      omega
  · intro hsmall
    unfold Arw2Group.kept Arw2Group.code
    have hmm := hg.ge _ hg.imax
    have e : g.step = 1 := by unfold Arw2Group.step arw2Shift; rw [if_pos (by omega)]
    rw [e]
    split <;> omega
  · intro h
    unfold Arw2Group.kept
    rw [if_pos h]
  · exact Nat.pow_le_pow_right (n := 2) (by omega) (arw2Shift_le _)

/-- Where the bytes of a group are, the stream reads as what was kept of it. -/
theorem arw2Sample_group {st : Nat → Nat} {k : Nat} (h : ∀ i, i < 16 → st (k + i) = g.number / 256 ^ i % 256) :
    arw2Proper st (8 * k) ∧ ∀ i, i < 16 → arw2Sample st (8 * k) i = g.kept i := by
  have hs := hg.small
  have hmm := hg.ge _ hg.imax
  have f1 : fieldLSB st (8 * k) 11 = g.v g.imax := (fieldLSB_number h 0 11 (by omega)).trans (Arw2Group.Ok.fields hg (k := 0) (n := 11) rfl rfl)
  have f2 : fieldLSB st (8 * k + 11) 11 = g.v g.imin := (fieldLSB_number h 11 11 (by omega)).trans (Arw2Group.Ok.fields hg (k := 1) (n := 11) rfl rfl)
  have f3 : fieldLSB st (8 * k + 22) 4 = g.imax := (fieldLSB_number h 22 4 (by omega)).trans (Arw2Group.Ok.fields hg (k := 2) (n := 4) rfl rfl)
  have f4 : fieldLSB st (8 * k + 26) 4 = g.imin := (fieldLSB_number h 26 4 (by omega)).trans (Arw2Group.Ok.fields hg (k := 3) (n := 4) rfl rfl)
  refine ⟨⟨by rw [f1, f2]; exact hmm, by rw [f3, f4]; exact hg.ne⟩, ?_⟩
  intro i hi
  unfold arw2Sample
  rw [f1, f2, f3, f4]
  have hle := Arw2Group.Ok.kept_le hg hi
  have hli := hg.le i hi
  unfold Arw2Group.kept at hle ⊢
  by_cases h1 : i = g.imax
  · rw [if_pos h1, if_pos (.inl h1), h1]
  by_cases h2 : i = g.imin
  · rw [if_neg h1, if_pos h2, if_pos (.inr h2), h2]
  rw [if_neg (by omega)] at hle
  rw [if_neg h1, if_neg h2, if_neg (by omega)]
  obtain ⟨r1, r2⟩ := others_rank hg.imax hg.imin hi hg.ne h1 h2
  obtain ⟨w1, w2⟩ := widths_sum _ r2
  have f5 : fieldLSB st (8 * k + (30 + 7 * arw2Rank g.imax g.imin i)) 7 = g.code i := by
    rw [fieldLSB_number h _ 7 (by omega), ← w1]
    refine Arw2Group.Ok.fields hg w2 ?_
    rw [List.getElem?_append_right (by simp)]
    simp only [List.length_cons, List.length_nil, List.getElem?_map]
    rw [show 4 + arw2Rank g.imax g.imin i - (0 + 1 + 1 + 1 + 1) = arw2Rank g.imax g.imin i by omega, Arw2Group.others, r1]
    rfl
  rw [Nat.add_assoc, f5]
  show Nat.min 2047 (g.v g.imin + g.code i * g.step) = _
  exact Nat.min_eq_right (by omega)

end

theorem arw2File_bytes {w h : Nat} {pix hi lo : Nat → Nat → Nat} {r k : Nat} (hr : r < h) (hk : 16 * k + 16 ≤ w) (tail : Bytes) :
    ∀ i, i < 16 → bytesOf (arw2File w h pix hi lo ++ tail) (r * w + 16 * k + i) = (arw2GroupOf pix hi lo r k).number / 256 ^ i % 256 := by
  intro i hi
  have hl := cell_lt (r := r) (c := 16 * k + i) hr (by omega : 16 * k + i < w)
  unfold bytesOf arw2File
  rw [List.getElem?_append_left (by rw [raster_length]; omega)]
  rw [show r * w + 16 * k + i = r * w + (16 * k + i) by omega, raster_getElem? w h _ r (16 * k + i) hr (by omega), show (16 * k + i) / 16 = k by omega, show (16 * k + i) % 16 = i by omega]
  dsimp only
  rw [UInt8.toNat_ofNat', Nat.mod_mod]

/-- C62. Encoding an image of 11-bit samples (with anything behind it), any largest and any smallest sample picked in each group, and decoding it gives the dithered curve at twice what was kept of each sample; by
`arw2_kept` that is the sample itself in groups that span less than 128, and less than a step below it otherwise. -/
theorem arw2_round_trip (b : Build) (t : List Nat) (ht : 4095 ≤ t.length) (hg : ∀ i, i < t.length → gentle t i) (w h : Nat) (hw : 0 < w) (hw32 : w % 32 = 0) (pix hi lo : Nat → Nat → Nat)
    (hok : ∀ r k, r < h → k < w / 16 → (arw2GroupOf pix hi lo r k).Ok) (tail : Bytes) :
    (do let tbl ← LookupTable.new b t
        decodeArw2 b (arw2File w h pix hi lo ++ tail) w h tbl) = .ok (raster w h fun r c =>
      dithered (t[2 * (arw2GroupOf pix hi lo r (c / 32 * 2 + c % 2)).kept (c % 32 / 2)]?.getD 0)
        (above t (2 * (arw2GroupOf pix hi lo r (c / 32 * 2 + c % 2)).kept (c % 32 / 2)) - below t (2 * (arw2GroupOf pix hi lo r (c / 32 * 2 + c % 2)).kept (c % 32 / 2)))
        (mwcAfter (bytesOf (arw2File w h pix hi lo ++ tail) (r * w + 2) * 65536 + bytesOf (arw2File w h pix hi lo ++ tail) (r * w + 1) * 256 + bytesOf (arw2File w h pix hi lo ++ tail) (r * w)) (arw2Order c))) := by
  have hgroup : ∀ r c, r < h → c < w → arw2Proper (bytesOf (arw2File w h pix hi lo ++ tail)) (arw2At w r c) ∧
      arw2Sample (bytesOf (arw2File w h pix hi lo ++ tail)) (arw2At w r c) (c % 32 / 2) = (arw2GroupOf pix hi lo r (c / 32 * 2 + c % 2)).kept (c % 32 / 2) := by
    intro r c hr hc
    obtain ⟨h1, h2⟩ := arw2Sample_group (hok r (c / 32 * 2 + c % 2) hr (by omega)) (arw2File_bytes (w := w) (h := h) hr (k := c / 32 * 2 + c % 2) (by omega) tail)
    rw [show 8 * (r * w + 16 * (c / 32 * 2 + c % 2)) = arw2At w r c by unfold arw2At; omega] at h1 h2
    exact ⟨h1, h2 _ (by omega)⟩
  rw [arw2_exact b t ht hg _ w h hw hw32 (by rw [List.length_append]; unfold arw2File; rw [raster_length]; omega) (fun r c hr hc => (hgroup r c hr hc).1)]
  refine congrArg Except.ok (raster_congr fun r c hr hc => ?_)
  rw [(hgroup r c hr hc).2]

theorem exists_top (v : Nat → Nat) : ∀ n, 0 < n → ∃ i, i < n ∧ ∀ j, j < n → v j ≤ v i := by
  intro n
  induction n with
  | zero => intro h; omega
  | succ n ih =>
    intro _
    by_cases h0 : n = 0
    · subst h0; exact ⟨0, by omega, fun j hj => by rw [show j = 0 by omega]⟩
    obtain ⟨i, hi, hm⟩ := ih (by omega)
    by_cases h : v i ≤ v n
    · exact ⟨n, by omega, fun j hj => by
        by_cases hjn : j = n
        · rw [hjn]
        · exact Nat.le_trans (hm j (by omega)) h⟩
    · exact ⟨i, by omega, fun j hj => by
        by_cases hjn : j = n
        · rw [hjn]; omega
        · exact hm j (by omega)⟩

/-- Every group of 11-bit samples has picks. -/
theorem arw2_picks (v : Nat → Nat) (hv : ∀ i, i < 16 → v i < 2048) : ∃ imax imin, (⟨v, imax, imin⟩ : Arw2Group).Ok := by
  obtain ⟨a, ha, ha'⟩ := exists_top v 16 (by omega)
  obtain ⟨c, hc, hc'⟩ := exists_top (fun i => 2048 - v i) 16 (by omega)
  have hmin : ∀ j, j < 16 → v c ≤ v j := fun j hj => by
    have h1 := hc' j hj
    have h2 := hv j hj
    have h3 := hv c hc
    omega
  by_cases h : a = c
  · have e : ∀ i, i < 16 → v i = v c := fun i hi => by
      have := ha' i hi
      have := hmin i hi
      subst h; omega
    exact ⟨0, 1, ⟨by show 0 < 16; omega, by show 1 < 16; omega, by show (0 : Nat) ≠ 1; omega, hv 0 (by omega), fun i hi => by show v i ≤ v 0; rw [e i hi, e 0 (by omega)],
      fun i hi => by show v 1 ≤ v i; rw [e i hi, e 1 (by omega)]⟩⟩
  · exact ⟨a, c, ⟨ha, hc, h, hv a ha, ha', hmin⟩⟩

/-! ## The curve -/

/-- The shape of the loops over the curve: entries up to `n` have their value, the rest is zero. -/
theorem curveSegment (b : Build) {F : Nat → Nat} {s : Nat} (hF : ∀ x, F x < 65536) {lo hi : Nat} (hle : lo ≤ hi) (hhi : hi < 4096) (hstep : ∀ x, lo ≤ x → x < hi → F (x + 1) = F x + s) :
    forRange (lo + 1) (hi + 1) (fun j out => do
      let v ← idx out (j - 1)
      let v ← addU 16 b v s
      setIdx out j v) ((List.range 4096).map fun x => if x ≤ lo then F x else 0) = .ok ((List.range 4096).map fun x => if x ≤ hi then F x else 0) := by
  obtain ⟨r, h1, h2⟩ := forRange_inv (P := fun j out => out = (List.range 4096).map fun x => if x + 1 ≤ j then F x else 0) (lo := lo + 1) (hi := hi + 1)
    (s := (List.range 4096).map fun x => if x ≤ lo then F x else 0) (f := fun j out => do
      let v ← idx out (j - 1)
      let v ← addU 16 b v s
      setIdx out j v) (by omega) (map_range_congr fun x _ => by simp only [Nat.add_le_add_iff_right]) (by
    intro j out h1 h2 e
    rw [e, idx_map_range _ (by omega), ok_bind, if_pos (by omega)]
    have hs := hstep (j - 1) (by omega) (by omega)
    rw [show j - 1 + 1 = j by omega] at hs
    rw [addU_ok (by rw [← hs]; exact hF j), ok_bind, set_map_range _ _ (by omega), ← hs]
    refine ⟨_, rfl, map_range_congr fun x _ => ?_⟩
    by_cases hx : x = j
    · rw [if_pos hx, if_pos (by omega), hx]
    · rw [if_neg hx]
      by_cases hx2 : x + 1 ≤ j
      · rw [if_pos hx2, if_pos (by omega)]
      · rw [if_neg hx2, if_neg (by omega)])
  rw [h1, h2]
  exact congrArg Except.ok (map_range_congr fun x _ => by simp only [Nat.add_le_add_iff_right])

/-- The curve of a camera as a list. -/
def sonyTable (k1 k2 k3 k4 : Nat) : List Nat := (List.range 4096).map (sonyCurve k1 k2 k3 k4)

theorem sonyCurve_lt {k1 k2 k3 k4 x : Nat} (h : x < 4096) : sonyCurve k1 k2 k3 k4 x < 65521 := by unfold sonyCurve; omega

/-- C62. Four rising knots (the tag stores them times four) give the curve that rises by 1, 2, 4, 8 and 16 per entry. -/
theorem sony_curve (b : Build) (raw : TiffIFD) (e : TiffEntry) (k : Nat → Nat) (htag : raw.fetchTag Tag.SonyCurve = .ok e) (hk : ∀ i, i < 4 → e.getU32 i = .ok (k i))
    (h1 : k 0 / 4 ≤ k 1 / 4) (h2 : k 1 / 4 ≤ k 2 / 4) (h3 : k 2 / 4 ≤ k 3 / 4) (h4 : k 3 / 4 < 4096) :
    getCurve b raw = LookupTable.new b (sonyTable (k 0 / 4) (k 1 / 4) (k 2 / 4) (k 3 / 4)) := by
  have hand : ∀ x, x / 4 < 4096 → (x >>> 2) &&& 0xfff = x / 4 := by
    intro x hx
    rw [Nat.shiftRight_eq_div_pow, show (0xfff : Nat) = 2 ^ 12 - 1 by rfl, Nat.and_two_pow_sub_one_eq_mod]
    exact Nat.mod_eq_of_lt hx
  unfold getCurve
  rw [htag, ok_bind]
  have hl : forRange 0 4 (fun i curve => do
      let v ← e.getU32 i
      setIdx curve (i + 1) ((v >>> 2) &&& 0xfff)) [0, 0, 0, 0, 0, 4095] = .ok [0, k 0 / 4, k 1 / 4, k 2 / 4, k 3 / 4, 4095] := by
    rw [forRange_cons _ (by omega), hk 0 (by omega), ok_bind, hand _ (by omega), setIdx_lt (by simp), ok_bind,
      forRange_cons _ (by omega), hk 1 (by omega), ok_bind, hand _ (by omega), setIdx_lt (by simp), ok_bind,
      forRange_cons _ (by omega), hk 2 (by omega), ok_bind, hand _ (by omega), setIdx_lt (by simp), ok_bind,
      forRange_cons _ (by omega), hk 3 (by omega), ok_bind, hand _ (by omega), setIdx_lt (by simp), ok_bind, forRange_nil (by omega)]
    rfl
  rw [hl, ok_bind]
  generalize k 0 / 4 = a1 at *
  generalize k 1 / 4 = a2 at *
  generalize k 2 / 4 = a3 at *
  generalize k 3 / 4 = a4 at *
  rw [show idx [0, a1, a2, a3, a4, 4095] 5 = .ok 4095 by rfl, ok_bind, replicate_map_range, show 4095 + 1 = 4096 by rfl]
  have hF : ∀ x, (if x < 4096 then sonyCurve a1 a2 a3 a4 x else 0) < 65536 := fun x => by
    split
    · exact Nat.lt_of_lt_of_le (sonyCurve_lt (by assumption)) (by omega)
    · omega
  have seg : ∀ lo hi s, lo ≤ hi → hi < 4096 → (∀ x, lo ≤ x → x < hi → sonyCurve a1 a2 a3 a4 (x + 1) = sonyCurve a1 a2 a3 a4 x + s) → forRange (lo + 1) (hi + 1) (fun j out => do
      let v ← idx out (j - 1)
      let v ← addU 16 b v s
      setIdx out j v) ((List.range 4096).map fun x => if x ≤ lo then (if x < 4096 then sonyCurve a1 a2 a3 a4 x else 0) else 0) =
      .ok ((List.range 4096).map fun x => if x ≤ hi then (if x < 4096 then sonyCurve a1 a2 a3 a4 x else 0) else 0) := by
    intro lo hi s hle hhi hs
    refine curveSegment b hF hle hhi ?_
    intro x hx1 hx2
    rw [if_pos (by omega), if_pos (by omega), hs x hx1 hx2]
  have h0 : (List.range 4096).map (fun _ => 0) = (List.range 4096).map fun x => if x ≤ 0 then (if x < 4096 then sonyCurve a1 a2 a3 a4 x else 0) else 0 := by
    refine map_range_congr fun x _ => ?_
    split
    · unfold sonyCurve; omega
    · rfl
  rw [h0, forRange_cons _ (by omega), show idx [0, a1, a2, a3, a4, 4095] 0 = .ok 0 by rfl, ok_bind, show idx [0, a1, a2, a3, a4, 4095] (0 + 1) = .ok a1 by rfl, ok_bind,
    seg 0 a1 (1 <<< 0) (by omega) (by omega) (fun x _ _ => by unfold sonyCurve; simp only [Nat.shiftLeft_eq]; omega), ok_bind,
    forRange_cons _ (by omega), show idx [0, a1, a2, a3, a4, 4095] (0 + 1) = .ok a1 by rfl, ok_bind, show idx [0, a1, a2, a3, a4, 4095] (0 + 1 + 1) = .ok a2 by rfl, ok_bind,
    seg a1 a2 (1 <<< (0 + 1)) (by omega) (by omega) (fun x _ _ => by unfold sonyCurve; simp only [Nat.shiftLeft_eq]; omega), ok_bind,
    forRange_cons _ (by omega), show idx [0, a1, a2, a3, a4, 4095] (0 + 1 + 1) = .ok a2 by rfl, ok_bind, show idx [0, a1, a2, a3, a4, 4095] (0 + 1 + 1 + 1) = .ok a3 by rfl, ok_bind,
    seg a2 a3 (1 <<< (0 + 1 + 1)) (by omega) (by omega) (fun x _ _ => by unfold sonyCurve; simp only [Nat.shiftLeft_eq]; omega), ok_bind,
    forRange_cons _ (by omega), show idx [0, a1, a2, a3, a4, 4095] (0 + 1 + 1 + 1) = .ok a3 by rfl, ok_bind, show idx [0, a1, a2, a3, a4, 4095] (0 + 1 + 1 + 1 + 1) = .ok a4 by rfl, ok_bind,
    seg a3 a4 (1 <<< (0 + 1 + 1 + 1)) (by omega) (by omega) (fun x _ _ => by unfold sonyCurve; simp only [Nat.shiftLeft_eq]; omega), ok_bind,
    forRange_cons _ (by omega), show idx [0, a1, a2, a3, a4, 4095] (0 + 1 + 1 + 1 + 1) = .ok a4 by rfl, ok_bind, show idx [0, a1, a2, a3, a4, 4095] (0 + 1 + 1 + 1 + 1 + 1) = .ok 4095 by rfl, ok_bind,
    seg a4 4095 (1 <<< (0 + 1 + 1 + 1 + 1)) (by omega) (by omega) (fun x _ _ => by unfold sonyCurve; simp only [Nat.shiftLeft_eq]; omega), ok_bind, forRange_nil (by omega), ok_bind]
  refine congrArg (LookupTable.new b) (map_range_congr fun x hx => ?_)
  rw [if_pos (by omega), if_pos hx]

/-- With the first knot at eight or more the curve is gentle. -/
theorem sonyTable_gentle {k1 k2 k3 k4 : Nat} (h0 : 8 ≤ k1) (h1 : k1 ≤ k2) (h2 : k2 ≤ k3) (h3 : k3 ≤ k4) : ∀ i, i < (sonyTable k1 k2 k3 k4).length → gentle (sonyTable k1 k2 k3 k4) i := by
  intro i hi
  have hlen : (sonyTable k1 k2 k3 k4).length = 4096 := by simp [sonyTable]
  rw [hlen] at hi
  have hget : ∀ x, x < 4096 → (sonyTable k1 k2 k3 k4)[x]?.getD 0 = sonyCurve k1 k2 k3 k4 x := fun x hx => by simp [sonyTable, hx]
  have s1 : ∀ x, sonyCurve k1 k2 k3 k4 x + 1 ≤ sonyCurve k1 k2 k3 k4 (x + 1) ∧ sonyCurve k1 k2 k3 k4 (x + 1) ≤ sonyCurve k1 k2 k3 k4 x + 16 := fun x => by
    unfold sonyCurve
    constructor <;> omega
  have s2 : ∀ x, x ≤ k1 → sonyCurve k1 k2 k3 k4 x = x := fun x hx => by unfold sonyCurve; omega
  have s3 : ∀ x, x ≤ sonyCurve k1 k2 k3 k4 x := fun x => by unfold sonyCurve; omega
  have s4 := sonyCurve_lt (k1 := k1) (k2 := k2) (k3 := k3) (k4 := k4) hi
  have t1 := s1 i
  have t3 := s3 i
  unfold gentle below above
  rw [hlen, hget i hi, hget 0 (by omega)]
  by_cases hi0 : i = 0
  · subst hi0
    rw [if_pos rfl, if_pos (by omega), hget _ (by omega), s2 0 (by omega), s2 (0 + 1) (by omega)]
    omega
  rw [if_neg hi0, hget (i - 1) (by omega)]
  have t0 := s1 (i - 1)
  rw [show i - 1 + 1 = i by omega] at t0
  by_cases hs : i < 8
  · rw [if_pos (by omega), hget _ (by omega), s2 i (by omega), s2 (i + 1) (by omega), s2 (i - 1) (by omega)]
    omega
  by_cases hi1 : i + 1 < 4096
  · rw [if_pos hi1, hget _ hi1]
    omega
  · rw [if_neg hi1]
    omega

/-- C62, with the curve from the file. The first knot has to be at eight or more; see `sony_curve_steep` for why. -/
theorem arw2_file (b : Build) (raw : TiffIFD) (e : TiffEntry) (k : Nat → Nat) (htag : raw.fetchTag Tag.SonyCurve = .ok e) (hk : ∀ i, i < 4 → e.getU32 i = .ok (k i))
    (h0 : 8 ≤ k 0 / 4) (h1 : k 0 / 4 ≤ k 1 / 4) (h2 : k 1 / 4 ≤ k 2 / 4) (h3 : k 2 / 4 ≤ k 3 / 4) (h4 : k 3 / 4 < 4096)
    (w h : Nat) (hw : 0 < w) (hw32 : w % 32 = 0) (pix hi lo : Nat → Nat → Nat) (hok : ∀ r k, r < h → k < w / 16 → (arw2GroupOf pix hi lo r k).Ok) (tail : Bytes) :
    ∃ out, (do let tbl ← getCurve b raw
               decodeArw2 b (arw2File w h pix hi lo ++ tail) w h tbl) = .ok (raster w h out) ∧
      ∀ r c, r < h → c < w → ∃ v, v ≤ pix r c ∧ pix r c < v + (arw2GroupOf pix hi lo r (c / 32 * 2 + c % 2)).step ∧
        sonyCurve (k 0 / 4) (k 1 / 4) (k 2 / 4) (k 3 / 4) (2 * v) ≤ out r c + 8 ∧ out r c ≤ sonyCurve (k 0 / 4) (k 1 / 4) (k 2 / 4) (k 3 / 4) (2 * v) + 8 := by
  rw [sony_curve b raw e k htag hk h1 h2 h3 h4]
  generalize k 0 / 4 = k1 at *
  generalize k 1 / 4 = k2 at *
  generalize k 2 / 4 = k3 at *
  generalize k 3 / 4 = k4 at *
  have hlen : (sonyTable k1 k2 k3 k4).length = 4096 := by simp [sonyTable]
  have hg := sonyTable_gentle h0 h1 h2 h3
  refine ⟨_, arw2_round_trip b (sonyTable k1 k2 k3 k4) (by omega) hg w h hw hw32 pix hi lo hok tail, ?_⟩
  intro r c hr hc
  have hgo := hok r (c / 32 * 2 + c % 2) hr (by omega)
  obtain ⟨a1, a2, _⟩ := arw2_kept hgo (i := c % 32 / 2) (by omega)
  have hv : (arw2GroupOf pix hi lo r (c / 32 * 2 + c % 2)).v (c % 32 / 2) = pix r c := by
    show pix r ((c / 32 * 2 + c % 2) / 2 * 32 + (c / 32 * 2 + c % 2) % 2 + c % 32 / 2 * 2) = pix r c
    exact congrArg (pix r) (by omega)
  have hsm := Nat.lt_of_le_of_lt (hgo.le (c % 32 / 2) (by omega)) hgo.small
  rw [hv] at a1 a2 hsm
  refine ⟨_, a1, a2, ?_⟩
  generalize (arw2GroupOf pix hi lo r (c / 32 * 2 + c % 2)).kept (c % 32 / 2) = v at *
  obtain ⟨g1, g2, _, g4, _⟩ := hg (2 * v) (by omega)
  have s1 : ∀ x, sonyCurve k1 k2 k3 k4 x ≤ sonyCurve k1 k2 k3 k4 (x + 1) ∧ sonyCurve k1 k2 k3 k4 (x + 1) ≤ sonyCurve k1 k2 k3 k4 x + 16 := fun x => by
    unfold sonyCurve
    constructor <;> omega
  have hget : ∀ x, x < 4096 → (sonyTable k1 k2 k3 k4)[x]?.getD 0 = sonyCurve k1 k2 k3 k4 x := fun x hx => by simp [sonyTable, hx]
  have hrise : above (sonyTable k1 k2 k3 k4) (2 * v) - below (sonyTable k1 k2 k3 k4) (2 * v) ≤ 32 ∧ (v = 0 → above (sonyTable k1 k2 k3 k4) (2 * v) - below (sonyTable k1 k2 k3 k4) (2 * v) ≤ 16) := by
    unfold above below
    rw [hlen, if_pos (by omega), hget _ (by omega), hget _ (by omega), hget _ (by omega)]
    have t1 := s1 (2 * v)
    by_cases hv0 : v = 0
    · subst hv0
      rw [if_pos rfl]
      simp only [Nat.mul_zero] at t1 ⊢
      omega
    · have t0 := s1 (2 * v - 1)
      rw [show 2 * v - 1 + 1 = 2 * v by omega] at t0
      rw [if_neg (by omega)]
      omega
  rw [hget (2 * v) (by omega)] at g4 ⊢
  generalize above (sonyTable k1 k2 k3 k4) (2 * v) - below (sonyTable k1 k2 k3 k4) (2 * v) = rise at *
  generalize mwcAfter _ _ = rnd
  have hm : rise * (rnd % 2048) ≤ rise * 2047 := Nat.mul_le_mul_left _ (by omega)
  have hge : 2 * v ≤ sonyCurve k1 k2 k3 k4 (2 * v) := by unfold sonyCurve; omega
  unfold dithered
  split <;> omega

/-- Where the first knot is too low and the curve gets steep at once, a quarter of the local rise is more than the curve value: the table cannot be built (a panic with overflow checks). -/
theorem sony_curve_steep : LookupTable.new .debug (sonyTable 1 1 1 1) = crash := by decide +kernel

/-- A line with a gradient, 41 per column: in the even columns 3, 85, …, 1233, stored in steps of 16. -/
example (b : Build) (t : List Nat) (ht : 4095 ≤ t.length) (hg : ∀ i, i < t.length → gentle t i) :=
  arw2_round_trip b t ht hg 32 1 (by decide) (by decide) (fun _ c => 41 * c + 3) (fun _ _ => 15) (fun _ _ => 0) (by
    intro r k _ hk
    have hk' : k < 2 := hk
    refine ⟨by show 15 < 16; omega, by show 0 < 16; omega, by show 15 ≠ 0; omega, ?_, ?_, ?_⟩
    · show 41 * (k / 2 * 32 + k % 2 + 15 * 2) + 3 < 2048; omega
    · intro i hi; show 41 * (k / 2 * 32 + k % 2 + i * 2) + 3 ≤ 41 * (k / 2 * 32 + k % 2 + 15 * 2) + 3; omega
    · intro i hi; show 41 * (k / 2 * 32 + k % 2 + 0 * 2) + 3 ≤ 41 * (k / 2 * 32 + k % 2 + i * 2) + 3; omega) []

example : (List.range 16).map (arw2GroupOf (fun _ c => 41 * c + 3) (fun _ _ => 15) (fun _ _ => 0) 0 1).kept =
    [44, 124, 204, 284, 364, 444, 524, 604, 700, 780, 860, 940, 1020, 1100, 1180, 1274] := by decide +kernel

example : (arw2File 32 1 (fun _ c => 41 * c + 3) (fun _ _ => 15) (fun _ _ => 0)).take 6 = [209, 28, 192, 67, 65, 241] := by decide +kernel

end Props

import Verif.Lemmas.HuffTables
import Verif.Lemmas.Pumps
import Mathlib.Data.Nat.Bitwise
/-!
# Decoding symbols
-/

namespace Model
namespace HuffTable
open Rust Spec

theorem within_mono {limit : Option Nat} {a b : Nat} (h : within limit b) (hab : a ≤ b) : within limit a := by
  cases limit with
  | none => trivial
  | some l => exact Nat.le_trans hab h

theorem field_div (st : Nat → Nat) (c : Nat) {m n : Nat} (h : m ≤ n) : fieldMSB st c n / 2 ^ (n - m) = fieldMSB st c m := by
  have := fieldMSB_add st c m (n - m)
  rw [show m + (n - m) = n by omega] at this
  have hlt := fieldMSB_lt st (c + m) (n - m)
  rw [this, Nat.mul_comm, Nat.mul_add_div (Nat.pow_pos (by omega)), Nat.div_eq_of_lt hlt, Nat.add_zero]

theorem startsWith_iff {st : Nat → Nat} {c : Nat} {L : List Nat} (hL : Lens L) {k : Nat} (hk : k < L.length) :
    StartsWith st c L k ↔ start L k ≤ fieldMSB st c 16 ∧ fieldMSB st c 16 < start L (k + 1) := by
  rw [← starts_iff hL hk, field_div st c (hL.range k hk).2]
  exact ⟨fun h => h.2, fun h => ⟨hk, h⟩⟩

/-- Codes are distinguishable: a stream starts with at most one of them. -/
theorem startsWith_unique {st : Nat → Nat} {c : Nat} {L : List Nat} (hL : Lens L) {j k : Nat} (hj : StartsWith st c L j) (hk : StartsWith st c L k) :
    j = k :=
  locate_unique ((startsWith_iff hL hj.1).mp hj) ((startsWith_iff hL hk.1).mp hk)

theorem startsWith_exists {st : Nat → Nat} {c : Nat} {L : List Nat} (hL : Lens L) (h : fieldMSB st c 16 < kraft L) : ∃ k, StartsWith st c L k := by
  rw [← start_end (Nat.le_refl L.length)] at h
  obtain ⟨k, h1, h2⟩ := locate (Nat.le_refl _) h
  exact ⟨k, (startsWith_iff hL h1).mpr h2⟩

theorem not_startsWith {st : Nat → Nat} {c : Nat} {L : List Nat} (hL : Lens L) (h : ∀ k, ¬ StartsWith st c L k) : kraft L ≤ fieldMSB st c 16 := by
  by_contra hc
  obtain ⟨k, hk⟩ := startsWith_exists (st := st) (c := c) hL (by omega)
  exact h k hk

variable {cs : Nat → Nat} {t : HuffTable}

/-- The last code of a length. -/
theorem maxcode_le (l : Nat) (h1 : 1 ≤ l) (h16 : l ≤ 16) (hc : 0 < cs l) (V : Nat) :
    V / 2 ^ (16 - l) ≤ canonical (codeLengths cs) (cum cs l - 1) ↔ V < start (codeLengths cs) (cum cs l) := by
  have hp := cum_pred cs h1
  obtain ⟨hk, hlen⟩ := codeLengths_get cs h1 h16 (show cum cs (l - 1) ≤ cum cs l - 1 by omega) (show cum cs l - 1 < cum cs l by omega)
  have e1 := canonical_start (codeLengths_lens cs) hk
  have e2 := start_succ hk
  rw [hlen] at e1 e2
  rw [show cum cs l - 1 + 1 = cum cs l by omega, ← e1] at e2
  rw [e2, ← Nat.succ_mul]
  rw [← Nat.lt_succ_iff, Nat.div_lt_iff_lt_mul (Nat.pow_pos (by omega))]

theorem Built.max_gt (hB : Built cs t) {l : Nat} (h1 : 1 ≤ l) (h16 : l ≤ 16) {V : Nat} (h : start (codeLengths cs) (cum cs l) ≤ V) :
    ∃ m : Int, t.maxcode[l]? = some m ∧ ((V / 2 ^ (16 - l) : Nat) : Int) > m := by
  by_cases hc : 0 < cs l
  · refine ⟨_, ((hB.decode l h1 h16).used hc).2.2, ?_⟩
    have := (maxcode_le l h1 h16 hc V).not.mpr (by omega)
    omega
  · refine ⟨_, ((hB.decode l h1 h16).free (by omega)).2, ?_⟩
    generalize V / 2 ^ (16 - l) = x
    omega

theorem Built.max_le (hB : Built cs t) {l : Nat} (h1 : 1 ≤ l) (h16 : l ≤ 16) {V : Nat} (hc : 0 < cs l) (h : V < start (codeLengths cs) (cum cs l)) :
    ∃ m : Int, t.maxcode[l]? = some m ∧ ¬ ((V / 2 ^ (16 - l) : Nat) : Int) > m := by
  refine ⟨_, ((hB.decode l h1 h16).used hc).2.2, ?_⟩
  have := (maxcode_le l h1 h16 hc V).mpr h
  omega

/-- The symbol of a longer code is where the tables point. -/
theorem Built.index (hB : Built cs t) {k : Nat} (hk : k < (codeLengths cs).length) {l : Nat} (hl : (codeLengths cs).getD k 0 = l) :
    t.valptr[l]? = some (cum cs (l - 1)) ∧
    ∃ mc, t.mincode[l]? = some mc ∧ mc ≤ canonical (codeLengths cs) k ∧ cum cs (l - 1) + (canonical (codeLengths cs) k - mc) = k ∧ 0 < cs l := by
  have hr := (codeLengths_lens cs).range k hk
  have hp := codeLengths_place cs hk
  rw [hl] at hr hp
  have hc := cum_pred cs hr.1
  have hd := (hB.decode l hr.1 hr.2).used (by omega)
  refine ⟨hd.1, _, hd.2.1, ?_⟩
  have := canonical_run (L := codeLengths cs) (k := cum cs (l - 1)) (k - cum cs (l - 1)) (by
    intro j hj
    rw [(codeLengths_get cs hr.1 hr.2 (show cum cs (l - 1) ≤ cum cs (l - 1) + j by omega) (by omega)).2,
      (codeLengths_get cs hr.1 hr.2 (Nat.le_refl (cum cs (l - 1))) (by omega)).2])
  rw [show cum cs (l - 1) + (k - cum cs (l - 1)) = k by omega] at this
  rw [this]
  omega

/-! ## The 8-bit table -/

theorem entry_len {l v : Nat} (h8 : l ≤ 8) (hv : v < 256) : (l ||| (v <<< 4) % 4294967296) &&& 15 = l ∧ (l ||| (v <<< 4) % 4294967296) >>> 4 = v := by
  have e : l ||| (v <<< 4) % 4294967296 = v * 16 + l := by
    rw [Nat.mod_eq_of_lt (by rw [Nat.shiftLeft_eq]; omega), Nat.or_comm, ← Nat.shiftLeft_add_eq_or_of_lt (by omega), Nat.shiftLeft_eq]
  rw [e]
  constructor
  · rw [show 15 = 2 ^ 4 - 1 from rfl, Nat.and_two_pow_sub_one_eq_mod]; omega
  · rw [Nat.shiftRight_eq_div_pow]; omega

/-- The numbers whose first eight bits are `x`. -/
theorem short_iff {L : List Nat} (hL : Lens L) {k V : Nat} (hk : k < L.length) (h8 : L.getD k 0 ≤ 8) :
    Short L k (V / 256) ↔ start L k ≤ V ∧ V < start L (k + 1) := by
  obtain ⟨e1, e2⟩ := short_start hL hk h8
  unfold Short
  rw [e1, e2]
  generalize canonical L k * 2 ^ (8 - L.getD k 0) = a
  generalize 2 ^ (8 - L.getD k 0) = q
  omega

theorem Built.short_hit (hB : Built cs t) {k V : Nat} (hV : V < 65536) (hk : k < (codeLengths cs).length) (h8 : (codeLengths cs).getD k 0 ≤ 8)
    (hm : start (codeLengths cs) k ≤ V ∧ V < start (codeLengths cs) (k + 1)) :
    ∃ e, t.numbits[V / 256]? = some e ∧ e &&& 15 = (codeLengths cs).getD k 0 ∧ e >>> 4 = t.huffval.getD k 0 := by
  refine ⟨_, (hB.short (V / 256) (by omega)).1 k ((short_iff (codeLengths_lens cs) hk h8).mpr hm), ?_⟩
  apply entry_len h8
  have := hB.count
  rw [getD_eq (by rw [hB.vals]; omega)]
  exact hB.bytes _ (List.getElem_mem _)

theorem Built.short_miss (hB : Built cs t) {V : Nat} (hV : V < 65536)
    (hm : ∀ k, k < (codeLengths cs).length → start (codeLengths cs) k ≤ V → V < start (codeLengths cs) (k + 1) → 8 < (codeLengths cs).getD k 0) :
    t.numbits[V / 256]? = some 0 := by
  refine (hB.short (V / 256) (by omega)).2 fun k hs => ?_
  have := (short_iff (codeLengths_lens cs) hs.1 hs.2.1).mp hs
  have := hm k hs.1 this.1 this.2
  have := hs.2.1
  omega

/-! ## Bit by bit -/

variable {σ : Type} {P : PumpOps σ} {st : Nat → Nat} {limit : Option Nat} {at_ : σ → Nat → Nat → Prop}

theorem lenWalk_eq (hR : Reads P (fieldMSB st) limit at_) {c z : Nat} (hw : within limit (c + z))
    {m : Int} (hz : t.maxcode[z]? = some m) (hm : ¬ (fieldMSB st c z : Int) > m) : ∀ (d l fuel : Nat) (s : σ) (a : Nat), l + d = z → d < fuel →
    (∀ j, l ≤ j → j < z → ∃ m : Int, t.maxcode[j]? = some m ∧ (fieldMSB st c j : Int) > m) → at_ s (c + l) a →
    ∃ s' a', lenWalk P t.maxcode fuel (fieldMSB st c l) l s = .ok (fieldMSB st c z, z, s') ∧ at_ s' (c + z) a' := by
  intro d
  induction d with
  | zero =>
    intro l fuel s a hl hf _ hs
    obtain ⟨fuel, rfl⟩ : ∃ f, fuel = f + 1 := ⟨fuel - 1, by omega⟩
    have : l = z := by omega
    subst this
    refine ⟨s, a, ?_, hs⟩
    rw [lenWalk, idx_eq_ok.mpr hz, ok_bind, if_neg hm]
  | succ d ih =>
    intro l fuel s a hl hf hj hs
    obtain ⟨fuel, rfl⟩ : ∃ f, fuel = f + 1 := ⟨fuel - 1, by omega⟩
    obtain ⟨m', h1, h2⟩ := hj l (Nat.le_refl _) (by omega)
    obtain ⟨s1, a1, h3, h4⟩ := hR.get hs (show 1 ≤ 32 by omega) (by omega) (within_mono hw (by omega))
    rw [lenWalk, idx_eq_ok.mpr h1, ok_bind, if_pos h2, h3, ok_bind]
    simp only
    have e : (fieldMSB st c l <<< 1) ||| fieldMSB st (c + l) 1 = fieldMSB st c (l + 1) := by
      rw [← Nat.shiftLeft_add_eq_or_of_lt (fieldMSB_lt st (c + l) 1), Nat.shiftLeft_eq, fieldMSB_add]
    rw [e]
    exact ih (l + 1) fuel s1 a1 (by omega) (by omega) (fun j hj1 hj2 => hj j (by omega) hj2) h4

/-- Symbols the search for longer codes reports. -/
def Reachable (cs : Nat → Nat) (t : HuffTable) (k : Nat) : Prop :=
  (codeLengths cs).getD k 0 ≤ 8 ∨ (codeLengths cs).getD k 0 ≤ t.precision ∧ cum cs ((codeLengths cs).getD k 0 - 1) ≠ 255

theorem huffLen_ok {b : Build} (hB : Built cs t) (hR : Reads P (fieldMSB st) limit at_) {s : σ} {c a k : Nat} (hs : at_ s c a)
    (hk : StartsWith st c (codeLengths cs) k) (hreach : Reachable cs t k) (hw8 : within limit (c + 8)) (hw : within limit (c + (codeLengths cs).getD k 0)) :
    ∃ s' a', huffLen b P t s = .ok (t.huffval.getD k 0, s') ∧ at_ s' (c + (codeLengths cs).getD k 0) a' := by
  have hL := codeLengths_lens cs
  have hm := (startsWith_iff hL hk.1).mp hk
  have hV := fieldMSB_lt st c 16
  obtain ⟨s1, a1, p1, p2, p3, _⟩ := hR.peek s c a 8 hs (by omega) hw8
  unfold huffLen
  rw [p1, ok_bind]
  simp only
  have hx : fieldMSB st c 8 = fieldMSB st c 16 / 256 := (field_div st c (show 8 ≤ 16 by omega)).symm
  by_cases h8 : (codeLengths cs).getD k 0 ≤ 8
  · obtain ⟨e, e1, e2, e3⟩ := hB.short_hit hV hk.1 h8 hm
    rw [hx, idx_eq_ok.mpr e1, ok_bind, e2, e3, if_pos (by have := (hL.range k hk.1).1; omega)]
    obtain ⟨s2, q1, q2⟩ := hR.consume s1 c a1 ((codeLengths cs).getD k 0) p2 (by omega)
    rw [q1, ok_bind]
    exact ⟨s2, _, rfl, q2⟩
  · have h8 : 8 < (codeLengths cs).getD k 0 := by omega
    have hr := hL.range k hk.1
    have hmiss := hB.short_miss hV (by
      intro j hj j1 j2
      rw [locate_unique ⟨j1, j2⟩ hm]; exact h8)
    rw [hx, idx_eq_ok.mpr hmiss, ok_bind]
    simp only [Nat.zero_and, ne_eq, not_true, if_false]
    obtain ⟨s2, q1, q2⟩ := hR.consume s1 c a1 8 p2 p3
    rw [q1, ok_bind]
    obtain ⟨hvp, mc, hmc, hmcle, hidx, hcs⟩ := hB.index hk.1 rfl
    have hplace := codeLengths_place cs hk.1
    obtain ⟨m, m1, m2⟩ := hB.max_le hr.1 hr.2 (V := fieldMSB st c 16) hcs (by
      have := start_mono (L := codeLengths cs) (show k + 1 ≤ cum cs ((codeLengths cs).getD k 0) by omega)
      omega)
    rw [field_div st c hr.2] at m2
    obtain ⟨s3, a3, r1, r2⟩ := lenWalk_eq hR hw m1 m2 ((codeLengths cs).getD k 0 - 8) 8 11 s2 _ (by omega) (by omega) (by
      intro j j1 j2
      rw [← field_div st c (show j ≤ 16 by omega)]
      refine hB.max_gt (by omega) (by omega) ?_
      have := cum_mono cs (show j ≤ (codeLengths cs).getD k 0 - 1 by omega)
      have := start_mono (L := codeLengths cs) (show cum cs j ≤ k by omega)
      omega) q2
    rw [← hx, r1, ok_bind]
    simp only
    rcases hreach with h | h
    · omega
    · rw [if_neg (by omega), idx_eq_ok.mpr hvp, ok_bind, if_neg h.2, idx_eq_ok.mpr hmc, ok_bind, hk.2, subU_ok hmcle, ok_bind,
        addU_ok (by rw [hidx]; have := hB.count; have := hk.1; omega), ok_bind, hidx]
      have hkl : k < t.huffval.length := by rw [hB.vals]; have := hB.count; have := hk.1; omega
      rw [idx_lt hkl, ok_bind, getD_eq hkl]
      exact ⟨s3, a3, rfl, r2⟩

theorem huffLen_bad {b : Build} (hB : Built cs t) (hR : Reads P (fieldMSB st) limit at_) {s : σ} {c a : Nat} (hs : at_ s c a)
    (hno : ∀ k, ¬ StartsWith st c (codeLengths cs) k) (hprec : t.precision ≤ 16) (hw : within limit (c + 17)) :
    huffLen b P t s = fail "ljpeg: bad Huffman code" := by
  have hL := codeLengths_lens cs
  have hge := not_startsWith hL hno
  have hV := fieldMSB_lt st c 16
  obtain ⟨s1, a1, p1, p2, p3, _⟩ := hR.peek s c a 8 hs (by omega) (within_mono hw (by omega))
  unfold huffLen
  rw [p1, ok_bind]
  simp only
  have hx : fieldMSB st c 8 = fieldMSB st c 16 / 256 := (field_div st c (show 8 ≤ 16 by omega)).symm
  have hmiss := hB.short_miss hV (by
    intro j hj j1 j2
    have := start_le_kraft (codeLengths cs) (j + 1)
    omega)
  rw [hx, idx_eq_ok.mpr hmiss, ok_bind]
  simp only [Nat.zero_and, ne_eq, not_true, if_false]
  obtain ⟨s2, q1, q2⟩ := hR.consume s1 c a1 8 p2 p3
  rw [q1, ok_bind]
  obtain ⟨s3, a3, r1, r2⟩ := lenWalk_eq hR hw hB.last (by have := fieldMSB_lt st c 17; omega) 9 8 11 s2 _ (by omega) (by omega) (by
    intro j j1 j2
    rw [← field_div st c (show j ≤ 16 by omega)]
    refine hB.max_gt (by omega) (by omega) ?_
    have := start_le_kraft (codeLengths cs) (cum cs j)
    omega) q2
  rw [← hx, r1, ok_bind]
  simp only
  rw [if_pos (by omega)]

/-- Symbols the search for longer codes rejects. -/
theorem huffLen_reject {b : Build} (hB : Built cs t) (hR : Reads P (fieldMSB st) limit at_) {s : σ} {c a k : Nat} (hs : at_ s c a)
    (hk : StartsWith st c (codeLengths cs) k) (hreach : ¬ Reachable cs t k) (hw : within limit (c + (codeLengths cs).getD k 0)) :
    huffLen b P t s = fail "ljpeg: bad Huffman code" := by
  have hL := codeLengths_lens cs
  have hm := (startsWith_iff hL hk.1).mp hk
  have hV := fieldMSB_lt st c 16
  have h8 : 8 < (codeLengths cs).getD k 0 := by
    by_contra hc
    exact hreach (Or.inl (by omega))
  obtain ⟨s1, a1, p1, p2, p3, _⟩ := hR.peek s c a 8 hs (by omega) (within_mono hw (by omega))
  unfold huffLen
  rw [p1, ok_bind]
  simp only
  have hx : fieldMSB st c 8 = fieldMSB st c 16 / 256 := (field_div st c (show 8 ≤ 16 by omega)).symm
  have hr := hL.range k hk.1
  have hmiss := hB.short_miss hV (by
    intro j hj j1 j2
    rw [locate_unique ⟨j1, j2⟩ hm]; exact h8)
  rw [hx, idx_eq_ok.mpr hmiss, ok_bind]
  simp only [Nat.zero_and, ne_eq, not_true, if_false]
  obtain ⟨s2, q1, q2⟩ := hR.consume s1 c a1 8 p2 p3
  rw [q1, ok_bind]
  obtain ⟨hvp, mc, hmc, hmcle, hidx, hcs⟩ := hB.index hk.1 rfl
  have hplace := codeLengths_place cs hk.1
  obtain ⟨m, m1, m2⟩ := hB.max_le hr.1 hr.2 (V := fieldMSB st c 16) hcs (by
    have := start_mono (L := codeLengths cs) (show k + 1 ≤ cum cs ((codeLengths cs).getD k 0) by omega)
    omega)
  rw [field_div st c hr.2] at m2
  obtain ⟨s3, a3, r1, r2⟩ := lenWalk_eq hR hw m1 m2 ((codeLengths cs).getD k 0 - 8) 8 11 s2 _ (by omega) (by omega) (by
    intro j j1 j2
    rw [← field_div st c (show j ≤ 16 by omega)]
    refine hB.max_gt (by omega) (by omega) ?_
    have := cum_mono cs (show j ≤ (codeLengths cs).getD k 0 - 1 by omega)
    have := start_mono (L := codeLengths cs) (show cum cs j ≤ k by omega)
    omega) q2
  rw [← hx, r1, ok_bind]
  simp only
  by_cases hp : (codeLengths cs).getD k 0 > t.precision
  · rw [if_pos hp]
  · rw [if_neg hp, idx_eq_ok.mpr hvp, ok_bind, if_pos]
    by_contra hc
    exact hreach (Or.inr ⟨by omega, hc⟩)

/-! ## The difference -/

theorem and_top {v n : Nat} (hn : 1 ≤ n) (hv : v < 2 ^ n) : v &&& 2 ^ (n - 1) = 0 ↔ v < 2 ^ (n - 1) := by
  obtain ⟨m, rfl⟩ : ∃ m, n = m + 1 := ⟨n - 1, by omega⟩
  rw [Nat.add_sub_cancel]
  have key : v &&& 2 ^ m = (v.testBit m).toNat * 2 ^ m := by
    rw [Nat.and_two_pow]
  rw [key, Nat.testBit_eq_decide_div_mod_eq]
  have hq : 0 < 2 ^ m := Nat.pow_pos (by omega)
  rw [Nat.pow_succ] at hv
  by_cases h : v < 2 ^ m
  · rw [Nat.div_eq_of_lt h]; simp [h]
  · have : v / 2 ^ m = 1 := by
      rw [Nat.div_eq_iff hq]; omega
    rw [this]; simp; omega

theorem toI32_small {v : Nat} (h : v < 2147483648) : toI32 v = v := by
  unfold toI32
  rw [Int.bmod_eq_of_le] <;> omega

theorem pow_le_15 {n : Nat} (h : n ≤ 15) : 2 ^ n ≤ 32768 := by
  calc 2 ^ n ≤ 2 ^ 15 := Nat.pow_le_pow_right (by omega) h
    _ = 32768 := rfl

theorem huffDiff_ok {b : Build} (hR : Reads P (fieldMSB st) limit at_) {s : σ} {c a n : Nat} (hs : at_ s c a) (h1 : 1 ≤ n) (hn : n ≤ 15)
    (hw : within limit (c + n)) : ∃ s' a', huffDiff b P t s n = .ok (extend n (fieldMSB st c n), s') ∧ at_ s' (c + n) a' := by
  obtain ⟨s1, a1, g1, g2⟩ := hR.get hs (show n ≤ 32 by omega) h1 hw
  refine ⟨s1, a1, ?_, g2⟩
  have hlt := fieldMSB_lt st c n
  have hp := pow_le_15 hn
  have hp1 := pow_le_15 (show n - 1 ≤ 15 by omega)
  unfold huffDiff
  rw [if_neg (by omega), if_neg (by omega), g1, ok_bind]
  simp only
  generalize fieldMSB st c n = v at *
  have hI : toI32 v = v := toI32_small (by omega)
  have e1 : shlU 32 b 1 (n - 1) = .ok (2 ^ (n - 1)) := by
    unfold shlU
    rw [if_pos (by omega), Nat.shiftLeft_eq, Nat.one_mul, Nat.mod_eq_of_lt (by omega)]
  have e2 : shlU 32 b 1 n = .ok (2 ^ n) := by
    unfold shlU
    rw [if_pos (by omega), Nat.shiftLeft_eq, Nat.one_mul, Nat.mod_eq_of_lt (by omega)]
  rw [e1, ok_bind, e2]
  unfold extend
  have hand := and_top h1 hlt
  have h2 : ((2 : Int) ^ n) = ((2 ^ n : Nat) : Int) := by simp
  by_cases h : v < 2 ^ (n - 1)
  · rw [if_pos (hand.mpr h), if_pos h, ok_bind, hI, h2]
    generalize 2 ^ n = q at *
    have e3 : toI32 q = q := toI32_small (by omega)
    have e4 : i32Result b ((q : Int) - 1) = .ok ((q : Int) - 1) := by unfold i32Result; rw [if_pos (by omega)]
    have e5 : i32Result b ((v : Int) - ((q : Int) - 1)) = .ok ((v : Int) - ((q : Int) - 1)) := by unfold i32Result; rw [if_pos (by omega)]
    rw [e3, e4, ok_bind, e5, ok_bind]
  · rw [if_neg (hand.not.mpr h), if_neg h, hI]

end HuffTable
end Model

import Verif.Lemmas.HuffDecode
/-!
# The 13-bit lookup table
-/

namespace Model
namespace HuffTable
open Rust Spec

variable {cs : Nat → Nat} {t : HuffTable}

theorem bigWalk_eq {V z : Nat} (hz16 : z ≤ 16) (hz : z = 16 ∨ ∃ m : Int, t.maxcode[z]? = some m ∧ ¬ ((V / 2 ^ (16 - z) : Nat) : Int) > m) :
    ∀ (d l : Nat), l + d = z → (∀ j, l ≤ j → j < z → ∃ m : Int, t.maxcode[j]? = some m ∧ ((V / 2 ^ (16 - j) : Nat) : Int) > m) →
    bigWalk t.maxcode V (16 - l) (V / 2 ^ (16 - l)) l = .ok (V / 2 ^ (16 - z), z) := by
  intro d
  induction d with
  | zero =>
    intro l hl _
    have : l = z := by omega
    subst this
    by_cases h16 : l = 16
    · subst h16; rfl
    · obtain ⟨m, h1, h2⟩ := hz.resolve_left h16
      obtain ⟨n, hn⟩ : ∃ n, 16 - l = n + 1 := ⟨15 - l, by omega⟩
      rw [hn] at h2 ⊢
      rw [bigWalk, idx_eq_ok.mpr h1, ok_bind, if_neg h2]
  | succ d ih =>
    intro l hl hj
    obtain ⟨m, h1, h2⟩ := hj l (Nat.le_refl _) (by omega)
    have := ih (l + 1) (by omega) (fun j j1 j2 => hj j (by omega) j2)
    obtain ⟨n, hn⟩ : ∃ n, 16 - l = n + 1 := ⟨15 - l, by omega⟩
    rw [show 16 - (l + 1) = n by omega] at this
    rw [hn] at h2 ⊢
    rw [bigWalk, idx_eq_ok.mpr h1, ok_bind, if_pos h2, ← this]
    congr 1
    rw [show 15 - l = n by omega, Nat.and_one_is_mod, ← Nat.shiftLeft_add_eq_or_of_lt (by omega), Nat.shiftLeft_eq, Nat.shiftRight_eq_div_pow,
      Nat.pow_succ, ← Nat.div_div_eq_div_mul]
    omega

theorem input_eq {i : Nat} (hi : i < 8192) : (i <<< 3) % 65536 = 8 * i ∧ ((i <<< 3) % 65536) >>> 8 = 8 * i / 256 := by
  rw [Nat.shiftLeft_eq, Nat.mod_eq_of_lt (by omega), Nat.shiftRight_eq_div_pow]
  omega

theorem valIndex_ok {b : Build} {vp mc code k : Nat} (h : mc ≤ code) (hc : code < 65536) (hk : vp + (code - mc) = k) (hvp : vp < 65536) : valIndex b vp mc code = .ok k := by
  unfold valIndex
  have e : ((((code : Int) - mc) % 18446744073709551616).toNat) = code - mc := by omega
  rw [e, addU_ok (by omega), hk]

/-- The entry for patterns that start with a code the decoder reports. -/
theorem bigEntry_hit {b : Build} (hB : Built cs t) {i k : Nat} (hi : i < 8192) (hk : k < (codeLengths cs).length)
    (hm : start (codeLengths cs) k ≤ 8 * i ∧ 8 * i < start (codeLengths cs) (k + 1)) (hreach : Reachable cs t k) :
    bigEntry b t i = .ok (bigValue t.dngBug (8 * i) ((codeLengths cs).getD k 0) (t.huffval.getD k 0)) := by
  have hL := codeLengths_lens cs
  have hr := hL.range k hk
  obtain ⟨e1, e2⟩ := input_eq hi
  unfold bigEntry
  simp only
  rw [e2, e1]
  by_cases h8 : (codeLengths cs).getD k 0 ≤ 8
  · obtain ⟨e, f1, f2, f3⟩ := hB.short_hit (show 8 * i < 65536 by omega) hk h8 hm
    rw [idx_eq_ok.mpr f1, ok_bind, f2, if_pos (by omega), f3]
  · have h8 : 8 < (codeLengths cs).getD k 0 := by omega
    have hmiss := hB.short_miss (show 8 * i < 65536 by omega) (by
      intro j hj j1 j2
      rw [locate_unique ⟨j1, j2⟩ hm]; exact h8)
    rw [idx_eq_ok.mpr hmiss, ok_bind]
    simp only [Nat.zero_and, gt_iff_lt, Nat.lt_irrefl, if_false]
    obtain ⟨hvp, mc, hmc, hmcle, hidx, hcs⟩ := hB.index hk rfl
    have hplace := codeLengths_place cs hk
    have hcode : 8 * i / 2 ^ (16 - (codeLengths cs).getD k 0) = canonical (codeLengths cs) k := (starts_iff hL hk _).mpr hm
    have hwalk := bigWalk_eq (t := t) (V := 8 * i) hr.2 (Or.inr (hB.max_le hr.1 hr.2 (V := 8 * i) hcs (by
        have := start_mono (L := codeLengths cs) (show k + 1 ≤ cum cs ((codeLengths cs).getD k 0) by omega)
        omega))) ((codeLengths cs).getD k 0 - 8) 8 (by omega) (by
      intro j j1 j2
      refine hB.max_gt (by omega) (by omega) ?_
      have := cum_mono cs (show j ≤ (codeLengths cs).getD k 0 - 1 by omega)
      have := start_mono (L := codeLengths cs) (show cum cs j ≤ k by omega)
      omega)
    have hwalk : bigWalk t.maxcode (8 * i) 8 (8 * i / 256) 8 = _ := hwalk
    rw [hwalk, ok_bind]
    simp only
    rcases hreach with h | h
    · omega
    · have hN := hB.count
      have hle : canonical (codeLengths cs) k ≤ 8 * i := by rw [← hcode]; exact Nat.div_le_self _ _
      rw [if_neg (by omega), idx_eq_ok.mpr hvp, ok_bind, if_neg h.2, idx_eq_ok.mpr hmc, ok_bind, hcode,
        valIndex_ok hmcle (by omega) hidx (by omega), ok_bind]
      have hkl : k < t.huffval.length := by rw [hB.vals]; omega
      rw [idx_lt hkl, ok_bind, getD_eq hkl]

/-- The entry for patterns that start with a code the decoder rejects. -/
theorem bigEntry_reject {b : Build} (hB : Built cs t) {i k : Nat} (hi : i < 8192) (hk : k < (codeLengths cs).length)
    (hm : start (codeLengths cs) k ≤ 8 * i ∧ 8 * i < start (codeLengths cs) (k + 1)) (hreach : ¬ Reachable cs t k) :
    bigEntry b t i = .ok 0xff := by
  have hL := codeLengths_lens cs
  have hr := hL.range k hk
  obtain ⟨e1, e2⟩ := input_eq hi
  unfold bigEntry
  simp only
  rw [e2, e1]
  have h8 : 8 < (codeLengths cs).getD k 0 := by
    by_contra hc
    exact hreach (Or.inl (by omega))
  have hmiss := hB.short_miss (show 8 * i < 65536 by omega) (by
    intro j hj j1 j2
    rw [locate_unique ⟨j1, j2⟩ hm]; exact h8)
  rw [idx_eq_ok.mpr hmiss, ok_bind]
  simp only [Nat.zero_and, gt_iff_lt, Nat.lt_irrefl, if_false]
  obtain ⟨hvp, mc, hmc, hmcle, hidx, hcs⟩ := hB.index hk rfl
  have hplace := codeLengths_place cs hk
  have hwalk := bigWalk_eq (t := t) (V := 8 * i) hr.2 (Or.inr (hB.max_le hr.1 hr.2 (V := 8 * i) hcs (by
      have := start_mono (L := codeLengths cs) (show k + 1 ≤ cum cs ((codeLengths cs).getD k 0) by omega)
      omega))) ((codeLengths cs).getD k 0 - 8) 8 (by omega) (by
    intro j j1 j2
    refine hB.max_gt (by omega) (by omega) ?_
    have := cum_mono cs (show j ≤ (codeLengths cs).getD k 0 - 1 by omega)
    have := start_mono (L := codeLengths cs) (show cum cs j ≤ k by omega)
    omega)
  have hwalk : bigWalk t.maxcode (8 * i) 8 (8 * i / 256) 8 = _ := hwalk
  rw [hwalk, ok_bind]
  simp only
  by_cases hp : t.precision < (codeLengths cs).getD k 0
  · rw [if_pos hp]
  · rw [if_neg hp, idx_eq_ok.mpr hvp, ok_bind, if_pos]
    by_contra hc
    exact hreach (Or.inr ⟨by omega, hc⟩)

/-- The search for a pattern without a code goes through to 16 bits. -/
theorem bigEntry_free {b : Build} (hB : Built cs t) {i : Nat} (hi : i < 8192) (hm : kraft (codeLengths cs) ≤ 8 * i) :
    bigEntry b t i = (if 16 > t.precision then .ok 0xff else do
      let vp ← idx t.valptr 16
      if vp = 0xff then .ok 0xff
      else do
        let mc ← idx t.mincode 16
        let k ← valIndex b vp mc (8 * i)
        let rv ← idx t.huffval k
        .ok (bigValue t.dngBug (8 * i) 16 rv)) := by
  obtain ⟨e1, e2⟩ := input_eq hi
  unfold bigEntry
  simp only
  rw [e2, e1]
  have hmiss := hB.short_miss (show 8 * i < 65536 by omega) (by
    intro j hj j1 j2
    have := start_le_kraft (codeLengths cs) (j + 1)
    omega)
  rw [idx_eq_ok.mpr hmiss, ok_bind]
  simp only [Nat.zero_and, gt_iff_lt, Nat.lt_irrefl, if_false]
  have hwalk := bigWalk_eq (t := t) (V := 8 * i) (Nat.le_refl 16) (Or.inl rfl) 8 8 (by omega) (by
    intro j j1 j2
    refine hB.max_gt (by omega) (by omega) ?_
    have := start_le_kraft (codeLengths cs) (cum cs j)
    omega)
  have hwalk : bigWalk t.maxcode (8 * i) 8 (8 * i / 256) 8 = .ok (8 * i, 16) := by
    rw [show (16 - 16 : Nat) = 0 from rfl, Nat.pow_zero, Nat.div_one] at hwalk
    exact hwalk
  rw [hwalk, ok_bind]

/-- Where the codes of 16 bits begin. -/
theorem first16 (cs : Nat → Nat) (h : 0 < cs 16) : canonical (codeLengths cs) (cum cs 15) + cs 16 = kraft (codeLengths cs) := by
  have hL := codeLengths_lens cs
  have hp := cum_pred cs (show 1 ≤ 16 by omega)
  rw [show 16 - 1 = 15 from rfl] at hp
  have hlen := codeLengths_length cs
  obtain ⟨hk, h16⟩ := codeLengths_get cs (show 1 ≤ 16 by omega) (Nat.le_refl 16) (show cum cs (16 - 1) ≤ cum cs 16 - 1 by rw [show 16 - 1 = 15 from rfl]; omega) (show cum cs 16 - 1 < cum cs 16 by omega)
  have e1 := canonical_start hL hk
  have e2 := start_succ hk
  rw [h16] at e1 e2
  rw [show cum cs 16 - 1 + 1 = (codeLengths cs).length by omega, start_end (Nat.le_refl _)] at e2
  have e3 := canonical_run (L := codeLengths cs) (k := cum cs 15) (cs 16 - 1) (by
    intro j hj
    rw [(codeLengths_get cs (by omega) (Nat.le_refl 16) (show cum cs (16 - 1) ≤ cum cs 15 + j from Nat.le_add_right _ _) (by omega)).2,
      (codeLengths_get cs (by omega) (Nat.le_refl 16) (Nat.le_refl (cum cs 15)) (by omega)).2])
  rw [show cum cs 15 + (cs 16 - 1) = cum cs 16 - 1 by omega] at e3
  simp only [Nat.sub_self, Nat.pow_zero, Nat.mul_one] at e1 e2
  omega

/-- The condition for the 13-bit table to be built without reading past the symbols. -/
def Fits (cs : Nat → Nat) (precision : Nat) : Prop :=
  precision < 16 ∨ cs 16 = 0 ∨ cum cs 15 = 255 ∨ kraft (codeLengths cs) ≥ 65529 ∨ (codeLengths cs).length + 65528 < kraft (codeLengths cs) + 256

theorem bigEntry_free_ok {b : Build} (hB : Built cs t) {i : Nat} (hi : i < 8192) (hm : kraft (codeLengths cs) ≤ 8 * i) (hfit : Fits cs t.precision) :
    bigEntry b t i = .ok 0xff ∨ ∃ k, (codeLengths cs).length ≤ k ∧ k < 256 ∧ bigEntry b t i = .ok (bigValue t.dngBug (8 * i) 16 (t.huffval.getD k 0)) := by
  rw [bigEntry_free hB hi hm]
  by_cases hp : 16 > t.precision
  · rw [if_pos hp]; exact Or.inl rfl
  · rw [if_neg hp]
    by_cases h16 : cs 16 = 0
    · rw [idx_eq_ok.mpr ((hB.decode 16 (by omega) (by omega)).free h16).1, ok_bind, if_pos rfl]; exact Or.inl rfl
    · have hd := (hB.decode 16 (by omega) (by omega)).used (by omega)
      rw [show 16 - 1 = 15 from rfl] at hd
      rw [idx_eq_ok.mpr hd.1, ok_bind]
      by_cases h255 : cum cs 15 = 0xff
      · rw [if_pos h255]; exact Or.inl rfl
      · rw [if_neg h255]
        right
        have hf := first16 cs (by omega)
        have hlen := codeLengths_length cs
        have hc := cum_pred cs (show 1 ≤ 16 by omega)
        rw [show 16 - 1 = 15 from rfl] at hc
        have hN := hB.count
        have hlt : (codeLengths cs).length + 65528 < kraft (codeLengths cs) + 256 := by
          rcases hfit with h | h | h | h | h
          · omega
          · omega
          · omega
          · omega
          · exact h
        refine ⟨cum cs 15 + (8 * i - canonical (codeLengths cs) (cum cs 15)), by omega, by omega, ?_⟩
        rw [idx_eq_ok.mpr hd.2.1, ok_bind, valIndex_ok (by omega) (by omega) rfl (by omega), ok_bind]
        rw [idx_lt (by rw [hB.vals]; omega), ok_bind, getD_eq (by rw [hB.vals]; omega)]

theorem bigEntry_ok {b : Build} (hB : Built cs t) (hfit : Fits cs t.precision) {i : Nat} (hi : i < 8192) : ∃ v, bigEntry b t i = .ok v := by
  by_cases h : kraft (codeLengths cs) ≤ 8 * i
  · rcases bigEntry_free_ok (b := b) hB hi h hfit with h | ⟨k, _, _, h⟩
    · exact ⟨_, h⟩
    · exact ⟨_, h⟩
  · rw [Nat.not_le, ← start_end (Nat.le_refl (codeLengths cs).length)] at h
    obtain ⟨k, hk, hm⟩ := locate (Nat.le_refl _) h
    by_cases hr : Reachable cs t k
    · exact ⟨_, bigEntry_hit hB hi hk hm hr⟩
    · exact ⟨_, bigEntry_reject hB hi hk hm hr⟩

/-- Otherwise building the table panics. -/
theorem bigEntry_crash {b : Build} (hB : Built cs t) (hfit : ¬ Fits cs t.precision) : bigEntry b t 8191 = crash := by
  unfold Fits at hfit
  simp only [not_or] at hfit
  obtain ⟨h1, h2, h3, h4, h5⟩ := hfit
  rw [bigEntry_free hB (by omega) (by omega), if_neg (by omega)]
  have hd := (hB.decode 16 (by omega) (by omega)).used (by omega)
  rw [show 16 - 1 = 15 from rfl] at hd
  have hf := first16 cs (by omega)
  have hlen := codeLengths_length cs
  have hc := cum_pred cs (show 1 ≤ 16 by omega)
  rw [show 16 - 1 = 15 from rfl] at hc
  have hN := hB.count
  rw [idx_eq_ok.mpr hd.1, ok_bind, if_neg h3, idx_eq_ok.mpr hd.2.1, ok_bind, valIndex_ok (by omega) (by omega) rfl (by omega), ok_bind,
    idx_ge (by rw [hB.vals]; omega)]
  rfl

/-! ## Decoding with the 13-bit table -/

/-- The table holds the entries. -/
structure Big (b : Build) (t : HuffTable) : Prop where
  use : t.useBigtable = true
  entry : ∀ i, i < 8192 → ∃ v, bigEntry b t i = .ok v ∧ t.bigtable[i]? = some v

theorem bigValue_slow {dngBug : Bool} {V l rv : Nat} (h16 : rv ≠ 16) (h : 13 < rv + l) : bigValue dngBug V l rv = 0xff := by
  unfold bigValue
  rw [if_neg h16, if_pos h]

theorem bigValue_fast {dngBug : Bool} {st : Nat → Nat} {c l rv : Nat} (h1 : 1 ≤ l) (h : rv + l ≤ 13) :
    bigValue dngBug (8 * fieldMSB st c 13) l rv = extend rv (fieldMSB st (c + l) rv) * 256 + (l + rv : Nat) := by
  unfold bigValue
  rw [if_neg (by omega), if_neg (by omega)]
  by_cases h0 : rv = 0
  · subst h0; simp [extend, fieldMSB]
  · rw [if_pos h0]
    have e : ((8 * fieldMSB st c 13) >>> (16 - l - rv)) &&& ((1 <<< rv) - 1) = fieldMSB st (c + l) rv := by
      rw [Nat.shiftLeft_eq, Nat.one_mul, Nat.and_two_pow_sub_one_eq_mod, Nat.shiftRight_eq_div_pow, show 16 - l - rv = 3 + (13 - (l + rv)) by omega,
        Nat.pow_add, ← Nat.div_div_eq_div_mul, show (2 : Nat) ^ 3 = 8 from rfl, Nat.mul_div_cancel_left _ (by omega), field_div st c (by omega), fieldMSB_add,
        Nat.add_comm, Nat.add_mul_mod_self_right, Nat.mod_eq_of_lt (fieldMSB_lt _ _ _)]
    simp only
    rw [e]
    congr 1
    congr 1
    have hand := and_top (show 1 ≤ rv by omega) (fieldMSB_lt st (c + l) rv)
    have hq : 0 < 2 ^ rv := Nat.pow_pos (by omega)
    rw [Nat.shiftLeft_eq, Nat.shiftLeft_eq, Nat.one_mul, Nat.one_mul]
    unfold extend
    by_cases hlt : fieldMSB st (c + l) rv < 2 ^ (rv - 1)
    · rw [if_pos (hand.mpr hlt), if_pos hlt]
      have : ((2 ^ rv - 1 : Nat) : Int) = 2 ^ rv - 1 := by
        rw [Nat.cast_sub hq]; simp
      rw [this]
    · rw [if_neg (hand.not.mpr hlt), if_neg hlt]

/-- Multiples of eight. -/
theorem start_mul8 {L : List Nat} (hL : Lens L) {k : Nat} (hk : k < L.length) (h : L.getD k 0 ≤ 13) : 8 ∣ start L k ∧ 8 ∣ start L (k + 1) := by
  have h1 := canonical_start hL hk
  have e : 2 ^ (16 - L.getD k 0) = 8 * 2 ^ (13 - L.getD k 0) := by
    rw [show 16 - L.getD k 0 = 3 + (13 - L.getD k 0) by omega, Nat.pow_add]
  rw [start_succ hk, ← h1, e]
  have d : 8 ∣ canonical L k * (8 * 2 ^ (13 - L.getD k 0)) := ⟨canonical L k * 2 ^ (13 - L.getD k 0), by rw [Nat.mul_left_comm]⟩
  exact ⟨d, Nat.dvd_add d ⟨_, rfl⟩⟩

/-- The first 13 bits decide about shorter codes. -/
theorem match13 {st : Nat → Nat} {c : Nat} {L : List Nat} (hL : Lens L) {k : Nat} (hk : k < L.length) (h : L.getD k 0 ≤ 13) :
    (start L k ≤ 8 * fieldMSB st c 13 ∧ 8 * fieldMSB st c 13 < start L (k + 1)) ↔ StartsWith st c L k := by
  rw [startsWith_iff hL hk]
  obtain ⟨⟨x, hx⟩, ⟨y, hy⟩⟩ := start_mul8 hL hk h
  have := fieldMSB_add st c 13 3
  have hlt := fieldMSB_lt st (c + 13) 3
  rw [show 13 + 3 = 16 from rfl] at this
  rw [this, hx, hy]
  omega

/-- Category 16 only has codes the 13-bit table covers. -/
def Short16 (cs : Nat → Nat) (t : HuffTable) : Prop :=
  ∀ k, k < 256 → t.huffval.getD k 0 = 16 → k < (codeLengths cs).length ∧ (codeLengths cs).getD k 0 ≤ 13 ∧ t.dngBug = false

variable {σ : Type} {P : PumpOps σ} {st : Nat → Nat} {limit : Option Nat} {at_ : σ → Nat → Nat → Prop}

/-- The difference without the 13-bit table. -/
theorem slow_ok {b : Build} (hB : Built cs t) (hR : Reads P (fieldMSB st) limit at_) {s : σ} {c a k : Nat} (hs : at_ s c a)
    (hk : StartsWith st c (codeLengths cs) k) (hreach : Reachable cs t k) (hv : t.huffval.getD k 0 ≤ 16) (hdng : t.huffval.getD k 0 = 16 → t.dngBug = false)
    (hw8 : within limit (c + 8)) (hw : within limit (c + (codeLengths cs).getD k 0 + diffBits (t.huffval.getD k 0))) :
    ∃ s' a', (do let (len, s) ← huffLen b P t s; huffDiff b P t s len) =
        .ok (difference (t.huffval.getD k 0) (fieldMSB st (c + (codeLengths cs).getD k 0)), s') ∧
      at_ s' (c + (codeLengths cs).getD k 0 + diffBits (t.huffval.getD k 0)) a' := by
  obtain ⟨s1, a1, h1, h2⟩ := huffLen_ok (b := b) hB hR hs hk hreach hw8 (within_mono hw (Nat.le_add_right _ _))
  rw [h1, ok_bind]
  simp only
  generalize t.huffval.getD k 0 = v at *
  unfold difference diffBits at *
  by_cases h0 : v = 0
  · subst h0
    refine ⟨s1, a1, ?_, h2⟩
    simp [huffDiff, extend, fieldMSB]
  · by_cases h16 : v = 16
    · subst h16
      refine ⟨s1, a1, ?_, h2⟩
      simp [huffDiff, hdng rfl]
    · rw [if_neg h16] at hw ⊢
      rw [if_neg h16]
      exact huffDiff_ok hR h2 (by omega) (by omega) hw

theorem huffDecode_ok {b : Build} (hB : Built cs t) (hT : Big b t) (hR : Reads P (fieldMSB st) limit at_) {s : σ} {c a k : Nat} (hs : at_ s c a)
    (hk : StartsWith st c (codeLengths cs) k) (hreach : Reachable cs t k) (hv : t.huffval.getD k 0 ≤ 16) (h16 : Short16 cs t) (hfit : Fits cs t.precision)
    (hw13 : within limit (c + 13)) (hw : within limit (c + (codeLengths cs).getD k 0 + diffBits (t.huffval.getD k 0))) :
    ∃ s' a', huffDecode b P t s = .ok (difference (t.huffval.getD k 0) (fieldMSB st (c + (codeLengths cs).getD k 0)), s') ∧
      at_ s' (c + (codeLengths cs).getD k 0 + diffBits (t.huffval.getD k 0)) a' := by
  have hL := codeLengths_lens cs
  have hkl := hB.count
  have hr := hL.range k hk.1
  obtain ⟨s1, a1, p1, p2, p3, _⟩ := hR.peek s c a 13 hs (by omega) hw13
  obtain ⟨v, v1, v2⟩ := hT.entry (fieldMSB st c 13) (fieldMSB_lt st c 13)
  obtain ⟨s2, a2, q1, q2⟩ := slow_ok (b := b) hB hR p2 hk hreach hv (fun h => (h16 k (by have := hk.1; omega) h).2.2) (within_mono hw13 (by omega)) hw
  unfold huffDecode
  simp only
  rw [if_pos hT.use, p1, ok_bind]
  simp only
  rw [idx_eq_ok.mpr v2, ok_bind]
  by_cases hff : v = 0xff
  · rw [if_neg (by omega)]
    exact ⟨s2, a2, q1, q2⟩
  · -- the entry belongs to a code of at most 13 bits
    have hentry : ∃ j, j < (codeLengths cs).length ∧ start (codeLengths cs) j ≤ 8 * fieldMSB st c 13 ∧ 8 * fieldMSB st c 13 < start (codeLengths cs) (j + 1) ∧
        Reachable cs t j ∧ (codeLengths cs).getD j 0 ≤ 13 ∧
        v = bigValue t.dngBug (8 * fieldMSB st c 13) ((codeLengths cs).getD j 0) (t.huffval.getD j 0) := by
      by_cases h : kraft (codeLengths cs) ≤ 8 * fieldMSB st c 13
      · exfalso
        rcases bigEntry_free_ok (b := b) hB (fieldMSB_lt st c 13) h hfit with h | ⟨j, j1, j2, h⟩
        · rw [h] at v1; injection v1 with v1; exact hff v1.symm
        · rw [h] at v1; injection v1 with v1
          by_cases hj : t.huffval.getD j 0 = 16
          · have := (h16 j j2 hj).1; omega
          · rw [bigValue_slow hj (by omega)] at v1; exact hff v1.symm
      · rw [Nat.not_le, ← start_end (Nat.le_refl (codeLengths cs).length)] at h
        obtain ⟨j, hj, hm⟩ := locate (Nat.le_refl _) h
        by_cases hrj : Reachable cs t j
        · rw [bigEntry_hit hB (fieldMSB_lt st c 13) hj hm hrj] at v1
          injection v1 with v1
          refine ⟨j, hj, hm.1, hm.2, hrj, ?_, v1.symm⟩
          by_contra hc
          by_cases h : t.huffval.getD j 0 = 16
          · exact hc (h16 j (by omega) h).2.1
          · rw [bigValue_slow h (by omega)] at v1; exact hff v1.symm
        · rw [bigEntry_reject hB (fieldMSB_lt st c 13) hj hm hrj] at v1
          injection v1 with v1; exact absurd v1.symm hff
    obtain ⟨j, hj, m1, m2, _, hj13, hval⟩ := hentry
    have hjk : j = k := startsWith_unique hL ((match13 hL hj hj13).mp ⟨m1, m2⟩) hk
    subst hjk
    by_cases h : t.huffval.getD j 0 = 16
    · have hdng := (h16 j (by omega) h).2.2
      have e : v = -8388608 + ((codeLengths cs).getD j 0 : Nat) := by
        rw [hval, h, hdng]; rfl
      rw [e]
      rw [if_pos (by omega)]
      obtain ⟨s3, r1, r2⟩ := hR.consume s1 c a1 ((codeLengths cs).getD j 0) p2 (by omega)
      rw [show ((-8388608 + (((codeLengths cs).getD j 0 : Nat) : Int)) % 256).toNat = (codeLengths cs).getD j 0 by omega, r1, ok_bind]
      refine ⟨s3, a1 - (codeLengths cs).getD j 0, ?_, by rw [h]; exact r2⟩
      · rw [h, show (-8388608 + (((codeLengths cs).getD j 0 : Nat) : Int)) / 256 = -32768 by omega]; rfl
    · have hsum : t.huffval.getD j 0 + (codeLengths cs).getD j 0 ≤ 13 := by
        by_contra hc
        exact hff (by rw [hval, bigValue_slow h (by omega)])
      rw [bigValue_fast hr.1 hsum] at hval
      have hd : difference (t.huffval.getD j 0) (fieldMSB st (c + (codeLengths cs).getD j 0)) =
          extend (t.huffval.getD j 0) (fieldMSB st (c + (codeLengths cs).getD j 0) (t.huffval.getD j 0)) := by
        unfold difference; rw [if_neg h]
      have hb : diffBits (t.huffval.getD j 0) = t.huffval.getD j 0 := by unfold diffBits; rw [if_neg h]
      rw [hd, hb, hval]
      generalize extend (t.huffval.getD j 0) (fieldMSB st (c + (codeLengths cs).getD j 0) (t.huffval.getD j 0)) = x
      obtain ⟨s3, r1, r2⟩ := hR.consume s1 c a1 ((codeLengths cs).getD j 0 + t.huffval.getD j 0) p2 (by omega)
      rw [if_pos (by omega)]
      rw [show ((x * 256 + (((codeLengths cs).getD j 0 + t.huffval.getD j 0 : Nat) : Int)) % 256).toNat = (codeLengths cs).getD j 0 + t.huffval.getD j 0 by omega, r1, ok_bind]
      rw [show (x * 256 + (((codeLengths cs).getD j 0 + t.huffval.getD j 0 : Nat) : Int)) / 256 = x by omega]
      rw [Nat.add_assoc c]
      exact ⟨s3, _, rfl, r2⟩

theorem huffDecode_fail {b : Build} (hB : Built cs t) (hT : Big b t) (hR : Reads P (fieldMSB st) limit at_) {s : σ} {c a : Nat} (hs : at_ s c a)
    (hno : ∀ k, StartsWith st c (codeLengths cs) k → ¬ Reachable cs t k) (h16 : Short16 cs t) (hfit : Fits cs t.precision) (hprec : t.precision ≤ 16)
    (hw : within limit (c + 17)) : huffDecode b P t s = fail "ljpeg: bad Huffman code" := by
  have hL := codeLengths_lens cs
  have hkl := hB.count
  obtain ⟨s1, a1, p1, p2, p3, _⟩ := hR.peek s c a 13 hs (by omega) (within_mono hw (by omega))
  obtain ⟨v, v1, v2⟩ := hT.entry (fieldMSB st c 13) (fieldMSB_lt st c 13)
  have hslow : huffLen b P t s1 = fail "ljpeg: bad Huffman code" := by
    by_cases h : ∃ k, StartsWith st c (codeLengths cs) k
    · obtain ⟨k, hk⟩ := h
      exact huffLen_reject hB hR p2 hk (hno k hk) (within_mono hw (by have := (hL.range k hk.1).2; omega))
    · exact huffLen_bad hB hR p2 (fun k hk => h ⟨k, hk⟩) hprec hw
  unfold huffDecode
  simp only
  rw [if_pos hT.use, p1, ok_bind]
  simp only
  rw [idx_eq_ok.mpr v2, ok_bind, hslow]
  have hff : v = 0xff := by
    by_contra hff
    by_cases h : kraft (codeLengths cs) ≤ 8 * fieldMSB st c 13
    · rcases bigEntry_free_ok (b := b) hB (fieldMSB_lt st c 13) h hfit with h | ⟨j, j1, j2, h⟩
      · rw [h] at v1; injection v1 with v1; exact hff v1.symm
      · rw [h] at v1; injection v1 with v1
        by_cases hj : t.huffval.getD j 0 = 16
        · have := (h16 j j2 hj).1; omega
        · rw [bigValue_slow hj (by omega)] at v1; exact hff v1.symm
    · rw [Nat.not_le, ← start_end (Nat.le_refl (codeLengths cs).length)] at h
      obtain ⟨j, hj, hm⟩ := locate (Nat.le_refl _) h
      by_cases hrj : Reachable cs t j
      · rw [bigEntry_hit hB (fieldMSB_lt st c 13) hj hm hrj] at v1
        injection v1 with v1
        by_cases hj13 : (codeLengths cs).getD j 0 ≤ 13
        · exact hno j ((match13 hL hj hj13).mp hm) hrj
        · by_cases h : t.huffval.getD j 0 = 16
          · exact hj13 (h16 j (by omega) h).2.1
          · rw [bigValue_slow h (by omega)] at v1; exact hff v1.symm
      · rw [bigEntry_reject hB (fieldMSB_lt st c 13) hj hm hrj] at v1
        injection v1 with v1; exact absurd v1.symm hff
  rw [if_neg (by omega)]
  rfl

theorem bigEntry_with (b : Build) (t : HuffTable) (l : List Int) (x y : Bool) (i : Nat) :
    bigEntry b { t with bigtable := l, initialized := x, useBigtable := y } i = bigEntry b t i := rfl

/-- Building the tables. -/
theorem new_built {b : Build} {bits huffval : List Nat} {precision : Nat} {dngBug : Bool} (hb : bits.length = 17) (hv : huffval.length = 256)
    (hbytes : ∀ v ∈ huffval, v < 256) (hN : (codeLengths (counts bits)).length ≤ 256) (hK : kraft (codeLengths (counts bits)) ≤ 65536)
    (ho : NoOverflow b (codeLengths (counts bits))) (hfit : Fits (counts bits) precision) :
    ∃ t, new b bits huffval precision dngBug = .ok t ∧ Built (counts bits) t ∧ Big b t ∧ t.huffval = huffval ∧ t.precision = precision ∧ t.dngBug = dngBug := by
  obtain ⟨t, hB, _, e2, e3, e4, hi⟩ := init_built (b := b) (precision := precision) (dngBug := dngBug) hb hv hbytes hN hK ho
  have hex : ∃ g : Nat → Int, ∀ i ∈ List.range 8192, bigEntry b t i = .ok (g i) := by
    have : ∀ i, ∃ v, i < 8192 → bigEntry b t i = .ok v := by
      intro i
      by_cases h : i < 8192
      · obtain ⟨v, hv⟩ := bigEntry_ok (b := b) hB (e3 ▸ hfit) h
        exact ⟨v, fun _ => hv⟩
      · exact ⟨0, fun h' => absurd h' h⟩
    obtain ⟨g, hg⟩ := Classical.axiomOfChoice this
    exact ⟨g, fun i hi => hg i (List.mem_range.mp hi)⟩
  obtain ⟨g, hg⟩ := hex
  have hm := mapM_ok (bigEntry b t) g (List.range 8192) hg
  refine ⟨{ t with bigtable := (List.range 8192).map g, initialized := true, useBigtable := true }, ?_, ?_, ?_, e2, e3, e4⟩
  · unfold new
    rw [hi true, if_pos rfl]
    unfold initializeBigtable
    rw [hm]
    generalize (List.range 8192).map g = x
    rfl
  · exact ⟨hB.vals, hB.bytes, hB.count, hB.room, hB.decode, hB.lenMin, hB.lenMax, hB.lenPtr, hB.last, hB.lenShort, hB.short⟩
  · refine ⟨rfl, fun i hi => ⟨g i, ?_, ?_⟩⟩
    · rw [bigEntry_with]; exact hg i (List.mem_range.mpr hi)
    · simp only
      rw [List.getElem?_map, List.getElem?_range hi, Option.map_some]

/-- Building the tables fails when the 13-bit table would read past the symbols. -/
theorem new_crash {b : Build} {bits huffval : List Nat} {precision : Nat} {dngBug : Bool} (hb : bits.length = 17) (hv : huffval.length = 256)
    (hbytes : ∀ v ∈ huffval, v < 256) (hN : (codeLengths (counts bits)).length ≤ 256) (hK : kraft (codeLengths (counts bits)) ≤ 65536)
    (ho : NoOverflow b (codeLengths (counts bits))) (hfit : ¬ Fits (counts bits) precision) :
    ∀ t, new b bits huffval precision dngBug ≠ .ok t := by
  obtain ⟨t, hB, _, e2, e3, e4, hi⟩ := init_built (b := b) (precision := precision) (dngBug := dngBug) hb hv hbytes hN hK ho
  intro t' ht'
  unfold new at ht'
  rw [hi true, if_pos rfl] at ht'
  unfold initializeBigtable at ht'
  rw [bind_eq_ok] at ht'
  obtain ⟨t1, h1, _⟩ := ht'
  rw [bind_eq_ok] at h1
  obtain ⟨l, h2, _⟩ := h1
  rw [mapM_eq_ok_iff] at h2
  obtain ⟨x, _, h3⟩ := h2.2 8191 8191 (List.getElem?_range (by omega))
  rw [bigEntry_crash (b := b) hB (e3 ▸ hfit)] at h3
  simp at h3

end HuffTable
end Model

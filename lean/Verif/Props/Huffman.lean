import Verif.Lemmas.HuffAny
import Verif.Lemmas.Ends
import Verif.Lemmas.JpegPump
/-!
# C20 to C22: Huffman tables
-/

namespace Props
open Rust Spec Model Model.HuffTable

/-- The number of codes of each length, as stored in a table definition: `bits[l]`, with `bits[0]` unused. -/
def lengthsOf (bits : List Nat) : List Nat := codeLengths fun l => bits.getD l 0

/-- The stored form of a table: 17 counts and 256 symbols, all of them bytes. -/
structure Stored (bits huffval : List Nat) : Prop where
  counts : bits.length = 17
  symbols : huffval.length = 256
  bytes : ∀ v ∈ huffval, v < 256

/-- The lengths belong to a prefix code (Kraft's inequality). If 16-bit codes are used, all ones is not one of them (as
T.81 requires). -/
structure PrefixCode (lens : List Nat) : Prop where
  count : lens.length ≤ 256
  kraft : Spec.kraft lens ≤ 65536
  ones : Spec.kraft lens = 65536 → ∀ k, k < lens.length → lens.getD k 0 < 16

/-- The condition under which the lookup table for 13-bit patterns does not read past the 256 symbols: either codes of 16
bits are absent or refused, or few enough 16-bit patterns are unused. -/
def Roomy (lens : List Nat) (precision : Nat) : Prop :=
  precision < 16 ∨ (∀ k, k < lens.length → lens.getD k 0 < 16) ∨ lens.length + 65528 < kraft lens + 256

theorem PrefixCode.noOverflow {b : Build} {L : List Nat} (h : PrefixCode L) : NoOverflow b L := by
  by_cases hk : Spec.kraft L = 65536
  · exact Or.inr (Or.inr (h.ones hk))
  · exact Or.inr (Or.inl (by have := h.kraft; omega))

theorem Roomy.fits {bits : List Nat} {precision : Nat} (h : Roomy (lengthsOf bits) precision) : Fits (HuffTable.counts bits) precision := by
  rcases h with h | h | h
  · exact Or.inl h
  · refine Or.inr (Or.inl ?_)
    by_contra hc
    have hp := cum_pred (HuffTable.counts bits) (show 1 ≤ 16 by omega)
    obtain ⟨hk, e⟩ := codeLengths_get (HuffTable.counts bits) (show 1 ≤ 16 by omega) (Nat.le_refl 16) (Nat.le_refl _) (by omega)
    have := h _ hk
    have e : (lengthsOf bits).getD (cum (HuffTable.counts bits) (16 - 1)) 0 = 16 := e
    omega
  · exact Or.inr (Or.inr (Or.inr (Or.inr h)))

/-- A reader: what it shows are the bits `st`, most significant first, up to `limit`; it stands at bit `c`. All readers of the
crate for MSB-first streams are of this kind (`readsMSB`, `readsMSB32`, `readsJPEG`). -/
abbrev ReadsBits {σ : Type} (P : PumpOps σ) (st : Nat → Nat) (limit : Option Nat) (at_ : σ → Nat → Nat → Prop) : Prop :=
  Reads P (fieldMSB st) limit at_

theorem reachable_of {bits : List Nat} {t : HuffTable} {k : Nat} (hk : k < (lengthsOf bits).length) (hN : (lengthsOf bits).length ≤ 255)
    (hl : (lengthsOf bits).getD k 0 ≤ 8 ∨ (lengthsOf bits).getD k 0 ≤ t.precision) : Reachable (HuffTable.counts bits) t k := by
  rcases hl with h | h
  · exact Or.inl h
  · refine Or.inr ⟨h, ?_⟩
    have := (codeLengths_place (HuffTable.counts bits) hk).1
    have hk : k < (codeLengths (HuffTable.counts bits)).length := hk
    have hN : (codeLengths (HuffTable.counts bits)).length ≤ 255 := hN
    omega

/-- C20: a table with at most 255 symbols is built, and then, on every stream that starts with the canonical code of symbol
`k`, looking up a symbol gives that symbol and moves on by exactly the length of its code. If the stream starts with no code at
all, the result is an error. -/
theorem huffman_canonical (b : Build) {bits huffval : List Nat} {precision : Nat} (dngBug : Bool) (hs : Stored bits huffval)
    (hp : PrefixCode (lengthsOf bits)) (hN : (lengthsOf bits).length ≤ 255) (hr : Roomy (lengthsOf bits) precision) :
    ∃ t, HuffTable.new b bits huffval precision dngBug = .ok t ∧
      ∀ {σ : Type} (P : PumpOps σ) (st : Nat → Nat) (limit : Option Nat) (at_ : σ → Nat → Nat → Prop), ReadsBits P st limit at_ →
      ∀ s c a, at_ s c a →
        (∀ k, StartsWith st c (lengthsOf bits) k → ((lengthsOf bits).getD k 0 ≤ 8 ∨ (lengthsOf bits).getD k 0 ≤ precision) →
          within limit (c + 8) → within limit (c + (lengthsOf bits).getD k 0) →
          ∃ s' a', HuffTable.huffLen b P t s = .ok (huffval.getD k 0, s') ∧ at_ s' (c + (lengthsOf bits).getD k 0) a') ∧
        ((∀ k, ¬ StartsWith st c (lengthsOf bits) k) → precision ≤ 16 → within limit (c + 17) →
          HuffTable.huffLen b P t s = fail "ljpeg: bad Huffman code") := by
  obtain ⟨t, h1, hB, _, e1, e2, _⟩ := new_built (b := b) (dngBug := dngBug) hs.counts hs.symbols hs.bytes hp.count hp.kraft hp.noOverflow hr.fits
  refine ⟨t, h1, ?_⟩
  intro σ P st limit at_ hR s c a hat
  constructor
  · intro k hk hl hw8 hw
    obtain ⟨s', a', h2, h3⟩ := huffLen_ok (b := b) hB hR hat hk (reachable_of hk.1 hN (e2 ▸ hl)) hw8 hw
    rw [e1] at h2
    exact ⟨s', a', h2, h3⟩
  · intro hno hprec hw
    exact huffLen_bad hB hR hat hno (e2 ▸ hprec) hw

/-- C20, the code is unambiguous: no stream starts with the codes of two symbols. -/
theorem huffman_unambiguous (bits : List Nat) (st : Nat → Nat) (c j k : Nat) (hj : StartsWith st c (lengthsOf bits) j)
    (hk : StartsWith st c (lengthsOf bits) k) : j = k :=
  startsWith_unique (codeLengths_lens _) hj hk

/-- With 256 symbols C20 does not hold: position 255 in the symbol list also marks an unused length. If 255 symbols have
shorter codes, the longer code of the last one is refused. -/
theorem huffman_last_symbol_refused (b : Build) {bits huffval : List Nat} {precision : Nat} (dngBug : Bool) (hs : Stored bits huffval)
    (hp : PrefixCode (lengthsOf bits)) (hN : (lengthsOf bits).length = 256) (hr : Roomy (lengthsOf bits) precision)
    (hlast : 8 < (lengthsOf bits).getD 255 0) (hother : (lengthsOf bits).getD 254 0 < (lengthsOf bits).getD 255 0) :
    ∃ t, HuffTable.new b bits huffval precision dngBug = .ok t ∧
      ∀ {σ : Type} (P : PumpOps σ) (st : Nat → Nat) (at_ : σ → Nat → Nat → Prop), ReadsBits P st none at_ →
      ∀ s c a, at_ s c a → StartsWith st c (lengthsOf bits) 255 →
        HuffTable.huffLen b P t s = fail "ljpeg: bad Huffman code" := by
  obtain ⟨t, h1, hB, _, e1, e2, _⟩ := new_built (b := b) (dngBug := dngBug) hs.counts hs.symbols hs.bytes hp.count hp.kraft hp.noOverflow hr.fits
  refine ⟨t, h1, ?_⟩
  intro σ P st at_ hR s c a hat hk
  refine huffLen_reject hB hR hat hk ?_ trivial
  rintro (h | ⟨_, h⟩)
  · have h : (lengthsOf bits).getD 255 0 ≤ 8 := h
    omega
  · have hk' : 255 < (codeLengths (HuffTable.counts bits)).length := by
      have : (codeLengths (HuffTable.counts bits)).length = 256 := hN
      omega
    have p5 := codeLengths_place (HuffTable.counts bits) hk'
    have p4 := codeLengths_place (HuffTable.counts bits) (show 254 < _ by omega)
    have ho : (codeLengths (HuffTable.counts bits)).getD 254 0 < (codeLengths (HuffTable.counts bits)).getD 255 0 := hother
    have := cum_mono (HuffTable.counts bits) (show (codeLengths (HuffTable.counts bits)).getD 254 0 ≤ (codeLengths (HuffTable.counts bits)).getD 255 0 - 1 by omega)
    omega

/-- There is such a table: 255 codes of 8 bits and one of 9 bits. -/
theorem huffman_last_symbol_reachable : ∃ bits huffval, Stored bits huffval ∧ PrefixCode (lengthsOf bits) ∧ (lengthsOf bits).length = 256 ∧
    Roomy (lengthsOf bits) 16 ∧ 8 < (lengthsOf bits).getD 255 0 ∧ (lengthsOf bits).getD 254 0 < (lengthsOf bits).getD 255 0 := by
  refine ⟨[0, 0, 0, 0, 0, 0, 0, 0, 255, 1, 0, 0, 0, 0, 0, 0, 0], List.range 256, ⟨rfl, List.length_range, fun v hv => List.mem_range.mp hv⟩, ?_, ?_, ?_, ?_, ?_⟩
  · refine ⟨by decide +kernel, by decide +kernel, by decide +kernel⟩
  · decide +kernel
  · refine Or.inr (Or.inl (by decide +kernel))
  · decide +kernel
  · decide +kernel

/-- The example of T.81 table K.3. -/
def bitsK3 : List Nat := [0, 0, 1, 5, 1, 1, 1, 1, 1, 1, 0, 0, 0, 0, 0, 0, 0]
def valsK3 : List Nat := List.range 12 ++ List.replicate 244 0

theorem K3_stored : Stored bitsK3 valsK3 ∧ PrefixCode (lengthsOf bitsK3) ∧ (lengthsOf bitsK3).length ≤ 255 ∧ Roomy (lengthsOf bitsK3) 16 :=
  ⟨⟨rfl, by decide +kernel, by decide +kernel⟩, ⟨by decide, by decide, by decide⟩, by decide, Or.inr (Or.inl (by decide))⟩

/-- The stream 11110 010... starts with the code of symbol 7. -/
example : StartsWith (bytesOf [0b11110010, 0, 0, 0]) 0 (lengthsOf bitsK3) 7 := by unfold StartsWith; decide +kernel
example : ((HuffTable.init .debug (HuffTable.raw bitsK3 valsK3 16 false) false).bind fun t =>
    (HuffTable.huffLen .debug (pumpMSB .debug) t (Pump.new [0b11110010, 0, 0, 0])).map fun r => (r.1, r.2.nbits)) = .ok (7, 27) := by decide +kernel

/-! ## C21 -/

/-- Category 16 is only used for codes of at most 13 bits, and not with the `dng_bug` variant. The entries of the symbol list
after the last symbol are not 16. -/
def PlainCategory16 (bits huffval : List Nat) (dngBug : Bool) : Prop :=
  ∀ k, k < 256 → huffval.getD k 0 = 16 → k < (lengthsOf bits).length ∧ (lengthsOf bits).getD k 0 ≤ 13 ∧ dngBug = false

/-- C21 (the exceptions are stated separately below): if all categories are at most 16 and category 16 is used as above, decoding
a difference with the 13-bit table and without it give the same difference and end at the same place, or the same error.
The stream has to extend 32 bits further. -/
theorem huffman_fast_agrees_partial (b : Build) {bits huffval : List Nat} {precision : Nat} {dngBug : Bool} (hs : Stored bits huffval)
    (hp : PrefixCode (lengthsOf bits)) (hr : Roomy (lengthsOf bits) precision) (hprec : precision ≤ 16)
    (hcat : ∀ k, k < (lengthsOf bits).length → huffval.getD k 0 ≤ 16) (h16 : PlainCategory16 bits huffval dngBug) :
    ∃ t t', HuffTable.new b bits huffval precision dngBug = .ok t ∧ HuffTable.init b (HuffTable.raw bits huffval precision dngBug) false = .ok t' ∧
      ∀ {σ : Type} (P : PumpOps σ) (st : Nat → Nat) (limit : Option Nat) (at_ : σ → Nat → Nat → Prop), ReadsBits P st limit at_ →
      ∀ s c a, at_ s c a → within limit (c + 32) →
        (∃ d p s1 s2 a1 a2, HuffTable.huffDecode b P t s = .ok (d, s1) ∧ HuffTable.huffDecode b P t' s = .ok (d, s2) ∧ at_ s1 p a1 ∧ at_ s2 p a2) ∨
        (HuffTable.huffDecode b P t s = fail "ljpeg: bad Huffman code" ∧ HuffTable.huffDecode b P t' s = fail "ljpeg: bad Huffman code") := by
  obtain ⟨t, h1, hB, hT, e1, e2, e3⟩ := new_built (b := b) (dngBug := dngBug) hs.counts hs.symbols hs.bytes hp.count hp.kraft hp.noOverflow hr.fits
  obtain ⟨t0, hB0, _, f1, f2, f3, hi⟩ := init_built (b := b) (precision := precision) (dngBug := dngBug) hs.counts hs.symbols hs.bytes hp.count hp.kraft hp.noOverflow
  have h2 := hi false
  simp only [Bool.false_eq_true, if_false] at h2
  rw [ok_bind] at h2
  have hB' : Built (HuffTable.counts bits) { t0 with initialized := true, useBigtable := false } :=
    ⟨hB0.vals, hB0.bytes, hB0.count, hB0.room, hB0.decode, hB0.lenMin, hB0.lenMax, hB0.lenPtr, hB0.last, hB0.lenShort, hB0.short⟩
  refine ⟨t, _, h1, h2, ?_⟩
  intro σ P st limit at_ hR s c a hat hw
  have hs16 : Short16 (HuffTable.counts bits) t := by
    intro k hk hv
    rw [e1] at hv
    rw [e3]
    exact h16 k hk hv
  have hL := codeLengths_lens (HuffTable.counts bits)
  by_cases hk : ∃ k, StartsWith st c (codeLengths (HuffTable.counts bits)) k ∧ Reachable (HuffTable.counts bits) t k
  · obtain ⟨k, hk, hreach⟩ := hk
    have hv := hcat k hk.1
    have hlen := (hL.range k hk.1).2
    have hcount := hp.count
    have hkl := hk.1
    have hdb : diffBits (huffval.getD k 0) ≤ 16 := by unfold diffBits; split <;> omega
    left
    obtain ⟨s1, a1, g1, g2⟩ := huffDecode_ok (b := b) hB hT hR hat hk hreach (e1 ▸ hv) hs16 (e2 ▸ hr.fits) (within_mono hw (by omega))
      (within_mono hw (by rw [e1]; omega))
    have hreach' : Reachable (HuffTable.counts bits) { t0 with initialized := true, useBigtable := false } k := by
      unfold Reachable at hreach ⊢
      simp only
      rw [f2]
      rw [e2] at hreach
      exact hreach
    obtain ⟨s2, a2, k1, k2⟩ := slow_ok (b := b) hB' hR hat hk hreach' (f1 ▸ hv) (by
      intro h
      simp only at h ⊢
      rw [f1] at h
      rw [f3]
      exact (h16 k (by have : (codeLengths (HuffTable.counts bits)).length ≤ 256 := hcount; omega) h).2.2) (within_mono hw (by omega))
      (within_mono hw (by simp only; rw [f1]; omega))
    have hvv : ({ t0 with initialized := true, useBigtable := false } : HuffTable).huffval = huffval := f1
    rw [hvv] at k1 k2
    rw [e1] at g1 g2
    refine ⟨_, _, s1, s2, a1, a2, g1, ?_, g2, k2⟩
    unfold HuffTable.huffDecode
    simp only [Bool.false_eq_true, if_false, f1]
    exact k1
  · right
    have hno : ∀ k, StartsWith st c (codeLengths (HuffTable.counts bits)) k → ¬ Reachable (HuffTable.counts bits) t k := fun k h1 h2 => hk ⟨k, h1, h2⟩
    refine ⟨huffDecode_fail hB hT hR hat hno hs16 (e2 ▸ hr.fits) (e2 ▸ hprec) (within_mono hw (by omega)), ?_⟩
    unfold HuffTable.huffDecode
    simp only [Bool.false_eq_true, if_false]
    have : HuffTable.huffLen b P { t0 with initialized := true, useBigtable := false } s = fail "ljpeg: bad Huffman code" := by
      by_cases h : ∃ k, StartsWith st c (codeLengths (HuffTable.counts bits)) k
      · obtain ⟨k, hk⟩ := h
        refine huffLen_reject hB' hR hat hk ?_ (within_mono hw (by have := (hL.range k hk.1).2; omega))
        intro hreach
        apply hno k hk
        unfold Reachable at hreach ⊢
        simp only at hreach
        rw [f2] at hreach
        rw [e2]
        exact hreach
      · exact huffLen_bad hB' hR hat (fun k hk => h ⟨k, hk⟩) (by simp only; rw [f2]; exact hprec) (within_mono hw (by omega))
    rw [this]
    rfl

/-- The table of the counterexample below: one code of each length from 1 to 15, the 14-bit code for category 16, the 15-bit code for category 0. -/
def bitsW : List Nat := [0, 1, 1, 1, 1, 1, 1, 1, 1, 1, 1, 1, 1, 1, 1, 1, 0]
def valsW : List Nat := [1, 2, 3, 4, 5, 6, 7, 8, 9, 10, 11, 12, 13, 16, 0] ++ List.replicate 241 0

/-- C21 does not hold for category 16 with a code of 14 bits: on the stream that starts with the 15-bit code 11111111111111 0, the fast
lookup returns −32768, the plain decoding returns 0. -/
theorem huffman_fast_disagrees :
    ((HuffTable.new .debug bitsW valsW 15 false).bind fun t =>
      (HuffTable.huffDecode .debug (pumpMSB .debug) t (Pump.new [0xff, 0xfc, 0, 0])).map (·.1)) = .ok (-32768) ∧
    ((HuffTable.init .debug (HuffTable.raw bitsW valsW 15 false) false).bind fun t =>
      (HuffTable.huffDecode .debug (pumpMSB .debug) t (Pump.new [0xff, 0xfc, 0, 0])).map (·.1)) = .ok 0 := by
  constructor <;> decide +kernel

/-- The example table fulfils the conditions of C21. -/
example : (∀ k, k < (lengthsOf bitsK3).length → valsK3.getD k 0 ≤ 16) ∧ PlainCategory16 bitsK3 valsK3 true := by
  refine ⟨by decide +kernel, ?_⟩
  unfold PlainCategory16
  decide +kernel

/-! ## C22 -/

theorem ends_byteIndex (b : Build) (t : HuffTable) (i : Nat) : Ends (HuffTable.bigEntry b t i) := by
  unfold HuffTable.bigEntry
  refine ends_bind (ends_idx _ _) fun val _ => ends_ite (fun _ => ends_ok _) fun _ => ?_
  have hwalk : ∀ n code l, Ends (HuffTable.bigWalk t.maxcode (i <<< 3 % 65536) n code l) := by
    intro n
    induction n with
    | zero => intro code l; exact ends_ok _
    | succ n ih => intro code l; exact ends_bind (ends_idx _ _) fun _ _ => ends_ite (fun _ => ih _ _) fun _ => ends_ok _
  refine ends_bind (hwalk _ _ _) fun r _ => ?_
  refine ends_ite (fun _ => ends_ok _) fun _ => ends_bind (ends_idx _ _) fun vp _ => ends_ite (fun _ => ends_ok _) fun _ => ?_
  refine ends_bind (ends_idx _ _) fun mc _ => ends_bind ?_ fun k _ => ends_bind (ends_idx _ _) fun rv _ => ends_ok _
  unfold HuffTable.valIndex
  exact ends_addU _ _ _ _

/-- C22: building a table from any 17 counts and any 256 bytes ends. -/
theorem huffman_build_ends (b : Build) {bits huffval : List Nat} (precision : Nat) (dngBug u : Bool) (hs : Stored bits huffval) :
    Ends (HuffTable.init b (HuffTable.raw bits huffval precision dngBug) u) := by
  unfold HuffTable.init
  simp only [HuffTable.raw]
  rw [sizes_eq bits hs.counts]
  refine ends_bind (ends_ite (fun _ => ends_ok _) fun _ => ends_fail _) fun r hr => ?_
  by_cases hN : (codeLengths (HuffTable.counts bits)).length ≤ 256
  · rw [if_pos hN] at hr
    injection hr with hr
    subst hr
    simp only
    refine ends_bind ?_ fun hc _ => ?_
    · rcases codes_any (b := b) hN with h | h
      · rw [h]; exact ends_crash
      · rw [h]; exact ends_ok _
    · refine ends_bind (ends_setIdx _ _ _) fun _ _ => ends_bind (ends_setIdx _ _ _) fun _ _ => ends_bind (ends_forRange ?_ _ _ _) fun _ _ => ?_
      · intro l s
        unfold HuffTable.decodeStep
        refine ends_bind (ends_idx _ _) fun n _ => ends_ite (fun _ => ?_) fun _ => ?_
        · exact ends_bind (ends_setIdx _ _ _) fun _ _ => ends_bind (ends_idx _ _) fun _ _ => ends_bind (ends_setIdx _ _ _) fun _ _ =>
            ends_bind (ends_idx _ _) fun _ _ => ends_bind (ends_setIdx _ _ _) fun _ _ => ends_bind (ends_ok _) fun _ _ =>
            ends_ite (fun _ => ends_fail _) fun _ => ends_ok _
        · exact ends_bind (ends_setIdx _ _ _) fun _ _ => ends_bind (ends_setIdx _ _ _) fun _ _ => ends_bind (ends_ok _) fun _ _ =>
            ends_ite (fun _ => ends_fail _) fun _ => ends_ok _
      · refine ends_bind (ends_setIdx _ _ _) fun _ _ => ends_bind (ends_forRange ?_ _ _ _) fun _ _ => ends_ite (fun _ => ends_bind ?_ fun _ _ => ends_ok _) fun _ => ends_bind (ends_ok _) fun _ _ => ends_ok _
        · intro p nb
          unfold HuffTable.shortStep
          refine ends_bind (ends_idx _ _) fun _ _ => ends_ite (fun _ => ?_) fun _ => ends_ok _
          refine ends_bind (ends_idx _ _) fun _ _ => ends_bind (ends_idx _ _) fun _ _ => ends_bind ?_ fun _ _ => ?_
          · unfold HuffTable.shortEnd
            exact ends_ite (fun _ => ends_bind (ends_idx _ _) fun _ _ => ends_ok _) fun _ => ends_ok _
          · exact ends_ite (fun _ => ends_fail _) fun _ => ends_forRange (fun _ _ => ends_setIdx _ _ _) _ _ _
        · unfold HuffTable.initializeBigtable
          exact ends_bind (ends_mapM (fun _ => ends_byteIndex _ _ _) _) fun _ _ => ends_ok _
  · rw [if_neg hN] at hr; exact absurd hr (fail_ne_ok _ _)

/-- C22: whatever the data, once a table is built the lookup of a symbol gives one of its symbols or an error, on every
stream. In particular it never indexes outside the tables. The 13-bit table has an entry for every pattern. -/
theorem huffman_lookup_total (b : Build) {bits huffval : List Nat} {precision : Nat} {dngBug u : Bool} {t : HuffTable} (hs : Stored bits huffval)
    (hprec : precision ≤ 16) (h : HuffTable.init b (HuffTable.raw bits huffval precision dngBug) u = .ok t) :
    (u = true → t.bigtable.length = 8192) ∧
    ∀ {σ : Type} (P : PumpOps σ) (st : Nat → Nat) (limit : Option Nat) (at_ : σ → Nat → Nat → Prop), ReadsBits P st limit at_ →
      ∀ s c a, at_ s c a → within limit (c + 17) →
        (∃ v s', HuffTable.huffLen b P t s = .ok (v, s') ∧ v ∈ huffval) ∨ HuffTable.huffLen b P t s = fail "ljpeg: bad Huffman code" := by
  obtain ⟨hB, e1, e2, _, e4⟩ := init_any hs.counts hs.symbols hs.bytes h
  refine ⟨e4, ?_⟩
  intro σ P st limit at_ hR s c a hat hw
  have := huffLen_any (b := b) hB (e1 ▸ hprec) hR hat hw
  rwa [e2] at this

/-- C22: too many symbols are an error. -/
theorem huffman_too_many (b : Build) {bits huffval : List Nat} (precision : Nat) (dngBug u : Bool) (hs : Stored bits huffval)
    (h : 256 < (lengthsOf bits).length) :
    HuffTable.init b (HuffTable.raw bits huffval precision dngBug) u = fail "ljpeg: Code length too long. Corrupt data." := by
  unfold HuffTable.init
  simp only [HuffTable.raw]
  have h : 256 < (codeLengths (HuffTable.counts bits)).length := h
  rw [sizes_eq bits hs.counts, if_neg (by omega)]
  rfl

/-- C22, some tables make building panic instead of giving an error. First: a prefix code with one code of 1 bit and one of 16 bits. -/
theorem huffman_build_panics_sparse (b : Build) {huffval : List Nat} (hs : Stored [0, 1, 0, 0, 0, 0, 0, 0, 0, 0, 0, 0, 0, 0, 0, 0, 1] huffval) (t : HuffTable) :
    HuffTable.new b [0, 1, 0, 0, 0, 0, 0, 0, 0, 0, 0, 0, 0, 0, 0, 0, 1] huffval 16 false ≠ .ok t := by
  refine new_crash hs.counts hs.symbols hs.bytes (by decide) (by decide) (Or.inr (Or.inl (by decide))) ?_ t
  unfold Fits
  decide

/-- C22, second: a complete code with a 16-bit code of all ones panics in the checked build. -/
theorem huffman_build_panics_ones :
    HuffTable.init .debug (HuffTable.raw [0, 1, 1, 1, 1, 1, 1, 1, 1, 1, 1, 1, 1, 1, 1, 1, 2] (List.replicate 256 0) 16 false) true = crash := by
  decide +kernel

/-- C22, third: 8-bit code number 256 (one too many) passes the range check and panics. -/
theorem huffman_build_panics_256 (b : Build) :
    HuffTable.init b (HuffTable.raw [0, 0, 0, 0, 0, 0, 0, 1, 255, 0, 0, 0, 0, 0, 0, 0, 0] (List.replicate 256 0) 16 false) true = crash := by
  cases b <;> decide +kernel

end Props

import Verif.Lemmas.HuffBuild
/-!
# The decoding tables
-/

namespace Model
namespace HuffTable
open Rust Spec

theorem getElem_set {α : Type} {l : List α} {i j : Nat} {v : α} (hi : i < l.length) :
    (l.set i v)[j]? = if j = i then some v else l[j]? := by
  rw [List.getElem?_set]
  by_cases h : i = j
  · subst h; simp [hi]
  · rw [if_neg h, if_neg (by omega)]

/-- What figure F.15 leaves for codes of `l` bits; the `k`-th code is `code k`. -/
structure DecodeAt (code cs : Nat → Nat) (mincode : List Nat) (maxcode : List Int) (valptr : List Nat) (l : Nat) : Prop where
  used : 0 < cs l → valptr[l]? = some (cum cs (l - 1)) ∧ mincode[l]? = some (code (cum cs (l - 1))) ∧
    maxcode[l]? = some (code (cum cs l - 1) : Int)
  free : cs l = 0 → valptr[l]? = some 0xff ∧ maxcode[l]? = some (-1)

theorem decode_loop (bits : List Nat) (hb : bits.length = 17) (hN : (codeLengths (counts bits)).length ≤ 256) {hc : List Nat} {code : Nat → Nat}
    (hcode : ∀ k, k < (codeLengths (counts bits)).length → idx hc k = .ok (code k))
    {mincode : List Nat} {maxcode : List Int} {valptr : List Nat} (h1 : mincode.length = 17) (h2 : maxcode.length = 18) (h3 : valptr.length = 17) :
    ∃ s, forRange 1 17 (decodeStep bits hc) (0, mincode, maxcode, valptr) = .ok s ∧
      s.2.1.length = 17 ∧ s.2.2.1.length = 18 ∧ s.2.2.2.length = 17 ∧
      ∀ l, 1 ≤ l → l ≤ 16 → DecodeAt code (counts bits) s.2.1 s.2.2.1 s.2.2.2 l := by
  have hlen := codeLengths_length (counts bits)
  obtain ⟨s, e, hp, ha, hb', hc', hd⟩ := forRange_inv (P := fun j s => s.1 = cum (counts bits) (j - 1) ∧
      s.2.1.length = 17 ∧ s.2.2.1.length = 18 ∧ s.2.2.2.length = 17 ∧
      ∀ l, 1 ≤ l → l < j → DecodeAt code (counts bits) s.2.1 s.2.2.1 s.2.2.2 l)
    (f := decodeStep bits hc) (s := (0, mincode, maxcode, valptr))
    (show 1 ≤ 17 by omega) ⟨rfl, h1, h2, h3, fun l _ _ => by omega⟩ (by
      rintro j ⟨p, mi, ma, vp⟩ hj1 hj2 ⟨hp, ha, hb', hc', hd⟩
      simp only at hp ha hb' hc' hd
      have hbits : idx bits j = .ok (counts bits j) := by
        rw [idx_eq_ok, List.getElem?_eq_getElem (by omega)]
        simp [counts, List.getD_eq_getElem?_getD, List.getElem?_eq_getElem (show j < bits.length by omega)]
      have hcum := cum_pred (counts bits) hj1
      have hmono := cum_mono (counts bits) (show j ≤ 16 by omega)
      rw [← hlen] at hmono
      unfold decodeStep
      rw [hbits, ok_bind]
      by_cases hn : counts bits j > 0
      · rw [if_pos hn]
        simp only
        rw [setIdx_lt (by omega), ok_bind, hp, hcode _ (by omega), ok_bind, setIdx_lt (by omega), ok_bind, hcode _ (by omega),
          ok_bind, setIdx_lt (by omega), ok_bind, ok_bind]
        simp only
        rw [if_neg (by omega)]
        refine ⟨_, rfl, by simp only [Nat.add_sub_cancel]; exact hcum.symm, by simpa using ha, by simpa using hb', by simpa using hc', ?_⟩
        intro l hl1 hl2
        simp only
        by_cases he : l = j
        · subst he
          refine ⟨fun _ => ?_, fun h => by omega⟩
          rw [getElem_set (by omega), getElem_set (by omega), getElem_set (by omega)]
          simp only [if_true]
          refine ⟨trivial, trivial, ?_⟩
          rw [hcum]
        · have := hd l hl1 (by omega)
          refine ⟨fun h => ?_, fun h => ?_⟩
          · rw [getElem_set (by omega), getElem_set (by omega), getElem_set (by omega), if_neg he, if_neg he, if_neg he]; exact this.used h
          · rw [getElem_set (by omega), getElem_set (by omega), if_neg he, if_neg he]; exact this.free h
      · rw [if_neg hn]
        simp only
        rw [setIdx_lt (by omega), ok_bind, setIdx_lt (by omega), ok_bind, ok_bind]
        simp only
        rw [if_neg (by omega)]
        refine ⟨_, rfl, by simp only [Nat.add_sub_cancel]; omega, by simpa using ha, by simpa using hb', by simpa using hc', ?_⟩
        intro l hl1 hl2
        simp only
        by_cases he : l = j
        · subst he
          refine ⟨fun h => by omega, fun _ => ?_⟩
          rw [getElem_set (by omega), getElem_set (by omega)]
          simp
        · have := hd l hl1 (by omega)
          refine ⟨fun h => ?_, fun h => ?_⟩
          · rw [getElem_set (by omega), getElem_set (by omega), if_neg he, if_neg he]; exact this.used h
          · rw [getElem_set (by omega), getElem_set (by omega), if_neg he, if_neg he]; exact this.free h)
  exact ⟨s, e, ha, hb', hc', fun l h1 h2 => hd l h1 (by omega)⟩

/-! ## The 8-bit lookup table -/

/-- The 8-bit pattern `x` begins with the code of symbol `k`. -/
def Short (L : List Nat) (k x : Nat) : Prop := k < L.length ∧ L.getD k 0 ≤ 8 ∧ start L k ≤ 256 * x ∧ 256 * x < start L (k + 1)

theorem Short.unique {L : List Nat} {j k x : Nat} (h : Short L j x) (h' : Short L k x) : j = k :=
  locate_unique ⟨h.2.2.1, h.2.2.2⟩ ⟨h'.2.2.1, h'.2.2.2⟩

theorem mask_eq (s : Nat) (h1 : 1 ≤ s) (h : s < 8) : HUFF_BITMASK[24 + s]? = some (2 ^ (8 - s) - 1) := by
  have : ∀ s : Fin 8, HUFF_BITMASK[24 + s.val]? = some (2 ^ (8 - s.val) - 1) := by decide
  exact this ⟨s, h⟩

theorem short_start {L : List Nat} (hL : Lens L) {p : Nat} (hp : p < L.length) (h8 : L.getD p 0 ≤ 8) :
    start L p = 256 * (canonical L p * 2 ^ (8 - L.getD p 0)) ∧
    start L (p + 1) = 256 * (canonical L p * 2 ^ (8 - L.getD p 0) + 2 ^ (8 - L.getD p 0)) := by
  have h1 := canonical_start hL hp
  have e : 2 ^ (16 - L.getD p 0) = 256 * 2 ^ (8 - L.getD p 0) := by
    rw [show 16 - L.getD p 0 = 8 + (8 - L.getD p 0) by omega, Nat.pow_add]
  rw [start_succ hp, ← h1, e]
  generalize 2 ^ (8 - L.getD p 0) = q
  constructor
  · rw [← Nat.mul_assoc, Nat.mul_comm (canonical L p), Nat.mul_assoc]
  · rw [Nat.mul_add, ← Nat.mul_assoc, Nat.mul_comm (canonical L p), Nat.mul_assoc]

theorem short_loop {L huffval hc : List Nat} (hL : Lens L) (hN : L.length ≤ 256) (hK : ∀ k, k < L.length → L.getD k 0 ≤ 8 → start L (k + 1) ≤ 65536)
    (hcode : ∀ k, k < L.length → L.getD k 0 ≤ 8 → idx hc k = .ok (canonical L k)) (hv : huffval.length = 256) {nb : List Nat}
    (hnb : nb = List.replicate 256 0) :
    ∃ r, forRange 0 L.length (shortStep huffval (pad L) hc) nb = .ok r ∧ r.length = 256 ∧
      ∀ x, x < 256 → (∀ k, Short L k x → r[x]? = some (L.getD k 0 ||| (huffval.getD k 0 <<< 4) % 4294967296)) ∧
        ((∀ k, ¬ Short L k x) → r[x]? = some 0) := by
  obtain ⟨r, e, hr, h⟩ := forRange_inv (P := fun p r => r.length = 256 ∧
      ∀ x, x < 256 → (∀ k, k < p → Short L k x → r[x]? = some (L.getD k 0 ||| (huffval.getD k 0 <<< 4) % 4294967296)) ∧
        ((∀ k, k < p → ¬ Short L k x) → r[x]? = some 0))
    (f := shortStep huffval (pad L) hc) (s := nb) (Nat.zero_le L.length)
    ⟨by rw [hnb, List.length_replicate], fun x hx => ⟨fun k hk => by omega, fun _ => by rw [hnb, List.getElem?_replicate, if_pos hx]⟩⟩ (by
      intro p r _ hp ⟨hr, h⟩
      unfold shortStep
      rw [pad_idx (by omega) (by omega), ok_bind]
      by_cases h8 : L.getD p 0 ≤ 8
      · rw [if_pos h8]
        obtain ⟨hs1, hs2⟩ := short_start hL hp h8
        have h1 := (hL.range p hp).1
        have hval : idx huffval p = .ok (huffval.getD p 0) := by
          rw [idx_eq_ok, List.getElem?_eq_getElem (by omega), getD_eq]
        rw [hval, ok_bind, hcode p hp h8, ok_bind]
        simp only
        have hle := hK p hp h8
        have hq : 0 < 2 ^ (8 - L.getD p 0) := Nat.pow_pos (by omega)
        have hll : shl16 (canonical L p) (8 - L.getD p 0) = canonical L p * 2 ^ (8 - L.getD p 0) := by
          unfold shl16
          rw [Nat.shiftLeft_eq, Nat.mod_eq_of_lt (by omega)]
        rw [hll]
        have hul : shortEnd (L.getD p 0) (canonical L p * 2 ^ (8 - L.getD p 0)) = .ok (canonical L p * 2 ^ (8 - L.getD p 0) + (2 ^ (8 - L.getD p 0) - 1)) := by
          unfold shortEnd
          by_cases hlt : L.getD p 0 < 8
          · rw [if_pos hlt, idx_eq_ok.mpr (mask_eq _ h1 hlt), ok_bind, ← Nat.shiftLeft_eq, ← Nat.shiftLeft_add_eq_or_of_lt (by omega)]
          · rw [if_neg hlt, show 8 - L.getD p 0 = 0 by omega]; rfl
        rw [hul, ok_bind]
        rw [if_neg (by omega)]
        obtain ⟨r', e1, e2, e3⟩ := forRange_fill (lo := canonical L p * 2 ^ (8 - L.getD p 0))
          (hi := canonical L p * 2 ^ (8 - L.getD p 0) + (2 ^ (8 - L.getD p 0) - 1) + 1)
          (f := fun i nb => setIdx nb i (L.getD p 0 ||| (huffval.getD p 0 <<< 4) % 4294967296))
          (g := fun _ => L.getD p 0 ||| (huffval.getD p 0 <<< 4) % 4294967296) (out := r) (by omega) (by omega) (by
            intro j s hj1 hj2 hs
            rw [setIdx_lt (by omega)])
        refine ⟨r', e1, by omega, ?_⟩
        intro x hx
        have hiff : Short L p x ↔ canonical L p * 2 ^ (8 - L.getD p 0) ≤ x ∧ x < canonical L p * 2 ^ (8 - L.getD p 0) + (2 ^ (8 - L.getD p 0) - 1) + 1 := by
          unfold Short
          rw [hs1, hs2]
          generalize canonical L p * 2 ^ (8 - L.getD p 0) = a at *
          generalize 2 ^ (8 - L.getD p 0) = q at *
          omega
        rw [e3]
        constructor
        · intro k hk hs
          by_cases hp' : Short L p x
          · rw [if_pos (hiff.mp hp'), hp'.unique hs]
          · rw [if_neg (fun h => hp' (hiff.mpr h))]
            refine (h x hx).1 k ?_ hs
            by_contra hc
            have : k = p := by omega
            exact hp' (this ▸ hs)
        · intro hno
          rw [if_neg (fun h => hno p (by omega) (hiff.mpr h))]
          exact (h x hx).2 (fun k hk => hno k (by omega))
      · rw [if_neg h8]
        refine ⟨r, rfl, hr, fun x hx => ⟨fun k hk hs => (h x hx).1 k ?_ hs, fun hno => (h x hx).2 fun k hk => hno k (by omega)⟩⟩
        by_contra hc
        have : k = p := by omega
        subst this
        exact h8 hs.2.1)
  exact ⟨r, e, hr, fun x hx => ⟨fun k hs => (h x hx).1 k hs.1 hs, fun hno => (h x hx).2 fun k _ => hno k⟩⟩

/-! ## The whole table -/

/-- The tables belong to the code with `cs l` symbols of `l` bits. -/
structure Built (cs : Nat → Nat) (t : HuffTable) : Prop where
  vals : t.huffval.length = 256
  bytes : ∀ v ∈ t.huffval, v < 256
  count : (codeLengths cs).length ≤ 256
  room : kraft (codeLengths cs) ≤ 65536
  decode : ∀ l, 1 ≤ l → l ≤ 16 → DecodeAt (canonical (codeLengths cs)) cs t.mincode t.maxcode t.valptr l
  lenMin : t.mincode.length = 17
  lenMax : t.maxcode.length = 18
  lenPtr : t.valptr.length = 17
  last : t.maxcode[17]? = some 0xFFFFF
  lenShort : t.numbits.length = 256
  short : ∀ x, x < 256 → (∀ k, Short (codeLengths cs) k x → t.numbits[x]? = some ((codeLengths cs).getD k 0 ||| (t.huffval.getD k 0 <<< 4) % 4294967296)) ∧
    ((∀ k, ¬ Short (codeLengths cs) k x) → t.numbits[x]? = some 0)

/-- The tables without the 13-bit one. -/
theorem init_built {b : Build} {bits huffval : List Nat} {precision : Nat} {dngBug : Bool} (hb : bits.length = 17) (hv : huffval.length = 256)
    (hbytes : ∀ v ∈ huffval, v < 256) (hN : (codeLengths (counts bits)).length ≤ 256) (hK : kraft (codeLengths (counts bits)) ≤ 65536)
    (ho : NoOverflow b (codeLengths (counts bits))) :
    ∃ t, Built (counts bits) t ∧ t.bits = bits ∧ t.huffval = huffval ∧ t.precision = precision ∧ t.dngBug = dngBug ∧
      ∀ u, init b (raw bits huffval precision dngBug) u = (do
        let t ← if u then initializeBigtable b t else .ok t
        .ok { t with initialized := true, useBigtable := u }) := by
  obtain ⟨⟨p, mi, ma, vp⟩, e1, l1, l2, l3, hd⟩ := decode_loop bits hb hN (hc := padc (codeLengths (counts bits)) (codeLengths (counts bits)).length)
    (fun k hk => padc_idx _ hk (by omega)) (mincode := List.replicate 17 0) (maxcode := List.replicate 18 0) (valptr := List.replicate 17 0)
    (by simp) (by simp) (by simp)
  obtain ⟨nb, e2, l4, hs⟩ := short_loop (huffval := huffval) (hc := padc (codeLengths (counts bits)) (codeLengths (counts bits)).length)
    (codeLengths_lens (counts bits)) hN (fun k _ _ => Nat.le_trans (start_le_kraft _ _) hK) (fun k hk _ => padc_idx _ hk (by omega)) hv (rfl : List.replicate 256 0 = List.replicate 256 0)
  simp only at l1 l2 l3 hd
  refine ⟨{ raw bits huffval precision dngBug with mincode := mi, maxcode := ma.set 17 0xFFFFF, valptr := vp, numbits := nb },
    ⟨hv, hbytes, hN, hK, ?_, l1, by simpa using l2, l3, ?_, l4, hs⟩, rfl, rfl, rfl, rfl, ?_⟩
  · intro l h1 h2
    have := hd l h1 h2
    refine ⟨fun h => ?_, fun h => ?_⟩
    · simp only; rw [getElem_set (by omega), if_neg (by omega)]; exact this.used h
    · simp only; rw [getElem_set (by omega), if_neg (by omega)]; exact this.free h
  · simp only; rw [getElem_set (by omega), if_pos rfl]
  · intro u
    unfold init
    simp only [raw]
    rw [sizes_eq bits hb, if_pos hN, ok_bind]
    simp only
    rw [codes_eq hN hK ho, ok_bind]
    rw [setIdx_lt (by simp), ok_bind, setIdx_lt (by simp), ok_bind]
    have z1 : (List.replicate 17 0).set 0 0 = List.replicate 17 (0 : Nat) := rfl
    have z2 : (List.replicate 18 0).set 0 0 = List.replicate 18 (0 : Int) := rfl
    rw [z1, z2, e1, ok_bind]
    simp only
    rw [setIdx_lt (by omega), ok_bind, e2, ok_bind]

end HuffTable
end Model

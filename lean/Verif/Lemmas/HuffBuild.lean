import Verif.Lemmas.Huffman
/-!
# What `HuffTable::initialize` builds
-/

namespace Model
namespace HuffTable
open Rust Spec

/-- Filled up with zeros to 257 entries. -/
def pad (L : List Nat) : List Nat := L ++ List.replicate (257 - L.length) 0

theorem pad_length {L : List Nat} (h : L.length ≤ 257) : (pad L).length = 257 := by simp [pad]; omega

theorem pad_idx {L : List Nat} {p : Nat} (hp : p ≤ 256) (hL : L.length ≤ 257) : idx (pad L) p = .ok (L.getD p 0) := by
  rw [idx_eq_ok]
  unfold pad
  by_cases h : p < L.length
  · rw [List.getElem?_append_left h, getD_eq h, List.getElem?_eq_getElem h]
  · rw [List.getElem?_append_right (by omega), List.getElem?_replicate, if_pos (by omega)]
    simp [List.getD_eq_getElem?_getD, List.getElem?_eq_none (show L.length ≤ p by omega)]

theorem pad_set {L : List Nat} (h : L.length ≤ 256) (v : Nat) : setIdx (pad L) L.length v = .ok (pad (L ++ [v])) := by
  rw [setIdx_lt (by rw [pad_length (by omega)]; omega)]
  congr 1
  unfold pad
  rw [List.set_append_right _ _ (Nat.le_refl _), Nat.sub_self, List.append_assoc]
  congr 1
  obtain ⟨n, hn⟩ : ∃ n, 257 - L.length = n + 1 := ⟨256 - L.length, by omega⟩
  rw [hn, List.length_append, List.length_singleton, show 257 - (L.length + 1) = n by omega, List.replicate_succ]
  rfl

/-! ## Lengths -/

theorem sizeStep_eq (l : Nat) {L : List Nat} (h : L.length ≤ 256) :
    sizeStep l (pad L, L.length) = if L.length + 1 > 256 then fail tooLong else .ok (pad (L ++ [l]), L.length + 1) := by
  unfold sizeStep
  simp only
  rw [pad_set h, ok_bind]

theorem sizeLoop_eq (l : Nat) : ∀ (n i : Nat) (L : List Nat), L.length ≤ 256 →
    loopN (fun _ s => sizeStep l s) n i (pad L, L.length) =
      if L.length + n ≤ 256 then .ok (pad (L ++ List.replicate n l), L.length + n) else fail tooLong := by
  intro n
  induction n with
  | zero => intro i L h; rw [if_pos (by omega)]; simp [loopN]
  | succ n ih =>
    intro i L h
    rw [loopN, sizeStep_eq l h]
    by_cases hc : L.length + 1 > 256
    · rw [if_pos hc, if_neg (by omega)]; rfl
    · rw [if_neg hc, ok_bind]
      have := ih (i + 1) (L ++ [l]) (by simp; omega)
      rw [List.length_append, List.length_singleton] at this
      rw [this, List.replicate_succ, List.append_assoc]
      simp only [List.singleton_append]
      by_cases h2 : L.length + 1 + n ≤ 256
      · rw [if_pos h2, if_pos (by omega), show L.length + 1 + n = L.length + (n + 1) by omega]
      · rw [if_neg h2, if_neg (by omega)]

/-- Number of codes of each length. -/
def counts (bits : List Nat) (l : Nat) : Nat := bits.getD l 0

theorem sizes_loop (bits : List Nat) (hb : bits.length = 17) : ∀ (n l : Nat), l + n ≤ 16 → cum (counts bits) l ≤ 256 →
    loopN (fun l s => do
      let n ← idx bits l
      forRange 1 (n + 1) (fun _ s => sizeStep l s) s) n (l + 1) (pad (upTo (counts bits) l), cum (counts bits) l) =
      if cum (counts bits) (l + n) ≤ 256 then .ok (pad (upTo (counts bits) (l + n)), cum (counts bits) (l + n)) else fail tooLong := by
  intro n
  induction n with
  | zero => intro l _ h; simp only [Nat.add_zero]; rw [if_pos h]; rfl
  | succ n ih =>
    intro l hl h
    rw [loopN]
    have e : idx bits (l + 1) = .ok (counts bits (l + 1)) := by
      rw [idx_lt (by omega)]; unfold counts; rw [getD_eq (by omega)]
    rw [e, ok_bind]
    unfold forRange
    rw [Nat.add_sub_cancel]
    have := sizeLoop_eq (l + 1) (counts bits (l + 1)) 1 (upTo (counts bits) l) (by rw [upTo_length]; exact h)
    rw [upTo_length, ← upTo_succ] at this
    rw [this]
    have hc : cum (counts bits) l + counts bits (l + 1) = cum (counts bits) (l + 1) := rfl
    rw [hc]
    by_cases h2 : cum (counts bits) (l + 1) ≤ 256
    · rw [if_pos h2, ok_bind]
      have := ih (l + 1) (by omega) h2
      unfold forRange at this
      rw [this, show l + 1 + n = l + (n + 1) by omega]
    · rw [if_neg h2, if_neg (by have := cum_mono (counts bits) (show l + 1 ≤ l + (n + 1) by omega); omega)]
      rfl

theorem sizes_eq (bits : List Nat) (hb : bits.length = 17) : sizes bits =
    if (codeLengths (counts bits)).length ≤ 256 then .ok (pad (codeLengths (counts bits)), (codeLengths (counts bits)).length) else fail tooLong := by
  unfold sizes
  have := sizes_loop bits hb 16 0 (by omega) (Nat.zero_le _)
  rw [codeLengths_length, codeLengths_eq]
  have e0 : (pad (upTo (counts bits) 0), cum (counts bits) 0) = (List.replicate 257 0, 0) := rfl
  rw [e0] at this
  have e1 : forRange 1 17 (fun l s => do
      let n ← idx bits l
      forRange 1 (n + 1) (fun _ s => sizeStep l s) s) (List.replicate 257 0, 0) = _ := this
  rw [e1]
  simp only [Nat.zero_add]
  by_cases h : cum (counts bits) 16 ≤ 256
  · rw [if_pos h, ok_bind]
    simp only
    have : setIdx (pad (upTo (counts bits) 16)) (cum (counts bits) 16) 0 = .ok (pad (upTo (counts bits) 16)) := by
      have hs := pad_set (L := upTo (counts bits) 16) (by rw [upTo_length]; exact h) 0
      rw [upTo_length] at hs
      rw [hs]
      congr 1
      unfold pad
      rw [List.length_append, List.append_assoc, upTo_length]
      congr 1
      rw [show 257 - cum (counts bits) 16 = (257 - (cum (counts bits) 16 + 1)) + 1 by omega, List.replicate_succ]
      rfl
    rw [this, ok_bind]
  · rw [if_neg h]; rfl

/-! ## Codes -/

/-- The first `p` codes, then zeros. -/
def padc (L : List Nat) (p : Nat) : List Nat := pad ((List.range p).map (canonical L))

theorem padc_set (L : List Nat) {p : Nat} (h : p ≤ 256) : setIdx (padc L p) p (canonical L p) = .ok (padc L (p + 1)) := by
  have := pad_set (L := (List.range p).map (canonical L)) (by simp; omega) (canonical L p)
  rw [List.length_map, List.length_range] at this
  unfold padc
  rw [this, List.range_succ, List.map_append]
  rfl

theorem padc_idx (L : List Nat) {n p : Nat} (hp : p < n) (hn : n ≤ 257) : idx (padc L n) p = .ok (canonical L p) := by
  unfold padc
  rw [pad_idx (by omega) (by simp; omega), getD_eq (by simp; omega)]
  simp

/-- The count of a `u16` does not overflow. -/
def NoOverflow (b : Build) (L : List Nat) : Prop := b = .release ∨ kraft L < 65536 ∨ ∀ k, k < L.length → L.getD k 0 < 16

theorem codeRun_eq {b : Build} {L : List Nat} (hL : Lens L) (hN : L.length ≤ 256) (hK : kraft L ≤ 65536) (ho : NoOverflow b L) {si e : Nat}
    (hsi : 1 ≤ si) (hsi' : si ≤ 16) (he : e ≤ L.length) (hend : e = L.length ∨ L.getD e 0 ≠ si) : ∀ (d p fuel code : Nat), p + d = e → d < fuel →
    (∀ j, p ≤ j → j < e → L.getD j 0 = si) → (p < L.length → code * 2 ^ (16 - si) = start L p) →
    ∃ code', codeRun b (pad L) si fuel (p, code, padc L p) = .ok (e, code', padc L e) ∧ (e < L.length → code' * 2 ^ (16 - si) = start L e) := by
  intro d
  induction d with
  | zero =>
    intro p fuel code hp hf hrun hcode
    obtain ⟨fuel, rfl⟩ : ∃ f, fuel = f + 1 := ⟨fuel - 1, by omega⟩
    have : p = e := by omega
    subst this
    rw [codeRun, pad_idx (by omega) (by omega), ok_bind]
    have hne : L.getD p 0 ≠ si := by
      rcases hend with h | h
      · rw [h]; simp [List.getD_eq_getElem?_getD]; omega
      · exact h
    rw [if_neg hne]
    exact ⟨code, rfl, hcode⟩
  | succ d ih =>
    intro p fuel code hp hf hrun hcode
    obtain ⟨fuel, rfl⟩ : ∃ f, fuel = f + 1 := ⟨fuel - 1, by omega⟩
    have hpl : p < L.length := by omega
    have hlen := hrun p (Nat.le_refl _) (by omega)
    have hq : 0 < 2 ^ (16 - si) := Nat.pow_pos (by omega)
    have hcan := canonical_start hL hpl
    rw [hlen] at hcan
    have hcc : code = canonical L p := by
      have := hcode hpl
      rw [← hcan] at this
      exact Nat.eq_of_mul_eq_mul_right hq this
    rw [codeRun, pad_idx (by omega) (by omega), ok_bind, if_pos hlen, hcc, padc_set L (by omega), ok_bind]
    have hsucc : start L (p + 1) = (canonical L p + 1) * 2 ^ (16 - si) := by
      rw [start_succ hpl, hlen, ← hcan]; ring
    have hle : start L (p + 1) ≤ 65536 := Nat.le_trans (start_le_kraft L _) hK
    have hpow : 2 ^ si * 2 ^ (16 - si) = 65536 := by rw [← Nat.pow_add, show si + (16 - si) = 16 by omega]
    have hb : canonical L p + 1 ≤ 65536 := by
      have : (canonical L p + 1) * 1 ≤ (canonical L p + 1) * 2 ^ (16 - si) := Nat.mul_le_mul_left _ hq
      omega
    by_cases hlt : canonical L p + 1 < 65536
    · rw [addU_ok (by simpa using hlt), ok_bind]
      exact ih (p + 1) fuel _ (by omega) (by omega) (fun j hj => hrun j (by omega)) (fun _ => hsucc.symm)
    · -- the last of all codes
      have hfull : canonical L p + 1 = 65536 := by omega
      have h16 : si = 16 := by
        by_contra hne
        have : 2 ≤ 2 ^ (16 - si) := by
          calc 2 = 2 ^ 1 := rfl
            _ ≤ 2 ^ (16 - si) := Nat.pow_le_pow_right (by omega) (by omega)
        rw [hsucc, hfull] at hle
        omega
      have hk : start L (p + 1) = 65536 := by rw [hsucc, hfull, h16, Nat.sub_self, Nat.pow_zero, Nat.mul_one]
      have hlast : p + 1 = L.length := by
        by_contra hne
        have h2 := start_succ (L := L) (k := p + 1) (by omega)
        have h3 := start_le_kraft L (p + 1 + 1)
        have : 0 < 2 ^ (16 - L.getD (p + 1) 0) := Nat.pow_pos (by omega)
        omega
      have hrel : b = .release := by
        rcases ho with h | h | h
        · exact h
        · have := start_le_kraft L (p + 1); omega
        · have := h p hpl; omega
      have : addU 16 b (canonical L p) 1 = .ok 0 := by
        unfold addU; rw [hrel, hfull]; rfl
      rw [this, ok_bind]
      exact ih (p + 1) fuel _ (by omega) (by omega) (fun j hj => hrun j (by omega)) (fun h => by omega)

theorem codeLoop_eq {b : Build} {cs : Nat → Nat} (hN : (codeLengths cs).length ≤ 256) (hK : kraft (codeLengths cs) ≤ 65536)
    (ho : NoOverflow b (codeLengths cs)) : ∀ (d si fuel code : Nat), si + d = 17 → 1 ≤ si → d < fuel →
    (cum cs (si - 1) < (codeLengths cs).length → code * 2 ^ (16 - si) = start (codeLengths cs) (cum cs (si - 1))) →
    codeLoop b (pad (codeLengths cs)) fuel si (cum cs (si - 1), code, padc (codeLengths cs) (cum cs (si - 1))) =
      .ok (padc (codeLengths cs) (codeLengths cs).length) := by
  have hL := codeLengths_lens cs
  have hlen := codeLengths_length cs
  intro d
  induction d with
  | zero =>
    intro si fuel code hsi _ hf hcode
    obtain ⟨fuel, rfl⟩ : ∃ f, fuel = f + 1 := ⟨fuel - 1, by omega⟩
    have : si = 17 := by omega
    subst this
    rw [codeLoop, show 17 - 1 = 16 from rfl, ← hlen, pad_idx (by omega) (by omega), ok_bind]
    rw [if_neg (by simp [List.getD_eq_getElem?_getD])]
  | succ d ih =>
    intro si fuel code hsi h1 hf hcode
    obtain ⟨fuel, rfl⟩ : ∃ f, fuel = f + 1 := ⟨fuel - 1, by omega⟩
    have hle := cum_mono cs (show si - 1 ≤ 16 by omega)
    have hle' := cum_mono cs (show si ≤ 16 by omega)
    have hle'' := cum_mono cs (show si - 1 ≤ si by omega)
    rw [← hlen] at hle hle'
    rw [codeLoop, pad_idx (by omega) (by omega), ok_bind]
    by_cases hdone : cum cs (si - 1) = (codeLengths cs).length
    · rw [hdone, if_neg (by simp [List.getD_eq_getElem?_getD])]
    · have hlt : cum cs (si - 1) < (codeLengths cs).length := by omega
      rw [if_pos (by have := (hL.range _ hlt).1; omega)]
      obtain ⟨code', h2, h3⟩ := codeRun_eq (b := b) hL hN hK ho h1 (show si ≤ 16 by omega) hle' (by
          by_cases h : cum cs si = (codeLengths cs).length
          · exact Or.inl h
          · right
            have := (codeLengths_place cs (show cum cs si < _ by omega))
            intro he
            rw [he] at this
            omega) (cum cs si - cum cs (si - 1)) (cum cs (si - 1)) 258 code (by omega) (by omega)
          (fun j hj1 hj2 => (codeLengths_get cs h1 (by omega) hj1 hj2).2) hcode
      rw [h2, ok_bind]
      simp only
      rw [if_neg (by omega)]
      have := ih (si + 1) fuel (shl16 code' 1) (by omega) (by omega) (by omega) (by
        rw [Nat.add_sub_cancel]
        intro hl
        have h4 := h3 hl
        have hs := start_succ hl
        have hk := start_le_kraft (codeLengths cs) (cum cs si + 1)
        have hp : 0 < 2 ^ (16 - (codeLengths cs).getD (cum cs si) 0) := Nat.pow_pos (by omega)
        have hsi16 : si < 16 := by
          by_contra hc
          have : si = 16 := by omega
          rw [this, ← hlen] at hl
          omega
        have e : 2 ^ (16 - si) = 2 * 2 ^ (16 - (si + 1)) := by
          rw [← Nat.pow_succ']; congr 1; omega
        have hp2 : 0 < 2 ^ (16 - (si + 1)) := Nat.pow_pos (by omega)
        have hc2 : code' * 2 < 65536 := by
          have : code' * 2 * 1 ≤ code' * 2 * 2 ^ (16 - (si + 1)) := Nat.mul_le_mul_left _ hp2
          rw [e, ← Nat.mul_assoc] at h4
          omega
        unfold shl16
        rw [Nat.shiftLeft_eq, Nat.pow_one, Nat.mod_eq_of_lt hc2, Nat.mul_assoc, ← e, h4])
      rw [Nat.add_sub_cancel] at this
      exact this

theorem codes_eq {b : Build} {cs : Nat → Nat} (hN : (codeLengths cs).length ≤ 256) (hK : kraft (codeLengths cs) ≤ 65536)
    (ho : NoOverflow b (codeLengths cs)) : codes b (pad (codeLengths cs)) = .ok (padc (codeLengths cs) (codeLengths cs).length) := by
  unfold codes
  rw [pad_idx (by omega) (by omega), ok_bind]
  have e0 : (List.replicate 257 0 : List Nat) = padc (codeLengths cs) 0 := rfl
  by_cases h0 : (codeLengths cs).length = 0
  · rw [codeLoop, pad_idx (by omega) (by omega), ok_bind]
    rw [if_neg (by rw [List.length_eq_zero_iff.mp h0]; simp), h0, e0]
  · have hp := codeLengths_place cs (show 0 < (codeLengths cs).length by omega)
    have hr := (codeLengths_lens cs).range 0 (by omega)
    have := codeLoop_eq hN hK ho (17 - (codeLengths cs).getD 0 0) ((codeLengths cs).getD 0 0) 18 0 (by omega) (by omega) (by omega)
      (by intro _; rw [show cum cs ((codeLengths cs).getD 0 0 - 1) = 0 by omega, start_zero]; simp)
    rw [show cum cs ((codeLengths cs).getD 0 0 - 1) = 0 by omega] at this
    rw [e0]
    exact this

end HuffTable
end Model

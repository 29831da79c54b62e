import Verif.Lemmas.HuffBig
/-!
# Tables built from arbitrary data
-/

namespace Model
namespace HuffTable
open Rust Spec

/-! ## Codes with wrap-around -/

/-- The first `p` codes modulo `2^16`, then zeros. -/
def padm (L : List Nat) (p : Nat) : List Nat := pad ((List.range p).map fun k => canonical L k % 65536)

theorem padm_set (L : List Nat) {p : Nat} (h : p ≤ 256) : setIdx (padm L p) p (canonical L p % 65536) = .ok (padm L (p + 1)) := by
  have := pad_set (L := (List.range p).map fun k => canonical L k % 65536) (by simp; omega) (canonical L p % 65536)
  rw [List.length_map, List.length_range] at this
  unfold padm
  rw [this, List.range_succ, List.map_append]
  rfl

theorem padm_idx (L : List Nat) {n p : Nat} (hp : p < n) (hn : n ≤ 257) : idx (padm L n) p = .ok (canonical L p % 65536) := by
  unfold padm
  rw [pad_idx (by omega) (by simp; omega), getD_eq (by simp; omega)]
  simp

theorem codeRun_rel {L : List Nat} (hL : Lens L) (hN : L.length ≤ 256) {si e : Nat}
    (hsi : 1 ≤ si) (hsi' : si ≤ 16) (he : e ≤ L.length) (hend : e = L.length ∨ L.getD e 0 ≠ si) : ∀ (d p fuel code : Nat), p + d = e → d < fuel →
    (∀ j, p ≤ j → j < e → L.getD j 0 = si) → (p < L.length → code * 2 ^ (16 - si) = start L p) →
    ∃ code', codeRun .release (pad L) si fuel (p, code % 65536, padm L p) = .ok (e, code' % 65536, padm L e) ∧
      (e < L.length → code' * 2 ^ (16 - si) = start L e) := by
  intro d
  induction d with
  | zero =>
    intro p fuel code hp hf hrun hcode
    obtain ⟨fuel, rfl⟩ : ∃ f, fuel = f + 1 := ⟨fuel - 1, by omega⟩
    have : p = e := by omega
    subst this
    rw [codeRun, pad_idx (by omega) (by omega), ok_bind]
    have hne : L.getD p 0 ≠ si := by
      rcases hend with h | h
      · rw [h]; simp [List.getD_eq_getElem?_getD]; omega
      · exact h
    rw [if_neg hne]
    exact ⟨code, rfl, hcode⟩
  | succ d ih =>
    intro p fuel code hp hf hrun hcode
    obtain ⟨fuel, rfl⟩ : ∃ f, fuel = f + 1 := ⟨fuel - 1, by omega⟩
    have hpl : p < L.length := by omega
    have hlen := hrun p (Nat.le_refl _) (by omega)
    have hq : 0 < 2 ^ (16 - si) := Nat.pow_pos (by omega)
    have hcan := canonical_start hL hpl
    rw [hlen] at hcan
    have hcc : code = canonical L p := Nat.eq_of_mul_eq_mul_right hq (by rw [hcan, hcode hpl])
    have hsucc : start L (p + 1) = (canonical L p + 1) * 2 ^ (16 - si) := by
      rw [start_succ hpl, hlen, ← hcan, Nat.succ_mul]
    rw [codeRun, pad_idx (by omega) (by omega), ok_bind, if_pos hlen, hcc, padm_set L (by omega), ok_bind]
    have : addU 16 .release (canonical L p % 65536) 1 = .ok ((canonical L p + 1) % 65536) := by
      unfold addU
      split
      · rename_i h; congr 1; simp at h; omega
      · simp only
        congr 1
        rw [show (2 : Nat) ^ 16 = 65536 from rfl]; omega
    rw [this, ok_bind]
    exact ih (p + 1) fuel _ (by omega) (by omega) (fun j hj => hrun j (by omega)) (fun _ => hsucc.symm)

theorem codeLoop_rel {cs : Nat → Nat} (hN : (codeLengths cs).length ≤ 256) : ∀ (d si fuel code : Nat), si + d = 17 → 1 ≤ si → d < fuel →
    (cum cs (si - 1) < (codeLengths cs).length → code * 2 ^ (16 - si) = start (codeLengths cs) (cum cs (si - 1))) →
    codeLoop .release (pad (codeLengths cs)) fuel si (cum cs (si - 1), code % 65536, padm (codeLengths cs) (cum cs (si - 1))) =
      .ok (padm (codeLengths cs) (codeLengths cs).length) := by
  have hL := codeLengths_lens cs
  have hlen := codeLengths_length cs
  intro d
  induction d with
  | zero =>
    intro si fuel code hsi _ hf hcode
    obtain ⟨fuel, rfl⟩ : ∃ f, fuel = f + 1 := ⟨fuel - 1, by omega⟩
    have : si = 17 := by omega
    subst this
    rw [codeLoop, show 17 - 1 = 16 from rfl, ← hlen, pad_idx (by omega) (by omega), ok_bind]
    rw [if_neg (by simp [List.getD_eq_getElem?_getD])]
  | succ d ih =>
    intro si fuel code hsi h1 hf hcode
    obtain ⟨fuel, rfl⟩ : ∃ f, fuel = f + 1 := ⟨fuel - 1, by omega⟩
    have hle := cum_mono cs (show si - 1 ≤ 16 by omega)
    have hle' := cum_mono cs (show si ≤ 16 by omega)
    have hle'' := cum_mono cs (show si - 1 ≤ si by omega)
    rw [← hlen] at hle hle'
    rw [codeLoop, pad_idx (by omega) (by omega), ok_bind]
    by_cases hdone : cum cs (si - 1) = (codeLengths cs).length
    · rw [hdone, if_neg (by simp [List.getD_eq_getElem?_getD])]
    · have hlt : cum cs (si - 1) < (codeLengths cs).length := by omega
      rw [if_pos (by have := (hL.range _ hlt).1; omega)]
      obtain ⟨code', h2, h3⟩ := codeRun_rel hL hN h1 (show si ≤ 16 by omega) hle' (by
          by_cases h : cum cs si = (codeLengths cs).length
          · exact Or.inl h
          · right
            have := (codeLengths_place cs (show cum cs si < _ by omega))
            intro he
            rw [he] at this
            omega) (cum cs si - cum cs (si - 1)) (cum cs (si - 1)) 258 code (by omega) (by omega)
          (fun j hj1 hj2 => (codeLengths_get cs h1 (by omega) hj1 hj2).2) hcode
      rw [h2, ok_bind]
      simp only
      rw [if_neg (by omega)]
      have e : shl16 (code' % 65536) 1 = (code' * 2) % 65536 := by
        unfold shl16
        rw [Nat.shiftLeft_eq, Nat.pow_one]; omega
      rw [e]
      have := ih (si + 1) fuel (code' * 2) (by omega) (by omega) (by omega) (by
        rw [Nat.add_sub_cancel]
        intro hl
        have h4 := h3 hl
        have hsi16 : si < 16 := by
          by_contra hc
          have : si = 16 := by omega
          rw [this, ← hlen] at hl
          omega
        have e : 2 ^ (16 - si) = 2 * 2 ^ (16 - (si + 1)) := by
          rw [← Nat.pow_succ']; congr 1; omega
        rw [Nat.mul_assoc, ← e, h4])
      rw [Nat.add_sub_cancel] at this
      exact this

theorem codes_rel {cs : Nat → Nat} (hN : (codeLengths cs).length ≤ 256) :
    codes .release (pad (codeLengths cs)) = .ok (padm (codeLengths cs) (codeLengths cs).length) := by
  unfold codes
  rw [pad_idx (by omega) (by omega), ok_bind]
  have e0 : (List.replicate 257 0 : List Nat) = padm (codeLengths cs) 0 := rfl
  by_cases h0 : (codeLengths cs).length = 0
  · rw [codeLoop, pad_idx (by omega) (by omega), ok_bind]
    rw [if_neg (by rw [List.length_eq_zero_iff.mp h0]; simp), h0, e0]
  · have hp := codeLengths_place cs (show 0 < (codeLengths cs).length by omega)
    have hr := (codeLengths_lens cs).range 0 (by omega)
    have := codeLoop_rel hN (17 - (codeLengths cs).getD 0 0) ((codeLengths cs).getD 0 0) 18 0 (by omega) (by omega) (by omega)
      (by intro _; rw [show cum cs ((codeLengths cs).getD 0 0 - 1) = 0 by omega, start_zero]; simp)
    rw [show cum cs ((codeLengths cs).getD 0 0 - 1) = 0 by omega] at this
    rw [e0]
    exact this

/-! ## The checked build panics or does the same -/

theorem addU_debug (w x y : Nat) : addU w .debug x y = crash ∨ addU w .debug x y = addU w .release x y := by
  unfold addU
  split
  · exact Or.inr rfl
  · exact Or.inl rfl

theorem codeRun_debug (hs : List Nat) (si : Nat) : ∀ (fuel : Nat) (s : Nat × Nat × List Nat),
    codeRun .debug hs si fuel s = crash ∨ codeRun .debug hs si fuel s = codeRun .release hs si fuel s := by
  intro fuel
  induction fuel with
  | zero => intro s; exact Or.inr rfl
  | succ fuel ih =>
    rintro ⟨p, code, hc⟩
    rw [codeRun, codeRun]
    cases idx hs p with
    | error e => rw [error_bind, error_bind]; exact Or.inr rfl
    | ok size =>
      rw [ok_bind, ok_bind]
      by_cases h : size = si
      · rw [if_pos h, if_pos h]
        cases setIdx hc p code with
        | error e => rw [error_bind, error_bind]; exact Or.inr rfl
        | ok hc =>
          rw [ok_bind, ok_bind]
          rcases addU_debug 16 code 1 with h | h
          · rw [h, crash_bind]; exact Or.inl rfl
          · rw [h]
            cases addU 16 .release code 1 with
            | error e => rw [error_bind, error_bind]; exact Or.inr rfl
            | ok c => rw [ok_bind, ok_bind]; exact ih _
      · rw [if_neg h, if_neg h]; exact Or.inr rfl

theorem codeLoop_debug (hs : List Nat) : ∀ (fuel si : Nat) (s : Nat × Nat × List Nat),
    codeLoop .debug hs fuel si s = crash ∨ codeLoop .debug hs fuel si s = codeLoop .release hs fuel si s := by
  intro fuel
  induction fuel with
  | zero => intro si s; exact Or.inr rfl
  | succ fuel ih =>
    rintro si ⟨p, code, hc⟩
    rw [codeLoop, codeLoop]
    cases idx hs p with
    | error e => rw [error_bind, error_bind]; exact Or.inr rfl
    | ok size =>
      rw [ok_bind, ok_bind]
      by_cases h : size > 0
      · rw [if_pos h, if_pos h]
        have hd := codeRun_debug hs si 258 (p, code, hc)
        generalize codeRun .release hs si 258 (p, code, hc) = x at *
        generalize codeRun .debug hs si 258 (p, code, hc) = y at *
        rcases hd with h | h
        · rw [h, crash_bind]; exact Or.inl rfl
        · rw [h]
          cases x with
          | error e => rw [error_bind, error_bind]; exact Or.inr rfl
          | ok r =>
            obtain ⟨p, c, hc⟩ := r
            rw [ok_bind, ok_bind]
            simp only
            by_cases h : p > 256
            · rw [if_pos h, if_pos h]; exact Or.inr rfl
            · rw [if_neg h, if_neg h]; exact ih _ _
      · rw [if_neg h, if_neg h]; exact Or.inr rfl

theorem codes_any {b : Build} {cs : Nat → Nat} (hN : (codeLengths cs).length ≤ 256) :
    codes b (pad (codeLengths cs)) = crash ∨ codes b (pad (codeLengths cs)) = .ok (padm (codeLengths cs) (codeLengths cs).length) := by
  cases b with
  | release => exact Or.inr (codes_rel hN)
  | debug =>
    have h := codes_rel hN
    unfold codes at h ⊢
    cases hi : idx (pad (codeLengths cs)) 0 with
    | error e => rw [hi, error_bind] at h; exact nomatch h
    | ok si =>
      rw [hi, ok_bind] at h
      rw [ok_bind]
      rcases codeLoop_debug (pad (codeLengths cs)) 18 si (0, 0, List.replicate 257 0) with h1 | h1
      · exact Or.inl h1
      · rw [h1]; exact Or.inr h

/-! ## Short codes fit, or the table is refused -/

/-- One symbol of the lookup table that does not fit. -/
theorem shortStep_over {L huffval hc : List Nat} (hL : Lens L) (hN : L.length ≤ 256) (hv : huffval.length = 256)
    (hcode : ∀ k, k < L.length → idx hc k = .ok (canonical L k % 65536)) {p : Nat} (hp : p < L.length) (h8 : L.getD p 0 ≤ 8)
    (hfit : start L p ≤ 65536) (hover : 65536 < start L (p + 1)) {nb : List Nat} (hnb : nb.length = 256) (r : List Nat) :
    shortStep huffval (pad L) hc p nb ≠ .ok r := by
  obtain ⟨hs1, hs2⟩ := short_start hL hp h8
  have h1 := (hL.range p hp).1
  have hq : 0 < 2 ^ (8 - L.getD p 0) := Nat.pow_pos (by omega)
  have hpow : 2 ^ (L.getD p 0) * 2 ^ (8 - L.getD p 0) = 256 := by rw [← Nat.pow_add, show L.getD p 0 + (8 - L.getD p 0) = 8 by omega]
  -- the code begins exactly at the end
  have ha : canonical L p * 2 ^ (8 - L.getD p 0) = 256 := by
    have hle : canonical L p ≤ 2 ^ L.getD p 0 := by
      refine Nat.le_of_mul_le_mul_right ?_ hq
      rw [hpow]; omega
    have hge : ¬ canonical L p < 2 ^ L.getD p 0 := by
      intro hlt
      have := Nat.mul_le_mul_right (2 ^ (8 - L.getD p 0)) (show canonical L p + 1 ≤ 2 ^ L.getD p 0 from hlt)
      rw [Nat.succ_mul, hpow] at this
      omega
    rw [show canonical L p = 2 ^ L.getD p 0 by omega, hpow]
  have hcl : canonical L p < 65536 := by
    have := Nat.mul_le_mul_left (canonical L p) hq
    omega
  unfold shortStep
  rw [pad_idx (by omega) (by omega), ok_bind, if_pos h8]
  have hval : idx huffval p = .ok (huffval.getD p 0) := by
    rw [idx_eq_ok, List.getElem?_eq_getElem (by omega), getD_eq]
  rw [hval, ok_bind, hcode p hp, ok_bind, Nat.mod_eq_of_lt hcl]
  simp only
  have hll : shl16 (canonical L p) (8 - L.getD p 0) = 256 := by
    unfold shl16
    rw [Nat.shiftLeft_eq, ha]
  rw [hll]
  unfold shortEnd
  by_cases hlt : L.getD p 0 < 8
  · rw [if_pos hlt, idx_eq_ok.mpr (mask_eq _ h1 hlt), ok_bind, ok_bind]
    have h2 : 2 ≤ 2 ^ (8 - L.getD p 0) := by
      calc 2 = 2 ^ 1 := rfl
        _ ≤ 2 ^ (8 - L.getD p 0) := Nat.pow_le_pow_right (by omega) (by omega)
    have h3 : 2 ^ (8 - L.getD p 0) - 1 < 256 := by
      have : 2 ^ (8 - L.getD p 0) ≤ 2 ^ 8 := Nat.pow_le_pow_right (by omega) (by omega)
      omega
    rw [show 256 ||| (2 ^ (8 - L.getD p 0) - 1) = 256 + (2 ^ (8 - L.getD p 0) - 1) from
      (Nat.shiftLeft_add_eq_or_of_lt (a := 1) (i := 8) h3).symm, if_pos (by omega)]
    simp
  · rw [if_neg hlt, ok_bind, if_neg (by omega)]
    unfold forRange
    rw [show 256 + 1 - 256 = 1 from rfl, loopN, setIdx_ge (by omega)]
    simp

/-- If the lookup table is built, all short codes fit. -/
theorem short_fit {L huffval hc : List Nat} (hL : Lens L) (hN : L.length ≤ 256) (hv : huffval.length = 256)
    (hcode : ∀ k, k < L.length → idx hc k = .ok (canonical L k % 65536)) {nb r : List Nat} (hnb : nb.length = 256)
    (h : forRange 0 L.length (shortStep huffval (pad L) hc) nb = .ok r) :
    ∀ k, k < L.length → L.getD k 0 ≤ 8 → start L (k + 1) ≤ 65536 := by
  have := forRange_ok (P := fun p s => s.length = 256 ∧ ∀ k, k < p → L.getD k 0 ≤ 8 → start L (k + 1) ≤ 65536) (Nat.zero_le _)
    ⟨hnb, fun k hk => by omega⟩ (by
      intro j s s' _ hj ⟨hs, hk⟩ hstep
      have hfit : L.getD j 0 ≤ 8 → start L j ≤ 65536 := by
        intro h8
        by_cases h0 : j = 0
        · subst h0; rw [start_zero]; omega
        · have := hk (j - 1) (by omega) (Nat.le_trans (hL.sorted (j - 1) j (by omega) hj) h8)
          rwa [show j - 1 + 1 = j by omega] at this
      constructor
      · unfold shortStep at hstep
        rw [bind_eq_ok] at hstep
        obtain ⟨size, _, h1⟩ := hstep
        split at h1
        · rw [bind_eq_ok] at h1
          obtain ⟨value, _, h1⟩ := h1
          rw [bind_eq_ok] at h1
          obtain ⟨code, _, h1⟩ := h1
          simp only at h1
          rw [bind_eq_ok] at h1
          obtain ⟨ul, _, h1⟩ := h1
          split at h1
          · simp at h1
          · rename_i hul
            have := forRange_ok (P := fun _ s => s.length = 256) (by omega) hs (by
              intro j s s' _ _ hs h2
              rw [setIdx_length h2]; exact hs) h1
            exact this
        · simp at h1; rw [← h1]; exact hs
      · intro k hk1 h8
        by_cases hkj : k = j
        · subst hkj
          by_contra hc
          exact shortStep_over hL hN hv hcode hj h8 (hfit h8) (by omega) hs s' hstep
        · exact hk k (by omega) h8) h
  exact this.2

/-! ## What every table has in common -/

/-- The tables of an arbitrary specification. -/
structure BuiltAny (cs : Nat → Nat) (t : HuffTable) : Prop where
  vals : t.huffval.length = 256
  bytes : ∀ v ∈ t.huffval, v < 256
  count : (codeLengths cs).length ≤ 256
  fit : ∀ k, k < (codeLengths cs).length → (codeLengths cs).getD k 0 ≤ 8 → start (codeLengths cs) (k + 1) ≤ 65536
  decode : ∀ l, 1 ≤ l → l ≤ 16 → DecodeAt (fun k => canonical (codeLengths cs) k % 65536) cs t.mincode t.maxcode t.valptr l
  last : t.maxcode[17]? = some 0xFFFFF
  short : ∀ x, x < 256 → (∀ k, Short (codeLengths cs) k x → t.numbits[x]? = some ((codeLengths cs).getD k 0 ||| (t.huffval.getD k 0 <<< 4) % 4294967296)) ∧
    ((∀ k, ¬ Short (codeLengths cs) k x) → t.numbits[x]? = some 0)

theorem canonical_short {L : List Nat} (hL : Lens L) {k : Nat} (hk : k < L.length) (h : start L (k + 1) ≤ 65536) : canonical L k % 65536 = canonical L k := by
  have h1 := canonical_start hL hk
  have h2 := start_succ hk
  have hq : 0 < 2 ^ (16 - L.getD k 0) := Nat.pow_pos (by omega)
  have := Nat.mul_le_mul_left (canonical L k) hq
  exact Nat.mod_eq_of_lt (by omega)

theorem setIdx_ok {α : Type} {l l' : List α} {i : Nat} {v : α} (h : setIdx l i v = .ok l') : l' = l.set i v := by
  rw [setIdx_eq_ok] at h; exact h.2

/-- Every successfully built table. -/
theorem init_any {b : Build} {bits huffval : List Nat} {precision : Nat} {dngBug u : Bool} {t : HuffTable} (hb : bits.length = 17) (hv : huffval.length = 256)
    (hbytes : ∀ v ∈ huffval, v < 256) (h : init b (raw bits huffval precision dngBug) u = .ok t) :
    BuiltAny (counts bits) t ∧ t.precision = precision ∧ t.huffval = huffval ∧ t.dngBug = dngBug ∧ (u = true → t.bigtable.length = 8192) := by
  unfold init at h
  simp only [raw] at h
  rw [sizes_eq bits hb] at h
  by_cases hN : (codeLengths (counts bits)).length ≤ 256
  · rw [if_pos hN, ok_bind] at h
    simp only at h
    rcases codes_any (b := b) hN with hc | hc
    · rw [hc, crash_bind] at h; exact absurd h (crash_ne_ok _)
    · rw [hc, ok_bind] at h
      rw [setIdx_lt (by simp), ok_bind, setIdx_lt (by simp), ok_bind] at h
      have z1 : (List.replicate 17 0).set 0 0 = List.replicate 17 (0 : Nat) := rfl
      have z2 : (List.replicate 18 0).set 0 0 = List.replicate 18 (0 : Int) := rfl
      obtain ⟨⟨p, mi, ma, vp⟩, e1, l1, l2, l3, hd⟩ := decode_loop bits hb hN (hc := padm (codeLengths (counts bits)) (codeLengths (counts bits)).length)
        (fun k hk => padm_idx _ hk (by omega)) (mincode := List.replicate 17 0) (maxcode := List.replicate 18 0) (valptr := List.replicate 17 0) (by simp) (by simp) (by simp)
      rw [z1, z2, e1, ok_bind] at h
      simp only at h l1 l2 l3 hd
      rw [setIdx_lt (by omega), ok_bind, bind_eq_ok] at h
      obtain ⟨nb, e2, h⟩ := h
      have hL := codeLengths_lens (counts bits)
      have hfit := short_fit hL hN hv (fun k hk => padm_idx _ hk (by omega)) (by rw [List.length_replicate]) e2
      obtain ⟨nb', e3, l4, hs⟩ := short_loop (huffval := huffval) (hc := padm (codeLengths (counts bits)) (codeLengths (counts bits)).length) hL hN hfit
        (fun k hk h8 => by rw [padm_idx _ hk (by omega), canonical_short hL hk (hfit k hk h8)]) hv (rfl : List.replicate 256 0 = List.replicate 256 0)
      rw [e2] at e3
      injection e3 with e3
      subst e3
      have base : ∀ (t' : HuffTable), t'.mincode = mi → t'.maxcode = ma.set 17 0xFFFFF → t'.valptr = vp → t'.numbits = nb → t'.huffval = huffval →
          BuiltAny (counts bits) t' := by
        intro t' h1 h2 h3 h4 h5
        refine ⟨h5 ▸ hv, h5 ▸ hbytes, hN, hfit, ?_, ?_, ?_⟩
        · intro l j1 j2
          have := hd l j1 j2
          rw [h1, h2, h3]
          refine ⟨fun h => ?_, fun h => ?_⟩
          · rw [getElem_set (by omega), if_neg (by omega)]; exact this.used h
          · rw [getElem_set (by omega), if_neg (by omega)]; exact this.free h
        · rw [h2, getElem_set (by omega), if_pos rfl]
        · rw [h4, h5]; exact hs
      cases u with
      | false =>
        simp only [Bool.false_eq_true, if_false] at h
        rw [ok_bind] at h
        injection h with h
        subst h
        exact ⟨base _ rfl rfl rfl rfl rfl, rfl, rfl, rfl, by simp⟩
      | true =>
        rw [if_pos rfl] at h
        unfold initializeBigtable at h
        rw [bind_eq_ok] at h
        obtain ⟨t1, h1, h⟩ := h
        rw [bind_eq_ok] at h1
        obtain ⟨big, h2, h1⟩ := h1
        injection h1 with h1
        injection h with h
        subst h1
        subst h
        refine ⟨base _ rfl rfl rfl rfl rfl, rfl, rfl, rfl, fun _ => ?_⟩
        have := ((mapM_eq_ok_iff _ _ _).mp h2).1
        rw [List.length_range] at this
        exact this
  · rw [if_neg hN, fail_bind] at h; exact absurd h (fail_ne_ok _ _)

/-! ## Looking up symbols in such a table -/

variable {cs : Nat → Nat} {t : HuffTable}
variable {σ : Type} {P : PumpOps σ} {st : Nat → Nat} {limit : Option Nat} {at_ : σ → Nat → Nat → Prop}

/-- Codes of one length follow each other. -/
theorem last_code (cs : Nat → Nat) {l : Nat} (h1 : 1 ≤ l) (h16 : l ≤ 16) (hc : 0 < cs l) :
    canonical (codeLengths cs) (cum cs l - 1) = canonical (codeLengths cs) (cum cs (l - 1)) + (cs l - 1) := by
  have hp := cum_pred cs h1
  have := canonical_run (L := codeLengths cs) (k := cum cs (l - 1)) (cs l - 1) (by
    intro j hj
    rw [(codeLengths_get cs h1 h16 (show cum cs (l - 1) ≤ cum cs (l - 1) + j by omega) (by omega)).2,
      (codeLengths_get cs h1 h16 (Nat.le_refl (cum cs (l - 1))) (by omega)).2])
  rwa [show cum cs (l - 1) + (cs l - 1) = cum cs l - 1 by omega] at this

theorem first_code (cs : Nat → Nat) {l : Nat} (h1 : 1 ≤ l) (h16 : l ≤ 16) (hc : 0 < cs l) :
    canonical (codeLengths cs) (cum cs (l - 1)) * 2 ^ (16 - l) = start (codeLengths cs) (cum cs (l - 1)) := by
  have hp := cum_pred cs h1
  obtain ⟨hk, e⟩ := codeLengths_get cs h1 h16 (Nat.le_refl (cum cs (l - 1))) (by omega)
  have := canonical_start (codeLengths_lens cs) hk
  rwa [e] at this

/-- What the comparison with the last code of a length tells, once the pattern is past all shorter codes. -/
theorem BuiltAny.step (hB : BuiltAny cs t) {l V : Nat} (h1 : 1 ≤ l) (h16 : l ≤ 16) (hV : V < 65536)
    (hpast : start (codeLengths cs) (cum cs (l - 1)) ≤ V) :
    ∃ m : Int, t.maxcode[l]? = some m ∧
      ((((V / 2 ^ (16 - l) : Nat) : Int) > m ∧ (start (codeLengths cs) (cum cs l) ≤ V ∨ l = 16)) ∨
       (¬ ((V / 2 ^ (16 - l) : Nat) : Int) > m ∧ ∃ vp mc, t.valptr[l]? = some vp ∧ t.mincode[l]? = some mc ∧ mc ≤ V / 2 ^ (16 - l) ∧
          vp + (V / 2 ^ (16 - l) - mc) < 256)) := by
  by_cases hc : 0 < cs l
  · have hd := (hB.decode l h1 h16).used hc
    refine ⟨_, hd.2.2, ?_⟩
    have hfirst := first_code cs h1 h16 hc
    have hlast := last_code cs h1 h16 hc
    have hle := maxcode_le l h1 h16 hc V
    have hp := cum_pred cs h1
    have hmono := cum_mono cs h16
    have hlen := codeLengths_length cs
    have hcount := hB.count
    have hq : 0 < 2 ^ (16 - l) := Nat.pow_pos (by omega)
    have hpow : 2 ^ l * 2 ^ (16 - l) = 65536 := by rw [← Nat.pow_add, show l + (16 - l) = 16 by omega]
    have hcl : canonical (codeLengths cs) (cum cs (l - 1)) ≤ V / 2 ^ (16 - l) := by
      rw [Nat.le_div_iff_mul_le hq, hfirst]; exact hpast
    have hVl : V / 2 ^ (16 - l) < 2 ^ l := by
      rw [Nat.div_lt_iff_lt_mul hq, hpow]; exact hV
    have h2l : 2 ^ l ≤ 65536 := by
      calc 2 ^ l ≤ 2 ^ 16 := Nat.pow_le_pow_right (by omega) h16
        _ = 65536 := rfl
    rw [hlast] at hle ⊢
    generalize canonical (codeLengths cs) (cum cs (l - 1)) = c0 at *
    generalize V / 2 ^ (16 - l) = x at *
    by_cases hw : c0 + (cs l - 1) < 65536
    · rw [Nat.mod_eq_of_lt hw]
      by_cases hx : x ≤ c0 + (cs l - 1)
      · right
        refine ⟨by omega, _, _, hd.1, hd.2.1, ?_, ?_⟩
        · rw [Nat.mod_eq_of_lt (by omega)]; exact hcl
        · rw [Nat.mod_eq_of_lt (by omega)]; omega
      · left
        refine ⟨by omega, Or.inl ?_⟩
        have := hle.not.mp hx
        omega
    · left
      have hl16 : l = 16 := by
        by_contra hne
        have : 2 ^ l ≤ 2 ^ 15 := Nat.pow_le_pow_right (by omega) (by omega)
        omega
      refine ⟨?_, Or.inr hl16⟩
      omega
  · refine ⟨_, ((hB.decode l h1 h16).free (by omega)).2, Or.inl ⟨?_, Or.inl ?_⟩⟩
    · generalize V / 2 ^ (16 - l) = x
      omega
    · have hp := cum_pred cs h1
      rw [show cum cs l = cum cs (l - 1) by omega]; exact hpast

/-- The search ends with a symbol inside the table or past 16 bits. -/
theorem lenWalk_any (hB : BuiltAny cs t) (hR : Reads P (fieldMSB st) limit at_) {c : Nat} (hw : within limit (c + 17)) :
    ∀ (d l fuel : Nat) (s : σ) (a : Nat), l + d = 17 → d < fuel → 1 ≤ l →
    (l ≤ 16 → start (codeLengths cs) (cum cs (l - 1)) ≤ fieldMSB st c 16) → at_ s (c + l) a →
    ∃ z s', lenWalk P t.maxcode fuel (fieldMSB st c l) l s = .ok (fieldMSB st c z, z, s') ∧ z ≤ 17 ∧ (z ≤ 16 →
      ∃ vp mc, t.valptr[z]? = some vp ∧ t.mincode[z]? = some mc ∧ mc ≤ fieldMSB st c z ∧ vp + (fieldMSB st c z - mc) < 256) := by
  intro d
  induction d with
  | zero =>
    intro l fuel s a hl hf _ _ hs
    obtain ⟨fuel, rfl⟩ : ∃ f, fuel = f + 1 := ⟨fuel - 1, by omega⟩
    have : l = 17 := by omega
    subst this
    refine ⟨17, s, ?_, by omega, by omega⟩
    rw [lenWalk, idx_eq_ok.mpr hB.last, ok_bind, if_neg (by have := fieldMSB_lt st c 17; omega)]
  | succ d ih =>
    intro l fuel s a hl hf h1 hpast hs
    obtain ⟨fuel, rfl⟩ : ∃ f, fuel = f + 1 := ⟨fuel - 1, by omega⟩
    obtain ⟨m, hm, hcase⟩ := hB.step h1 (show l ≤ 16 by omega) (fieldMSB_lt st c 16) (hpast (by omega))
    rw [field_div st c (show l ≤ 16 by omega)] at hcase
    rw [lenWalk, idx_eq_ok.mpr hm, ok_bind]
    rcases hcase with ⟨hgt, hnext⟩ | ⟨hle, hin⟩
    · obtain ⟨s1, a1, h3, h4⟩ := hR.get hs (show 1 ≤ 32 by omega) (by omega) (within_mono hw (by omega))
      rw [if_pos hgt, h3, ok_bind]
      simp only
      have e : (fieldMSB st c l <<< 1) ||| fieldMSB st (c + l) 1 = fieldMSB st c (l + 1) := by
        rw [← Nat.shiftLeft_add_eq_or_of_lt (fieldMSB_lt st (c + l) 1), Nat.shiftLeft_eq, fieldMSB_add]
      rw [e]
      refine ih (l + 1) fuel s1 a1 (by omega) (by omega) (by omega) ?_ h4
      intro h
      rw [Nat.add_sub_cancel]
      rcases hnext with h' | h'
      · exact h'
      · omega
    · rw [if_neg hle]
      exact ⟨l, s, rfl, by omega, fun _ => hin⟩

/-- On any table that was built, looking up a symbol gives one of the table's symbols or an error, never a panic. -/
theorem huffLen_any {b : Build} (hB : BuiltAny cs t) (hprec : t.precision ≤ 16) (hR : Reads P (fieldMSB st) limit at_) {s : σ} {c a : Nat} (hs : at_ s c a)
    (hw : within limit (c + 17)) :
    (∃ v s', huffLen b P t s = .ok (v, s') ∧ v ∈ t.huffval) ∨ huffLen b P t s = fail "ljpeg: bad Huffman code" := by
  have hL := codeLengths_lens cs
  have hcount := hB.count
  have hlen := codeLengths_length cs
  have hV := fieldMSB_lt st c 16
  have hV8 := fieldMSB_lt st c 8
  obtain ⟨s1, a1, p1, p2, p3, _⟩ := hR.peek s c a 8 hs (by omega) (within_mono hw (by omega))
  unfold huffLen
  rw [p1, ok_bind]
  simp only
  have hx : fieldMSB st c 8 = fieldMSB st c 16 / 256 := (field_div st c (show 8 ≤ 16 by omega)).symm
  by_cases hs8 : ∃ k, Short (codeLengths cs) k (fieldMSB st c 8)
  · obtain ⟨k, hk⟩ := hs8
    have he := (hB.short _ hV8).1 k hk
    have hkl : k < t.huffval.length := by rw [hB.vals]; have := hk.1; omega
    have hmem : t.huffval.getD k 0 ∈ t.huffval := by rw [getD_eq hkl]; exact List.getElem_mem _
    obtain ⟨f1, f2⟩ := entry_len hk.2.1 (hB.bytes _ hmem)
    rw [idx_eq_ok.mpr he, ok_bind, f1, f2, if_pos (by have := (hL.range k hk.1).1; omega)]
    obtain ⟨s2, q1, _⟩ := hR.consume s1 c a1 ((codeLengths cs).getD k 0) p2 (by have := hk.2.1; omega)
    rw [q1, ok_bind]
    exact Or.inl ⟨_, _, rfl, hmem⟩
  · have hmiss := (hB.short _ hV8).2 (fun k hk => hs8 ⟨k, hk⟩)
    rw [idx_eq_ok.mpr hmiss, ok_bind]
    simp only [Nat.zero_and, ne_eq, not_true, if_false]
    obtain ⟨s2, q1, q2⟩ := hR.consume s1 c a1 8 p2 p3
    rw [q1, ok_bind]
    have hpast : start (codeLengths cs) (cum cs 8) ≤ fieldMSB st c 16 := by
      by_contra hc
      have hm := cum_mono cs (show 8 ≤ 16 by omega)
      obtain ⟨k, hk, hk1⟩ := locate (L := codeLengths cs) (V := fieldMSB st c 16) (n := cum cs 8) (by omega) (by omega)
      have hkl : k < (codeLengths cs).length := by omega
      have h8 : (codeLengths cs).getD k 0 ≤ 8 := by
        by_contra h8
        have := codeLengths_place cs hkl
        have := cum_mono cs (show 8 ≤ (codeLengths cs).getD k 0 - 1 by omega)
        omega
      exact hs8 ⟨k, hx ▸ (short_iff hL hkl h8).mpr hk1⟩
    have hpast7 : start (codeLengths cs) (cum cs 7) ≤ fieldMSB st c 16 :=
      Nat.le_trans (start_mono (cum_mono cs (by omega))) hpast
    obtain ⟨z, s3, r1, hz, hin⟩ := lenWalk_any hB hR hw 9 8 11 s2 _ (by omega) (by omega) (by omega) (fun _ => hpast7) q2
    rw [r1, ok_bind]
    simp only
    by_cases hp : z > t.precision
    · rw [if_pos hp]; exact Or.inr rfl
    · rw [if_neg hp]
      obtain ⟨vp, mc, v1, v2, v3, v4⟩ := hin (by omega)
      rw [idx_eq_ok.mpr v1, ok_bind]
      by_cases h255 : vp = 0xff
      · rw [if_pos h255]; exact Or.inr rfl
      · rw [if_neg h255, idx_eq_ok.mpr v2, ok_bind, subU_ok v3, ok_bind, addU_ok (by omega), ok_bind, idx_lt (by rw [hB.vals]; exact v4), ok_bind]
        exact Or.inl ⟨_, _, rfl, List.getElem_mem _⟩

end HuffTable
end Model

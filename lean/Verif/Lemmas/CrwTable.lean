import Verif.Spec.Crw
import Verif.Model.Dec.Crw
import Verif.Lemmas.Seq
/-!
# The tables of Canon's first compression
-/

namespace Props
open Rust Spec Model Model.Ljpeg Model.HuffTable

/-- Copies of one entry. -/
theorem crw_fill {max len v m h : Nat} {tbl : List (Nat × Nat)} (hl : tbl.length = 2 ^ max) (hm : h + m ≤ 2 ^ max) :
    ∃ t, forRange 0 m (fun _ t => Crw.fill max len v t) (tbl, h) = .ok (t, h + m) ∧ t.length = 2 ^ max ∧
      ∀ x, t[x]? = if h ≤ x ∧ x < h + m then some (len, v) else tbl[x]? := by
  obtain ⟨s, h1, h2, h3, h4⟩ := forRange_inv (P := fun j (s : List (Nat × Nat) × Nat) => s.2 = h + j ∧ s.1.length = 2 ^ max ∧
      ∀ x, s.1[x]? = if h ≤ x ∧ x < h + j then some (len, v) else tbl[x]?) (f := fun _ t => Crw.fill max len v t) (lo := 0) (hi := m) (s := (tbl, h)) (Nat.zero_le _)
    ⟨rfl, hl, fun x => by rw [if_neg (by omega)]⟩ (by
      rintro j ⟨t, k⟩ - hj ⟨e1, e2, e3⟩
      dsimp only at e1 e2 e3
      subst e1
      refine ⟨(t.set (h + j) (len, v), h + j + 1), ?_, by dsimp only; omega, by rw [List.length_set]; exact e2, ?_⟩
      · unfold Crw.fill
        rw [if_pos (by rw [Nat.shiftLeft_eq, Nat.one_mul]; dsimp only; omega), setIdx_lt (by dsimp only; omega)]
        rfl
      · intro x
        dsimp only
        rw [List.getElem?_set, e3]
        by_cases hx : h + j = x
        · subst hx
          rw [if_pos rfl, if_pos (by omega), if_pos (by omega)]
        · rw [if_neg hx]
          by_cases hc : h ≤ x ∧ x < h + j
          · rw [if_pos hc, if_pos (by omega)]
          · rw [if_neg hc, if_neg (by omega)])
  obtain ⟨t, k⟩ := s
  dsimp only at h2 h3 h4
  subst h2
  exact ⟨t, h1, h3, h4⟩

/-- The numbers stored with a table. -/
def crwSource (t : TableSpec) : List Nat := t.counts ++ t.vals

/-- The state after `k` symbols. -/
private structure Filled (t : TableSpec) (max k : Nat) (s : (List (Nat × Nat) × Nat) × Nat) : Prop where
  len : s.1.1.length = 2 ^ max
  next : s.1.2 * 2 ^ (16 - max) = start t.lens k
  pos : s.2 = 16 + k
  entry : ∀ j, j < k → ∀ x, start t.lens j ≤ x * 2 ^ (16 - max) → x * 2 ^ (16 - max) < start t.lens (j + 1) → s.1.1[x]? = some (t.lens.getD j 0, t.vals.getD j 0)

/-- `CrwHuffTable::new` makes a table in which every pattern that starts with a code is mapped to the symbol of that code. -/
theorem crwTable_new (t : TableSpec) (max : Nat) (hcl : t.counts.length = 16) (hmax : Crw.maxLen (crwSource t) 16 = .ok max) (h16 : max ≤ 16)
    (hk : kraft t.lens ≤ 65536) (hv : t.lens.length ≤ t.vals.length) (hall : cum (fun l => (0 :: t.counts).getD l 0) max = t.lens.length) :
    ∃ tbl, Crw.Table.new (crwSource t) = .ok ⟨max, tbl⟩ ∧ ∀ k, k < t.lens.length → ∀ x, x / 2 ^ (max - t.lens.getD k 0) = canonical t.lens k →
      t.lens.getD k 0 ≤ max ∧ tbl[x]? = some (t.lens.getD k 0, t.vals.getD k 0) := by
  have hL : Lens t.lens := codeLengths_lens _
  have hpow : 2 ^ max * 2 ^ (16 - max) = 65536 := by rw [← Nat.pow_add, show max + (16 - max) = 16 by omega]
  have hq : 0 < 2 ^ (16 - max) := Nat.pow_pos (by omega)
  obtain ⟨s, h1, h2⟩ := forRange_inv (P := fun l s => Filled t max (cum (fun l => (0 :: t.counts).getD l 0) (l - 1)) s)
    (f := fun len s => do
      let n ← idx (crwSource t) (len - 1)
      forRange 0 n (fun _ (s : (List (Nat × Nat) × Nat) × Nat) => do
        let v ← idx (crwSource t) s.2
        let t ← forRange 0 (1 <<< (max - len)) (fun _ t => Crw.fill max len v t) s.1
        .ok (t, s.2 + 1)) s) (lo := 1) (hi := max + 1) (s := ((List.replicate (1 <<< max) (0, 0), 0), 16)) (by omega)
    ⟨by dsimp only; rw [List.length_replicate, Nat.shiftLeft_eq, Nat.one_mul], by rw [show (1 : Nat) - 1 = 0 from rfl, cum, start_zero]; simp, by simp [cum], by
      intro j hj; simp [cum] at hj⟩ (by
      intro len s hl1 hl2 hs
      have hlen : idx (crwSource t) (len - 1) = .ok ((0 :: t.counts).getD len 0) := by
        obtain ⟨n, rfl⟩ : ∃ n, len = n + 1 := ⟨len - 1, by omega⟩
        rw [Nat.add_sub_cancel, idx_eq_ok]
        unfold crwSource
        rw [List.getElem?_append_left (by omega), List.getElem?_eq_getElem (by omega), List.getD_cons_succ, List.getD_eq_getElem?_getD, List.getElem?_eq_getElem (by omega)]
        rfl
      rw [hlen, ok_bind]
      have hcum := cum_pred (fun l => (0 :: t.counts).getD l 0) hl1
      have hmono := cum_mono (fun l => (0 :: t.counts).getD l 0) (show len ≤ max by omega)
      generalize (0 :: t.counts).getD len 0 = n at *
      rw [show len + 1 - 1 = len by omega, hcum]
      refine forRange_inv (P := fun j s => Filled t max (cum (fun l => (0 :: t.counts).getD l 0) (len - 1) + j) s) (Nat.zero_le _) hs ?_
      rintro j ⟨⟨tbl, h⟩, pos⟩ - hj ⟨e1, e2, e3, e4⟩
      dsimp only at e1 e2 e3 e4
      obtain ⟨c1, c2⟩ := codeLengths_get (fun l => (0 :: t.counts).getD l 0) (k := cum (fun l => (0 :: t.counts).getD l 0) (len - 1) + j) hl1 (by omega) (by omega) (by omega)
      change _ < t.lens.length at c1
      change t.lens.getD _ 0 = len at c2
      rw [← Nat.add_assoc]
      generalize cum (fun l => (0 :: t.counts).getD l 0) (len - 1) + j = k at *
      subst e3
      have hss := start_succ c1
      have hlek := start_le_kraft t.lens (k + 1)
      rw [c2] at hss
      have hm : 2 ^ (max - len) * 2 ^ (16 - max) = 2 ^ (16 - len) := by rw [← Nat.pow_add, show max - len + (16 - max) = 16 - len by omega]
      have hnext : (h + 2 ^ (max - len)) * 2 ^ (16 - max) = start t.lens (k + 1) := by rw [Nat.add_mul, e2, hm, hss]
      have hroom : h + 2 ^ (max - len) ≤ 2 ^ max := by
        refine Nat.le_of_mul_le_mul_right (c := 2 ^ (16 - max)) ?_ hq
        rw [hnext, hpow]; omega
      obtain ⟨t', g1, g2, g3⟩ := crw_fill (len := len) (v := t.vals.getD k 0) e1 hroom
      refine ⟨((t', h + 2 ^ (max - len)), 16 + k + 1), ?_, g2, hnext, by dsimp only; omega, ?_⟩
      · dsimp only
        rw [show idx (crwSource t) (16 + k) = .ok (t.vals.getD k 0) from by
          rw [idx_eq_ok]
          unfold crwSource
          rw [List.getElem?_append_right (by omega), hcl, Nat.add_sub_cancel_left, List.getElem?_eq_getElem (by omega), List.getD_eq_getElem?_getD, List.getElem?_eq_getElem (by omega)]
          rfl, ok_bind, Nat.shiftLeft_eq, Nat.one_mul, g1]
        rfl
      · intro i hi x hx1 hx2
        dsimp only
        rw [g3]
        by_cases hik : i = k
        · subst hik
          rw [← e2] at hx1
          rw [← hnext] at hx2
          rw [if_pos ⟨Nat.le_of_mul_le_mul_right hx1 hq, Nat.lt_of_mul_lt_mul_right hx2⟩, c2]
        · rw [if_neg, e4 i (by omega) x hx1 hx2]
          intro hc
          have := Nat.mul_le_mul_right (2 ^ (16 - max)) hc.1
          have := start_mono (L := t.lens) (show i + 1 ≤ k by omega)
          omega)
  obtain ⟨⟨tbl, h⟩, pos⟩ := s
  refine ⟨tbl, ?_, ?_⟩
  · unfold Crw.Table.new
    rw [hmax, ok_bind, h1]
    rfl
  · intro k hkl x hx
    rw [Nat.add_sub_cancel, hall] at h2
    obtain ⟨-, hp⟩ := codeLengths_place (fun l => (0 :: t.counts).getD l 0) hkl
    change k < cum _ (t.lens.getD k 0) at hp
    have hr := hL.range k hkl
    have hlm : t.lens.getD k 0 ≤ max := by
      obtain ⟨a1, a2⟩ := codeLengths_place (fun l => (0 :: t.counts).getD l 0) hkl
      change cum _ (t.lens.getD k 0 - 1) ≤ k at a1
      by_contra hc
      have := cum_mono (fun l => (0 :: t.counts).getD l 0) (show max ≤ t.lens.getD k 0 - 1 by omega)
      omega
    refine ⟨hlm, ?_⟩
    have hx' : (x * 2 ^ (16 - max)) / 2 ^ (16 - t.lens.getD k 0) = canonical t.lens k := by
      rw [← hx, show 16 - t.lens.getD k 0 = max - t.lens.getD k 0 + (16 - max) by omega, Nat.pow_add, Nat.mul_div_mul_right _ _ hq]
    obtain ⟨a1, a2⟩ := (starts_iff hL hkl _).mp hx'
    exact h2.entry k hkl x a1 a2

/-- The table maps every pattern that starts with a code to the length of the code and its symbol. -/
structure CrwCodes (t : TableSpec) (T : Crw.Table) : Prop where
  bits : T.nbits ≤ 16
  room : kraft t.lens ≤ 65536
  vals : t.lens.length ≤ t.vals.length
  entry : ∀ k, k < t.lens.length → ∀ x, x / 2 ^ (T.nbits - t.lens.getD k 0) = canonical t.lens k →
    t.lens.getD k 0 ≤ T.nbits ∧ T.tbl[x]? = some (t.lens.getD k 0, t.vals.getD k 0)

theorem crwCodes_new (t : TableSpec) (max : Nat) (hcl : t.counts.length = 16) (hmax : Crw.maxLen (crwSource t) 16 = .ok max) (h16 : max ≤ 16)
    (hk : kraft t.lens ≤ 65536) (hv : t.lens.length ≤ t.vals.length) (hall : cum (fun l => (0 :: t.counts).getD l 0) max = t.lens.length) :
    ∃ T, Crw.Table.new (crwSource t) = .ok T ∧ CrwCodes t T := by
  obtain ⟨tbl, h1, h2⟩ := crwTable_new t max hcl hmax h16 hk hv hall
  exact ⟨_, h1, h16, hk, hv, h2⟩

variable {σ : Type} {P : PumpOps σ} {st : Nat → Nat} {at_ : σ → Nat → Nat → Prop}

/-- `CrwHuffTable::get_bits` reads the code of a symbol. -/
theorem crw_getBits (hR : Reads P (fieldMSB st) none at_) {t : TableSpec} {T : Crw.Table} (hT : CrwCodes t T) {v : Nat} (hv : t.vals.idxOf v < t.lens.length) {s : σ} {c a : Nat} {rest : List Nat}
    (hs : at_ s c a) (hf : Follows st c (symbolCode t v ++ rest)) :
    ∃ s' c' a', T.getBits P s = .ok (v, s') ∧ at_ s' c' a' ∧ Follows st c' rest := by
  have hlt : t.vals.idxOf v < t.vals.length := Nat.lt_of_lt_of_le hv hT.vals
  have hval : t.vals.getD (t.vals.idxOf v) 0 = v := by
    rw [List.getD_eq_getElem?_getD, List.getElem?_eq_getElem hlt, Option.getD_some]
    exact List.getElem_idxOf hlt
  unfold symbolCode at hf
  rw [follows_append, bitsOf_length] at hf
  have hL : Lens t.lens := codeLengths_lens _
  have hc := follows_bitsOf hf.1 (canonical_lt hL hT.room hv)
  obtain ⟨s1, a1, g1, g2, g3, -⟩ := hR.peek s c a T.nbits hs (by have := hT.bits; omega) trivial
  have hlen : t.lens.getD (t.vals.idxOf v) 0 ≤ T.nbits := by
    refine (hT.entry _ hv (canonical t.lens (t.vals.idxOf v) * 2 ^ (T.nbits - t.lens.getD (t.vals.idxOf v) 0)) ?_).1
    exact Nat.mul_div_cancel _ (Nat.pow_pos (by omega))
  have he := (hT.entry _ hv (fieldMSB st c T.nbits) (by rw [field_div st c hlen, hc])).2
  obtain ⟨s2, g4, g5⟩ := hR.consume s1 c a1 (t.lens.getD (t.vals.idxOf v) 0) g2 (by omega)
  refine ⟨s2, _, _, ?_, g5, hf.2⟩
  unfold Crw.Table.getBits
  rw [g1, ok_bind]
  dsimp only
  rw [idx_eq_ok.mpr he, ok_bind]
  dsimp only
  rw [g4, ok_bind, hval]

/-! ## The six tables -/

theorem crw_first_source : Crw.firstTree = [crwSource (crwFirstTable 0), crwSource (crwFirstTable 1), crwSource (crwFirstTable 2)] := rfl
theorem crw_second_source : Crw.secondTree = [crwSource (crwRestTable 0), crwSource (crwRestTable 1), crwSource (crwRestTable 2)] := rfl

set_option maxRecDepth 4000 in
/-- `CRW_HUFF_TABLES` can be built and holds the codes of the format. -/
theorem crw_tables (d : Nat) (hd : d < 3) : ∃ T0 T1, Crw.huffTables d = .ok (T0, T1) ∧ CrwCodes (crwFirstTable d) T0 ∧ CrwCodes (crwRestTable d) T1 := by
  obtain ⟨A0, a0, b0⟩ := crwCodes_new (crwFirstTable 0) 7 rfl rfl (by omega) (by decide) (by decide) rfl
  obtain ⟨A1, a1, b1⟩ := crwCodes_new (crwFirstTable 1) 9 rfl rfl (by omega) (by decide) (by decide) rfl
  obtain ⟨A2, a2, b2⟩ := crwCodes_new (crwFirstTable 2) 7 rfl rfl (by omega) (by decide) (by decide) rfl
  obtain ⟨B0, c0, d0⟩ := crwCodes_new (crwRestTable 0) 16 rfl rfl (by omega) (by decide) (by decide) rfl
  obtain ⟨B1, c1, d1⟩ := crwCodes_new (crwRestTable 1) 16 rfl rfl (by omega) (by decide) (by decide) rfl
  obtain ⟨B2, c2, d2⟩ := crwCodes_new (crwRestTable 2) 16 rfl rfl (by omega) (by decide) (by decide) rfl
  have hf : Crw.firstTree.mapM Crw.Table.new = .ok [A0, A1, A2] := by
    rw [crw_first_source]
    simp only [List.mapM_cons, List.mapM_nil, a0, a1, a2]
    rfl
  have hs : Crw.secondTree.mapM Crw.Table.new = .ok [B0, B1, B2] := by
    rw [crw_second_source]
    simp only [List.mapM_cons, List.mapM_nil, c0, c1, c2]
    rfl
  unfold Crw.huffTables
  rw [hf, ok_bind, hs, ok_bind]
  match d, hd with
  | 0, _ => exact ⟨A0, B0, rfl, b0, d0⟩
  | 1, _ => exact ⟨A1, B1, rfl, b1, d1⟩
  | 2, _ => exact ⟨A2, B2, rfl, b2, d2⟩

end Props

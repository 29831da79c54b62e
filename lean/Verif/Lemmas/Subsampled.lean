import Verif.Lemmas.LjpegFile
/-!
# Canon's subsampled JPEG: decoding what the encoder of the specification wrote
-/

namespace Model.Ljpeg
open Rust Spec Model.HuffTable

/-! ## Loops over cells -/

/-- A loop over rows of `wb` cells whose first cell has been treated before. -/
theorem cells_ok {S : Type} {wb hb : Nat} (step : Nat → Nat → S → M S) (I : Nat → Nat → S → Prop) (hrow : ∀ r s, r < hb → I r wb s → I (r + 1) 0 s)
    (hstep : ∀ r p s, r < hb → p < wb → (r ≠ 0 ∨ p ≠ 0) → I r p s → ∃ s', step r p s = .ok s' ∧ I r (p + 1) s') (hw : 0 < wb) (hh : 0 < hb) {s : S} (hI : I 0 1 s) :
    ∃ s', loopN (fun r s => loopN (fun j => step r ((if r = 0 then 1 else 0) + j)) (wb - (if r = 0 then 1 else 0)) 0 s) hb 0 s = .ok s' ∧ I hb 0 s' := by
  obtain ⟨s', h1, h2⟩ := loopN_inv (fun r s => I r (if r = 0 then 1 else 0) s)
    (fun r s => loopN (fun j => step r ((if r = 0 then 1 else 0) + j)) (wb - (if r = 0 then 1 else 0)) 0 s) hb 0 s (by rw [if_pos rfl]; exact hI) (by
      intro r s _ hr hI
      rw [Nat.zero_add] at hr
      generalize hj0 : (if r = 0 then 1 else 0) = j0 at *
      have hj01 : j0 ≤ 1 := by split at hj0 <;> omega
      obtain ⟨s1, k1, k2⟩ := loopN_inv (fun j s => I r (j0 + j) s) (fun j => step r (j0 + j)) (wb - j0) 0 s hI (by
        intro j s _ hj hI
        refine hstep r (j0 + j) s hr (by omega) ?_ hI
        by_cases h : r = 0
        · rw [if_pos h] at hj0; omega
        · left; exact h)
      refine ⟨s1, k1, ?_⟩
      rw [if_neg (by omega)]
      rw [show j0 + (0 + (wb - j0)) = wb by omega] at k2
      exact hrow r s1 hr k2)
  refine ⟨s', h1, ?_⟩
  rw [Nat.zero_add, if_neg (by omega)] at h2
  exact h2

/-! ## Writing blocks -/

theorem putAll_ok : ∀ (l : List Int) (out : List Nat) (pos : Nat), pos + l.length ≤ out.length →
    ∃ out', putAll out pos l = .ok out' ∧ out'.length = out.length ∧ ∀ i, out'[i]? = if pos ≤ i ∧ i < pos + l.length then some (toU16 (l.getD (i - pos) 0)) else out[i]? := by
  intro l
  induction l with
  | nil => intro out pos _; exact ⟨out, rfl, rfl, fun i => by rw [if_neg (by simp)]⟩
  | cons v l ih =>
    intro out pos hlen
    rw [List.length_cons] at hlen
    obtain ⟨o, h1, h2, h3⟩ := ih (out.set pos (toU16 v)) (pos + 1) (by rw [List.length_set]; omega)
    refine ⟨o, ?_, by rw [h2, List.length_set], ?_⟩
    · rw [putAll, setIdx_lt (by omega), ok_bind, h1]
    · intro i
      rw [h3, List.length_cons]
      by_cases h : pos + 1 ≤ i ∧ i < pos + 1 + l.length
      · rw [if_pos h, if_pos (by omega), show i - pos = (i - (pos + 1)) + 1 by omega, List.getD_cons_succ]
      · rw [if_neg h, List.getElem?_set]
        by_cases he : pos = i
        · subst he
          rw [if_pos rfl, if_pos (by omega), if_pos (by omega), Nat.sub_self, List.getD_cons_zero]
        · rw [if_neg he, if_neg (by omega)]

theorem setYuv422_ok {out : List Nat} {row col width : Nat} {y1 y2 cb cr : Int} (h : row * width + col + 6 ≤ out.length) :
    ∃ out', setYuv422 out row col width y1 y2 cb cr = .ok out' ∧ out'.length = out.length ∧
      ∀ i, out'[i]? = if row * width + col ≤ i ∧ i < row * width + col + 6 then some (toU16 ([y1, cb, cr, y2, cb, cr].getD (i - (row * width + col)) 0)) else out[i]? := by
  obtain ⟨o1, a1, a2, a3⟩ := putAll_ok [y1, cb, cr] out (row * width + col) (by simp; omega)
  obtain ⟨o2, b1, b2, b3⟩ := putAll_ok [y2, cb, cr] o1 (row * width + col + 3) (by simp; omega)
  refine ⟨o2, ?_, by rw [b2, a2], ?_⟩
  · unfold setYuv422
    rw [a1, ok_bind, b1]
  · intro i
    rw [b3, a3]
    generalize row * width + col = q at *
    simp only [List.length_cons, List.length_nil, Nat.zero_add, Nat.reduceAdd]
    by_cases h1 : q ≤ i ∧ i < q + 6
    · rw [if_pos h1]
      obtain ⟨k, rfl⟩ : ∃ k, i = q + k := ⟨i - q, by omega⟩
      have hk : k < 6 := by omega
      rw [Nat.add_sub_cancel_left]
      by_cases h2 : k < 3
      · rw [if_neg (by omega), if_pos (by omega)]
        rcases (by omega : k = 0 ∨ k = 1 ∨ k = 2) with rfl | rfl | rfl <;> rfl
      · rw [if_pos (by omega), show q + k - (q + 3) = k - 3 by omega]
        rcases (by omega : k = 3 ∨ k = 4 ∨ k = 5) with rfl | rfl | rfl <;> rfl
    · rw [if_neg h1, if_neg (by omega), if_neg (by omega)]

theorem setYuv420_eq (out : List Nat) (row col width : Nat) (y1 y2 y3 y4 cb cr : Int) :
    setYuv420 out row col width y1 y2 y3 y4 cb cr = (setYuv422 out row col width y1 y2 cb cr >>= fun out => setYuv422 out (row + 1) col width y3 y4 cb cr) := by
  unfold setYuv420 setYuv422
  cases putAll out (row * width + col) [y1, cb, cr] with
  | error e => rfl
  | ok o => rfl

/-- The sample in place `q` (of 6) of row `a` of a block. -/
def blockSample (Y C : Nat → Nat → Nat → Nat) (r a p q : Nat) : Nat := if q % 3 = 0 then Y r p (2 * a + q / 3) else C r p (q % 3 - 1)

/-- All blocks before block `p` of row `r` are in place. -/
structure Blocks (len : Nat) (Y C : Nat → Nat → Nat → Nat) (v wb r p : Nat) (out : List Nat) : Prop where
  len : out.length = len
  done : ∀ r' a p' q, a < v → p' < wb → q < 6 → (r' < r ∨ r' = r ∧ p' < p) → out[(v * r' + a) * (6 * wb) + 6 * p' + q]? = some (blockSample Y C r' a p' q)

theorem Blocks.row {len v wb r : Nat} {Y C : Nat → Nat → Nat → Nat} {out : List Nat} (h : Blocks len Y C v wb r wb out) : Blocks len Y C v wb (r + 1) 0 out :=
  ⟨h.len, fun r' a p' q ha hp hq hr => h.done r' a p' q ha hp hq (by omega)⟩

theorem Blocks.step {len v wb r p : Nat} {Y C : Nat → Nat → Nat → Nat} {out out' : List Nat} (h : Blocks len Y C v wb r p out) (hv : v = 1 ∨ v = 2) (hp : p < wb) (hlen : out'.length = out.length)
    (hin : ∀ a q, a < v → q < 6 → out'[(v * r + a) * (6 * wb) + 6 * p + q]? = some (blockSample Y C r a p q))
    (hout : ∀ i, (∀ a, a < v → ¬ ((v * r + a) * (6 * wb) + 6 * p ≤ i ∧ i < (v * r + a) * (6 * wb) + 6 * p + 6)) → out'[i]? = out[i]?) :
    Blocks len Y C v wb r (p + 1) out' := by
  refine ⟨by rw [hlen, h.len], ?_⟩
  intro r' a' p' q ha hp' hq hr
  by_cases hc : r' = r ∧ p' = p
  · obtain ⟨rfl, rfl⟩ := hc
    exact hin a' q ha hq
  · have hr' : r' < r ∨ r' = r ∧ p' < p := by omega
    rw [hout _ ?_, h.done r' a' p' q ha hp' hq hr']
    intro a hav
    have hlin : v * r' + a' < v * r + a ∨ v * r + a < v * r' + a' ∨ (v * r' + a' = v * r + a ∧ r' = r) := by
      rcases hv with rfl | rfl <;> omega
    rcases hlin with hl | hl | ⟨he, rfl⟩
    · have := Nat.mul_le_mul_right (6 * wb) (Nat.succ_le_of_lt hl)
      rw [Nat.succ_mul] at this
      omega
    · have := Nat.mul_le_mul_right (6 * wb) (Nat.succ_le_of_lt hl)
      rw [Nat.succ_mul] at this
      omega
    · rw [he]
      omega

/-! ## Reading blocks -/

variable {σ : Type} {P : PumpOps σ} {st : Nat → Nat} {at_ : σ → Nat → Nat → Prop}

theorem addDiff_ok {b : Build} {t : HuffTable} {enc : Int → List Nat} {d : Int} (hc : Codes b P st at_ t enc d) {p : Int} (hp : -1000000 ≤ p ∧ p ≤ 1000000) (hd : -32768 ≤ d ∧ d ≤ 32767)
    {s : σ} {c a : Nat} {rest : List Nat} (hs : at_ s c a) (hf : Follows st c (enc d ++ rest)) :
    ∃ s' c' a', addDiff b P t p s = .ok (p + d, s') ∧ at_ s' c' a' ∧ Follows st c' rest := by
  obtain ⟨s', c', a', h1, h2, h3⟩ := hc s c a rest hs hf
  refine ⟨s', c', a', ?_, h2, h3⟩
  unfold addDiff
  rw [h1, ok_bind]
  simp only
  rw [i32_small (by omega) (by omega), ok_bind]

/-- A chain of differences keeps its value modulo 2^16. -/
theorem chain_mod {y : Int} {p v : Nat} (h : y % 65536 = p) : (y + diff16 v p) % 65536 = v % 65536 := by
  unfold diff16
  have := Int.bmod_emod (x := (v : Int) - p) (m := 65536)
  push_cast at this
  omega

theorem toU16_of_mod {y : Int} {v : Nat} (h : y % 65536 = v) : toU16 y = v := by
  unfold toU16
  rw [h]; rfl

/-- Everything the block lemmas need to know about the tables. -/
def BlockCodes (b : Build) (P : PumpOps σ) (st : Nat → Nat) (at_ : σ → Nat → Nat → Prop) (ts : Nat → HuffTable) (enc : Nat → Int → List Nat)
    (base m : Nat) (Y C : Nat → Nat → Nat → Nat) (wb hb : Nat) : Prop :=
  ∀ r p, r < hb → p < wb → (∀ j, j < m → Codes b P st at_ (ts 0) (enc 0) (diff16 (Y r p j) (lumaPredict m base Y r p j))) ∧
    ∀ k, k < 2 → Codes b P st at_ (ts (k + 1)) (enc (k + 1)) (residual base C r p k)

theorem block422_ok {b : Build} {ts : Nat → HuffTable} {enc : Nat → Int → List Nat} {base wb hb : Nat} {Y C : Nat → Nat → Nat → Nat}
    (hc : BlockCodes b P st at_ ts enc base 2 Y C wb hb) (hY : ∀ r p j, Y r p j < 65536) (hC : ∀ r p j, C r p j < 65536) {len r p : Nat} {out : List Nat} (hr : r < hb) (hp : p < wb)
    (hlen : len = hb * (6 * wb)) (hB : Blocks len Y C 1 wb r p out) {py pcb pcr : Nat} (hpy : py = lumaPredict 2 base Y r p 0) (hpcb : pcb = predict base C r p 0) (hpcr : pcr = predict base C r p 1)
    (l1 : py < 65536) (l2 : pcb < 65536) (l3 : pcr < 65536) {s : σ} {c a : Nat} {rest : List Nat} (hs : at_ s c a) (hf : Follows st c (encodeBlock 2 enc base Y C r p ++ rest)) :
    ∃ out' s' c' a', block422 b P (ts 0) (ts 1) (ts 2) py pcb pcr r (6 * p) (6 * wb) (out, s) = .ok (out', s') ∧ at_ s' c' a' ∧ Follows st c' rest ∧
      Blocks len Y C 1 wb r (p + 1) out' := by
  obtain ⟨cy, cc⟩ := hc r p hr hp
  have hspace : r * (6 * wb) + 6 * p + 6 ≤ out.length := by
    rw [hB.len, hlen]
    have := Nat.mul_le_mul_right (6 * wb) (Nat.succ_le_of_lt hr)
    rw [Nat.succ_mul] at this
    omega
  unfold encodeBlock at hf
  rw [show List.range 2 = [0, 1] from rfl] at hf
  simp only [List.flatMap_cons, List.flatMap_nil, List.append_nil, List.append_assoc] at hf
  have d1 := diff16_range (Y r p 0) (lumaPredict 2 base Y r p 0)
  have d2 := diff16_range (Y r p 1) (lumaPredict 2 base Y r p 1)
  have d3 := diff16_range (C r p 0) (predict base C r p 0)
  have d4 := diff16_range (C r p 1) (predict base C r p 1)
  obtain ⟨s1, c1, a1, g1, h1, f1⟩ := addDiff_ok (p := (py : Int)) (cy 0 (by omega)) (by omega) d1 hs hf
  obtain ⟨s2, c2, a2, g2, h2, f2⟩ := addDiff_ok (p := (py : Int) + diff16 (Y r p 0) (lumaPredict 2 base Y r p 0)) (cy 1 (by omega)) (by omega) d2 h1 f1
  obtain ⟨s3, c3, a3, g3, h3, f3⟩ := addDiff_ok (p := (pcb : Int)) (cc 0 (by omega)) (by omega) d3 h2 f2
  obtain ⟨s4, c4, a4, g4, h4, f4⟩ := addDiff_ok (p := (pcr : Int)) (cc 1 (by omega)) (by omega) d4 h3 f3
  have m1 := chain_mod (y := py) (p := lumaPredict 2 base Y r p 0) (v := Y r p 0) (by omega)
  rw [show ((Y r p 0 : Nat) : Int) % 65536 = Y r p 0 by have := hY r p 0; omega] at m1
  have m2 := chain_mod (y := (py : Int) + diff16 (Y r p 0) (lumaPredict 2 base Y r p 0)) (p := lumaPredict 2 base Y r p 1) (v := Y r p 1) (by rw [m1]; rfl)
  rw [show ((Y r p 1 : Nat) : Int) % 65536 = Y r p 1 by have := hY r p 1; omega] at m2
  have m3 := chain_mod (y := pcb) (p := predict base C r p 0) (v := C r p 0) (by omega)
  rw [show ((C r p 0 : Nat) : Int) % 65536 = C r p 0 by have := hC r p 0; omega] at m3
  have m4 := chain_mod (y := pcr) (p := predict base C r p 1) (v := C r p 1) (by omega)
  rw [show ((C r p 1 : Nat) : Int) % 65536 = C r p 1 by have := hC r p 1; omega] at m4
  unfold block422
  simp only
  rw [g1, ok_bind]; simp only
  rw [g2, ok_bind]; simp only
  unfold residual at g3 g4
  rw [g3, ok_bind]; simp only
  rw [g4, ok_bind]; simp only
  generalize (py : Int) + diff16 (Y r p 0) (lumaPredict 2 base Y r p 0) = y1 at *
  generalize y1 + diff16 (Y r p 1) (lumaPredict 2 base Y r p 1) = y2 at *
  generalize (pcb : Int) + diff16 (C r p 0) (predict base C r p 0) = cb at *
  generalize (pcr : Int) + diff16 (C r p 1) (predict base C r p 1) = cr at *
  obtain ⟨o, k1, k2, k3⟩ := setYuv422_ok (out := out) (row := r) (col := 6 * p) (width := 6 * wb) (y1 := y1) (y2 := y2) (cb := cb) (cr := cr) hspace
  rw [k1, ok_bind]
  refine ⟨o, s4, c4, a4, rfl, h4, f4, ?_⟩
  refine hB.step (Or.inl rfl) hp k2 ?_ ?_
  · intro a q ha hq
    obtain rfl : a = 0 := by omega
    rw [Nat.one_mul, Nat.add_zero, k3, if_pos (by omega), Nat.add_sub_cancel_left]
    congr 1
    rcases (by omega : q = 0 ∨ q = 1 ∨ q = 2 ∨ q = 3 ∨ q = 4 ∨ q = 5) with rfl | rfl | rfl | rfl | rfl | rfl
    · exact toU16_of_mod m1
    · exact toU16_of_mod m3
    · exact toU16_of_mod m4
    · exact toU16_of_mod m2
    · exact toU16_of_mod m3
    · exact toU16_of_mod m4
  · intro i hi
    have := hi 0 (by omega)
    rw [Nat.one_mul, Nat.add_zero] at this
    rw [k3, if_neg this]

theorem block420_ok {b : Build} {ts : Nat → HuffTable} {enc : Nat → Int → List Nat} {base wb hb : Nat} {Y C : Nat → Nat → Nat → Nat}
    (hc : BlockCodes b P st at_ ts enc base 4 Y C wb hb) (hY : ∀ r p j, Y r p j < 65536) (hC : ∀ r p j, C r p j < 65536) {len r p : Nat} {out : List Nat} (hr : r < hb) (hp : p < wb)
    (hlen : len = 2 * hb * (6 * wb)) (hB : Blocks len Y C 2 wb r p out) {py pcb pcr : Nat} (hpy : py = lumaPredict 4 base Y r p 0) (hpcb : pcb = predict base C r p 0) (hpcr : pcr = predict base C r p 1)
    (l1 : py < 65536) (l2 : pcb < 65536) (l3 : pcr < 65536) {s : σ} {c a : Nat} {rest : List Nat} (hs : at_ s c a) (hf : Follows st c (encodeBlock 4 enc base Y C r p ++ rest)) :
    ∃ out' s' c' a', block420 b P (ts 0) (ts 1) (ts 2) py pcb pcr (2 * r) (6 * p) (6 * wb) (out, s) = .ok (out', s') ∧ at_ s' c' a' ∧ Follows st c' rest ∧
      Blocks len Y C 2 wb r (p + 1) out' := by
  obtain ⟨cy, cc⟩ := hc r p hr hp
  have hspace : (2 * r + 1) * (6 * wb) + 6 * p + 6 ≤ out.length := by
    rw [hB.len, hlen]
    have := Nat.mul_le_mul_right (6 * wb) (show 2 * r + 1 + 1 ≤ 2 * hb by omega)
    rw [Nat.succ_mul] at this
    omega
  have hmono : 2 * r * (6 * wb) + 6 * wb = (2 * r + 1) * (6 * wb) := (Nat.succ_mul (2 * r) _).symm
  unfold encodeBlock at hf
  rw [show List.range 4 = [0, 1, 2, 3] from rfl, show List.range 2 = [0, 1] from rfl] at hf
  simp only [List.flatMap_cons, List.flatMap_nil, List.append_nil, List.append_assoc] at hf
  have d1 := diff16_range (Y r p 0) (lumaPredict 4 base Y r p 0)
  have d2 := diff16_range (Y r p 1) (lumaPredict 4 base Y r p 1)
  have d5 := diff16_range (Y r p 2) (lumaPredict 4 base Y r p 2)
  have d6 := diff16_range (Y r p 3) (lumaPredict 4 base Y r p 3)
  have d3 := diff16_range (C r p 0) (predict base C r p 0)
  have d4 := diff16_range (C r p 1) (predict base C r p 1)
  obtain ⟨s1, c1, a1, g1, h1, f1⟩ := addDiff_ok (p := (py : Int)) (cy 0 (by omega)) (by omega) d1 hs hf
  obtain ⟨s2, c2, a2, g2, h2, f2⟩ := addDiff_ok (p := (py : Int) + diff16 (Y r p 0) (lumaPredict 4 base Y r p 0)) (cy 1 (by omega)) (by omega) d2 h1 f1
  obtain ⟨s5, c5, a5, g5, h5, f5⟩ := addDiff_ok (p := (py : Int) + diff16 (Y r p 0) (lumaPredict 4 base Y r p 0) + diff16 (Y r p 1) (lumaPredict 4 base Y r p 1)) (cy 2 (by omega)) (by omega) d5 h2 f2
  obtain ⟨s6, c6, a6, g6, h6, f6⟩ := addDiff_ok (p := (py : Int) + diff16 (Y r p 0) (lumaPredict 4 base Y r p 0) + diff16 (Y r p 1) (lumaPredict 4 base Y r p 1) + diff16 (Y r p 2) (lumaPredict 4 base Y r p 2))
    (cy 3 (by omega)) (by omega) d6 h5 f5
  obtain ⟨s3, c3, a3, g3, h3, f3⟩ := addDiff_ok (p := (pcb : Int)) (cc 0 (by omega)) (by omega) d3 h6 f6
  obtain ⟨s4, c4, a4, g4, h4, f4⟩ := addDiff_ok (p := (pcr : Int)) (cc 1 (by omega)) (by omega) d4 h3 f3
  have m1 := chain_mod (y := py) (p := lumaPredict 4 base Y r p 0) (v := Y r p 0) (by omega)
  rw [show ((Y r p 0 : Nat) : Int) % 65536 = Y r p 0 by have := hY r p 0; omega] at m1
  unfold residual at g3 g4
  have m3 := chain_mod (y := pcb) (p := predict base C r p 0) (v := C r p 0) (by omega)
  rw [show ((C r p 0 : Nat) : Int) % 65536 = C r p 0 by have := hC r p 0; omega] at m3
  have m4 := chain_mod (y := pcr) (p := predict base C r p 1) (v := C r p 1) (by omega)
  rw [show ((C r p 1 : Nat) : Int) % 65536 = C r p 1 by have := hC r p 1; omega] at m4
  unfold block420
  simp only
  rw [g1, ok_bind]; simp only
  rw [g2, ok_bind]; simp only
  rw [g5, ok_bind]; simp only
  rw [g6, ok_bind]; simp only
  rw [g3, ok_bind]; simp only
  rw [g4, ok_bind]; simp only
  generalize (py : Int) + diff16 (Y r p 0) (lumaPredict 4 base Y r p 0) = y1 at *
  have m2 := chain_mod (y := y1) (p := lumaPredict 4 base Y r p 1) (v := Y r p 1) (by rw [m1]; rfl)
  rw [show ((Y r p 1 : Nat) : Int) % 65536 = Y r p 1 by have := hY r p 1; omega] at m2
  generalize y1 + diff16 (Y r p 1) (lumaPredict 4 base Y r p 1) = y2 at *
  have m5 := chain_mod (y := y2) (p := lumaPredict 4 base Y r p 2) (v := Y r p 2) (by rw [m2]; rfl)
  rw [show ((Y r p 2 : Nat) : Int) % 65536 = Y r p 2 by have := hY r p 2; omega] at m5
  generalize y2 + diff16 (Y r p 2) (lumaPredict 4 base Y r p 2) = y3 at *
  have m6 := chain_mod (y := y3) (p := lumaPredict 4 base Y r p 3) (v := Y r p 3) (by rw [m5]; rfl)
  rw [show ((Y r p 3 : Nat) : Int) % 65536 = Y r p 3 by have := hY r p 3; omega] at m6
  generalize y3 + diff16 (Y r p 3) (lumaPredict 4 base Y r p 3) = y4 at *
  generalize (pcb : Int) + diff16 (C r p 0) (predict base C r p 0) = cb at *
  generalize (pcr : Int) + diff16 (C r p 1) (predict base C r p 1) = cr at *
  obtain ⟨o1, k1, k2, k3⟩ := setYuv422_ok (out := out) (row := 2 * r) (col := 6 * p) (width := 6 * wb) (y1 := y1) (y2 := y2) (cb := cb) (cr := cr) (by omega)
  obtain ⟨o, q1, q2, q3⟩ := setYuv422_ok (out := o1) (row := 2 * r + 1) (col := 6 * p) (width := 6 * wb) (y1 := y3) (y2 := y4) (cb := cb) (cr := cr) (by omega)
  rw [setYuv420_eq, k1, ok_bind, q1, ok_bind]
  refine ⟨o, s4, c4, a4, rfl, h4, f4, ?_⟩
  refine hB.step (Or.inr rfl) hp (by rw [q2, k2]) ?_ ?_
  · intro a q ha hq
    rcases (by omega : a = 0 ∨ a = 1) with rfl | rfl
    · rw [Nat.add_zero, q3, if_neg (by omega), k3, if_pos (by omega), Nat.add_sub_cancel_left]
      congr 1
      rcases (by omega : q = 0 ∨ q = 1 ∨ q = 2 ∨ q = 3 ∨ q = 4 ∨ q = 5) with rfl | rfl | rfl | rfl | rfl | rfl
      · exact toU16_of_mod m1
      · exact toU16_of_mod m3
      · exact toU16_of_mod m4
      · exact toU16_of_mod m2
      · exact toU16_of_mod m3
      · exact toU16_of_mod m4
    · rw [q3, if_pos (by omega), Nat.add_sub_cancel_left]
      congr 1
      rcases (by omega : q = 0 ∨ q = 1 ∨ q = 2 ∨ q = 3 ∨ q = 4 ∨ q = 5) with rfl | rfl | rfl | rfl | rfl | rfl
      · exact toU16_of_mod m5
      · exact toU16_of_mod m3
      · exact toU16_of_mod m4
      · exact toU16_of_mod m6
      · exact toU16_of_mod m3
      · exact toU16_of_mod m4
  · intro i hi
    have e0 := hi 0 (by omega)
    have e1 := hi 1 (by omega)
    rw [Nat.add_zero] at e0
    rw [q3, if_neg e1, k3, if_neg e0]

end Model.Ljpeg

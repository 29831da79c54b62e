import Verif.Props.Ljpeg
/-!
# Reading codes from streams that end
-/

namespace Props
open Rust Spec Model Model.HuffTable Model.Ljpeg

/-- A table made from a usable description. -/
theorem UsableTable.built {b : Build} {t : TableSpec} {precision : Nat} {dngBug : Bool} (h : UsableTable t precision dngBug) {T : HuffTable}
    (hT : HuffTable.new b (0 :: t.counts) (padded t) precision dngBug = .ok T) :
    Built (HuffTable.counts (0 :: t.counts)) T ∧ Big b T ∧ T.huffval = padded t ∧ T.precision = precision ∧ T.dngBug = dngBug := by
  obtain ⟨T', h1, r⟩ := new_built (b := b) (bits := 0 :: t.counts) (huffval := padded t) (precision := precision) (dngBug := dngBug)
    (by rw [List.length_cons, h.counts.1]) (by unfold padded; rw [List.length_append, List.length_replicate]; have := h.size; omega) (by
      intro v hv
      unfold padded at hv
      rw [List.mem_append, List.mem_replicate] at hv
      rcases hv with hv | ⟨_, rfl⟩
      · exact h.vals.2 v hv
      · omega) h.prefixCode.count h.prefixCode.kraft h.prefixCode.noOverflow (Roomy.fits (bits := 0 :: t.counts) h.roomy)
  rw [hT] at h1
  injection h1 with h1
  rw [h1]
  exact r

variable {σ : Type} {P : PumpOps σ} {st : Nat → Nat} {limit : Option Nat} {at_ : σ → Nat → Nat → Prop}

/-- The symbol at a place in the table. -/
theorem UsableTable.symbol {t : TableSpec} {precision : Nat} {dngBug : Bool} (h : UsableTable t precision dngBug) {v : Nat} (hv : v ∈ t.vals) :
    t.vals.idxOf v < t.lens.length ∧ (padded t).getD (t.vals.idxOf v) 0 = v := by
  have hlt : t.vals.idxOf v < t.vals.length := List.idxOf_lt_length_of_mem hv
  refine ⟨by rw [h.length]; exact hlt, ?_⟩
  rw [padded_lt hlt, List.getD_eq_getElem?_getD, List.getElem?_eq_getElem hlt, Option.getD_some]
  exact List.getElem_idxOf hlt

/-- `huff_len` reads the code of a symbol when seven more bits than all that is left can be read. -/
theorem UsableTable.len_ok {b : Build} {t : TableSpec} {precision : Nat} {dngBug : Bool} (h : UsableTable t precision dngBug) {T : HuffTable}
    (hT : HuffTable.new b (0 :: t.counts) (padded t) precision dngBug = .ok T) (hR : Reads P (fieldMSB st) limit at_) {v : Nat} (hv : v ∈ t.vals) {s : σ} {c a : Nat} {rest : List Nat}
    (hs : at_ s c a) (hf : Follows st c (encodeSymbol t.lens t.vals v ++ rest)) (hw : within limit (c + (encodeSymbol t.lens t.vals v ++ rest).length + 7)) :
    ∃ s' c' a', huffLen b P T s = .ok (v, s') ∧ at_ s' c' a' ∧ Follows st c' rest ∧ within limit (c' + rest.length + 7) := by
  obtain ⟨hB, _, e1, e2, e3⟩ := h.built hT
  obtain ⟨hlt, hval⟩ := h.symbol hv
  rw [follows_append] at hf
  rw [List.length_append] at hw
  unfold encodeSymbol at hf hw
  rw [bitsOf_length] at hf hw
  have hc := follows_bitsOf hf.1 (canonical_lt (codeLengths_lens _) h.prefixCode.kraft hlt)
  have hpos := ((codeLengths_lens (HuffTable.counts (0 :: t.counts))).range (t.vals.idxOf v) hlt).1
  change 1 ≤ t.lens.getD (t.vals.idxOf v) 0 at hpos
  obtain ⟨s', a', g1, g2⟩ := huffLen_ok (b := b) hB hR hs (k := t.vals.idxOf v) ⟨hlt, hc⟩ (by
      refine reachable_of (bits := 0 :: t.counts) hlt (by rw [show lengthsOf (0 :: t.counts) = t.lens from rfl, h.length]; exact h.size) ?_
      rw [show lengthsOf (0 :: t.counts) = t.lens from rfl, e2]
      exact h.short _ (by rw [← h.length]; exact hlt)) (within_mono hw (by omega)) (within_mono hw (by
        show c + t.lens.getD (t.vals.idxOf v) 0 ≤ _
        omega))
  rw [e1, hval] at g1
  exact ⟨s', _, a', g1, g2, hf.2, within_mono hw (by
    show c + t.lens.getD (t.vals.idxOf v) 0 + rest.length + 7 ≤ _
    omega)⟩

/-- `huff_diff` reads the additional bits. -/
theorem diff_ok {b : Build} {T : HuffTable} (hR : Reads P (fieldMSB st) limit at_) {d : Int} (h1 : -32768 ≤ d) (h2 : d ≤ 32767) (h16 : category d = 16 → T.dngBug = false) {s : σ} {c a : Nat} {rest : List Nat}
    (hs : at_ s c a) (hf : Follows st c (extraBits d ++ rest)) (hw : within limit (c + (extraBits d ++ rest).length + 7)) :
    ∃ s' c' a', huffDiff b P T s (category d) = .ok (d, s') ∧ at_ s' c' a' ∧ Follows st c' rest ∧ within limit (c' + rest.length + 7) := by
  rw [follows_append] at hf
  rw [List.length_append] at hw
  unfold extraBits at hf hw
  rw [bitsOf_length] at hf hw
  obtain ⟨c16, ceq⟩ := category_le h1 h2
  have hdiff := difference_encode h1 h2 (fieldMSB st c) (fun h => follows_bitsOf hf.1 (additional_lt h))
  have hf2 := hf.2
  have hw2 : within limit (c + diffBits (category d) + rest.length + 7) := within_mono hw (by omega)
  generalize hn : category d = n at *
  unfold difference at hdiff
  by_cases hz : n = 0
  · subst hz
    refine ⟨s, c, a, ?_, hs, by simpa [diffBits] using hf2, by simpa [diffBits] using hw2⟩
    unfold huffDiff
    rw [if_pos rfl]
    rw [if_neg (by decide)] at hdiff
    rw [← hdiff]; rfl
  · by_cases h16n : n = 16
    · subst h16n
      refine ⟨s, c, a, ?_, hs, by simpa [diffBits] using hf2, by simpa [diffBits] using hw2⟩
      unfold huffDiff
      rw [if_neg (by decide), if_pos rfl, h16 rfl, if_neg (by decide), ceq rfl]
    · rw [if_neg h16n] at hdiff
      have hdb : diffBits n = n := by unfold diffBits; rw [if_neg h16n]
      rw [hdb] at hf2 hw2
      obtain ⟨s', a', g1, g2⟩ := huffDiff_ok (b := b) (t := T) hR hs (show 1 ≤ n by omega) (show n ≤ 15 by omega) (within_mono hw2 (by omega))
      rw [hdiff] at g1
      exact ⟨s', _, a', g1, g2, hf2, hw2⟩

/-- `huff_decode` reads a difference when twelve more bits than all that is left can be read. -/
theorem UsableTable.decode_ok {b : Build} {t : TableSpec} {precision : Nat} {dngBug : Bool} (h : UsableTable t precision dngBug) {T : HuffTable}
    (hT : HuffTable.new b (0 :: t.counts) (padded t) precision dngBug = .ok T) (hR : Reads P (fieldMSB st) limit at_) {d : Int} (h1 : -32768 ≤ d) (h2 : d ≤ 32767) (hv : category d ∈ t.vals)
    {s : σ} {c a : Nat} {rest : List Nat} (hs : at_ s c a) (hf : Follows st c (encodeDiff t.lens t.vals d ++ rest)) (hw : within limit (c + (encodeDiff t.lens t.vals d ++ rest).length + 12)) :
    ∃ s' c' a', huffDecode b P T s = .ok (d, s') ∧ at_ s' c' a' ∧ Follows st c' rest ∧ within limit (c' + rest.length + 12) := by
  obtain ⟨hB, hBig, e1, e2, e3⟩ := h.built hT
  obtain ⟨hlt, hval⟩ := h.symbol hv
  rw [List.length_append] at hw
  unfold encodeDiff at hf hw
  rw [List.append_assoc, follows_append, follows_append] at hf
  rw [List.length_append] at hw
  rw [bitsOf_length, bitsOf_length] at hf hw
  obtain ⟨f1, f2, f3⟩ := hf
  have hc := follows_bitsOf f1 (canonical_lt (codeLengths_lens _) h.prefixCode.kraft hlt)
  have hpos := ((codeLengths_lens (HuffTable.counts (0 :: t.counts))).range (t.vals.idxOf (category d)) hlt).1
  change 1 ≤ t.lens.getD (t.vals.idxOf (category d)) 0 at hpos
  obtain ⟨c16, ceq⟩ := category_le h1 h2
  obtain ⟨s', a', g1, g2⟩ := huffDecode_ok (b := b) hB hBig hR hs (k := t.vals.idxOf (category d)) ⟨hlt, hc⟩ (by
      refine reachable_of (bits := 0 :: t.counts) hlt (by rw [show lengthsOf (0 :: t.counts) = t.lens from rfl, h.length]; exact h.size) ?_
      rw [show lengthsOf (0 :: t.counts) = t.lens from rfl, e2]
      exact h.short _ (by rw [← h.length]; exact hlt)) (by rw [e1, hval]; exact c16) (by
      intro k hk hv
      rw [e1] at hv
      rw [e3]
      by_cases hkl : k < t.vals.length
      · rw [padded_lt hkl] at hv
        obtain ⟨c1, c2⟩ := h.cat16 k hkl hv
        refine ⟨?_, c1, c2⟩
        have := h.length
        show k < t.lens.length
        omega
      · rw [padded_ge (by omega)] at hv
        omega) (e2 ▸ Roomy.fits (bits := 0 :: t.counts) h.roomy) (within_mono hw (by omega)) (by
      rw [e1, hval]
      refine within_mono hw ?_
      show c + t.lens.getD (t.vals.idxOf (category d)) 0 + _ ≤ _
      omega)
  rw [e1, hval] at g1 g2
  refine ⟨s', _, a', ?_, g2, f3, within_mono hw (by
    show c + t.lens.getD (t.vals.idxOf (category d)) 0 + _ + rest.length + 12 ≤ _
    omega)⟩
  rw [g1, difference_encode h1 h2]
  intro h
  exact follows_bitsOf f2 (additional_lt h)

/-- A loop over chunks, when the chunks are treated one after the other. -/
theorem foldChunks_ok {α τ : Type} {f : List α → τ → M (List α × τ)} (I : Nat → τ → Prop) (o : Nat → List α) : ∀ (cs : List (List α)) (i : Nat) (s : τ), I i s →
    (∀ j s (hj : j < cs.length), I (i + j) s → ∃ s', f cs[j] s = .ok (o (i + j), s') ∧ I (i + j + 1) s') →
    ∃ s', foldChunks f cs s = .ok ((List.range' i cs.length).flatMap o, s') ∧ I (i + cs.length) s' := by
  intro cs
  induction cs with
  | nil => intro i s hs _; exact ⟨s, rfl, hs⟩
  | cons c cs ih =>
    intro i s hs hf
    obtain ⟨s1, g1, g2⟩ := hf 0 s (by simp) hs
    obtain ⟨s2, k1, k2⟩ := ih (i + 1) s1 g2 (fun j s hj hI => by
      have := hf (j + 1) s (by simp; omega) (by rw [show i + (j + 1) = i + 1 + j by omega]; exact hI)
      rw [show i + (j + 1) = i + 1 + j by omega] at this
      exact this)
    refine ⟨s2, ?_, by rw [List.length_cons, show i + (cs.length + 1) = i + 1 + cs.length by omega]; exact k2⟩
    rw [List.getElem_cons_zero, Nat.add_zero] at g1
    rw [foldChunks, g1, ok_bind]
    dsimp only
    rw [k1, ok_bind, List.length_cons, List.range'_succ, List.flatMap_cons]

theorem chunks_replicate {n k : Nat} (hn : 0 < n) : (chunks n (List.replicate (n * k) 0)).length = k ∧ ∀ j (hj : j < (chunks n (List.replicate (n * k) 0)).length), (chunks n (List.replicate (n * k) 0))[j] = List.replicate n 0 := by
  have hlen : (chunks n (List.replicate (n * k) 0)).length = k := by
    rw [chunks_length n hn, List.length_replicate, show n * k + n - 1 = n * k + (n - 1) by omega, Nat.mul_add_div hn, Nat.div_eq_of_lt (by omega), Nat.add_zero]
  refine ⟨hlen, ?_⟩
  intro j hj
  rw [hlen] at hj
  have hjk : n * j + n ≤ n * k := by rw [← Nat.mul_succ]; exact Nat.mul_le_mul_left _ hj
  have := chunks_getElem? n hn (List.replicate (n * k) 0) j
  rw [List.length_replicate, if_pos (by omega), List.drop_replicate, List.take_replicate, Nat.min_eq_left (by omega)] at this
  exact (List.getElem_eq_iff _).mpr this

end Props

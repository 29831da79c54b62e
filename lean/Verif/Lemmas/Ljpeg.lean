import Verif.Spec.Ljpeg
import Verif.Model.Ljpeg
import Verif.Lemmas.HuffBig
import Verif.Lemmas.JpegPump
import Verif.Lemmas.Loops
/-!
# Lossless JPEG: decoding what the encoder of the specification wrote
-/

namespace Model.Ljpeg
open Rust Spec Model.HuffTable

/-! ## Bits -/

theorem bitsOf_length (n v : Nat) : (bitsOf n v).length = n := by simp [bitsOf]

theorem bitsOf_succ (n v : Nat) : bitsOf (n + 1) v = bitsOf n (v / 2) ++ [v % 2] := by
  unfold bitsOf
  rw [List.range_succ, List.map_append]
  congr 1
  · apply List.map_congr_left
    intro i hi
    rw [List.mem_range] at hi
    rw [show n + 1 - 1 - i = (n - 1 - i) + 1 by omega, Nat.pow_succ, Nat.mul_comm, ← Nat.div_div_eq_div_mul]
  · simp

theorem follows_append {st : Nat → Nat} {c : Nat} {l m : List Nat} : Follows st c (l ++ m) ↔ Follows st c l ∧ Follows st (c + l.length) m := by
  unfold Follows
  constructor
  · intro h
    constructor
    · intro i hi
      rw [h i (by rw [List.length_append]; omega)]
      simp [List.getD_eq_getElem?_getD, List.getElem?_append_left hi]
    · intro i hi
      have := h (l.length + i) (by rw [List.length_append]; omega)
      rw [Nat.add_assoc, this]
      simp [List.getD_eq_getElem?_getD, List.getElem?_append_right]
  · rintro ⟨h1, h2⟩ i hi
    by_cases hl : i < l.length
    · rw [h1 i hl]
      simp [List.getD_eq_getElem?_getD, List.getElem?_append_left hl]
    · rw [List.length_append] at hi
      have := h2 (i - l.length) (by omega)
      rw [show c + l.length + (i - l.length) = c + i by omega] at this
      rw [this]
      simp [List.getD_eq_getElem?_getD, List.getElem?_append_right (Nat.le_of_not_lt hl)]

theorem follows_bitsOf {st : Nat → Nat} {c : Nat} : ∀ {n v : Nat}, Follows st c (bitsOf n v) → v < 2 ^ n → fieldMSB st c n = v := by
  intro n
  induction n with
  | zero => intro v _ hv; simp at hv; simp [fieldMSB, hv]
  | succ n ih =>
    intro v h hv
    rw [bitsOf_succ, follows_append] at h
    have h1 := ih h.1 (by rw [Nat.pow_succ] at hv; omega)
    have h2 := h.2 0 (by simp)
    rw [bitsOf_length, Nat.add_zero] at h2
    simp only [List.getD_cons_zero] at h2
    rw [fieldMSB, h1, h2]; omega

/-! ## Differences -/

theorem log2_bound {m : Nat} (h : m ≠ 0) : 2 ^ m.log2 ≤ m ∧ m < 2 ^ (m.log2 + 1) := ⟨Nat.log2_self_le h, Nat.lt_log2_self⟩

theorem category_le {d : Int} (h1 : -32768 ≤ d) (h2 : d ≤ 32767) : category d ≤ 16 ∧ (category d = 16 → d = -32768) := by
  unfold category
  by_cases h0 : d.natAbs = 0
  · rw [if_pos h0]; omega
  · rw [if_neg h0]
    obtain ⟨a1, a2⟩ := log2_bound h0
    have hlt : d.natAbs.log2 < 16 := by
      rw [Nat.log2_lt h0]; omega
    refine ⟨by omega, ?_⟩
    intro e
    rw [show d.natAbs.log2 = 15 by omega] at a1
    omega

theorem difference_encode {d : Int} (h1 : -32768 ≤ d) (h2 : d ≤ 32767) (field : Nat → Nat)
    (hf : category d ≠ 16 → field (diffBits (category d)) = additional (category d) d) : difference (category d) field = d := by
  unfold difference
  obtain ⟨_, hc⟩ := category_le h1 h2
  by_cases h16 : category d = 16
  · rw [if_pos h16, hc h16]
  · rw [if_neg h16]
    have hf := hf h16
    unfold diffBits at hf
    rw [if_neg h16] at hf
    rw [hf]
    unfold extend additional
    by_cases h0 : d.natAbs = 0
    · have : d = 0 := by omega
      subst this
      decide
    · have hcat : category d = d.natAbs.log2 + 1 := by unfold category; rw [if_neg h0]
      obtain ⟨a1, a2⟩ := log2_bound h0
      rw [hcat]
      generalize d.natAbs.log2 = e at a1 a2
      rw [Nat.add_sub_cancel]
      have hp : (2 : Int) ^ (e + 1) = ((2 ^ (e + 1) : Nat) : Int) := by push_cast; rfl
      rw [hp]
      rw [Nat.pow_succ] at a2 ⊢
      generalize 2 ^ e = q at *
      split <;> split <;> omega

theorem additional_lt {d : Int} (h16 : category d ≠ 16) : additional (category d) d < 2 ^ diffBits (category d) := by
  unfold diffBits additional
  rw [if_neg h16]
  by_cases h0 : d.natAbs = 0
  · have : d = 0 := by omega
    subst this
    decide
  · have hcat : category d = d.natAbs.log2 + 1 := by unfold category; rw [if_neg h0]
    obtain ⟨a1, a2⟩ := log2_bound h0
    rw [hcat]
    generalize d.natAbs.log2 = e at a1 a2
    have hp : (2 : Int) ^ (e + 1) = ((2 ^ (e + 1) : Nat) : Int) := by push_cast; rfl
    rw [hp]
    rw [Nat.pow_succ] at a2 ⊢
    generalize 2 ^ e = q at *
    split <;> omega

theorem canonical_lt {L : List Nat} (hL : Lens L) (hk16 : kraft L ≤ 65536) {k : Nat} (hk : k < L.length) : canonical L k < 2 ^ L.getD k 0 := by
  have h1 := canonical_start hL hk
  have h2 := start_succ hk
  have h3 := start_le_kraft L (k + 1)
  have h4 := hL.range k hk
  have h5 : 2 ^ L.getD k 0 * 2 ^ (16 - L.getD k 0) = 65536 := by
    rw [← Nat.pow_add, show L.getD k 0 + (16 - L.getD k 0) = 16 by omega]
  have h6 : 0 < 2 ^ (16 - L.getD k 0) := Nat.pow_pos (by omega)
  generalize 2 ^ (16 - L.getD k 0) = q at *
  generalize 2 ^ L.getD k 0 = m at *
  by_contra hc
  have : m * q ≤ canonical L k * q := Nat.mul_le_mul_right _ (by omega)
  omega

variable {σ : Type} {P : PumpOps σ} {st : Nat → Nat} {at_ : σ → Nat → Nat → Prop}

/-- Table `t` undoes the encoding `enc` of the difference `d`, whatever follows. -/
def Codes (b : Build) (P : PumpOps σ) (st : Nat → Nat) (at_ : σ → Nat → Nat → Prop) (t : HuffTable) (enc : Int → List Nat) (d : Int) : Prop :=
  ∀ s c a rest, at_ s c a → Follows st c (enc d ++ rest) → ∃ s' c' a', huffDecode b P t s = .ok (d, s') ∧ at_ s' c' a' ∧ Follows st c' rest

theorem codes_table {b : Build} {cs : Nat → Nat} {t : HuffTable} (hB : Built cs t) (hT : Big b t) (hR : Reads P (fieldMSB st) none at_)
    (hk : kraft (codeLengths cs) ≤ 65536) (h16 : Short16 cs t) (hfit : Fits cs t.precision) {d : Int} (h1 : -32768 ≤ d) (h2 : d ≤ 32767)
    (hcov : t.huffval.idxOf (category d) < (codeLengths cs).length) (hreach : Reachable cs t (t.huffval.idxOf (category d))) :
    Codes b P st at_ t (encodeDiff (codeLengths cs) t.huffval) d := by
  intro s c a rest hs hf
  unfold encodeDiff at hf
  rw [List.append_assoc, follows_append, follows_append] at hf
  rw [bitsOf_length, bitsOf_length] at hf
  obtain ⟨f1, f2, f3⟩ := hf
  have hL := codeLengths_lens cs
  have e1 := follows_bitsOf f1 (canonical_lt hL hk hcov)
  have hmem : t.huffval.idxOf (category d) < t.huffval.length := by
    rw [hB.vals]
    exact Nat.lt_of_lt_of_le hcov hB.count
  have hval : t.huffval.getD (t.huffval.idxOf (category d)) 0 = category d := by
    rw [List.getD_eq_getElem?_getD, List.getElem?_eq_getElem hmem, Option.getD_some]
    exact List.getElem_idxOf hmem
  obtain ⟨c16, ceq⟩ := category_le h1 h2
  obtain ⟨s', a', g1, g2⟩ := huffDecode_ok (b := b) hB hT hR hs ⟨hcov, e1⟩ hreach (by rw [hval]; exact c16) h16 hfit trivial trivial
  rw [hval] at g1 g2
  refine ⟨s', _, a', ?_, g2, f3⟩
  rw [g1, difference_encode h1 h2]
  intro h
  exact follows_bitsOf f2 (additional_lt h)

/-! ## Pixels -/

theorem diff16_range (v p : Nat) : -32768 ≤ diff16 v p ∧ diff16 v p ≤ 32767 := by
  unfold diff16
  have := Int.bmod_lt (x := (v : Int) - p) (m := 65536) (by omega)
  have := Int.le_bmod (x := (v : Int) - p) (m := 65536) (by omega)
  omega

theorem undo_diff {v p : Nat} (hv : v < 65536) : toU16 ((p : Int) + diff16 v p) = v := by
  unfold toU16 diff16
  have : ((p : Int) + Int.bmod ((v : Int) - p) 65536) % 65536 = v := by
    have := Int.bmod_emod (x := (v : Int) - p) (m := 65536)
    push_cast at this
    omega
  rw [this]; rfl

theorem i32_small {b : Build} {x : Int} (h1 : -2147483648 ≤ x) (h2 : x < 2147483648) : i32Result b x = .ok x := by
  unfold i32Result; rw [if_pos ⟨h1, h2⟩]

theorem diffs_ok {b : Build} {enc : Nat → Int → List Nat} {df : Nat → Int} : ∀ (ts : List HuffTable) (k0 : Nat),
    (∀ i (h : i < ts.length), Codes b P st at_ ts[i] (enc (k0 + i)) (df (k0 + i))) →
    ∀ s c a rest, at_ s c a → Follows st c ((List.range' k0 ts.length).flatMap (fun k => enc k (df k)) ++ rest) →
      ∃ s' c' a', diffs b P ts s = .ok ((List.range' k0 ts.length).map df, s') ∧ at_ s' c' a' ∧ Follows st c' rest := by
  intro ts
  induction ts with
  | nil => intro k0 _ s c a rest hs hf; exact ⟨s, c, a, rfl, hs, by simpa using hf⟩
  | cons t ts ih =>
    intro k0 hc s c a rest hs hf
    rw [List.length_cons, List.range'_succ, List.flatMap_cons, List.append_assoc] at hf
    obtain ⟨s1, c1, a1, g1, g2, g3⟩ := hc 0 (by simp) s c a _ hs hf
    obtain ⟨s2, c2, a2, k1, k2, k3⟩ := ih (k0 + 1) (fun i h => by
      have := hc (i + 1) (by simp; omega)
      rw [show k0 + (i + 1) = k0 + 1 + i by omega] at this
      exact this) s1 c1 a1 rest g2 g3
    refine ⟨s2, c2, a2, ?_, k2, k3⟩
    rw [diffs]
    simp only [List.getElem_cons_zero, Nat.add_zero] at g1
    rw [g1, ok_bind]
    simp only
    rw [k1, ok_bind]
    rw [List.length_cons, List.range'_succ, List.map_cons]

theorem firstPixel_ok {b : Build} {enc : Nat → Int → List Nat} {base : Nat} {v : Nat → Nat} (hbase : base < 65536) (hv : ∀ k, v k < 65536) : ∀ (ts : List HuffTable) (k0 pos : Nat) (out : List Nat),
    (∀ i (h : i < ts.length), Codes b P st at_ ts[i] (enc (k0 + i)) (diff16 (v (k0 + i)) base)) → pos + ts.length ≤ out.length →
    ∀ s c a rest, at_ s c a → Follows st c ((List.range' k0 ts.length).flatMap (fun k => enc k (diff16 (v k) base)) ++ rest) →
      ∃ out' s' c' a', firstPixel b P base pos ts (out, s) = .ok (out', s') ∧ at_ s' c' a' ∧ Follows st c' rest ∧ out'.length = out.length ∧
        ∀ i, out'[i]? = if pos ≤ i ∧ i < pos + ts.length then some (v (k0 + (i - pos))) else out[i]? := by
  intro ts
  induction ts with
  | nil => intro k0 pos out _ _ s c a rest hs hf; exact ⟨out, s, c, a, rfl, hs, by simpa using hf, rfl, fun i => by rw [if_neg (by simp)]⟩
  | cons t ts ih =>
    intro k0 pos out hc hlen s c a rest hs hf
    rw [List.length_cons] at hlen
    rw [List.length_cons, List.range'_succ, List.flatMap_cons, List.append_assoc] at hf
    obtain ⟨s1, c1, a1, g1, g2, g3⟩ := hc 0 (by simp) s c a _ hs hf
    obtain ⟨o2, s2, c2, a2, k1, k2, k3, k4, k5⟩ := ih (k0 + 1) (pos + 1) (out.set pos (v k0)) (fun i h => by
      have := hc (i + 1) (by simp; omega)
      rw [show k0 + (i + 1) = k0 + 1 + i by omega] at this
      exact this) (by rw [List.length_set]; omega) s1 c1 a1 rest g2 g3
    refine ⟨o2, s2, c2, a2, ?_, k2, k3, by rw [k4, List.length_set], ?_⟩
    · rw [firstPixel]
      simp only [List.getElem_cons_zero, Nat.add_zero] at g1
      rw [g1, ok_bind]
      simp only
      have hr := diff16_range (v k0) base
      rw [i32_small (by omega) (by omega), ok_bind, undo_diff (hv k0), setIdx_lt (by omega), ok_bind, k1]
    · intro i
      rw [k5 i, List.length_cons]
      by_cases h : pos + 1 ≤ i ∧ i < pos + 1 + ts.length
      · rw [if_pos h, if_pos (by omega), show k0 + 1 + (i - (pos + 1)) = k0 + (i - pos) by omega]
      · rw [if_neg h, List.getElem?_set]
        by_cases he : pos = i
        · subst he
          rw [if_pos rfl, if_pos (by omega), if_pos (by omega), Nat.sub_self, Nat.add_zero]
        · rw [if_neg he, if_neg (by omega)]

theorem writePixel_ok {b : Build} {v p : Nat → Nat} (hv : ∀ k, v k < 65536) (hp : ∀ k, p k < 65536) : ∀ (n k0 pos : Nat) (out : List Nat),
    pos + n ≤ out.length → ∃ out', writePixel b pos ((List.range' k0 n).map p) ((List.range' k0 n).map fun k => diff16 (v k) (p k)) out = .ok out' ∧
      out'.length = out.length ∧ ∀ i, out'[i]? = if pos ≤ i ∧ i < pos + n then some (v (k0 + (i - pos))) else out[i]? := by
  intro n
  induction n with
  | zero => intro k0 pos out _; exact ⟨out, by simp [writePixel], rfl, fun i => by rw [if_neg (by omega)]⟩
  | succ n ih =>
    intro k0 pos out hlen
    obtain ⟨o2, k1, k4, k5⟩ := ih (k0 + 1) (pos + 1) (out.set pos (v k0)) (by rw [List.length_set]; omega)
    refine ⟨o2, ?_, by rw [k4, List.length_set], ?_⟩
    · rw [List.range'_succ, List.map_cons, List.map_cons, writePixel]
      have hr := diff16_range (v k0) (p k0)
      have := hp k0
      rw [i32_small (by omega) (by omega), ok_bind, undo_diff (hv k0), setIdx_lt (by omega), ok_bind, k1]
    · intro i
      rw [k5 i]
      by_cases h : pos + 1 ≤ i ∧ i < pos + 1 + n
      · rw [if_pos h, if_pos (by omega), show k0 + 1 + (i - (pos + 1)) = k0 + (i - pos) by omega]
      · rw [if_neg h, List.getElem?_set]
        by_cases he : pos = i
        · subst he
          rw [if_pos rfl, if_pos (by omega), if_pos (by omega), Nat.sub_self, Nat.add_zero]
        · rw [if_neg he, if_neg (by omega)]

/-! ## Rows -/

/-- The first `r` rows and the first `j` pixels of the next one are in place, everything else is as before. -/
structure Filled (out0 : List Nat) (img : Nat → Nat → Nat → Nat) (x sw w n r j : Nat) (out : List Nat) : Prop where
  len : out.length = out0.length
  done : ∀ r' p k, p < w → k < n → (r' < r ∨ r' = r ∧ p < j) → out[r' * sw + x + p * n + k]? = some (img r' p k)
  rest : ∀ i, (∀ r' p k, p < w → k < n → (r' < r ∨ r' = r ∧ p < j) → i ≠ r' * sw + x + p * n + k) → out[i]? = out0[i]?

theorem Filled.row {out0 : List Nat} {img : Nat → Nat → Nat → Nat} {x sw w n r : Nat} {out : List Nat} (h : Filled out0 img x sw w n r w out) :
    Filled out0 img x sw w n (r + 1) 0 out := by
  refine ⟨h.len, ?_, ?_⟩
  · intro r' p k hp hk hr
    exact h.done r' p k hp hk (by omega)
  · intro i hi
    apply h.rest
    intro r' p k hp hk hr
    exact hi r' p k hp hk (by omega)

/-- Writing one pixel. -/
theorem Filled.step {out0 : List Nat} {img : Nat → Nat → Nat → Nat} {x sw w n r j : Nat} {out out' : List Nat} (h : Filled out0 img x sw w n r j out)
    (hj : j < w) (hsw : w * n ≤ sw) (hlen : out'.length = out.length)
    (hout : ∀ i, out'[i]? = if r * sw + x + j * n ≤ i ∧ i < r * sw + x + j * n + n then some (img r j (i - (r * sw + x + j * n))) else out[i]?) :
    Filled out0 img x sw w n r (j + 1) out' := by
  have before : ∀ r' p k, p < w → k < n → (r' < r ∨ r' = r ∧ p < j) → r' * sw + x + p * n + k < r * sw + x + j * n := by
    intro r' p k hp hk hr
    have h1 : p * n + n ≤ w * n := by rw [← Nat.succ_mul]; exact Nat.mul_le_mul_right _ hp
    rcases hr with hr | ⟨hr, hpj⟩
    · have : r' * sw + sw ≤ r * sw := by rw [← Nat.succ_mul]; exact Nat.mul_le_mul_right _ hr
      omega
    · have : p * n + n ≤ j * n := by rw [← Nat.succ_mul]; exact Nat.mul_le_mul_right _ hpj
      subst hr; omega
  refine ⟨by rw [hlen, h.len], ?_, ?_⟩
  · intro r' p k hp hk hr
    rw [hout]
    by_cases hc : r' = r ∧ p = j
    · obtain ⟨rfl, rfl⟩ := hc
      rw [if_pos (by omega)]
      congr 2; omega
    · have hr' : r' < r ∨ r' = r ∧ p < j := by omega
      have := before r' p k hp hk hr'
      rw [if_neg (by omega)]
      exact h.done r' p k hp hk hr'
  · intro i hi
    rw [hout]
    have : ¬ (r * sw + x + j * n ≤ i ∧ i < r * sw + x + j * n + n) := by
      intro hc
      exact hi r j (i - (r * sw + x + j * n)) hj (by omega) (Or.inr ⟨rfl, by omega⟩) (by omega)
    rw [if_neg this]
    exact h.rest i fun r' p k hp hk hr => hi r' p k hp hk (by omega)

theorem drop_range_flatMap {w j : Nat} (hj : j < w) (f : Nat → List Nat) :
    ((List.range w).drop j).flatMap f = f j ++ ((List.range w).drop (j + 1)).flatMap f := by
  rw [List.drop_eq_getElem_cons (by simpa using hj), List.flatMap_cons]
  simp

/-- Everything the image lemmas need to know about the tables. -/
def AllCodes (b : Build) (P : PumpOps σ) (st : Nat → Nat) (at_ : σ → Nat → Nat → Prop) (ts : List HuffTable) (enc : Nat → Int → List Nat)
    (base : Nat) (img : Nat → Nat → Nat → Nat) (w h : Nat) : Prop :=
  ∀ r p k (hk : k < ts.length), r < h → p < w → Codes b P st at_ ts[k] (enc k) (residual base img r p k)

theorem pixel_ok {b : Build} {ts : List HuffTable} {enc : Nat → Int → List Nat} {base : Nat} {img : Nat → Nat → Nat → Nat} {w h : Nat}
    (hc : AllCodes b P st at_ ts enc base img w h) (himg : ∀ r p k, img r p k < 65536) {out0 out : List Nat} {x sw w' r j : Nat} (hr : r < h) (hj : j < w') (hw : w' ≤ w)
    (hsw : w' * ts.length ≤ sw) (hsize : r * sw + x + w' * ts.length ≤ out0.length) (h0 : r ≠ 0 ∨ j ≠ 0) (hn : 0 < ts.length)
    (hfill : Filled out0 img x sw w' ts.length r j out) {s : σ} {c a : Nat} {rest : List Nat} (hs : at_ s c a)
    (hf : Follows st c (encodePixel ts.length enc base img r j ++ rest)) :
    ∃ out' s' c' a', pixel b P ts x sw r (x + j * ts.length) (out, s) = .ok (out', s') ∧ at_ s' c' a' ∧ Follows st c' rest ∧
      Filled out0 img x sw w' ts.length r (j + 1) out' := by
  unfold pixel
  have hjn : j * ts.length + ts.length ≤ w' * ts.length := by rw [← Nat.succ_mul]; exact Nat.mul_le_mul_right _ hj
  -- the position of the prediction
  have hpos : ∃ pos, predPos b ts.length x sw r (x + j * ts.length) = .ok pos ∧
      ∀ k, k < ts.length → out[pos + k]? = some (predict base img r j k) := by
    unfold predPos
    by_cases hj0 : j = 0
    · subst hj0
      rw [if_pos (by omega), subU_ok (by omega), ok_bind]
      refine ⟨_, rfl, ?_⟩
      intro k hk
      unfold predict
      rw [if_pos rfl, if_neg (by omega)]
      have := hfill.done (r - 1) 0 k (by omega) hk (by omega)
      rw [Nat.zero_mul, Nat.add_zero] at this
      exact this
    · have : ts.length ≤ j * ts.length := Nat.le_mul_of_pos_left _ (by omega)
      rw [if_neg (by omega), subU_ok (by omega)]
      refine ⟨_, rfl, ?_⟩
      intro k hk
      unfold predict
      rw [if_neg hj0]
      have := hfill.done r (j - 1) k (by omega) hk (by omega)
      rw [show r * sw + (x + j * ts.length) - ts.length + k = r * sw + x + (j - 1) * ts.length + k by
        have : (j - 1) * ts.length + ts.length = j * ts.length := by rw [← Nat.succ_mul]; congr 1; omega
        omega]
      exact this
  obtain ⟨pos, p1, p2⟩ := hpos
  rw [p1, ok_bind]
  rw [mapM_ok (fun k => idx out (pos + k)) (predict base img r j) _ (fun k hk => by
    rw [List.mem_range] at hk
    exact idx_eq_ok.mpr (p2 k hk)), ok_bind]
  unfold encodePixel at hf
  rw [List.range_eq_range'] at hf ⊢
  obtain ⟨s', c', a', d1, d2, d3⟩ := diffs_ok (df := residual base img r j) ts 0 (fun i hi => by
    rw [Nat.zero_add]; exact hc r j i hi hr (by omega)) s c a rest hs hf
  simp only
  rw [d1, ok_bind]
  simp only
  have hpred : ∀ k, k < ts.length → predict base img r j k < 65536 := by
    intro k hk
    unfold predict
    split
    · rw [if_neg (by omega)]; exact himg _ _ _
    · exact himg _ _ _
  obtain ⟨out', w1, w2, w3⟩ := writePixel_ok (b := b) (v := img r j) (p := fun k => if k < ts.length then predict base img r j k else 0) (himg r j)
    (fun k => by split <;> [exact hpred k (by assumption); omega]) ts.length 0 (r * sw + (x + j * ts.length)) out (by
      rw [hfill.len]; omega)
  have e1 : (List.range' 0 ts.length).map (fun k => if k < ts.length then predict base img r j k else 0) = (List.range' 0 ts.length).map (predict base img r j) := by
    apply List.map_congr_left
    intro k hk
    rw [← List.range_eq_range', List.mem_range] at hk
    rw [if_pos hk]
  have e2 : (List.range' 0 ts.length).map (fun k => diff16 (img r j k) (if k < ts.length then predict base img r j k else 0)) = (List.range' 0 ts.length).map (residual base img r j) := by
    apply List.map_congr_left
    intro k hk
    rw [← List.range_eq_range', List.mem_range] at hk
    rw [if_pos hk]; rfl
  rw [e1, e2] at w1
  rw [w1, ok_bind]
  refine ⟨out', s', c', a', rfl, d2, d3, ?_⟩
  refine hfill.step hj hsw w2 ?_
  intro i
  rw [w3 i, ← Nat.add_assoc]
  simp only [Nat.zero_add]

theorem line_ok {b : Build} {ts : List HuffTable} {enc : Nat → Int → List Nat} {base : Nat} {img : Nat → Nat → Nat → Nat} {w h : Nat}
    (hc : AllCodes b P st at_ ts enc base img w h) (himg : ∀ r p k, img r p k < 65536) {out0 out : List Nat} {x sw w' r : Nat} (hr : r < h) (hw0 : 0 < w') (hw : w' ≤ w)
    (hsw : w' * ts.length ≤ sw) (hsize : r * sw + x + w' * ts.length ≤ out0.length) (hn : 0 < ts.length)
    (hfill : Filled out0 img x sw w' ts.length r (if r = 0 then 1 else 0) out) {s : σ} {c a : Nat} {rest : List Nat} (hs : at_ s c a)
    (hf : Follows st c (((List.range w).drop (if r = 0 then 1 else 0)).flatMap (encodePixel ts.length enc base img r) ++ rest)) :
    ∃ out' s' c' a', line b P ts x sw (w' * ts.length) (w - w') r (out, s) = .ok (out', s') ∧ at_ s' c' a' ∧ Follows st c' rest ∧
      Filled out0 img x sw w' ts.length (r + 1) 0 out' := by
  unfold line
  simp only
  generalize hj0 : (if r = 0 then 1 else 0) = j0 at *
  have hstart : (if r = 0 then x + ts.length else x) = x + j0 * ts.length := by
    by_cases h : r = 0
    · rw [if_pos h] at hj0 ⊢; rw [← hj0, Nat.one_mul]
    · rw [if_neg h] at hj0 ⊢; rw [← hj0, Nat.zero_mul, Nat.add_zero]
  have hj01 : j0 ≤ 1 := by split at hj0 <;> omega
  rw [hstart]
  unfold forStep
  have hcount : (w' * ts.length + x - (x + j0 * ts.length) + ts.length - 1) / ts.length = w' - j0 := by
    have : w' * ts.length + x - (x + j0 * ts.length) = (w' - j0) * ts.length := by
      rw [Nat.sub_mul]; omega
    rw [this, show (w' - j0) * ts.length + ts.length - 1 = (w' - j0) * ts.length + (ts.length - 1) by omega, Nat.mul_comm,
      Nat.mul_add_div hn, Nat.div_eq_of_lt (by omega), Nat.add_zero]
  rw [hcount]
  obtain ⟨⟨o1, s1⟩, l1, c1, a1, i1, i2, i3⟩ := loopN_inv (P := fun i (q : List Nat × σ) => ∃ c a, at_ q.2 c a ∧
      Follows st c (((List.range w).drop (j0 + i)).flatMap (encodePixel ts.length enc base img r) ++ rest) ∧
      Filled out0 img x sw w' ts.length r (j0 + i) q.1) (fun j => pixel b P ts x sw r (x + j0 * ts.length + j * ts.length)) (w' - j0) 0 (out, s)
    ⟨c, a, hs, hf, hfill⟩ (by
      rintro j ⟨o, t⟩ _ hj ⟨c, a, g1, g2, g3⟩
      rw [Nat.zero_add] at hj
      rw [drop_range_flatMap (by omega), List.append_assoc] at g2
      obtain ⟨o', s', c', a', k1, k2, k3, k4⟩ := pixel_ok hc himg hr (show j0 + j < w' by omega) hw hsw hsize (by
        by_cases h : r = 0
        · rw [if_pos h] at hj0; right; omega
        · left; exact h) hn g3 g1 g2
      refine ⟨(o', s'), ?_, c', a', k2, k3, k4⟩
      rw [Nat.add_assoc, ← Nat.add_mul]
      exact k1)
  rw [l1, ok_bind]
  rw [show j0 + (0 + (w' - j0)) = w' by omega] at i2 i3
  obtain ⟨⟨o2, s2⟩, l2, c2, a2, m1, m2, m3⟩ := forRange_inv (P := fun i (q : List Nat × σ) => ∃ c a, at_ q.2 c a ∧
      Follows st c (((List.range w).drop (w' + i)).flatMap (encodePixel ts.length enc base img r) ++ rest) ∧
      Filled out0 img x sw w' ts.length r w' q.1) (f := fun _ (s : List Nat × σ) => do
        let (_, st) ← diffs b P ts s.2
        .ok (s.1, st)) (lo := 0) (hi := w - w') (s := (o1, s1)) (Nat.zero_le _)
    ⟨c1, a1, i1, i2, i3⟩ (by
      rintro j ⟨o, t⟩ _ hj ⟨c, a, g1, g2, g3⟩
      rw [drop_range_flatMap (by omega), List.append_assoc] at g2
      unfold encodePixel at g2
      rw [List.range_eq_range' (n := ts.length)] at g2
      obtain ⟨s', c', a', d1, d2, d3⟩ := diffs_ok (df := residual base img r (w' + j)) ts 0 (fun i hi => by
        rw [Nat.zero_add]; exact hc r (w' + j) i hi hr (by omega)) t c a _ g1 g2
      refine ⟨(o, s'), ?_, c', a', d2, ?_, g3⟩
      · simp only
        rw [d1]; rfl
      · unfold encodePixel
        rw [List.range_eq_range' (n := ts.length)]
        exact d3)
  rw [l2]
  refine ⟨o2, s2, c2, a2, rfl, m1, ?_, m3.row⟩
  rw [show w' + (w - w') = w by omega, List.drop_eq_nil_of_le (by simp)] at m2
  simpa using m2

/-- The whole strip, from the reader's start. -/
theorem strip_ok {b : Build} {ts : List HuffTable} {enc : Nat → Int → List Nat} {base : Nat} {img : Nat → Nat → Nat → Nat} {w h h' : Nat}
    (hc : AllCodes b P st at_ ts enc base img w h) (hbase : base < 65536) (himg : ∀ r p k, img r p k < 65536) {out0 : List Nat} {x sw w' : Nat} (hh0 : 0 < h') (hh : h' ≤ h) (hw0 : 0 < w') (hw : w' ≤ w)
    (hsw : w' * ts.length ≤ sw) (hsize : (h' - 1) * sw + x + w' * ts.length ≤ out0.length) (hn : 0 < ts.length)
    {s : σ} {c a : Nat} (hs : at_ s c a) (hf : Follows st c (encodeScan ts.length w h enc base img)) :
    ∃ out1 s1 out s', firstPixel b P base x ts (out0, s) = .ok (out1, s1) ∧
      forRange 0 h' (line b P ts x sw (w' * ts.length) (w - w')) (out1, s1) = .ok (out, s') ∧
      Filled out0 img x sw w' ts.length h' 0 out := by
  have hsize' : ∀ r, r < h' → r * sw + x + w' * ts.length ≤ out0.length := by
    intro r hr
    have : r * sw ≤ (h' - 1) * sw := Nat.mul_le_mul_right _ (by omega)
    omega
  unfold encodeScan at hf
  rw [← List.drop_zero (l := List.range h), drop_range_flatMap (by omega)] at hf
  unfold encodeRow at hf
  rw [← List.drop_zero (l := List.range w), drop_range_flatMap (by omega)] at hf
  rw [List.append_assoc] at hf
  have hres : ∀ k, residual base img 0 0 k = diff16 (img 0 0 k) base := fun k => rfl
  have h1 : w' * ts.length = ts.length + (w' - 1) * ts.length := by
    rw [← Nat.one_add_sub_one (n := w'), Nat.add_sub_assoc hw0, Nat.add_mul, Nat.one_mul]; simp
  have hp0 : encodePixel ts.length enc base img 0 0 = (List.range' 0 ts.length).flatMap fun k => enc k (diff16 (img 0 0 k) base) := by
    unfold encodePixel
    rw [List.range_eq_range']; rfl
  rw [hp0] at hf
  obtain ⟨o1, s1, c1, a1, g1, g2, g3, g4, g5⟩ := firstPixel_ok (b := b) (enc := enc) (v := img 0 0) hbase (himg 0 0) ts 0 x out0 (fun i hi => by
    rw [Nat.zero_add]
    exact hc 0 0 i hi (by omega) (by omega)) (by have := hsize' 0 hh0; omega) s c a _ hs hf
  refine ⟨o1, s1, ?_⟩
  have hfill : Filled out0 img x sw w' ts.length 0 1 o1 := by
    have h00 : Filled out0 img x sw w' ts.length 0 0 out0 := ⟨rfl, fun _ _ _ _ _ h => by omega, fun _ _ => rfl⟩
    refine h00.step hw0 hsw g4 ?_
    intro i
    rw [g5 i]
    simp only [Nat.zero_mul, Nat.zero_add, Nat.add_zero]
  obtain ⟨⟨o2, s2⟩, l2, c2, a2, m1, m2, m3⟩ := forRange_inv (P := fun r (q : List Nat × σ) => ∃ c a, at_ q.2 c a ∧
      Follows st c ((if r < h then ((List.range w).drop (if r = 0 then 1 else 0)).flatMap (encodePixel ts.length enc base img r) else []) ++
        ((List.range h).drop (r + 1)).flatMap (encodeRow ts.length w enc base img)) ∧
      Filled out0 img x sw w' ts.length r (if r = 0 then 1 else 0) q.1) (f := line b P ts x sw (w' * ts.length) (w - w')) (lo := 0) (hi := h') (s := (o1, s1)) (Nat.zero_le _)
    ⟨c1, a1, g2, by rw [if_pos (by omega), if_pos rfl]; exact g3, by rw [if_pos rfl]; exact hfill⟩ (by
      rintro r ⟨o, t⟩ _ hr ⟨c, a, k1, k2, k3⟩
      rw [if_pos (by omega)] at k2
      obtain ⟨o', s', c', a', q1, q2, q3, q4⟩ := line_ok hc himg (show r < h by omega) hw0 hw hsw (hsize' r hr) hn k3 k1 k2
      refine ⟨(o', s'), q1, c', a', q2, ?_, by rw [if_neg (by omega)]; exact q4⟩
      by_cases hrh : r + 1 < h
      · rw [if_pos hrh, if_neg (by omega), List.drop_zero]
        rw [drop_range_flatMap hrh] at q3
        exact q3
      · rw [if_neg hrh, List.nil_append]
        rw [List.drop_eq_nil_of_le (by simp; omega)] at q3 ⊢
        exact q3)
  refine ⟨o2, s2, g1, l2, ?_⟩
  rw [if_neg (by omega)] at m3
  exact m3

end Model.Ljpeg

import Verif.Lemmas.Skips
import Verif.Lemmas.LoopsMore
/-!
# Weighted means of two sources side by side

The loops of `scaled` and `scale_down` on two sources of the same size, the first of which is nowhere brighter.
-/

namespace Model
open Rust Spec F32

/-- Two loops in lockstep. -/
theorem forRange_rel {σ τ : Type} (R : Nat → σ → τ → Prop) {f : Nat → σ → M σ} {g : Nat → τ → M τ} {lo hi : Nat} {s : σ} {t : τ} (hle : lo ≤ hi)
    (h0 : R lo s t) (hf : ∀ j s t, lo ≤ j → j < hi → R j s t → ∃ s' t', f j s = .ok s' ∧ g j t = .ok t' ∧ R (j + 1) s' t') :
    ∃ s' t', forRange lo hi f s = .ok s' ∧ forRange lo hi g t = .ok t' ∧ R hi s' t' := by
  obtain ⟨k, rfl⟩ := Nat.exists_eq_add_of_le hle
  clear hle
  induction k generalizing lo s t with
  | zero => rw [forRange_nil (by omega), forRange_nil (by omega)]; exact ⟨s, t, rfl, rfl, h0⟩
  | succ k ih =>
    obtain ⟨s1, t1, e1, e2, h1⟩ := hf lo s t (Nat.le_refl _) (by omega) h0
    rw [forRange_cons f (by omega), e1, ok_bind, forRange_cons g (by omega), e2, ok_bind]
    have := ih (lo := lo + 1) h1 (fun j s t hj hk hr => hf j s t (by omega) (by omega) hr)
    rw [show lo + (k + 1) = lo + 1 + k by omega]
    exact this

/-- The sums and weights after the same source pixels. `C c` says that the samples of colour `c` are ordered, `W c` that they are
`2^k` in the second source. -/
structure Avg (k : Nat) (C W : Nat → Prop) (s t : List F32 × List F32) : Prop where
  fours : Four s
  fourt : Four t
  each : ∀ c, c < 4 → ∃ x x' m : F32, ∃ p p' q : ℚ, s.1[c]? = some x ∧ t.1[c]? = some x' ∧ s.2[c]? = some m ∧ t.2[c]? = some m ∧
    Is x p ∧ Is x' p' ∧ Is m q ∧ (C c → p ≤ p') ∧ p ≤ q * pow2 k ∧ p' ≤ q * pow2 k ∧
    (W c → p' = q * pow2 k) ∧ (q = 0 ∨ pow2 (-48) ≤ q) ∧ q ≤ 16777216

/-- Colour `c` has been seen. -/
def Seen (c : Nat) (s : List F32 × List F32) : Prop := ∃ m q, s.2[c]? = some m ∧ Is m q ∧ 0 < q

theorem avg_zero (k : Nat) (C W : Nat → Prop) : Avg k C W (List.replicate 4 (F32.zero false), List.replicate 4 (F32.zero false))
    (List.replicate 4 (F32.zero false), List.replicate 4 (F32.zero false)) := by
  refine ⟨four_zero, four_zero, fun c hc => ?_⟩
  refine ⟨.zero false, .zero false, .zero false, 0, 0, 0, ?_, ?_, ?_, ?_, zero_is _, zero_is _, zero_is _, fun _ => le_refl _, ?_, ?_, ?_, Or.inl rfl, by norm_num⟩
  · exact List.getElem?_replicate_of_lt hc
  · exact List.getElem?_replicate_of_lt hc
  · exact List.getElem?_replicate_of_lt hc
  · exact List.getElem?_replicate_of_lt hc
  · simp
  · simp
  · simp

/-- One source sample. -/
def accumulate (v f : F32) (c : Nat) (s : List F32 × List F32) : M (List F32 × List F32) := do
  let sum ← idx s.1 c
  let sums ← setIdx s.1 c (sum.add (v.mul f))
  let n ← idx s.2 c
  let counts ← setIdx s.2 c (n.add f)
  .ok (sums, counts)

theorem accumulate_eq {v f x m : F32} {c : Nat} {s : List F32 × List F32} (h1 : s.1[c]? = some x) (h2 : s.2[c]? = some m) :
    accumulate v f c s = .ok (s.1.set c (x.add (v.mul f)), s.2.set c (m.add f)) := by
  obtain ⟨l1, e1⟩ := List.getElem?_eq_some_iff.mp h1
  obtain ⟨l2, e2⟩ := List.getElem?_eq_some_iff.mp h2
  unfold accumulate
  rw [idx_lt l1, ok_bind, setIdx_lt l1, ok_bind, idx_lt l2, ok_bind, setIdx_lt l2, ok_bind, e1, e2]

theorem pow48 : pow2 (-48) = 1 / 281474976710656 := by rw [pow2_eq]; norm_num

/-- The sum of a weight and a count. -/
theorem count_add {m f : F32} {q g : ℚ} (hm : Is m q) (hf : Is f g) (hq : q ≤ 16777216) (g0 : pow2 (-48) ≤ g) (g1 : g ≤ 1) :
    Is (m.add f) (roundQ (q + g)) ∧ pow2 (-48) ≤ roundQ (q + g) ∧ roundQ (q + g) ≤ 16777216 := by
  have hle : roundQ (q + g) ≤ 16777216 := by
    have h1 : roundQ (q + g) ≤ roundQ 16777217 := roundQ_mono (by linarith)
    have h2 : roundQ 16777217 = 16777216 := by decide +kernel
    rwa [h2] at h1
  refine ⟨hm.add hf (lt_of_le_of_lt hle (by rw [pow2_128]; norm_num)), ?_, hle⟩
  exact le_roundQ_of_repr (repr32_pow2 (by decide)) (by linarith [hm.2.1])

theorem avg_add {k : Nat} {C W : Nat → Prop} {s t : List F32 × List F32} (h : Avg k C W s t) (hk : k ≤ 64) {c : Nat} (hc : c < 4) {v v' f : F32}
    {u u' g : ℚ} (hv : Is v u) (hv' : Is v' u') (huv : C c → u ≤ u') (hu0 : u ≤ pow2 k) (hu : u' ≤ pow2 k)
    (hW : W c → u' = pow2 k) (hf : Is f g)
    (g0 : pow2 (-48) ≤ g) (g1 : g ≤ 1) :
    ∃ s' t', accumulate v f c s = .ok s' ∧ accumulate v' f c t = .ok t' ∧ Avg k C W s' t' ∧ Seen c s' ∧ ∀ c', Seen c' s → Seen c' s' := by
  obtain ⟨x, x', m, p, p', q, e1, e2, e3, e4, i1, i2, i3, h1, h20, h2, h3, h4, h5⟩ := h.each c hc
  obtain ⟨n1, n2, n3⟩ := count_add i3 hf h5 g0 g1
  have kp := pow2_pos (k : Int)
  have k88 : pow2 (24 : Int) * pow2 k < pow2 128 := by rw [← pow2_add]; exact pow2_lt (by omega)
  have e24 : pow2 24 = 16777216 := by rw [pow2_eq]; norm_num
  rw [e24] at k88
  have g126 : pow2 (-126) ≤ g := le_trans (pow2_le (by decide)) g0
  have gk : roundQ (g * pow2 k) = g * pow2 k := by rw [roundQ_scale g126, roundQ_of_repr hf.2.2]
  -- products
  have m2 : ∀ u, u ≤ pow2 k → roundQ (u * g) ≤ g * pow2 k := by
    intro u hu
    rw [← gk]; apply roundQ_mono; rw [mul_comm g]; exact mul_le_mul_of_nonneg_right hu hf.2.1
  have mb : g * pow2 k < pow2 128 := lt_of_le_of_lt (by
    have : g * pow2 k ≤ 16777216 * pow2 k := mul_le_mul_of_nonneg_right (by linarith) (le_of_lt kp)
    exact this) k88
  have j1 := hv.mul hf (lt_of_le_of_lt (m2 u hu0) mb)
  have j2 := hv'.mul hf (lt_of_le_of_lt (m2 u' hu) mb)
  -- sums
  have q126 : pow2 (-126) ≤ q + g := by linarith [i3.2.1]
  have a2 : ∀ p u, p ≤ q * pow2 k → u ≤ pow2 k → roundQ (p + roundQ (u * g)) ≤ roundQ (q + g) * pow2 k := by
    intro p u hp hu
    rw [← roundQ_scale q126]; apply roundQ_mono; rw [add_mul]; linarith [m2 u hu]
  have a1 : C c → roundQ (p + roundQ (u * g)) ≤ roundQ (p' + roundQ (u' * g)) := fun hC => by
    have := roundQ_mono (mul_le_mul_of_nonneg_right (huv hC) hf.2.1)
    have := h1 hC
    exact roundQ_mono (by linarith)
  have ab : roundQ (q + g) * pow2 k < pow2 128 := lt_of_le_of_lt (mul_le_mul_of_nonneg_right n3 (le_of_lt kp)) k88
  have s1 := i1.add j1 (lt_of_le_of_lt (a2 p u h20 hu0) ab)
  have s2 := i2.add j2 (lt_of_le_of_lt (a2 p' u' h2 hu) ab)
  have l1 : c < s.1.length := by rw [h.fours.1]; exact hc
  have l2 : c < s.2.length := by rw [h.fours.2]; exact hc
  have l3 : c < t.1.length := by rw [h.fourt.1]; exact hc
  have l4 : c < t.2.length := by rw [h.fourt.2]; exact hc
  refine ⟨_, _, accumulate_eq e1 e3, accumulate_eq e2 e4, ⟨?_, ?_, ?_⟩, ?_, ?_⟩
  · exact ⟨by simp [h.fours.1], by simp [h.fours.2]⟩
  · exact ⟨by simp [h.fourt.1], by simp [h.fourt.2]⟩
  · intro d hd
    by_cases hdc : d = c
    · subst hdc
      refine ⟨_, _, _, _, _, _, List.getElem?_set_self l1, List.getElem?_set_self l3, List.getElem?_set_self l2, List.getElem?_set_self l4,
        s1, s2, n1, a1, a2 p u h20 hu0, a2 p' u' h2 hu, ?_, Or.inr n2, n3⟩
      intro w
      rw [← roundQ_scale q126, hW w, mul_comm (pow2 k) g, gk, h3 w, add_mul]
    · obtain ⟨y, y', z, r, r', w, f1, f2, f3, f4, rest⟩ := h.each d hd
      have ne : c ≠ d := fun h => hdc h.symm
      refine ⟨y, y', z, r, r', w, ?_, ?_, ?_, ?_, rest⟩
      · simp only; rw [List.getElem?_set_ne ne]; exact f1
      · simp only; rw [List.getElem?_set_ne ne]; exact f2
      · simp only; rw [List.getElem?_set_ne ne]; exact f3
      · simp only; rw [List.getElem?_set_ne ne]; exact f4
  · exact ⟨_, _, List.getElem?_set_self l2, n1, lt_of_lt_of_le (pow2_pos _) n2⟩
  · intro d ⟨z, w, f1, f2, f3⟩
    by_cases hdc : d = c
    · subst hdc
      exact ⟨_, _, List.getElem?_set_self l2, n1, lt_of_lt_of_le (pow2_pos _) n2⟩
    · exact ⟨z, w, by simp only; rw [List.getElem?_set_ne (fun h => hdc h.symm)]; exact f1, f2, f3⟩

/-- The mean stored for a colour. -/
def meanOf (s : List F32 × List F32) (c : Nat) : F32 :=
  if (F32.zero false).lt ((s.2[c]?).getD (.zero false)) then ((s.1[c]?).getD (.zero false)).div ((s.2[c]?).getD (.zero false)) else .zero false

/-- The means of two sources. -/
theorem avg_mean {k : Nat} {C W : Nat → Prop} {s t : List F32 × List F32} (h : Avg k C W s t) (hk : k ≤ 64) {c : Nat} (hc : c < 4) :
    ∃ a b, Is (meanOf s c) a ∧ Is (meanOf t c) b ∧ (C c → a ≤ b) ∧ a ≤ pow2 k ∧ b ≤ pow2 k ∧ (W c → Seen c s → b = pow2 k) := by
  obtain ⟨x, x', m, p, p', q, e1, e2, e3, e4, i1, i2, i3, h1, h20, h2, h3, h4, h5⟩ := h.each c hc
  have kp := pow2_pos (k : Int)
  have kr : Repr32 (pow2 k) := repr32_pow2 (by omega)
  have k128 : pow2 k < pow2 128 := pow2_lt (by omega)
  unfold meanOf
  simp only [e1, e2, e3, e4, Option.getD_some]
  rw [(zero_is false).lt i3]
  by_cases hq : 0 < q
  · simp only [hq, decide_true, if_true]
    have d1 : p / q ≤ pow2 k := by rw [div_le_iff₀ hq, mul_comm]; exact h20
    have d2 : p' / q ≤ pow2 k := by rw [div_le_iff₀ hq, mul_comm]; exact h2
    have r1 := roundQ_le_of_repr kr d1
    have r2 := roundQ_le_of_repr kr d2
    refine ⟨_, _, i1.div i3 hq (by linarith), i2.div i3 hq (by linarith),
      fun hC => roundQ_mono (div_le_div_of_nonneg_right (h1 hC) (le_of_lt hq)), r1, r2, fun w _ => ?_⟩
    rw [h3 w, mul_comm, mul_div_assoc, div_self (ne_of_gt hq), mul_one, roundQ_of_repr kr]
  · simp only [hq, decide_false, Bool.false_eq_true, if_false]
    refine ⟨0, 0, zero_is _, zero_is _, fun _ => le_refl _, le_of_lt kp, le_of_lt kp, fun _ ⟨m', q', f1, f2, f3⟩ => ?_⟩
    rw [e3, Option.some.injEq] at f1
    subst f1
    have := i3.1.symm.trans f2.1
    rw [Option.some.injEq] at this
    exact absurd (this ▸ f3) hq

theorem scaledChannel_eq {s : List F32 × List F32} (hs : Four s) {k col c w : Nat} {line : List F32} (hl : line.length = w * k)
    (hcol : col < w) (hc : c < k) (hc4 : c < 4) (hz : line[col * k + c]? = some (.zero false)) :
    scaledChannel k col s c line = .ok (line.set (col * k + c) (meanOf s c)) := by
  unfold scaledChannel meanOf
  have h1 : c < s.1.length := by rw [hs.1]; exact hc4
  have h2 : c < s.2.length := by rw [hs.2]; exact hc4
  rw [idx_lt h2, ok_bind, List.getElem?_eq_getElem h2, Option.getD_some, List.getElem?_eq_getElem h1, Option.getD_some]
  split
  · rw [idx_lt h1, ok_bind, setIdx_lt (by rw [hl]; exact pix_lt hcol hc)]
  · congr 1
    apply List.ext_getElem?
    intro i
    by_cases hi : i = col * k + c
    · subst hi; rw [hz, List.getElem?_set_self (by rw [hl]; exact pix_lt hcol hc)]
    · rw [List.getElem?_set_ne (by omega)]

/-- An image of means. -/
theorem means_image {nw nh k : Nat} (hn : 0 < nw) (hk0 : 0 < k) (hk : k ≤ 4) (sums : Nat → Nat → M (List F32 × List F32))
    (S : Nat → Nat → List F32 × List F32) (hS : ∀ r c, r < nh → c < nw → sums r c = .ok (S r c) ∧ Four (S r c)) :
    (OpBuffer.new (F32.zero false) nw nh k).mutateLines (fun line row => forRange 0 nw (fun col line => do
      let s ← sums row col
      forRange 0 k (scaledChannel k col s) line) line) = .ok (ofPix nw nh k (fun r c ch => meanOf (S r c) ch)) := by
  rw [new_eq_ofPix]
  apply mutateLines_ofPix hn hk0
  intro r hr
  obtain ⟨l, h1, h2⟩ := forRange_inv (P := fun col l => l = pixLine nw k (fun c ch => if c < col then meanOf (S r c) ch else .zero false))
    (f := fun col line => do
      let s ← sums r col
      forRange 0 k (scaledChannel k col s) line) (s := pixLine nw k (fun _ _ => F32.zero false)) (Nat.zero_le nw) (by simp) (by
      intro col l _ hcol hl
      subst hl
      obtain ⟨e, hf⟩ := hS r col hr hcol
      rw [e, ok_bind]
      obtain ⟨l, g1, g2⟩ := forRange_inv (P := fun j l => l = pixLine nw k (fun c ch =>
          if c < col ∨ (c = col ∧ ch < j) then meanOf (S r c) ch else .zero false))
        (f := scaledChannel k col (S r col)) (s := pixLine nw k (fun c ch => if c < col then meanOf (S r c) ch else .zero false))
        (Nat.zero_le k) (by simp) (by
          intro j l _ hj hl
          subst hl
          refine ⟨_, scaledChannel_eq hf (pixLine_length _ _ _) hcol hj (by omega) ?_, ?_⟩
          · rw [pixLine_getElem? _ hcol hj, if_neg (by omega)]
          · apply eq_pixLine (by rw [List.length_set, pixLine_length])
            intro c ch hc hch
            by_cases he : c = col ∧ ch = j
            · obtain ⟨rfl, rfl⟩ := he
              rw [List.getElem?_set_self (by rw [pixLine_length]; exact pix_lt hc hch), if_pos (by omega)]
            · rw [List.getElem?_set_ne, pixLine_getElem? _ hc hch]
              · congr 1
                by_cases hA : c < col ∨ (c = col ∧ ch < j)
                · rw [if_pos hA, if_pos (by omega)]
                · rw [if_neg hA, if_neg (by omega)]
              · intro hi
                apply he
                have d1 := div_pix (c := c) hch
                have d2 := div_pix (c := col) hj
                rw [hi] at d2
                exact ⟨d1.1.symm.trans d2.1, d1.2.symm.trans d2.2⟩)
      refine ⟨l, g1, ?_⟩
      rw [g2]
      apply pixLine_congr
      intro c ch _ hch
      by_cases hA : c < col + 1
      · rw [if_pos hA, if_pos (by omega)]
      · rw [if_neg hA, if_neg (by omega)])
  show forRange 0 nw _ _ = _
  rw [h1, h2]
  congr 1
  apply pixLine_congr
  intro c ch hc _
  rw [if_pos hc]

end Model

import Verif.Lemmas.Average
import Verif.Props.Output
/-!
# Property C75: scaling keeps the range and the order of samples
-/

namespace Props
open Rust Spec Model F32

/-- A sample from 0 to `2^k`. -/
def Sample (k : Nat) (v : F32) : Prop := v.Valid ∧ ∃ q, v.val? = some q ∧ 0 ≤ q ∧ q ≤ (2 : ℚ) ^ k

theorem Sample.is {k : Nat} {v : F32} (h : Sample k v) : ∃ q, Is v q ∧ q ≤ pow2 k := by
  obtain ⟨hv, q, h1, h2, h3⟩ := h
  refine ⟨q, ⟨h1, h2, ?_⟩, by rw [pow2_ofNat]; exact_mod_cast h3⟩
  cases v with
  | nan => exact absurd h1 (by simp [val?])
  | inf s => exact absurd h1 (by simp [val?])
  | zero s => simp only [val?, Option.some.injEq] at h1; rw [← h1]; exact repr32_zero
  | fin r =>
    simp only [val?, Option.some.injEq] at h1
    subst h1
    rw [← hv.2.1]; exact roundQ_repr _

theorem is_sample {k : Nat} {v : F32} {q : ℚ} (h : Is v q) (hq : q ≤ pow2 k) : ∃ q, v.val? = some q ∧ 0 ≤ q ∧ q ≤ (2 : ℚ) ^ k :=
  ⟨q, h.1, h.2.1, by rw [pow2_ofNat] at hq; exact_mod_cast hq⟩

/-- The loops over the source pixels of one output pixel, on two sources. -/
theorem cell_loops {k : Nat} {C W : Nat → Prop} (V : Nat → Nat → Nat → Prop) {r0 r1 c0 c1 : Nat}
    {F G : Nat → Nat → List F32 × List F32 → M (List F32 × List F32)}
    (hstep : ∀ y x s t, r0 ≤ y → y < r1 → c0 ≤ x → x < c1 → Avg k C W s t →
      ∃ s' t', F y x s = .ok s' ∧ G y x t = .ok t' ∧ Avg k C W s' t' ∧ (∀ c, Seen c s → Seen c s') ∧ ∀ c, V y x c → Seen c s') :
    ∃ s t, forRange r0 r1 (fun y s => forRange c0 c1 (fun x s => F y x s) s)
        (List.replicate 4 (F32.zero false), List.replicate 4 (F32.zero false)) = .ok s ∧
      forRange r0 r1 (fun y s => forRange c0 c1 (fun x s => G y x s) s)
        (List.replicate 4 (F32.zero false), List.replicate 4 (F32.zero false)) = .ok t ∧ Avg k C W s t ∧
      ∀ y x c, r0 ≤ y → y < r1 → c0 ≤ x → x < c1 → V y x c → Seen c s := by
  have inner : ∀ y s t, r0 ≤ y → y < r1 → Avg k C W s t → ∃ s' t', forRange c0 c1 (fun x s => F y x s) s = .ok s' ∧
      forRange c0 c1 (fun x s => G y x s) t = .ok t' ∧ Avg k C W s' t' ∧ (∀ c, Seen c s → Seen c s') ∧
      ∀ x c, c0 ≤ x → x < c1 → V y x c → Seen c s' := by
    intro y s t h1 h2 h
    by_cases hc : c0 ≤ c1
    · obtain ⟨s', t', e1, e2, a1, a2, a3⟩ := forRange_rel (f := fun x s => F y x s) (g := fun x s => G y x s)
        (R := fun j s' t' => Avg k C W s' t' ∧ (∀ c, Seen c s → Seen c s') ∧
        ∀ x c, c0 ≤ x → x < j → V y x c → Seen c s') hc ⟨h, fun _ h => h, fun x c _ _ _ => by omega⟩ (by
          intro j s1 t1 hj1 hj2 ⟨b1, b2, b3⟩
          obtain ⟨s2, t2, g1, g2, g3, g4, g5⟩ := hstep y j s1 t1 h1 h2 hj1 hj2 b1
          refine ⟨s2, t2, g1, g2, g3, fun c hc => g4 c (b2 c hc), fun x c hx1 hx2 hv => ?_⟩
          by_cases hxj : x = j
          · subst hxj; exact g5 c hv
          · exact g4 c (b3 x c hx1 (by omega) hv))
      exact ⟨s', t', e1, e2, a1, a2, a3⟩
    · rw [forRange_nil (by omega), forRange_nil (by omega)]
      exact ⟨s, t, rfl, rfl, h, fun _ h => h, fun x c _ _ _ => by omega⟩
  by_cases hr : r0 ≤ r1
  · obtain ⟨s', t', e1, e2, a1, a3⟩ := forRange_rel (f := fun y s => forRange c0 c1 (fun x s => F y x s) s)
      (g := fun y s => forRange c0 c1 (fun x s => G y x s) s)
      (R := fun j s' t' => Avg k C W s' t' ∧
      ∀ y x c, r0 ≤ y → y < j → c0 ≤ x → x < c1 → V y x c → Seen c s') hr ⟨avg_zero k C W, fun y x c _ _ _ _ _ => by omega⟩ (by
        intro j s1 t1 hj1 hj2 ⟨b1, b3⟩
        obtain ⟨s2, t2, g1, g2, g3, g4, g5⟩ := inner j s1 t1 hj1 hj2 b1
        refine ⟨s2, t2, g1, g2, g3, fun y x c hy1 hy2 hx1 hx2 hv => ?_⟩
        by_cases hyj : y = j
        · subst hyj; exact g5 x c hx1 hx2 hv
        · exact g4 c (b3 y x c hy1 (by omega) hx1 hx2 hv))
    exact ⟨s', t', e1, e2, a1, a3⟩
  · rw [forRange_nil (by omega), forRange_nil (by omega)]
    exact ⟨_, _, rfl, rfl, avg_zero k C W, fun y x c _ _ _ _ _ => by omega⟩

/-- The weight of a source pixel. -/
theorem skipFactor_is {rows cols : Nat × Nat × F32 × F32} {y x : Nat} (hy : rows.1 ≤ y) (hy2 : y < rows.2.1) (hx : cols.1 ≤ x) (hx2 : x < cols.2.1)
    (hr : rows.1 < rows.2.1 → ∃ f, Is rows.2.2.1 f ∧ pow2 (-24) ≤ f ∧ f ≤ 1) (hc : cols.1 < cols.2.1 → ∃ f, Is cols.2.2.1 f ∧ pow2 (-24) ≤ f ∧ f ≤ 1) :
    ∃ g, Is (skipFactor y x rows cols) g ∧ pow2 (-48) ≤ g ∧ g ≤ 1 := by
  have one : Is (ofNat 1) 1 := by exact_mod_cast ofNat_is (n := 1) (by decide)
  have p24 : pow2 (-24) ≤ 1 := by rw [← pow2_zero]; exact pow2_le (by decide)
  have side : ∀ {t : Nat × Nat × F32 × F32} {z : Nat}, t.1 ≤ z → z < t.2.1 → (t.1 < t.2.1 → ∃ f, Is t.2.2.1 f ∧ pow2 (-24) ≤ f ∧ f ≤ 1) →
      ∃ f, Is (if z = t.1 then t.2.2.1 else if z = t.2.1 then t.2.2.2 else F32.ofNat 1) f ∧ pow2 (-24) ≤ f ∧ f ≤ 1 := by
    intro t z h1 h2 h
    by_cases hz : z = t.1
    · rw [if_pos hz]; exact h (by omega)
    · rw [if_neg hz, if_neg (by omega)]; exact ⟨1, one, p24, le_refl _⟩
  obtain ⟨f, f1, f2, f3⟩ := side hy hy2 hr
  obtain ⟨g, g1, g2, g3⟩ := side hx hx2 hc
  have hle : f * g ≤ 1 := by
    have := mul_le_mul f3 g3 g1.2.1 (by norm_num)
    linarith
  have hge : pow2 (-48) ≤ f * g := by
    rw [show (-48 : Int) = -24 + -24 by decide, pow2_add]
    exact mul_le_mul f2 g2 (le_of_lt (pow2_pos _)) f1.2.1
  have r1 := roundQ_le_of_repr one.2.2 hle
  exact ⟨_, f1.mul g1 (lt_of_le_of_lt r1 (by rw [pow2_128]; norm_num)), le_roundQ_of_repr (repr32_pow2 (by decide)) hge, r1⟩

/-- The values of two samples are in order. -/
def Below (u v : Option F32) : Prop := ∀ x y p q, u = some x → v = some y → x.val? = some p → y.val? = some q → p ≤ q

/-- What scaling guarantees for one output sample `x` of the first source and `y` of the second. -/
structure Scaled (k : Nat) (ordered white : Prop) (x y : Option F32) : Prop where
  range : ∀ v, v = x ∨ v = y → ∃ z q, v = some z ∧ z.val? = some q ∧ 0 ≤ q ∧ q ≤ (2 : ℚ) ^ k
  order : ordered → Below x y
  white : white → ∃ z, y = some z ∧ z.val? = some ((2 : ℚ) ^ k)

theorem scaled_of_avg {k : Nat} {C W : Nat → Prop} {s t : List F32 × List F32} (h : Avg k C W s t) (hk : k ≤ 64) {c : Nat} (hc : c < 4)
    {ordered white : Prop} (ho : ordered → C c) (hw : white → W c ∧ Seen c s) : Scaled k ordered white (some (meanOf s c)) (some (meanOf t c)) := by
  obtain ⟨a, b, i1, i2, h1, h2, h3, h4⟩ := avg_mean h hk hc
  refine ⟨?_, ?_, ?_⟩
  · rintro v (rfl | rfl)
    · obtain ⟨q, h⟩ := is_sample i1 h2; exact ⟨_, q, rfl, h⟩
    · obtain ⟨q, h⟩ := is_sample i2 h3; exact ⟨_, q, rfl, h⟩
  · intro ho' x y p q ex ey hp hq
    cases ex; cases ey
    rw [i1.1] at hp; rw [i2.1] at hq
    cases hp; cases hq
    exact h1 (ho ho')
  · intro hw'
    refine ⟨_, rfl, ?_⟩
    rw [i2.1, h4 (hw hw').1 (hw hw').2, pow2_ofNat]
    push_cast; rfl

/-- **C75, `scale_down`.** For two sources of the same size whose samples lie from 0 to `2^k`: both are scaled, every output sample
lies from 0 to `2^k`, an output sample of the first is not above that of the second if that holds for the source samples of the same
channel at most half a pixel away from its cell, and it is exactly `2^k` if all of these are and the cell contains the centre of a
source pixel. Rows are spaced by the horizontal scale and columns by the vertical one, as in the code. -/
theorem scale_down_partial (a b : OpBuffer F32) (k nw nh : Nat) (hk : k ≤ 64) (hwa : a.wf) (hwb : b.wf) (hW : a.width = b.width)
    (hH : a.height = b.height) (hC : a.colors = b.colors) (c0 : 0 < a.colors) (c4 : a.colors ≤ 4) (w0 : 0 < a.width) (w20 : a.width ≤ 2 ^ 20)
    (h0 : 0 < a.height) (h20 : a.height ≤ 2 ^ 20) (nw0 : 0 < nw) (nw20 : nw ≤ 2 ^ 20) (nh0 : 0 < nh) (nh20 : nh ≤ 2 ^ 20)
    (sa : ∀ v ∈ a.data, Sample k v) (sb : ∀ v ∈ b.data, Sample k v) :
    ∃ a' b', scaleDown a nw nh = .ok a' ∧ scaleDown b nw nh = .ok b' ∧ a'.wf ∧ b'.wf ∧ a'.width = nw ∧ b'.width = nw ∧ a'.height = nh ∧
      b'.height = nh ∧ a'.colors = a.colors ∧ b'.colors = a.colors ∧ ∀ r c ch, r < nh → c < nw → ch < a.colors →
        Scaled k
          (∀ y x, y < a.height → x < a.width → NearTo a.width nw r y → NearTo a.height nh c x → Below (a.at? y x ch) (b.at? y x ch))
          ((∀ y x, y < a.height → x < a.width → NearTo a.width nw r y → NearTo a.height nh c x →
              ∃ v, b.at? y x ch = some v ∧ v.val? = some ((2 : ℚ) ^ k)) ∧
            ∃ y x, y < a.height ∧ x < a.width ∧ CentreIn a.width nw r y ∧ CentreIn a.height nh c x)
          (a'.at? r c ch) (b'.at? r c ch) := by
  -- the sums of one output pixel
  let sums : OpBuffer F32 → Nat → Nat → M (List F32 × List F32) := fun buf row col =>
    let rows := calcSkips row buf.height ((F32.ofNat buf.width).div (F32.ofNat nw))
    let cols := calcSkips col buf.width ((F32.ofNat buf.height).div (F32.ofNat nh))
    forRange rows.1 rows.2.1 (fun y s => forRange cols.1 cols.2.1 (fun x s =>
      forRange 0 buf.colors (fun c s => downChannel buf (skipFactor y x rows cols) y x c s) s) s)
      (List.replicate 4 (F32.zero false), List.replicate 4 (F32.zero false))
  let ordered : Nat → Nat → Nat → Prop := fun r c ch =>
    ∀ y x, y < a.height → x < a.width → NearTo a.width nw r y → NearTo a.height nh c x → Below (a.at? y x ch) (b.at? y x ch)
  let white : Nat → Nat → Nat → Prop := fun r c ch =>
    ∀ y x, y < a.height → x < a.width → NearTo a.width nw r y → NearTo a.height nh c x →
      ∃ v, b.at? y x ch = some v ∧ v.val? = some ((2 : ℚ) ^ k)
  have key : ∀ r c, r < nh → c < nw → ∃ s t, sums a r c = .ok s ∧ sums b r c = .ok t ∧
      Avg k (fun ch => ch < a.colors → ordered r c ch) (fun ch => ch < a.colors ∧ white r c ch) s t ∧
      ∀ y x ch, y < a.height → x < a.width → CentreIn a.width nw r y → CentreIn a.height nh c x → ch < a.colors → Seen ch s := by
    intro r c hr hc
    obtain ⟨R1, R2, R3⟩ := calcSkips_facts (i := r) w0 w20 nw0 nw20 h0 h20 (by omega)
    obtain ⟨C1, C2, C3⟩ := calcSkips_facts (i := c) h0 h20 nh0 nh20 w0 w20 (by omega)
    have hs : ∀ buf, buf.width = a.width → buf.height = a.height → buf.colors = a.colors → sums buf r c =
        forRange (calcSkips r a.height ((F32.ofNat a.width).div (F32.ofNat nw))).1 (calcSkips r a.height ((F32.ofNat a.width).div (F32.ofNat nw))).2.1
          (fun y s => forRange (calcSkips c a.width ((F32.ofNat a.height).div (F32.ofNat nh))).1
            (calcSkips c a.width ((F32.ofNat a.height).div (F32.ofNat nh))).2.1 (fun x s =>
            forRange 0 a.colors (fun ch s => downChannel buf (skipFactor y x (calcSkips r a.height ((F32.ofNat a.width).div (F32.ofNat nw)))
              (calcSkips c a.width ((F32.ofNat a.height).div (F32.ofNat nh)))) y x ch s) s) s)
          (List.replicate 4 (F32.zero false), List.replicate 4 (F32.zero false)) := by
      intro buf e1 e2 e3
      show forRange _ _ _ _ = _
      rw [e1, e2, e3]
    rw [hs a rfl rfl rfl, hs b hW.symm hH.symm hC.symm]
    generalize hrows : calcSkips r a.height ((F32.ofNat a.width).div (F32.ofNat nw)) = rows at *
    generalize hcols : calcSkips c a.width ((F32.ofNat a.height).div (F32.ofNat nh)) = cols at *
    obtain ⟨s, t, e1, e2, e3, e4⟩ := cell_loops (k := k) (C := fun ch => ch < a.colors → ordered r c ch)
      (W := fun ch => ch < a.colors ∧ white r c ch) (V := fun _ _ ch => ch < a.colors) (r0 := rows.1) (r1 := rows.2.1) (c0 := cols.1) (c1 := cols.2.1)
      (F := fun y x s => forRange 0 a.colors (fun ch s => downChannel a (skipFactor y x rows cols) y x ch s) s)
      (G := fun y x s => forRange 0 a.colors (fun ch s => downChannel b (skipFactor y x rows cols) y x ch s) s) (by
        intro y x s t y1 y2 x1 x2 hst
        obtain ⟨ny, ly⟩ := R1 y y1 y2
        obtain ⟨nx, lx⟩ := C1 x x1 x2
        obtain ⟨g, g1, g2, g3⟩ := skipFactor_is y1 y2 x1 x2 R3 C3
        obtain ⟨s', t', f1, f2, f3, f4, f5⟩ := forRange_rel
          (f := fun ch s => downChannel a (skipFactor y x rows cols) y x ch s) (g := fun ch s => downChannel b (skipFactor y x rows cols) y x ch s)
          (R := fun j s' t' => Avg k (fun ch => ch < a.colors → ordered r c ch) (fun ch => ch < a.colors ∧ white r c ch) s' t' ∧
            (∀ c, Seen c s → Seen c s') ∧ ∀ ch, ch < j → Seen ch s') (s := s) (t := t) (Nat.zero_le a.colors) ⟨hst, fun _ h => h, fun _ h => by omega⟩ (by
            intro ch s1 t1 _ hch ⟨b1, b2, b3⟩
            have ia := data_lt hwa ly lx hch
            have ib : (y * b.width + x) * b.colors + ch < b.data.length := data_lt hwb (by omega) (by omega) (by omega)
            obtain ⟨u, hu, hu2⟩ := (sa _ (List.getElem_mem ia)).is
            obtain ⟨u', hu', hu2'⟩ := (sb _ (List.getElem_mem ib)).is
            have ea : a.at? y x ch = some a.data[(y * a.width + x) * a.colors + ch] := List.getElem?_eq_getElem ia
            have eb : b.at? y x ch = some b.data[(y * b.width + x) * b.colors + ch] := List.getElem?_eq_getElem ib
            obtain ⟨s2, t2, d1, d2, d3, d4, d5⟩ := avg_add b1 hk (c := ch) (by omega) hu hu'
              (fun ho => ho hch y x ly lx ny nx _ _ _ _ ea eb hu.1 hu'.1) hu2 hu2' (by
                intro ⟨_, hw⟩
                obtain ⟨v, v1, v2⟩ := hw y x ly lx ny nx
                rw [eb, Option.some.injEq] at v1
                subst v1
                rw [hu'.1, Option.some.injEq] at v2
                rw [v2, pow2_ofNat]; push_cast; rfl) g1 g2 g3
            refine ⟨s2, t2, ?_, ?_, d3, fun c hc => d5 c (b2 c hc), fun c' hc' => ?_⟩
            · simp only [downChannel]; rw [idx_lt ia, ok_bind]; exact d1
            · simp only [downChannel]; rw [idx_lt ib, ok_bind]; exact d2
            · by_cases hcc : c' = ch
              · subst hcc; exact d4
              · exact d5 c' (b3 c' (by omega)))
        exact ⟨s', t', f1, f2, f3, f4, f5⟩)
    refine ⟨s, t, e1, e2, e3, fun y x ch hy hx cy cx hch => ?_⟩
    obtain ⟨y1, y2⟩ := R2 y hy cy
    obtain ⟨x1, x2⟩ := C2 x hx cx
    exact e4 y x ch y1 y2 x1 x2 hch
  have pick : ∀ r c, ∃ st : (List F32 × List F32) × (List F32 × List F32), r < nh → c < nw → sums a r c = .ok st.1 ∧ sums b r c = .ok st.2 ∧
      Avg k (fun ch => ch < a.colors → ordered r c ch) (fun ch => ch < a.colors ∧ white r c ch) st.1 st.2 ∧
      ∀ y x ch, y < a.height → x < a.width → CentreIn a.width nw r y → CentreIn a.height nh c x → ch < a.colors → Seen ch st.1 := by
    intro r c
    by_cases h : r < nh ∧ c < nw
    · obtain ⟨s, t, e⟩ := key r c h.1 h.2; exact ⟨(s, t), fun _ _ => e⟩
    · exact ⟨(([], []), ([], [])), fun h1 h2 => absurd ⟨h1, h2⟩ h⟩
  obtain ⟨ST, hST⟩ := Classical.axiomOfChoice (fun rc : Nat × Nat => pick rc.1 rc.2)
  have ra := means_image (nh := nh) nw0 c0 c4 (sums a) (fun r c => (ST (r, c)).1) (fun r c h1 h2 => by
    obtain ⟨e1, _, e3, _⟩ := hST (r, c) h1 h2; exact ⟨e1, e3.fours⟩)
  have rb := means_image (nh := nh) nw0 c0 c4 (sums b) (fun r c => (ST (r, c)).2) (fun r c h1 h2 => by
    obtain ⟨_, e2, e3, _⟩ := hST (r, c) h1 h2; exact ⟨e2, e3.fourt⟩)
  have rb' : scaleDown b nw nh = .ok (ofPix nw nh a.colors (fun r c ch => meanOf (ST (r, c)).2 ch)) := by
    rw [← rb, hC]; rfl
  refine ⟨_, _, ra, rb', ofPix_wf _ _ _ _, ofPix_wf _ _ _ _, rfl, rfl, rfl, rfl, rfl, rfl, fun r c ch hr hc hch => ?_⟩
  rw [ofPix_at hr hc hch, ofPix_at hr hc hch]
  obtain ⟨_, _, e3, e4⟩ := hST (r, c) hr hc
  exact scaled_of_avg e3 hk (by omega) (fun h _ => h) (fun ⟨h1, y, x, h2, h3, h4, h5⟩ => ⟨⟨hch, h1⟩, e4 y x ch h2 h3 h4 h5 hch⟩)

/-- **C75, `scaled`.** The same for the demosaic that averages the blocks of a sensor pattern: each channel takes only the samples of
its own colour. -/
theorem scaled_partial (bd : Build) (img : RawImage) (cfa : CFA) (K : Nat → Nat → Nat) (a b : OpBuffer F32) (k nw nh : Nat) (hk : k ≤ 64)
    (hcrop : img.croppedCfa bd = .ok cfa) (hK : ∀ y x, y < a.height → x < a.width → cfa.colorAt bd y x = .ok (K y x))
    (hK4 : ∀ y x, y < a.height → x < a.width → K y x < 4) (hwa : a.wf) (hwb : b.wf) (hW : a.width = b.width)
    (hH : a.height = b.height) (hca : a.colors = 1) (hcb : b.colors = 1) (w0 : 0 < a.width) (w20 : a.width ≤ 2 ^ 20)
    (h0 : 0 < a.height) (h20 : a.height ≤ 2 ^ 20) (nw0 : 0 < nw) (nw20 : nw ≤ 2 ^ 20) (nh0 : 0 < nh) (nh20 : nh ≤ 2 ^ 20)
    (sa : ∀ v ∈ a.data, Sample k v) (sb : ∀ v ∈ b.data, Sample k v) :
    ∃ a' b', scaled bd img a nw nh = .ok a' ∧ scaled bd img b nw nh = .ok b' ∧ a'.wf ∧ b'.wf ∧ a'.width = nw ∧ b'.width = nw ∧ a'.height = nh ∧
      b'.height = nh ∧ a'.colors = 4 ∧ b'.colors = 4 ∧ ∀ r c ch, r < nh → c < nw → ch < 4 →
        Scaled k
          (∀ y x, y < a.height → x < a.width → NearTo a.width nw r y → NearTo a.height nh c x → K y x = ch → Below (a.at? y x 0) (b.at? y x 0))
          ((∀ y x, y < a.height → x < a.width → NearTo a.width nw r y → NearTo a.height nh c x → K y x = ch →
              ∃ v, b.at? y x 0 = some v ∧ v.val? = some ((2 : ℚ) ^ k)) ∧
            ∃ y x, y < a.height ∧ x < a.width ∧ CentreIn a.width nw r y ∧ CentreIn a.height nh c x ∧ K y x = ch)
          (a'.at? r c ch) (b'.at? r c ch) := by
  let sums : OpBuffer F32 → Nat → Nat → M (List F32 × List F32) := fun buf row col =>
    let rows := calcSkips row buf.height ((F32.ofNat buf.width).div (F32.ofNat nw))
    let cols := calcSkips col buf.width ((F32.ofNat buf.height).div (F32.ofNat nh))
    forRange rows.1 rows.2.1 (fun y s => forRange cols.1 cols.2.1 (fun x s => scaledSource bd cfa buf rows cols y x s) s)
      (List.replicate 4 (F32.zero false), List.replicate 4 (F32.zero false))
  let ordered : Nat → Nat → Nat → Prop := fun r c ch =>
    ∀ y x, y < a.height → x < a.width → NearTo a.width nw r y → NearTo a.height nh c x → K y x = ch → Below (a.at? y x 0) (b.at? y x 0)
  let white : Nat → Nat → Nat → Prop := fun r c ch =>
    ∀ y x, y < a.height → x < a.width → NearTo a.width nw r y → NearTo a.height nh c x → K y x = ch →
      ∃ v, b.at? y x 0 = some v ∧ v.val? = some ((2 : ℚ) ^ k)
  have key : ∀ r c, r < nh → c < nw → ∃ s t, sums a r c = .ok s ∧ sums b r c = .ok t ∧ Avg k (ordered r c) (white r c) s t ∧
      ∀ y x, y < a.height → x < a.width → CentreIn a.width nw r y → CentreIn a.height nh c x → Seen (K y x) s := by
    intro r c hr hc
    obtain ⟨R1, R2, R3⟩ := calcSkips_facts (i := r) w0 w20 nw0 nw20 h0 h20 (by omega)
    obtain ⟨C1, C2, C3⟩ := calcSkips_facts (i := c) h0 h20 nh0 nh20 w0 w20 (by omega)
    have hs : ∀ buf, buf.width = a.width → buf.height = a.height → sums buf r c =
        forRange (calcSkips r a.height ((F32.ofNat a.width).div (F32.ofNat nw))).1 (calcSkips r a.height ((F32.ofNat a.width).div (F32.ofNat nw))).2.1
          (fun y s => forRange (calcSkips c a.width ((F32.ofNat a.height).div (F32.ofNat nh))).1
            (calcSkips c a.width ((F32.ofNat a.height).div (F32.ofNat nh))).2.1 (fun x s =>
            scaledSource bd cfa buf (calcSkips r a.height ((F32.ofNat a.width).div (F32.ofNat nw)))
              (calcSkips c a.width ((F32.ofNat a.height).div (F32.ofNat nh))) y x s) s)
          (List.replicate 4 (F32.zero false), List.replicate 4 (F32.zero false)) := by
      intro buf e1 e2
      show forRange _ _ _ _ = _
      rw [e1, e2]
    rw [hs a rfl rfl, hs b hW.symm hH.symm]
    generalize hrows : calcSkips r a.height ((F32.ofNat a.width).div (F32.ofNat nw)) = rows at *
    generalize hcols : calcSkips c a.width ((F32.ofNat a.height).div (F32.ofNat nh)) = cols at *
    obtain ⟨s, t, e1, e2, e3, e4⟩ := cell_loops (k := k) (C := ordered r c) (W := white r c) (V := fun y x ch => K y x = ch)
      (r0 := rows.1) (r1 := rows.2.1) (c0 := cols.1) (c1 := cols.2.1)
      (F := fun y x s => scaledSource bd cfa a rows cols y x s) (G := fun y x s => scaledSource bd cfa b rows cols y x s) (by
        intro y x s t y1 y2 x1 x2 hst
        obtain ⟨ny, ly⟩ := R1 y y1 y2
        obtain ⟨nx, lx⟩ := C1 x x1 x2
        obtain ⟨g, g1, g2, g3⟩ := skipFactor_is y1 y2 x1 x2 R3 C3
        have ia : y * a.width + x < a.data.length := by
          have := data_lt hwa (c := 0) ly lx (by omega); rw [hca] at this; omega
        have ib : y * b.width + x < b.data.length := by
          have := data_lt hwb (y := y) (x := x) (c := 0) (by omega) (by omega) (by omega); rw [hcb] at this; omega
        obtain ⟨u, hu, hu2⟩ := (sa _ (List.getElem_mem ia)).is
        obtain ⟨u', hu', hu2'⟩ := (sb _ (List.getElem_mem ib)).is
        have ea : a.at? y x 0 = some a.data[y * a.width + x] := by
          unfold OpBuffer.at?; rw [hca, Nat.mul_one, Nat.add_zero]; exact List.getElem?_eq_getElem ia
        have eb : b.at? y x 0 = some b.data[y * b.width + x] := by
          unfold OpBuffer.at?; rw [hcb, Nat.mul_one, Nat.add_zero]; exact List.getElem?_eq_getElem ib
        obtain ⟨s2, t2, d1, d2, d3, d4, d5⟩ := avg_add hst hk (hK4 y x ly lx) hu hu'
          (fun ho => ho y x ly lx ny nx rfl _ _ _ _ ea eb hu.1 hu'.1) hu2 hu2' (by
            intro hw
            obtain ⟨v, v1, v2⟩ := hw y x ly lx ny nx rfl
            rw [eb, Option.some.injEq] at v1
            subst v1
            rw [hu'.1, Option.some.injEq] at v2
            rw [v2, pow2_ofNat]; push_cast; rfl) g1 g2 g3
        refine ⟨s2, t2, ?_, ?_, d3, d5, fun c hc => hc ▸ d4⟩
        · simp only [scaledSource]; rw [hK y x ly lx, ok_bind, idx_lt ia, ok_bind]; exact d1
        · simp only [scaledSource]; rw [hK y x ly lx, ok_bind, idx_lt ib, ok_bind]; exact d2)
    refine ⟨s, t, e1, e2, e3, fun y x hy hx cy cx => ?_⟩
    obtain ⟨y1, y2⟩ := R2 y hy cy
    obtain ⟨x1, x2⟩ := C2 x hx cx
    exact e4 y x _ y1 y2 x1 x2 rfl
  have pick : ∀ r c, ∃ st : (List F32 × List F32) × (List F32 × List F32), r < nh → c < nw → sums a r c = .ok st.1 ∧ sums b r c = .ok st.2 ∧
      Avg k (ordered r c) (white r c) st.1 st.2 ∧
      ∀ y x, y < a.height → x < a.width → CentreIn a.width nw r y → CentreIn a.height nh c x → Seen (K y x) st.1 := by
    intro r c
    by_cases h : r < nh ∧ c < nw
    · obtain ⟨s, t, e⟩ := key r c h.1 h.2; exact ⟨(s, t), fun _ _ => e⟩
    · exact ⟨(([], []), ([], [])), fun h1 h2 => absurd ⟨h1, h2⟩ h⟩
  obtain ⟨ST, hST⟩ := Classical.axiomOfChoice (fun rc : Nat × Nat => pick rc.1 rc.2)
  have ra := means_image (nh := nh) (k := 4) nw0 (by decide) (by decide) (sums a) (fun r c => (ST (r, c)).1) (fun r c h1 h2 => by
    obtain ⟨e1, _, e3, _⟩ := hST (r, c) h1 h2; exact ⟨e1, e3.fours⟩)
  have rb := means_image (nh := nh) (k := 4) nw0 (by decide) (by decide) (sums b) (fun r c => (ST (r, c)).2) (fun r c h1 h2 => by
    obtain ⟨_, e2, e3, _⟩ := hST (r, c) h1 h2; exact ⟨e2, e3.fourt⟩)
  have ra' : scaled bd img a nw nh = .ok (ofPix nw nh 4 (fun r c ch => meanOf (ST (r, c)).1 ch)) := by
    rw [← ra]; unfold scaled; rw [hcrop]; rfl
  have rb' : scaled bd img b nw nh = .ok (ofPix nw nh 4 (fun r c ch => meanOf (ST (r, c)).2 ch)) := by
    rw [← rb]; unfold scaled; rw [hcrop]; rfl
  refine ⟨_, _, ra', rb', ofPix_wf _ _ _ _, ofPix_wf _ _ _ _, rfl, rfl, rfl, rfl, rfl, rfl, fun r c ch hr hc hch => ?_⟩
  rw [ofPix_at hr hc hch, ofPix_at hr hc hch]
  obtain ⟨_, _, e3, e4⟩ := hST (r, c) hr hc
  exact scaled_of_avg e3 hk hch (fun h => h) (fun ⟨h1, y, x, h2, h3, h4, h5, h6⟩ => ⟨h1, h6 ▸ e4 y x h2 h3 h4 h5⟩)

end Props

import Verif.Lemmas.Level
import Verif.Props.WhitePixel
import Verif.Props.ShippedColour
/-!
# C89: what an overexposed picture looks like
-/

namespace Props
open Model Rust Spec Shipped F32

theorem cameraToLab_pixels (m : Libm) (img : RawImage) {w h : Nat} (hw : 0 < w) (p : Nat → Nat → Nat → F32) :
    ∃ q, cameraToLab m img (ofPix w h 4 p) = .ok (ofPix w h 3 q) ∧ ∀ r c,
      xyzToLab m (dot4 img.camToXyzMat 0 (p r c 0) (p r c 1) (p r c 2) (p r c 3)) (dot4 img.camToXyzMat 1 (p r c 0) (p r c 1) (p r c 2) (p r c 3))
        (dot4 img.camToXyzMat 2 (p r c 0) (p r c 1) (p r c 2) (p r c 3)) = .ok (q r c 0, q r c 1, q r c 2) := by
  have hp : ∀ rc : Nat × Nat, ∃ l : F32 × F32 × F32,
      xyzToLab m (dot4 img.camToXyzMat 0 (p rc.1 rc.2 0) (p rc.1 rc.2 1) (p rc.1 rc.2 2) (p rc.1 rc.2 3)) (dot4 img.camToXyzMat 1 (p rc.1 rc.2 0) (p rc.1 rc.2 1) (p rc.1 rc.2 2) (p rc.1 rc.2 3))
        (dot4 img.camToXyzMat 2 (p rc.1 rc.2 0) (p rc.1 rc.2 1) (p rc.1 rc.2 2) (p rc.1 rc.2 3)) = .ok l := fun rc => xyzToLab_total m _ _ _
  obtain ⟨g, hg⟩ := Classical.axiomOfChoice hp
  refine ⟨fun r c k => if k = 0 then (g (r, c)).1 else if k = 1 then (g (r, c)).2.1 else (g (r, c)).2.2, ?_, fun r c => hg (r, c)⟩
  unfold cameraToLab
  apply processIntoNew_ofPix hw (by decide)
  intro r hr
  apply zipChunks_pix (by decide) (pixLine_length _ _ _)
  intro c hc
  obtain ⟨h1, h2⟩ := drop_drop_pix p hr hc (k := 4)
  refine ⟨h2 (by decide), fun o ho => ?_⟩
  rw [h1, range4]
  match o, ho with
  | [x0, x1, x2], _ =>
    unfold labPixel
    simp only [idx, List.getElem?_cons_zero, List.getElem?_cons_succ, ok_bind]
    rw [hg (r, c), ok_bind]
    rfl

/-- The colour stages and the rotation, pixel by pixel. -/
theorem stages_pixels (m : Libm) (img : RawImage) (ha : ArraysOk img) {w h : Nat} (hw : 0 < w) (hh : 0 < h) (p : Nat → Nat → Nat → F32) :
    ∃ (mul : List F32) (lab : Nat → Nat → Nat → F32) (tone : Nat → Nat → F32) (q : Nat → Nat → Nat → F32), (balanceCoeffs img >>= balanceMul) = .ok mul ∧
      (∀ r c, xyzToLab m
        (dot4 img.camToXyzMat 0 (levelled img mul 0 (p r c 0)) (levelled img mul 1 (p r c 1)) (levelled img mul 2 (p r c 2)) (levelled img mul 3 (p r c 3)))
        (dot4 img.camToXyzMat 1 (levelled img mul 0 (p r c 0)) (levelled img mul 1 (p r c 1)) (levelled img mul 2 (p r c 2)) (levelled img mul 3 (p r c 3)))
        (dot4 img.camToXyzMat 2 (levelled img mul 0 (p r c 0)) (levelled img mul 1 (p r c 1)) (levelled img mul 2 (p r c 2)) (levelled img mul 3 (p r c 3)))
          = .ok (lab r c 0, lab r c 1, lab r c 2)) ∧
      (∀ r c, baseTone (lab r c 0) = .ok (tone r c)) ∧
      (do let b ← levelAndBalance img (ofPix w h 4 p)
          let b ← cameraToLab m img b
          let b ← baseCurve b
          let b ← labToRec709 b
          let b ← gamma m b
          finalRotate img b) = .ok (ofPix (if img.orientation.toFlips.1 then h else w) (if img.orientation.toFlips.1 then w else h) 3 q) ∧
      ∀ r c k, r < (if img.orientation.toFlips.1 then w else h) → c < (if img.orientation.toFlips.1 then h else w) → k < 3 → ∃ r0 c0, r0 < h ∧ c0 < w ∧
        q r c k = gammaEntry m (gammaIndex (dot3 xyzToRec709Matrix k (labToXyz (tone r0 c0) (lab r0 c0 1) (lab r0 c0 2)).1
          (labToXyz (tone r0 c0) (lab r0 c0 1) (lab r0 c0 2)).2.1 (labToXyz (tone r0 c0) (lab r0 c0 1) (lab r0 c0 2)).2.2)) := by
  obtain ⟨mul, hm, e1⟩ := level_ofPix (h := h) hw img ha p
  obtain ⟨lab, e2, hlab⟩ := cameraToLab_pixels m img (h := h) hw (fun r c k => levelled img mul k (p r c k))
  obtain ⟨t, e3, ht⟩ := base_stage (h := h) hw lab
  obtain ⟨q, e4, hq⟩ := finalRotate_ofPix img hw hh (by decide : 0 < 3) (fun r c k => gammaEntry m (gammaIndex
    (dot3 xyzToRec709Matrix k (labToXyz (t r c 0) (t r c 1) (t r c 2)).1 (labToXyz (t r c 0) (t r c 1) (t r c 2)).2.1 (labToXyz (t r c 0) (t r c 1) (t r c 2)).2.2)))
  refine ⟨mul, lab, fun r c => t r c 0, q, hm, hlab, fun r c => (ht r c).1, ?_, ?_⟩
  · rw [e1, ok_bind, e2, ok_bind, e3, ok_bind, labToRec709_ofPix hw, ok_bind, gamma_ofPix m hw (by decide), ok_bind]
    exact e4
  · intro r c k hr hc hk
    obtain ⟨r0, c0, h1, h2, h3⟩ := hq r c k hr hc hk
    refine ⟨r0, c0, h1, h2, ?_⟩
    rw [h3, (ht r0 c0).2.1, (ht r0 c0).2.2]

/-- `to_srgb` makes a byte of each value. -/
theorem toSrgb_map {m : Libm} {b : Build} {img : RawImage} {mw mh ow oh : Nat} {q : Nat → Nat → Nat → F32} (h1 : decoder m b img mw mh false = .ok (ofPix ow oh 3 q)) :
    toSrgb m b img mw mh = .ok (ow, oh, (ofPix ow oh 3 q).data.map srgbByte) := by
  have hlen : (ofPix ow oh 3 q).data.length = ow * oh * 3 := ofPix_wf ow oh 3 q
  unfold toSrgb
  rw [h1, ok_bind]
  show (zipChunks 1 1 _ (List.replicate (ow * oh * 3) 0) (ofPix ow oh 3 q).data >>= _) = _
  generalize hd : (ofPix ow oh 3 q).data = d
  rw [hd] at hlen
  rw [zipChunks_pix (w := ow * oh * 3) (g := fun c _ => srgbByte (d.getD c (.zero false))) (by decide) (by simp), ok_bind]
  · congr 3
    unfold pixLine
    apply List.ext_getElem?
    intro i
    by_cases hi : i < ow * oh * 3
    · rw [List.getElem?_map, List.getElem?_map, List.getElem?_range (by omega), List.getElem?_eq_getElem (by omega)]
      simp [List.getD_eq_getElem?_getD, List.getElem?_eq_getElem (show i < d.length by omega)]
    · rw [List.getElem?_eq_none (by simp; omega), List.getElem?_eq_none (by simp; omega)]
  · intro c hc
    refine ⟨by omega, fun o ho => ?_⟩
    have hcd : c < d.length := by omega
    obtain ⟨x, rfl⟩ := List.length_eq_one_iff.mp ho
    rw [Nat.one_mul, List.drop_eq_getElem_cons hcd]
    simp [idx, setIdx, ok_bind, List.getD_eq_getElem?_getD, List.getElem?_eq_getElem hcd]

/-! ## Levels and balance -/

/-- The levels of the four channels. -/
def LevelsOk (img : RawImage) : Prop := ∀ k, k < 4 → ∃ w b, img.whitelevels[k]? = some w ∧ img.blacklevels[k]? = some b ∧ b < w ∧ w < 65536

/-- The first three balance coefficients are normal numbers, the fourth may be missing; none is below that of green, or more than 65536
times it. -/
structure GreenLeast (img : RawImage) : Prop where
  colour : img.isMonochrome = false
  coeffs : ∃ g : ℚ, img.wbCoeffs[1]? = some (.fin g) ∧ 0 < g ∧ ∀ k, k < 4 → ∃ x, img.wbCoeffs[k]? = some x ∧ (k < 3 → x.isNormal = true) ∧
    (x.isNormal = true → ∃ q, x = .fin q ∧ g ≤ q ∧ q ≤ 65536 * g)

theorem balance_least {img : RawImage} (h : GreenLeast img) {mul : List F32} (hm : (balanceCoeffs img >>= balanceMul) = .ok mul) :
    ∀ k, k < 4 → ∃ v, mul.getD k (.zero false) = .fin v ∧ 1 ≤ v ∧ v ≤ 65536 := by
  obtain ⟨g, h1, g0, hx⟩ := h.coeffs
  have ex : ∀ k, k < 3 → ∃ x, idx img.wbCoeffs k = .ok x ∧ x.isNormal = true := by
    intro k hk
    obtain ⟨x, e1, e2, -⟩ := hx k (by omega)
    exact ⟨x, by simp [idx, e1], e2 hk⟩
  obtain ⟨x0, i0, n0⟩ := ex 0 (by decide)
  obtain ⟨x1, i1, n1⟩ := ex 1 (by decide)
  obtain ⟨x2, i2, n2⟩ := ex 2 (by decide)
  have hco : balanceCoeffs img = .ok img.wbCoeffs := by
    unfold balanceCoeffs
    rw [h.colour, if_neg (by decide), i0, ok_bind, i1, ok_bind, i2, ok_bind, n0, n1, n2]
    rfl
  rw [hco, ok_bind] at hm
  unfold balanceMul at hm
  rw [show idx img.wbCoeffs 1 = .ok (.fin g) by simp [idx, h1], ok_bind] at hm
  injection hm with hm
  intro k hk
  obtain ⟨x, e1, -, e3⟩ := hx k hk
  rw [← hm, List.getD_eq_getElem?_getD, List.getElem?_map, e1]
  simp only [Option.map_some, Option.getD_some]
  by_cases hn : x.isNormal = true
  · obtain ⟨q, rfl, q1, q2⟩ := e3 hn
    rw [hn]
    simp only [Bool.not_true, Bool.false_eq_true, if_false, F32.div]
    have r1 : 1 ≤ q / g := by rw [le_div_iff₀ g0]; linarith
    have r2 : q / g ≤ 65536 := by rw [div_le_iff₀ g0]; exact q2
    have u1 : 1 ≤ roundQ (q / g) := le_roundQ_of_repr repr32_one r1
    have u2 : roundQ (q / g) ≤ 65536 := roundQ_le_of_repr (by rw [← pow2_16]; exact repr32_pow2 (by decide)) r2
    have hv := round_val (false) (q := q / g) (by rw [pow2_128, abs_of_pos (by linarith)]; linarith)
    obtain ⟨e, -⟩ := hv.valid (by linarith) (by rw [pow2_128, abs_of_pos (by linarith)]; linarith)
    exact ⟨_, e, u1, u2⟩
  · simp only [Bool.not_eq_true] at hn
    rw [hn]
    exact ⟨1, lit_one_fin, le_refl _, by norm_num⟩

/-- A value at the white level or above becomes 1. -/
theorem levelled_white {img : RawImage} (hl : LevelsOk img) {mul : List F32} {k : Nat} (hk : k < 4) {μ : ℚ} (hm : mul.getD k (.zero false) = .fin μ) (hμ : 1 ≤ μ)
    {v : F32} {q : ℚ} (hv : Val v q) (hq : ((img.whitelevels.getD k 0 : Nat) : ℚ) ≤ q) (hq' : q ≤ 65536) : levelled img mul k v = .fin 1 := by
  obtain ⟨w, b, e1, e2, hbw, hw⟩ := hl k hk
  unfold levelled
  rw [hm, List.getD_eq_getElem?_getD, List.getD_eq_getElem?_getD, e1, e2, lit_one_fin]
  rw [List.getD_eq_getElem?_getD, e1] at hq
  simp only [Option.getD_some] at hq ⊢
  have vb := ofNat_is (n := b) (by omega)
  have vw := ofNat_is (n := w) (by omega)
  have hb0 : (0 : ℚ) ≤ b := Nat.cast_nonneg _
  have hbw' : (b : ℚ) + 1 ≤ w := by exact_mod_cast hbw
  have hw' : (w : ℚ) < 65536 := by exact_mod_cast hw
  have hr : Repr32 ((w : ℚ) - b) := by
    rw [← Nat.cast_sub hbw.le]; exact repr32_nat (by omega)
  have hs : Repr32 (65536 : ℚ) := by rw [← pow2_16]; exact repr32_pow2 (by decide)
  have d1 : (w : ℚ) - b ≤ roundQ (q - b) := le_roundQ_of_repr hr (by linarith)
  have d2 : roundQ (q - b) ≤ 65536 := roundQ_le_of_repr hs (by linarith)
  have n1 := hv.sub ⟨vb.1, vb.2.2⟩ (by rw [pow2_128, abs_of_pos (by linarith)]; linarith)
  have n2 := Val.sub ⟨vw.1, vw.2.2⟩ ⟨vb.1, vb.2.2⟩ (by rw [roundQ_of_repr hr, pow2_128, abs_of_pos (by linarith)]; linarith)
  rw [roundQ_of_repr hr] at n2
  obtain ⟨f1, -⟩ := n1.valid (by linarith) (by rw [pow2_128, abs_of_pos (by linarith)]; linarith)
  obtain ⟨f2, -⟩ := n2.valid (by linarith) (by rw [pow2_128, abs_of_pos (by linarith)]; linarith)
  rw [f1, f2]
  simp only [F32.div]
  have : AtLeastOne (F32.round false (roundQ (q - b) / ((w : ℚ) - b))) := round_atLeastOne _ (by rw [le_div_iff₀ (by linarith)]; linarith)
  exact (this.mul (.inr ⟨μ, rfl, hμ⟩)).min

/-- Any sample becomes a number. -/
theorem levelled_number {img : RawImage} (hl : LevelsOk img) {mul : List F32} {k : Nat} (hk : k < 4) {μ : ℚ} (hm : mul.getD k (.zero false) = .fin μ) (hμ : 0 < μ)
    (hμ' : μ ≤ 65536) {v : F32} {q : ℚ} (hv : Val v q) (hq : 0 ≤ q) (hq' : q ≤ 65536) : ∃ u, (levelled img mul k v).val? = some u := by
  obtain ⟨w, b, e1, e2, hbw, hw⟩ := hl k hk
  unfold levelled
  rw [hm, List.getD_eq_getElem?_getD, List.getD_eq_getElem?_getD, e1, e2, lit_one_fin]
  simp only [Option.getD_some]
  have vb := ofNat_is (n := b) (by omega)
  have vw := ofNat_is (n := w) (by omega)
  have hb0 : (0 : ℚ) ≤ b := Nat.cast_nonneg _
  have hbw' : (b : ℚ) + 1 ≤ w := by exact_mod_cast hbw
  have hw' : (w : ℚ) < 65536 := by exact_mod_cast hw
  have hr : Repr32 ((w : ℚ) - b) := by
    rw [← Nat.cast_sub hbw.le]; exact repr32_nat (by omega)
  have hn2 := Val.sub ⟨vw.1, vw.2.2⟩ ⟨vb.1, vb.2.2⟩ (by rw [roundQ_of_repr hr, pow2_128, abs_of_pos (by linarith)]; linarith)
  rw [roundQ_of_repr hr] at hn2
  have b1 : Bounds 0 (-65536) 65536 := by decide
  obtain ⟨s1, s2, s3⟩ := roundQ_btw b1 (q := q - b) (by norm_num; linarith) (by norm_num; linarith)
  norm_num at s1 s2
  have n1 := hv.sub ⟨vb.1, vb.2.2⟩ s3
  have hd : (1 : ℚ) ≤ w - b := by linarith
  have hq1 : -65536 ≤ roundQ (q - b) / ((w : ℚ) - b) := by rw [le_div_iff₀ (by linarith)]; linarith
  have hq2 : roundQ (q - b) / ((w : ℚ) - b) ≤ 65536 := by rw [div_le_iff₀ (by linarith)]; linarith
  obtain ⟨t1, t2, t3⟩ := roundQ_btw b1 (q := roundQ (q - b) / ((w : ℚ) - b)) (by norm_num; linarith) (by norm_num; linarith)
  norm_num at t1 t2
  have n3 := div_val n1.1 hn2.1 (by linarith) t3
  have m1 : -4294967296 ≤ roundQ (roundQ (q - b) / ((w : ℚ) - b)) * μ := by nlinarith
  have m2 : roundQ (roundQ (q - b) / ((w : ℚ) - b)) * μ ≤ 4294967296 := by nlinarith
  have p32 : Repr32 (4294967296 : ℚ) := by
    have := repr32_pow2 (k := 32) (by decide)
    rwa [pow2_eq, show (2 : ℚ) ^ (32 : ℤ) = 4294967296 by norm_num] at this
  have p32' : Repr32 (-4294967296 : ℚ) := by
    have := roundQ_repr (-4294967296)
    rwa [roundQ_neg, roundQ_of_repr p32] at this
  have k1 := le_roundQ_of_repr p32' m1
  have k2 := roundQ_le_of_repr p32 m2
  have n4 := mul_val (y := .fin μ) n3.1 rfl (by rw [pow2_128, abs_lt]; constructor <;> linarith)
  rcases val_cases n4.1 with ⟨s, e, -⟩ | e
  · rw [e]
    exact ⟨0, by cases s <;> decide +kernel⟩
  · rw [e]
    simp only [F32.min]
    split
    · exact ⟨1, rfl⟩
    · exact ⟨_, rfl⟩

/-! ## Overexposed pictures -/

/-- The camera has channel `k`: its row of the matrix is not zero. -/
def Measures (img : RawImage) (k : Nat) : Prop := ∃ j row x, j < 3 ∧ img.xyzToCam[k]? = some row ∧ row[j]? = some x ∧ x.val? ≠ some 0

theorem measures_of {img : RawImage} {c : Nat → Nat → ℚ} (h : HasMatrix img c) {k : Nat} (hk : k < 4) (hz : ¬ ∀ j, j < 3 → c k j = 0) : Measures img k := by
  by_contra hm
  apply hz
  intro j hj
  obtain ⟨row, x, h1, h2, h3⟩ := h k j hk hj
  by_contra hne
  exact hm ⟨j, row, x, hj, h1, h2, by rw [h3]; simpa using hne⟩

theorem meanAt_between {s : Finset (ℕ × ℕ)} (hs : 0 < s.card) {f : ℕ → ℕ → ℕ} {lo hi : ℕ} (h1 : ∀ p ∈ s, lo ≤ f p.1 p.2) (h2 : ∀ p ∈ s, f p.1 p.2 ≤ hi) :
    (lo : ℚ) ≤ meanAt s f ∧ meanAt s f ≤ hi := by
  have hc : (0 : ℚ) < s.card := by exact_mod_cast hs
  have e1 : s.card * lo ≤ ∑ p ∈ s, f p.1 p.2 := by
    have := Finset.card_nsmul_le_sum s (fun p => f p.1 p.2) lo h1
    simpa using this
  have e2 : ∑ p ∈ s, f p.1 p.2 ≤ s.card * hi := by
    have := Finset.sum_le_card_nsmul s (fun p => f p.1 p.2) hi h2
    simpa using this
  unfold meanAt
  constructor
  · rw [le_div_iff₀ hc]
    have : ((s.card * lo : ℕ) : ℚ) ≤ ((∑ p ∈ s, f p.1 p.2 : ℕ) : ℚ) := by exact_mod_cast e1
    push_cast at this ⊢
    linarith
  · rw [div_le_iff₀ hc]
    have : ((∑ p ∈ s, f p.1 p.2 : ℕ) : ℚ) ≤ ((s.card * hi : ℕ) : ℚ) := by exact_mod_cast e2
    push_cast at this ⊢
    linarith

theorem ofRat_number {q : ℚ} {w : ℕ} (hw : w ≤ 65536) (h1 : (w : ℚ) ≤ q) (h2 : q ≤ 65536) : ∃ u, Val (F32.ofRat q) u ∧ (w : ℚ) ≤ u ∧ u ≤ 65536 := by
  have w0 : (0 : ℚ) ≤ w := Nat.cast_nonneg _
  have u1 : (w : ℚ) ≤ roundQ q := le_roundQ_of_repr (repr32_nat (by omega)) h1
  have u2 : roundQ q ≤ 65536 := roundQ_le_of_repr (by rw [← pow2_16]; exact repr32_pow2 (by decide)) h2
  exact ⟨_, round_val false (by rw [pow2_128, abs_of_nonneg (by linarith)]; linarith), u1, u2⟩

/-- The four channels of the picture at full size. -/
theorem full_size_pixels (b : Build) (img : RawImage) (name : Bytes) (top right bottom left cw ch : Nat) (K S : Nat → Nat → Nat)
    (hc : CropsFit img top right bottom left cw ch) (hcpp : img.cpp = 1) (hcfa : CFA.new name = .ok img.cfa) (hname : name ≠ [])
    (hlen : img.data.length = img.width * img.height) (hsmall : img.width ≤ 2 ^ 22 ∧ img.height ≤ 2 ^ 22)
    (hK : ∀ r c, patternColour name img.cfa.width img.cfa.height (r + top) (c + left) = some (K r c))
    (hS : ∀ r c, r < ch → c < cw → img.data[img.width * (r + top) + (c + left)]? = some (S r c)) (h16 : ∀ v ∈ img.data, v < 65536) :
    ∃ p, (convert b img >>= fun buf => demosaicAndScale b img buf 0 0) = .ok (ofPix cw ch 4 p) ∧ ∀ r c, r < ch → c < cw →
      p r c (K r c) = F32.ofNat (S r c) ∧ ∀ k, k < 4 → k ≠ K r c →
        (0 < (measuring ch cw K r c k).card → p r c k = F32.ofRat (meanAt (measuring ch cw K r c k) S)) ∧
        ((measuring ch cw K r c k).card = 0 → p r c k = F32.ofNat 0) := by
  have hW := hc.width
  have hH := hc.height
  obtain ⟨out, d1, d2, d3, d4, d5, d6⟩ := demosaic_full b img name top right bottom left cw ch K S hc hcpp hcfa hname hlen (by omega) (by omega) hK hS h16
  rw [bind_eq_ok] at d1
  obtain ⟨buf, c1, c2⟩ := d1
  have hbuf : buf.width = cw ∧ buf.height = ch ∧ buf.colors = 1 := by
    have hvalid : img.cfa.isValid = true := by
      obtain ⟨_, _, _, hsz⟩ := cfa_matches_name b name img.cfa hcfa hname 0 0 (by decide) (by decide)
      rcases patternSize_cases hsz with ⟨h0, _⟩ | ⟨_, h0, h0', _⟩
      · exact absurd (List.eq_nil_of_length_eq_zero h0) hname
      · unfold CFA.isValid
        simp only [bne_iff_ne, Bool.and_eq_true, ne_eq]
        first | exact ⟨by omega, by omega⟩ | (simp; omega)
    obtain ⟨out', g1, -, g3, g4, g5, -⟩ := gofloat_bayer b img top right bottom left cw ch hc hcpp hvalid hlen
    rw [g1] at c1
    injection c1 with c1
    subst c1
    exact ⟨g3, g4, g5⟩
  have hout := wf_eq_ofPix (F32.zero false) out d5
  rw [d2, d3, d4] at hout
  generalize hp : (fun r c k => (out.at? r c k).getD (F32.zero false)) = p at hout
  have hdem : (convert b img >>= fun buf => demosaicAndScale b img buf 0 0) = .ok (ofPix cw ch 4 p) := by
    rw [c1, ok_bind]
    unfold demosaicAndScale
    have ht : targetSize buf.width buf.height 0 0 = (.zero false, buf.width, buf.height) := by unfold targetSize; rw [if_pos (.inl rfl)]
    rw [ht]
    simp only
    rw [if_pos (.inl (lt_minScale _).2)]
    unfold fourChannels
    rw [if_neg (by omega), c2, ok_bind, if_neg (by decide +kernel), ← hout]
  refine ⟨p, hdem, fun r c hr hcc => ?_⟩
  obtain ⟨o1, o2⟩ := d6 r c hr hcc
  have hpk : ∀ k, p r c k = (out.at? r c k).getD (F32.zero false) := fun k => by rw [← hp]
  refine ⟨by rw [hpk, o1]; rfl, fun k hk hkk => ⟨fun h0 => ?_, fun h0 => ?_⟩⟩
  · rw [hpk, (o2 k hk hkk).1 h0]; rfl
  · rw [hpk, (o2 k hk hkk).2 h0]; rfl

/-- **C89.** An overexposed picture of a camera in the database: every sample at the white level of its channel or above, the balance of
green the least, every channel of the camera measured at each pixel or next to it. At full size and in any orientation every pixel of the
result is the same colour, the same for all these cameras: red 255, green 248, blue 243. -/
theorem overexposed_colour {db : Toml} (h : IsShipped db) {s : RawLoader} (hs : RawLoader.new db = .ok s) {make model mode : Bytes} {cam : Camera}
    (hl : s.checkSupportedWithEverything make model mode = .ok cam) {img : RawImage} (hi : img.xyzToCam = cam.xyzToCam) {m : Libm} (hm : AccurateLibm m)
    (b : Build) (name : Bytes) (top right bottom left cw ch : Nat) (K S : Nat → Nat → Nat)
    (hc : CropsFit img top right bottom left cw ch) (hcpp : img.cpp = 1) (hcfa : CFA.new name = .ok img.cfa) (hname : name ≠ [])
    (hlen : img.data.length = img.width * img.height) (hsmall : img.width ≤ 2 ^ 22 ∧ img.height ≤ 2 ^ 22) (hrows : 0 < ch)
    (hK : ∀ r c, patternColour name img.cfa.width img.cfa.height (r + top) (c + left) = some (K r c))
    (hS : ∀ r c, r < ch → c < cw → img.data[img.width * (r + top) + (c + left)]? = some (S r c))
    (h16 : ∀ v ∈ img.data, v < 65536) (ha : ArraysOk img) (hlev : LevelsOk img) (hwb : GreenLeast img)
    (hover : ∀ r c, r < ch → c < cw → img.whitelevels.getD (K r c) 0 ≤ S r c)
    (hcover : ∀ k, k < 4 → Measures img k → ∀ r c, r < ch → c < cw → k = K r c ∨ 0 < (measuring ch cw K r c k).card) :
    ∃ bytes, toSrgb m b img 0 0 = .ok (if img.orientation.toFlips.1 then ch else cw, if img.orientation.toFlips.1 then cw else ch, bytes) ∧
      bytes.length = cw * ch * 3 ∧ ∀ i, i < cw * ch * 3 → bytes[i]? = some (castByte (i % 3)) := by
  have hcw := hc.cw_pos
  have hW := hc.width
  have hH := hc.height
  -- the demosaiced picture
  obtain ⟨p, hdem, d6⟩ := full_size_pixels b img name top right bottom left cw ch K S hc hcpp hcfa hname hlen hsmall hK hS h16
  -- its values
  have hK4 : ∀ r c, K r c < 4 := fun r c => patternColour_lt (hK r c)
  have hS16 : ∀ r c, r < ch → c < cw → S r c < 65536 := fun r c hr hcc => h16 _ (List.mem_of_getElem? (hS r c hr hcc))
  have hpix : ∀ r c, r < ch → c < cw → ∀ k, k < 4 → ∃ u, Val (p r c k) u ∧ 0 ≤ u ∧ u ≤ 65536 ∧
      (k = K r c ∨ 0 < (measuring ch cw K r c k).card → ((img.whitelevels.getD k 0 : ℕ) : ℚ) ≤ u) := by
    intro r c hr hcc k hk
    obtain ⟨o1, o2⟩ := d6 r c hr hcc
    by_cases hkk : k = K r c
    · subst hkk
      rw [o1]
      have hv := ofNat_is (n := S r c) (by have := hS16 r c hr hcc; omega)
      have h1 : ((S r c : ℕ) : ℚ) ≤ 65536 := by exact_mod_cast (hS16 r c hr hcc).le
      exact ⟨_, ⟨hv.1, hv.2.2⟩, hv.2.1, h1, fun _ => by exact_mod_cast hover r c hr hcc⟩
    · obtain ⟨o3, o4⟩ := o2 k hk hkk
      rcases Nat.eq_zero_or_pos (measuring ch cw K r c k).card with h0 | h0
      · rw [o4 h0]
        have hv := ofNat_is (n := 0) (by decide)
        refine ⟨_, ⟨hv.1, hv.2.2⟩, hv.2.1, by norm_num, ?_⟩
        rintro (h1 | h1)
        · exact absurd h1 hkk
        · omega
      · rw [o3 h0]
        have hmem : ∀ q ∈ measuring ch cw K r c k, q.1 < ch ∧ q.2 < cw ∧ K q.1 q.2 = k := by
          intro q hq
          unfold measuring around at hq
          simp only [Finset.mem_filter, Finset.mem_product, Finset.mem_range] at hq
          exact ⟨hq.1.1.1, hq.1.1.2, hq.2⟩
        obtain ⟨m1, m2⟩ := meanAt_between (lo := img.whitelevels.getD k 0) (hi := 65536) h0 (f := S)
          (fun q hq => by obtain ⟨q1, q2, q3⟩ := hmem q hq; have := hover q.1 q.2 q1 q2; rwa [q3] at this)
          (fun q hq => by obtain ⟨q1, q2, q3⟩ := hmem q hq; exact (hS16 q.1 q.2 q1 q2).le)
        obtain ⟨w, b', e1, -, -, hw⟩ := hlev k hk
        obtain ⟨u, hu, u1, u2⟩ := ofRat_number (w := img.whitelevels.getD k 0) (by rw [List.getD_eq_getElem?_getD, e1]; simp; omega) m1 (by exact_mod_cast m2)
        exact ⟨u, hu, le_trans (Nat.cast_nonneg _) u1, u2, fun _ => u1⟩
  -- the colour stages
  obtain ⟨mul, lab, tone, q, s1, s2, s3, s4, s5⟩ := stages_pixels m img ha hcw hrows p
  have hmul := balance_least hwb s1
  obtain ⟨cm, M, w1, w2, w3, -, w5⟩ := shipped_inverse h hs hl hi
  have hxyz : ∀ r c, r < ch → c < cw → ∀ i, i < 3 → ∃ v,
      Val (dot4 img.camToXyzMat i (levelled img mul 0 (p r c 0)) (levelled img mul 1 (p r c 1)) (levelled img mul 2 (p r c 2)) (levelled img mul 3 (p r c 3))) v ∧
      |v - whiteXyz i / referenceWhite i| ≤ 46 / 10000000 := by
    intro r c hr hcc i hi3
    have hu : ∀ k, ∃ u, k < 4 → (levelled img mul k (p r c k)).val? = some u ∧ (¬ (∀ j, j < 3 → cm k j = 0) → u = 1) := by
      intro k
      by_cases hk : k < 4
      · obtain ⟨u, hv, u0, u1, u2⟩ := hpix r c hr hcc k hk
        obtain ⟨μ, hμ, μ1, μ2⟩ := hmul k hk
        by_cases hz : ∀ j, j < 3 → cm k j = 0
        · obtain ⟨x, hx⟩ := levelled_number hlev hk hμ (by linarith) μ2 hv u0 u1
          exact ⟨x, fun _ => ⟨hx, fun h => absurd hz h⟩⟩
        · rw [levelled_white hlev hk hμ μ1 hv (u2 (hcover k hk (measures_of w1 hk hz) r c hr hcc)) u1]
          exact ⟨1, fun _ => ⟨rfl, fun _ => rfl⟩⟩
      · exact ⟨0, fun h => absurd h hk⟩
    obtain ⟨u, hu⟩ := Classical.axiomOfChoice hu
    obtain ⟨v, hv, he⟩ := dot4_error (M := img.camToXyzMat) (i := i) (m := M i) (p := u) (fun k hk => w2 i k hi3 hk)
      (hu 0 (by decide)).1 (hu 1 (by decide)).1 (hu 2 (by decide)).1 (hu 3 (by decide)).1 (fun k hk => by
        obtain ⟨m1, m2⟩ := w3 i k hi3 hk
        by_cases hz : ∀ j, j < 3 → cm k j = 0
        · rw [m2 hz, mul_zero, abs_zero]; norm_num
        · rw [(hu k hk).2 hz, one_mul]; exact m1)
    refine ⟨v, hv, ?_⟩
    classical
    have hone := w5 (fun k => if ∀ j, j < 3 → cm k j = 0 then 0 else 1) (fun k _ hz => if_pos hz) (fun k _ hz => if_neg hz) i hi3
    have hsame : ∀ k, k < 4 → M i k * (if ∀ j, j < 3 → cm k j = 0 then 0 else 1) = M i k * u k := by
      intro k hk
      by_cases hz : ∀ j, j < 3 → cm k j = 0
      · rw [(w3 i k hi3 hk).2 hz, zero_mul, zero_mul]
      · rw [if_neg hz, (hu k hk).2 hz]
    rw [hsame 0 (by decide), hsame 1 (by decide), hsame 2 (by decide), hsame 3 (by decide)] at hone
    have f := abs_le.mp hone
    have g := abs_le.mp he
    exact abs_le.mpr ⟨by linarith, by linarith⟩
  have hbyte : ∀ r c, r < ch → c < cw → ∀ k, k < 3 → srgbByte (gammaEntry m (gammaIndex (dot3 xyzToRec709Matrix k (labToXyz (tone r c) (lab r c 1) (lab r c 2)).1
      (labToXyz (tone r c) (lab r c 1) (lab r c 2)).2.1 (labToXyz (tone r c) (lab r c 1) (lab r c 2)).2.2))) = castByte k := by
    intro r c hr hcc k hk
    obtain ⟨x, hx, x1⟩ := hxyz r c hr hcc 0 (by decide)
    obtain ⟨y, hy, y1⟩ := hxyz r c hr hcc 1 (by decide)
    obtain ⟨z, hz, z1⟩ := hxyz r c hr hcc 2 (by decide)
    have x2 := abs_le.mp x1
    have y2 := abs_le.mp y1
    have z2 := abs_le.mp z1
    norm_num [whiteXyz, referenceWhite] at x2 y2 z2
    exact white_pixel hm ⟨x, hx, by norm_num; linarith, by norm_num; linarith⟩ ⟨y, hy, by norm_num; linarith, by norm_num; linarith⟩
      ⟨z, hz, by norm_num; linarith, by norm_num; linarith⟩ (s2 r c) (s3 r c) k hk
  -- the picture
  have hdec : decoder m b img 0 0 false = .ok (ofPix (if img.orientation.toFlips.1 then ch else cw) (if img.orientation.toFlips.1 then cw else ch) 3 q) := by
    rw [bind_eq_ok] at hdem
    obtain ⟨buf', f1, f2⟩ := hdem
    unfold decoder
    simp only [ite_self]
    rw [f1, ok_bind, f2, ok_bind]
    exact s4
  refine ⟨_, toSrgb_map hdec, ?_, ?_⟩
  · rw [List.length_map]
    refine (ofPix_wf _ _ 3 q).trans ?_
    show (if _ then ch else cw) * (if _ then cw else ch) * 3 = _
    split
    · rw [Nat.mul_comm ch cw]
    · rfl
  · generalize hsw : img.orientation.toFlips.1 = swap at *
    intro i hi'
    obtain ⟨ow, how⟩ : ∃ ow, (if swap then ch else cw) = ow := ⟨_, rfl⟩
    obtain ⟨oh, hoh⟩ : ∃ oh, (if swap then cw else ch) = oh := ⟨_, rfl⟩
    rw [how, hoh] at s5 ⊢
    have hprod : ow * oh = cw * ch := by rw [← how, ← hoh]; cases swap <;> simp [Nat.mul_comm]
    rw [← hprod] at hi'
    have hw3 : 0 < ow * 3 := by
      rcases Nat.eq_zero_or_pos ow with h0 | h0
      · rw [h0] at hi'; omega
      · omega
    rw [List.getElem?_map, ofPix_data]
    unfold raster
    rw [List.getElem?_map, List.getElem?_range (by rw [Nat.mul_assoc, Nat.mul_comm 3 oh, ← Nat.mul_assoc]; exact hi')]
    simp only [Option.map_some]
    obtain ⟨r0, c0, g1, g2, g3⟩ := s5 (i / (ow * 3)) (i % (ow * 3) / 3) (i % (ow * 3) % 3)
      (Nat.div_lt_of_lt_mul (by rw [Nat.mul_assoc, Nat.mul_comm 3 oh, ← Nat.mul_assoc]; exact hi'))
      (Nat.div_lt_of_lt_mul (Nat.lt_of_lt_of_eq (Nat.mod_lt _ hw3) (Nat.mul_comm ow 3))) (Nat.mod_lt _ (by decide))
    rw [g3, hbyte r0 c0 g1 g2 _ (Nat.mod_lt _ (by decide)), Nat.mod_mul_left_mod]

/-- In a picture of at least two by two pixels a pattern of two by two has each of its colours at every pixel or next to it. -/
theorem bayer_covers {name : Bytes} {top left cw ch : Nat} {K : Nat → Nat → Nat} (hK : ∀ r c, patternColour name 2 2 (r + top) (c + left) = some (K r c))
    (hw : 2 ≤ cw) (hh : 2 ≤ ch) {k i j : Nat} (hk : patternColour name 2 2 i j = some k) {r c : Nat} (hr : r < ch) (hc : c < cw) :
    0 < (measuring ch cw K r c k).card := by
  have near : ∀ n x off i : Nat, 2 ≤ n → x < n → ∃ y, y < n ∧ y ≤ x + 1 ∧ x ≤ y + 1 ∧ (y + off) % 2 = i % 2 := by
    intro n x off i hn hx
    by_cases h : (x + off) % 2 = i % 2
    · exact ⟨x, hx, by omega, by omega, h⟩
    · by_cases h1 : x + 1 < n
      · exact ⟨x + 1, h1, by omega, by omega, by omega⟩
      · exact ⟨x - 1, by omega, by omega, by omega, by omega⟩
  obtain ⟨y, y1, y2, y3, y4⟩ := near ch r top i hh hr
  obtain ⟨z, z1, z2, z3, z4⟩ := near cw c left j hw hc
  apply Finset.card_pos.mpr
  refine ⟨(y, z), ?_⟩
  unfold measuring around
  simp only [Finset.mem_filter, Finset.mem_product, Finset.mem_range]
  refine ⟨⟨⟨y1, z1⟩, y2, y3, z2, z3⟩, ?_⟩
  have := hK y z
  unfold patternColour at this hk
  rw [y4, z4, hk] at this
  injection this with this
  exact this.symm

/-- Ten by eight pixels, all at 4000 of at most 4000, turned by a quarter. -/
def overexposedImage (cam : Camera) (cfa : CFA) : RawImage where
  width := 10
  height := 8
  cpp := 1
  wbCoeffs := [.fin 2, .fin 1, .fin (3 / 2), .nan]
  whitelevels := [4000, 4000, 4000, 4000]
  blacklevels := [256, 256, 256, 256]
  xyzToCam := cam.xyzToCam
  cfa := cfa
  crops := [0, 0, 0, 0]
  orientation := .rotate90
  data := List.replicate 80 4000

/-- From the Arri Alexa: 8 by 10 pixels of that colour. -/
example {db : Toml} (h : IsShipped db) {s : RawLoader} (hs : RawLoader.new db = .ok s) {cam : Camera}
    (hl : s.checkSupportedWithEverything (b! "ARRI") (b! "ALEXA") [] = .ok cam) {m : Libm} (hm : AccurateLibm m) {cfa : CFA} (hcfa : CFA.new (b! "RGBE") = .ok cfa) :
    ∃ bytes, toSrgb m .release (overexposedImage cam cfa) 0 0 = .ok (8, 10, bytes) ∧ bytes.length = 240 ∧ ∀ i, i < 240 → bytes[i]? = some (castByte (i % 3)) := by
  obtain ⟨-, -, -, hsz⟩ := cfa_matches_name .release (b! "RGBE") cfa hcfa (by decide) 0 0 (by decide) (by decide)
  have hsz' : patternSize (b! "RGBE").length = some (2, 2) := by decide
  rw [hsz'] at hsz
  injection hsz with hsz
  rw [Prod.mk.injEq] at hsz
  have hpat : ∀ r c, patternColour (b! "RGBE") cfa.width cfa.height (r + 0) (c + 0) = some ((fun r c => r % 2 * 2 + c % 2) r c) := by
    intro r c
    rw [← hsz.1, ← hsz.2]
    have hr : r % 2 = 0 ∨ r % 2 = 1 := by omega
    have hc : c % 2 = 0 ∨ c % 2 = 1 := by omega
    unfold patternColour
    rcases hr with hr | hr <;> rcases hc with hc | hc <;> rw [Nat.add_zero, Nat.add_zero, hr, hc] <;> simp only [hr, hc] <;> decide
  have hvalid : cfa.isValid = true := by
    unfold CFA.isValid
    rw [← hsz.1, ← hsz.2]
    decide
  exact overexposed_colour (img := overexposedImage cam cfa) h hs hl rfl hm .release (b! "RGBE") 0 0 0 0 10 8 (fun r c => r % 2 * 2 + c % 2) (fun _ _ => 4000)
    ⟨rfl, rfl, rfl, by decide⟩ rfl hcfa (by decide) rfl ⟨by show 10 ≤ 2 ^ 22; decide, by show 8 ≤ 2 ^ 22; decide⟩ (by decide) hpat
    (fun r c hr hc => by
      show (List.replicate 80 4000)[10 * (r + 0) + (c + 0)]? = some 4000
      rw [List.getElem?_replicate, if_pos (by omega)])
    (fun v hv => by rw [List.eq_of_mem_replicate hv]; decide) ⟨rfl, rfl, rfl⟩
    (fun k hk => by refine ⟨4000, 256, ?_, ?_, by decide, by decide⟩ <;> interval_cases k <;> rfl)
    ⟨by simp [RawImage.isMonochrome, overexposedImage, hvalid], 1, rfl, by norm_num, fun k hk => by
      interval_cases k
      · exact ⟨.fin 2, rfl, fun _ => by decide +kernel, fun _ => ⟨2, rfl, by norm_num, by norm_num⟩⟩
      · exact ⟨.fin 1, rfl, fun _ => by decide +kernel, fun _ => ⟨1, rfl, by norm_num, by norm_num⟩⟩
      · exact ⟨.fin (3 / 2), rfl, fun _ => by decide +kernel, fun _ => ⟨3 / 2, rfl, by norm_num, by norm_num⟩⟩
      · exact ⟨.nan, rfl, fun h => absurd h (by decide), fun h => by simp [F32.isNormal] at h⟩⟩
    (fun r c hr hc => by
      have hr : r % 2 = 0 ∨ r % 2 = 1 := by omega
      have hc : c % 2 = 0 ∨ c % 2 = 1 := by omega
      rcases hr with hr | hr <;> rcases hc with hc | hc <;> simp only [hr, hc] <;> exact le_refl 4000)
    (fun k hk _ r c hr hc => .inr (bayer_covers (name := b! "RGBE") (top := 0) (left := 0) (i := k / 2) (j := k % 2) (fun r c => by have := hpat r c; rwa [← hsz.1, ← hsz.2] at this)
      (by decide) (by decide) (by interval_cases k <;> decide) hr hc))

end Props

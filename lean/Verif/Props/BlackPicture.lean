import Verif.Props.WhiteCast
/-!
# C90: what a picture at the black level looks like
-/

namespace Props
open Model Rust Spec Shipped F32

/-! ## One pixel -/

theorem zero_mul_number {x y : F32} {p q : ℚ} (hx : x.val? = some p) (hy : y.val? = some q) (h : p * q = 0) : ∃ s, x.mul y = .zero s := by
  rcases val_cases hx with ⟨s, e, -⟩ | e <;> rcases val_cases hy with ⟨t, f, -⟩ | f <;> subst e <;> subst f
  · exact ⟨_, rfl⟩
  · exact ⟨_, rfl⟩
  · exact ⟨_, rfl⟩
  · exact ⟨false, by simp only [F32.mul, h]; unfold F32.round; rw [if_pos rfl]⟩

/-- Four products that are zero have a zero sum. -/
theorem dot4_zero {M : Mat F32} {i : Nat} {x : Nat → F32} {u m : Nat → ℚ} (hx : ∀ k, k < 4 → (x k).val? = some (u k)) (hm : ∀ k, k < 4 → (M i k).val? = some (m k))
    (h : ∀ k, k < 4 → u k * m k = 0) : ∃ s, dot4 M i (x 0) (x 1) (x 2) (x 3) = .zero s := by
  have hz : ∀ k, k < 4 → ∃ s, (x k).mul (M i k) = .zero s := fun k hk => zero_mul_number (hx k hk) (hm k hk) (h k hk)
  obtain ⟨s0, e0⟩ := hz 0 (by decide)
  obtain ⟨s1, e1⟩ := hz 1 (by decide)
  obtain ⟨s2, e2⟩ := hz 2 (by decide)
  obtain ⟨s3, e3⟩ := hz 3 (by decide)
  exact ⟨_, by unfold dot4; rw [e0, e1, e2, e3]; rfl⟩

theorem labf_zero (m : Libm) (s : Bool) : labf m (.zero s) = .ok ((lit 4).div (lit 29)) := by
  unfold labf
  dsimp only
  rw [if_neg (by cases s <;> decide +kernel)]
  have : ∀ s, (((F32.zero s).mul ((((lit 1).div (lit 3)).mul ((lit 29).div (lit 6))).mul ((lit 29).div (lit 6)))).add ((lit 4).div (lit 29))) = (lit 4).div (lit 29) := by
    intro s; cases s <;> decide +kernel
  rw [this]

/-- The colour of no light is exactly the black of L*a*b*. -/
theorem black_lab (m : Libm) (s t u : Bool) : xyzToLab m (.zero s) (.zero t) (.zero u) = .ok (.zero false, .fin (1 / 2), .fin (1 / 2)) := by
  unfold xyzToLab
  have e1 : (F32.zero t).div (lit 1) = .zero t := by cases t <;> decide +kernel
  have e2 : (F32.zero s).div (lit (9642 / 10000)) = .zero s := by cases s <;> decide +kernel
  have e3 : (F32.zero u).div (lit (8249 / 10000)) = .zero u := by cases u <;> decide +kernel
  dsimp only
  rw [e1, e2, e3, labf_zero, ok_bind, labf_zero, ok_bind, labf_zero, ok_bind]
  have f1 : (((lit 116).mul ((lit 4).div (lit 29))).sub (lit 16)).div (lit 100) = .zero false := by decide +kernel
  have f2 : (((lit 500).mul (((lit 4).div (lit 29)).sub ((lit 4).div (lit 29)))).add (lit 128)).div (lit 256) = .fin (1 / 2) := by decide +kernel
  have f3 : (((lit 200).mul (((lit 4).div (lit 29)).sub ((lit 4).div (lit 29)))).add (lit 128)).div (lit 256) = .fin (1 / 2) := by decide +kernel
  rw [f1, f2, f3]

theorem black_tone : baseTone (.zero false) = .ok (.zero false) := by decide +kernel

theorem black_rec709 {k : Nat} (hk : k < 3) : dot3 xyzToRec709Matrix k (labToXyz (.zero false) (.fin (1 / 2)) (.fin (1 / 2))).1
    (labToXyz (.zero false) (.fin (1 / 2)) (.fin (1 / 2))).2.1 (labToXyz (.zero false) (.fin (1 / 2)) (.fin (1 / 2))).2.2 = .zero false := by
  interval_cases k <;> decide +kernel

theorem black_gamma (m : Libm) : gammaEntry m (gammaIndex (.zero false)) = .zero false := by
  rw [show gammaIndex (.zero false) = 0 by decide +kernel]
  unfold gammaEntry
  dsimp only
  rw [if_pos (by decide +kernel)]
  decide +kernel

theorem black_byte : srgbByte (.zero false) = 0 := by decide +kernel

/-! ## Levels and balance -/

/-- The first three balance coefficients are normal numbers, the fourth may be missing; all are positive and none is more than
65536 times that of green, nor green more than 65536 times another. -/
structure SaneBalance (img : RawImage) : Prop where
  colour : img.isMonochrome = false
  coeffs : ∃ g : ℚ, img.wbCoeffs[1]? = some (.fin g) ∧ 0 < g ∧ ∀ k, k < 4 → ∃ x, img.wbCoeffs[k]? = some x ∧ (k < 3 → x.isNormal = true) ∧
    (x.isNormal = true → ∃ q, x = .fin q ∧ g ≤ 65536 * q ∧ q ≤ 65536 * g)

theorem balance_sane {img : RawImage} (h : SaneBalance img) {mul : List F32} (hm : (balanceCoeffs img >>= balanceMul) = .ok mul) :
    ∀ k, k < 4 → ∃ v, mul.getD k (.zero false) = .fin v ∧ 0 < v ∧ v ≤ 65536 := by
  obtain ⟨g, h1, g0, hx⟩ := h.coeffs
  have ex : ∀ k, k < 3 → ∃ x, idx img.wbCoeffs k = .ok x ∧ x.isNormal = true := by
    intro k hk
    obtain ⟨x, e1, e2, -⟩ := hx k (by omega)
    exact ⟨x, by simp [idx, e1], e2 hk⟩
  obtain ⟨x0, i0, n0⟩ := ex 0 (by decide)
  obtain ⟨x1, i1, n1⟩ := ex 1 (by decide)
  obtain ⟨x2, i2, n2⟩ := ex 2 (by decide)
  have hco : balanceCoeffs img = .ok img.wbCoeffs := by
    unfold balanceCoeffs
    rw [h.colour, if_neg (by decide), i0, ok_bind, i1, ok_bind, i2, ok_bind, n0, n1, n2]
    rfl
  rw [hco, ok_bind] at hm
  unfold balanceMul at hm
  rw [show idx img.wbCoeffs 1 = .ok (.fin g) by simp [idx, h1], ok_bind] at hm
  injection hm with hm
  intro k hk
  obtain ⟨x, e1, -, e3⟩ := hx k hk
  rw [← hm, List.getD_eq_getElem?_getD, List.getElem?_map, e1]
  simp only [Option.map_some, Option.getD_some]
  by_cases hn : x.isNormal = true
  · obtain ⟨q, rfl, q1, q2⟩ := e3 hn
    rw [hn]
    simp only [Bool.not_true, Bool.false_eq_true, if_false, F32.div]
    have rs : Repr32 (pow2 (-16)) := repr32_pow2 (by decide)
    have ps : pow2 (-16) = 1 / 65536 := by rw [pow2_eq]; norm_num
    have r1 : 1 / 65536 ≤ q / g := by rw [div_le_div_iff₀ (by norm_num) g0]; linarith
    have r2 : q / g ≤ 65536 := by rw [div_le_iff₀ g0]; exact q2
    have u1 : 1 / 65536 ≤ roundQ (q / g) := by rw [← ps] at r1 ⊢; exact le_roundQ_of_repr rs r1
    have u2 : roundQ (q / g) ≤ 65536 := roundQ_le_of_repr (by rw [← pow2_16]; exact repr32_pow2 (by decide)) r2
    have u0 : 0 < roundQ (q / g) := lt_of_lt_of_le (by norm_num) u1
    have hv := round_val (false) (q := q / g) (by rw [pow2_128, abs_of_pos u0]; linarith)
    obtain ⟨e, -⟩ := hv.valid u0.ne' (by rw [pow2_128, abs_of_pos u0]; linarith)
    exact ⟨_, e, u0, u2⟩
  · simp only [Bool.not_eq_true] at hn
    rw [hn]
    exact ⟨1, lit_one_fin, by norm_num, by norm_num⟩

/-- A sample at the black level becomes zero. -/
theorem levelled_black {img : RawImage} (hl : LevelsOk img) {mul : List F32} {k : Nat} (hk : k < 4) {μ : ℚ} (hm : mul.getD k (.zero false) = .fin μ) :
    ∃ s, levelled img mul k (F32.ofNat (img.blacklevels.getD k 0)) = .zero s := by
  obtain ⟨w, b, e1, e2, hbw, hw⟩ := hl k hk
  unfold levelled
  rw [hm, List.getD_eq_getElem?_getD, List.getD_eq_getElem?_getD, e1, e2]
  simp only [Option.getD_some]
  have vb := ofNat_is (n := b) (by omega)
  have vw := ofNat_is (n := w) (by omega)
  have hb0 : (0 : ℚ) ≤ b := Nat.cast_nonneg _
  have hbw' : (b : ℚ) + 1 ≤ w := by exact_mod_cast hbw
  have hw' : (w : ℚ) < 65536 := by exact_mod_cast hw
  have hr : Repr32 ((w : ℚ) - b) := by
    rw [← Nat.cast_sub hbw.le]; exact repr32_nat (by omega)
  have n2 := Val.sub ⟨vw.1, vw.2.2⟩ ⟨vb.1, vb.2.2⟩ (by rw [roundQ_of_repr hr, pow2_128, abs_of_pos (by linarith)]; linarith)
  rw [roundQ_of_repr hr] at n2
  obtain ⟨f2, -⟩ := n2.valid (by linarith) (by rw [pow2_128, abs_of_pos (by linarith)]; linarith)
  have f1 : ∃ s, (F32.ofNat b).sub (F32.ofNat b) = .zero s := by
    rcases val_cases vb.1 with ⟨s, e, -⟩ | e
    · exact ⟨_, by rw [e]; rfl⟩
    · exact ⟨false, by rw [e]; simp only [F32.sub, F32.neg, F32.add, add_neg_cancel]; unfold F32.round; rw [if_pos rfl]⟩
  obtain ⟨s, f1⟩ := f1
  rw [f1, f2]
  have e : ∀ t, F32.min (.zero t) (lit 1) = .zero t := by intro t; cases t <;> decide +kernel
  exact ⟨_, by simp only [F32.div, F32.mul]; exact e _⟩

/-! ## Black pictures -/

theorem meanAt_const {s : Finset (ℕ × ℕ)} (hs : 0 < s.card) {f : ℕ → ℕ → ℕ} {v : ℕ} (h : ∀ p ∈ s, f p.1 p.2 = v) : meanAt s f = v := by
  obtain ⟨h1, h2⟩ := meanAt_between hs (lo := v) (hi := v) (fun p hp => (h p hp).ge) (fun p hp => (h p hp).le)
  exact le_antisymm h2 h1

/-- The conversion to XYZ is a matrix of numbers and takes nothing from channels outside `measured`. -/
def UsesOnly (img : RawImage) (measured : Nat → Prop) : Prop :=
  ∀ i k, i < 3 → k < 4 → ∃ q, (img.camToXyzMat i k).val? = some q ∧ (q = 0 ∨ measured k)

/-- A uniform buffer. -/
theorem ofPix_uniform {w h : Nat} {q : Nat → Nat → Nat → F32} {v : F32} (hq : ∀ r c k, r < h → c < w → k < 3 → q r c k = v) :
    ofPix w h 3 q = ⟨w, h, 3, List.replicate (w * h * 3) v⟩ := by
  have : (ofPix w h 3 q).data = List.replicate (w * h * 3) v := by
    apply List.ext_getElem?
    intro i
    rw [ofPix_data]
    unfold raster
    rw [List.getElem?_map, List.getElem?_replicate]
    have hn : w * 3 * h = w * h * 3 := by rw [Nat.mul_assoc, Nat.mul_comm 3 h, ← Nat.mul_assoc]
    by_cases hi : i < w * h * 3
    · have hw3 : 0 < w * 3 := by
        rcases Nat.eq_zero_or_pos w with h0 | h0
        · rw [h0] at hi; omega
        · omega
      rw [List.getElem?_range (by rw [hn]; exact hi), if_pos hi]
      simp only [Option.map_some]
      rw [hq _ _ _ (Nat.div_lt_of_lt_mul (by rw [hn]; exact hi)) (Nat.div_lt_of_lt_mul (Nat.lt_of_lt_of_eq (Nat.mod_lt _ hw3) (Nat.mul_comm w 3))) (Nat.mod_lt _ (by decide))]
    · rw [if_neg hi, List.getElem?_eq_none (by simp; omega)]
      rfl
  rw [← this]
  rfl

/-- The float picture of samples at the black level, before and after gamma. -/
theorem black_decoder {img : RawImage} (m : Libm) (b : Build) (name : Bytes) (top right bottom left cw ch : Nat) (K S : Nat → Nat → Nat)
    (hc : CropsFit img top right bottom left cw ch) (hcpp : img.cpp = 1) (hcfa : CFA.new name = .ok img.cfa) (hname : name ≠ [])
    (hlen : img.data.length = img.width * img.height) (hsmall : img.width ≤ 2 ^ 22 ∧ img.height ≤ 2 ^ 22) (hrows : 0 < ch)
    (hK : ∀ r c, patternColour name img.cfa.width img.cfa.height (r + top) (c + left) = some (K r c))
    (hS : ∀ r c, r < ch → c < cw → img.data[img.width * (r + top) + (c + left)]? = some (S r c))
    (h16 : ∀ v ∈ img.data, v < 65536) (ha : ArraysOk img) (hlev : LevelsOk img) (hwb : SaneBalance img)
    (hblack : ∀ r c, r < ch → c < cw → S r c = img.blacklevels.getD (K r c) 0)
    (huse : UsesOnly img fun k => ∀ r c, r < ch → c < cw → k = K r c ∨ 0 < (measuring ch cw K r c k).card) (linear : Bool) :
    decoder m b img 0 0 linear = .ok ⟨if img.orientation.toFlips.1 then ch else cw, if img.orientation.toFlips.1 then cw else ch, 3, List.replicate (cw * ch * 3) (.zero false)⟩ := by
  have hcw := hc.cw_pos
  obtain ⟨p, hdem, d6⟩ := full_size_pixels b img name top right bottom left cw ch K S hc hcpp hcfa hname hlen hsmall hK hS h16
  -- the samples
  have hpix : ∀ r c, r < ch → c < cw → ∀ k, k < 4 →
      (k = K r c ∨ 0 < (measuring ch cw K r c k).card → p r c k = F32.ofNat (img.blacklevels.getD k 0)) ∧
      (¬ (k = K r c ∨ 0 < (measuring ch cw K r c k).card) → p r c k = F32.ofNat 0) := by
    intro r c hr hcc k hk
    obtain ⟨o1, o2⟩ := d6 r c hr hcc
    by_cases hkk : k = K r c
    · subst hkk
      refine ⟨fun _ => by rw [o1, hblack r c hr hcc], fun h => absurd (.inl rfl) h⟩
    · obtain ⟨o3, o4⟩ := o2 k hk hkk
      refine ⟨?_, fun h => o4 (by by_contra h0; exact h (.inr (Nat.pos_of_ne_zero h0)))⟩
      rintro (h1 | h0)
      · exact absurd h1 hkk
      rw [o3 h0, meanAt_const h0 (v := img.blacklevels.getD k 0) (fun q hq => by
        unfold measuring around at hq
        simp only [Finset.mem_filter, Finset.mem_product, Finset.mem_range] at hq
        rw [hblack q.1 q.2 hq.1.1.1 hq.1.1.2, hq.2])]
      rfl
  -- the colour stages
  obtain ⟨mul, hm, e1⟩ := level_ofPix (h := ch) hcw img ha p
  obtain ⟨lab, e2, hlab⟩ := cameraToLab_pixels m img (h := ch) hcw (fun r c k => levelled img mul k (p r c k))
  obtain ⟨t, e3, ht⟩ := base_stage (h := ch) hcw lab
  have hmul := balance_sane hwb hm
  have hz : ∀ r c, r < ch → c < cw → ∀ i, i < 3 →
      ∃ s, dot4 img.camToXyzMat i (levelled img mul 0 (p r c 0)) (levelled img mul 1 (p r c 1)) (levelled img mul 2 (p r c 2)) (levelled img mul 3 (p r c 3)) = .zero s := by
    intro r c hr hcc i hi
    have hu : ∀ k, ∃ u x, k < 4 → (levelled img mul k (p r c k)).val? = some u ∧ (img.camToXyzMat i k).val? = some x ∧ u * x = 0 := by
      intro k
      by_cases hk : k < 4
      · obtain ⟨x, hx, hx'⟩ := huse i k hi hk
        obtain ⟨μ, hμ, μ1, μ2⟩ := hmul k hk
        obtain ⟨p1, p2⟩ := hpix r c hr hcc k hk
        by_cases hd : k = K r c ∨ 0 < (measuring ch cw K r c k).card
        · obtain ⟨s, e⟩ := levelled_black hlev hk hμ
          exact ⟨0, x, fun _ => ⟨by rw [p1 hd, e]; rfl, hx, zero_mul _⟩⟩
        · have hv := ofNat_is (n := 0) (by decide)
          obtain ⟨u, hu⟩ := levelled_number hlev hk hμ μ1 μ2 ⟨hv.1, hv.2.2⟩ (by norm_num) (by norm_num)
          refine ⟨u, x, fun _ => ⟨by rw [p2 hd]; exact hu, hx, ?_⟩⟩
          rcases hx' with h0 | h0
          · rw [h0, mul_zero]
          · exact absurd (h0 r c hr hcc) hd
      · exact ⟨0, 0, fun h => absurd h hk⟩
    obtain ⟨u, hu⟩ := Classical.axiomOfChoice hu
    obtain ⟨x, hu⟩ := Classical.axiomOfChoice hu
    exact dot4_zero (x := fun k => levelled img mul k (p r c k)) (fun k hk => (hu k hk).1) (fun k hk => (hu k hk).2.1) (fun k hk => (hu k hk).2.2)
  have hrec : ∀ r c, r < ch → c < cw → ∀ k, k < 3 →
      dot3 xyzToRec709Matrix k (labToXyz (t r c 0) (t r c 1) (t r c 2)).1 (labToXyz (t r c 0) (t r c 1) (t r c 2)).2.1 (labToXyz (t r c 0) (t r c 1) (t r c 2)).2.2 = .zero false := by
    intro r c hr hcc k hk
    obtain ⟨s0, z0⟩ := hz r c hr hcc 0 (by decide)
    obtain ⟨s1, z1⟩ := hz r c hr hcc 1 (by decide)
    obtain ⟨s2, z2⟩ := hz r c hr hcc 2 (by decide)
    have hl := hlab r c
    rw [z0, z1, z2, black_lab] at hl
    injection hl with hl
    simp only [Prod.mk.injEq] at hl
    obtain ⟨t0, t1, t2⟩ := ht r c
    rw [← hl.1, black_tone] at t0
    injection t0 with t0
    rw [← t0, t1, t2, ← hl.2.1, ← hl.2.2]
    exact black_rec709 hk
  -- the picture
  obtain ⟨buf', f1, f2⟩ := bind_eq_ok.mp hdem
  unfold decoder
  simp only [ite_self]
  rw [f1, ok_bind, f2, ok_bind, e1, ok_bind, e2, ok_bind, e3, ok_bind, labToRec709_ofPix hcw, ok_bind]
  have hprod : (if img.orientation.toFlips.1 then ch else cw) * (if img.orientation.toFlips.1 then cw else ch) = cw * ch := by
    split
    · exact Nat.mul_comm _ _
    · rfl
  cases linear
  · rw [if_neg (by decide), gamma_ofPix m hcw (by decide), ok_bind]
    obtain ⟨q, e4, hq⟩ := finalRotate_ofPix img hcw hrows (by decide : 0 < 3) (fun r c k => gammaEntry m (gammaIndex
      (dot3 xyzToRec709Matrix k (labToXyz (t r c 0) (t r c 1) (t r c 2)).1 (labToXyz (t r c 0) (t r c 1) (t r c 2)).2.1 (labToXyz (t r c 0) (t r c 1) (t r c 2)).2.2)))
    refine e4.trans (congrArg Except.ok ?_)
    rw [ofPix_uniform (v := .zero false), hprod]
    intro r c k hr hcc hk
    obtain ⟨r0, c0, g1, g2, g3⟩ := hq r c k hr hcc hk
    rw [g3, hrec r0 c0 g1 g2 k hk, black_gamma]
  · rw [if_pos rfl, ok_bind]
    obtain ⟨q, e4, hq⟩ := finalRotate_ofPix img hcw hrows (by decide : 0 < 3) (fun r c k =>
      dot3 xyzToRec709Matrix k (labToXyz (t r c 0) (t r c 1) (t r c 2)).1 (labToXyz (t r c 0) (t r c 1) (t r c 2)).2.1 (labToXyz (t r c 0) (t r c 1) (t r c 2)).2.2)
    refine e4.trans (congrArg Except.ok ?_)
    rw [ofPix_uniform (v := .zero false), hprod]
    intro r c k hr hcc hk
    obtain ⟨r0, c0, g1, g2, g3⟩ := hq r c k hr hcc hk
    rw [g3]
    exact hrec r0 c0 g1 g2 k hk

/-- **C90.** Every sample at the black level of its channel, every channel the conversion uses measured at each pixel or next to it. Then all
three outputs are exactly zero, whatever the matrix, the balance, the orientation and the mathematical functions of the platform. -/
theorem black_picture {img : RawImage} (m : Libm) (b : Build) (name : Bytes) (top right bottom left cw ch : Nat) (K S : Nat → Nat → Nat)
    (hc : CropsFit img top right bottom left cw ch) (hcpp : img.cpp = 1) (hcfa : CFA.new name = .ok img.cfa) (hname : name ≠ [])
    (hlen : img.data.length = img.width * img.height) (hsmall : img.width ≤ 2 ^ 22 ∧ img.height ≤ 2 ^ 22) (hrows : 0 < ch)
    (hK : ∀ r c, patternColour name img.cfa.width img.cfa.height (r + top) (c + left) = some (K r c))
    (hS : ∀ r c, r < ch → c < cw → img.data[img.width * (r + top) + (c + left)]? = some (S r c))
    (h16 : ∀ v ∈ img.data, v < 65536) (ha : ArraysOk img) (hlev : LevelsOk img) (hwb : SaneBalance img)
    (hblack : ∀ r c, r < ch → c < cw → S r c = img.blacklevels.getD (K r c) 0)
    (huse : UsesOnly img fun k => ∀ r c, r < ch → c < cw → k = K r c ∨ 0 < (measuring ch cw K r c k).card) :
    let w := if img.orientation.toFlips.1 then ch else cw
    let h := if img.orientation.toFlips.1 then cw else ch
    toLinearRgb m b img 0 0 = .ok (w, h, List.replicate (cw * ch * 3) (.zero false)) ∧ toRgb m b img 0 0 = .ok (w, h, List.replicate (cw * ch * 3) (.zero false)) ∧
      toSrgb m b img 0 0 = .ok (w, h, List.replicate (cw * ch * 3) 0) := by
  intro w h
  have hd := black_decoder m b name top right bottom left cw ch K S hc hcpp hcfa hname hlen hsmall hrows hK hS h16 ha hlev hwb hblack huse
  refine ⟨?_, ?_, ?_⟩
  · unfold toLinearRgb
    rw [hd true, ok_bind]
  · unfold toRgb
    rw [hd false, ok_bind]
  · have hprod : w * h = cw * ch := by
      show (if _ then ch else cw) * (if _ then cw else ch) = _
      split
      · exact Nat.mul_comm _ _
      · rfl
    have e : (⟨w, h, 3, List.replicate (cw * ch * 3) (.zero false)⟩ : OpBuffer F32) = ofPix w h 3 (fun _ _ _ => .zero false) := by
      rw [ofPix_uniform (v := .zero false) (fun _ _ _ _ _ _ => rfl), hprod]
    have hd' : decoder m b img 0 0 false = .ok (ofPix w h 3 (fun _ _ _ => .zero false)) := by rw [← e]; exact hd false
    rw [toSrgb_map hd', ← e]
    simp only [List.map_replicate, black_byte]

/-- The same for the cameras of the database: their matrices are numbers, and channels they do not have are not used. -/
theorem shipped_black {db : Toml} (h : IsShipped db) {s : RawLoader} (hs : RawLoader.new db = .ok s) {make model mode : Bytes} {cam : Camera}
    (hl : s.checkSupportedWithEverything make model mode = .ok cam) {img : RawImage} (hi : img.xyzToCam = cam.xyzToCam) (m : Libm) (b : Build) (name : Bytes) (top right bottom left cw ch : Nat) (K S : Nat → Nat → Nat)
    (hc : CropsFit img top right bottom left cw ch) (hcpp : img.cpp = 1) (hcfa : CFA.new name = .ok img.cfa) (hname : name ≠ [])
    (hlen : img.data.length = img.width * img.height) (hsmall : img.width ≤ 2 ^ 22 ∧ img.height ≤ 2 ^ 22) (hrows : 0 < ch)
    (hK : ∀ r c, patternColour name img.cfa.width img.cfa.height (r + top) (c + left) = some (K r c))
    (hS : ∀ r c, r < ch → c < cw → img.data[img.width * (r + top) + (c + left)]? = some (S r c))
    (h16 : ∀ v ∈ img.data, v < 65536) (ha : ArraysOk img) (hlev : LevelsOk img) (hwb : SaneBalance img)
    (hblack : ∀ r c, r < ch → c < cw → S r c = img.blacklevels.getD (K r c) 0)
    (hcover : ∀ k, k < 4 → Measures img k → ∀ r c, r < ch → c < cw → k = K r c ∨ 0 < (measuring ch cw K r c k).card) :
    let w := if img.orientation.toFlips.1 then ch else cw
    let h := if img.orientation.toFlips.1 then cw else ch
    toLinearRgb m b img 0 0 = .ok (w, h, List.replicate (cw * ch * 3) (.zero false)) ∧ toRgb m b img 0 0 = .ok (w, h, List.replicate (cw * ch * 3) (.zero false)) ∧
      toSrgb m b img 0 0 = .ok (w, h, List.replicate (cw * ch * 3) 0) := by
  refine black_picture m b name top right bottom left cw ch K S hc hcpp hcfa hname hlen hsmall hrows hK hS h16 ha hlev hwb hblack fun i k hi3 hk => ?_
  obtain ⟨c, M, w1, w2, w3, -, -⟩ := shipped_inverse h hs hl hi
  refine ⟨_, w2 i k hi3 hk, ?_⟩
  by_cases hz : ∀ j, j < 3 → c k j = 0
  · exact .inl ((w3 i k hi3 hk).2 hz)
  · exact .inr (hcover k hk (measures_of w1 hk hz))

/-- Ten by eight pixels, all at 256 of at least 256, turned by a quarter. -/
def blackImage (cam : Camera) (cfa : CFA) : RawImage where
  width := 10
  height := 8
  cpp := 1
  wbCoeffs := [.fin 2, .fin 1, .fin (3 / 2), .nan]
  whitelevels := [4000, 4000, 4000, 4000]
  blacklevels := [256, 256, 256, 256]
  xyzToCam := cam.xyzToCam
  cfa := cfa
  crops := [0, 0, 0, 0]
  orientation := .rotate90
  data := List.replicate 80 256

/-- From the Arri Alexa: 8 by 10 black pixels. -/
example {db : Toml} (h : IsShipped db) {s : RawLoader} (hs : RawLoader.new db = .ok s) {cam : Camera}
    (hl : s.checkSupportedWithEverything (b! "ARRI") (b! "ALEXA") [] = .ok cam) (m : Libm) {cfa : CFA} (hcfa : CFA.new (b! "RGBE") = .ok cfa) :
    toLinearRgb m .debug (blackImage cam cfa) 0 0 = .ok (8, 10, List.replicate 240 (.zero false)) ∧ toRgb m .debug (blackImage cam cfa) 0 0 = .ok (8, 10, List.replicate 240 (.zero false)) ∧
      toSrgb m .debug (blackImage cam cfa) 0 0 = .ok (8, 10, List.replicate 240 0) := by
  obtain ⟨-, -, -, hsz⟩ := cfa_matches_name .debug (b! "RGBE") cfa hcfa (by decide) 0 0 (by decide) (by decide)
  have hsz' : patternSize (b! "RGBE").length = some (2, 2) := by decide
  rw [hsz'] at hsz
  injection hsz with hsz
  rw [Prod.mk.injEq] at hsz
  have hpat : ∀ r c, patternColour (b! "RGBE") cfa.width cfa.height (r + 0) (c + 0) = some ((fun r c => r % 2 * 2 + c % 2) r c) := by
    intro r c
    rw [← hsz.1, ← hsz.2]
    have hr : r % 2 = 0 ∨ r % 2 = 1 := by omega
    have hc : c % 2 = 0 ∨ c % 2 = 1 := by omega
    unfold patternColour
    rcases hr with hr | hr <;> rcases hc with hc | hc <;> rw [Nat.add_zero, Nat.add_zero, hr, hc] <;> simp only [hr, hc] <;> decide
  have hvalid : cfa.isValid = true := by
    unfold CFA.isValid
    rw [← hsz.1, ← hsz.2]
    decide
  exact shipped_black (img := blackImage cam cfa) h hs hl rfl m .debug (b! "RGBE") 0 0 0 0 10 8 (fun r c => r % 2 * 2 + c % 2) (fun _ _ => 256)
    ⟨rfl, rfl, rfl, by decide⟩ rfl hcfa (by decide) rfl ⟨by show 10 ≤ 2 ^ 22; decide, by show 8 ≤ 2 ^ 22; decide⟩ (by decide) hpat
    (fun r c hr hc => by
      show (List.replicate 80 256)[10 * (r + 0) + (c + 0)]? = some 256
      rw [List.getElem?_replicate, if_pos (by omega)])
    (fun v hv => by rw [List.eq_of_mem_replicate hv]; decide) ⟨rfl, rfl, rfl⟩
    (fun k hk => by refine ⟨4000, 256, ?_, ?_, by decide, by decide⟩ <;> interval_cases k <;> rfl)
    ⟨by simp [RawImage.isMonochrome, blackImage, hvalid], 1, rfl, by norm_num, fun k hk => by
      interval_cases k
      · exact ⟨.fin 2, rfl, fun _ => by decide +kernel, fun _ => ⟨2, rfl, by norm_num, by norm_num⟩⟩
      · exact ⟨.fin 1, rfl, fun _ => by decide +kernel, fun _ => ⟨1, rfl, by norm_num, by norm_num⟩⟩
      · exact ⟨.fin (3 / 2), rfl, fun _ => by decide +kernel, fun _ => ⟨3 / 2, rfl, by norm_num, by norm_num⟩⟩
      · exact ⟨.nan, rfl, fun h => absurd h (by decide), fun h => by simp [F32.isNormal] at h⟩⟩
    (fun r c hr hc => by
      have hr : r % 2 = 0 ∨ r % 2 = 1 := by omega
      have hc : c % 2 = 0 ∨ c % 2 = 1 := by omega
      rcases hr with hr | hr <;> rcases hc with hc | hc <;> simp only [hr, hc] <;> rfl)
    (fun k hk _ r c hr hc => .inr (bayer_covers (name := b! "RGBE") (top := 0) (left := 0) (i := k / 2) (j := k % 2) (fun r c => by have := hpat r c; rwa [← hsz.1, ← hsz.2] at this)
      (by decide) (by decide) (by interval_cases k <;> decide) hr hc))

end Props

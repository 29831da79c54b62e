import Verif.Lemmas.Between
import Verif.Props.BaseCurve
import Verif.Props.Output
/-!
# One white pixel through the colour stages

The numbers are followed in intervals from the camera's XYZ to the bytes of the picture.
-/

namespace Props
open Rust Spec Model F32

/-- What is asked of the platform's `cbrt` and `powf`: on arguments from 1/2 to 2 the cube of the cube root is the argument within one
part in 2^20; the 20th power of `powf(x, 0.45)` is the ninth power of `x` within one part in 2^17 on arguments from 1/2 to 1; one
raised to a power is one. -/
structure AccurateLibm (m : Libm) : Prop where
  cbrt : ∀ q : ℚ, (F32.fin q).Valid → 1 / 2 ≤ q → q ≤ 2 → ∃ r, (F32.fin r).Valid ∧ m.cbrt (.fin q) = .fin r ∧ |r ^ 3 - q| ≤ q / 2 ^ 20
  powf : ∀ q : ℚ, (F32.fin q).Valid → 1 / 2 ≤ q → q ≤ 1 → ∃ r, (F32.fin r).Valid ∧ 0 ≤ r ∧ m.powf (.fin q) (lit (45 / 100)) = .fin r ∧ |r ^ 20 - q ^ 9| ≤ q ^ 9 / 2 ^ 17
  one : m.powf (.fin 1) (lit (45 / 100)) = .fin 1

theorem cbrt_btw {m : Libm} (hm : AccurateLibm m) {x : F32} {k a b : ℕ} {k' : ℕ} {a' b' : Int} (hx : Btw x k a b)
    (h1 : (1 : ℚ) / 2 ≤ (a : Int) / 2 ^ k) (h2 : ((b : Int) : ℚ) / 2 ^ k ≤ 2) (ha : 0 ≤ a')
    (hl : ((a' : ℚ) / 2 ^ k') ^ 3 ≤ ((a : Int) : ℚ) / 2 ^ k * (1 - 1 / 2 ^ 20)) (hb : 0 ≤ b')
    (hu : ((b : Int) : ℚ) / 2 ^ k * (1 + 1 / 2 ^ 20) ≤ ((b' : ℚ) / 2 ^ k') ^ 3) : Btw (m.cbrt x) k' a' b' := by
  obtain ⟨v, hv, v1, v2⟩ := hx
  have v3 : |v| < pow2 128 := by rw [pow2_128, abs_of_pos (by linarith)]; linarith
  obtain ⟨rfl, hv'⟩ := hv.valid (by linarith) v3
  obtain ⟨r, hr, e, hc⟩ := hm.cbrt v hv' (by linarith) (by linarith)
  rw [e]
  have hc' := abs_le.mp hc
  have ha' : (0 : ℚ) ≤ (a' : ℚ) / 2 ^ k' := div_nonneg (by exact_mod_cast ha) (by positivity)
  have hb' : (0 : ℚ) ≤ (b' : ℚ) / 2 ^ k' := div_nonneg (by exact_mod_cast hb) (by positivity)
  have r3 : 0 < r ^ 3 := by linarith
  have r0 : 0 < r := by
    by_contra h
    have := Odd.pow_nonpos (n := 3) (by decide) (not_lt.mp h)
    linarith
  refine ⟨r, ⟨rfl, valid_repr hr⟩, ?_, ?_⟩
  · refine le_of_pow_le_pow_left₀ (n := 3) (by decide) r0.le (le_trans hl ?_)
    linarith
  · refine le_of_pow_le_pow_left₀ (n := 3) (by decide) hb' (le_trans ?_ hu)
    linarith

theorem labf_cutoff : ((((lit 6).div (lit 29)).mul ((lit 6).div (lit 29))).mul ((lit 6).div (lit 29))) = .fin ((9509543 : Int) / 2 ^ 30) := by decide +kernel
theorem litBtw_one : Btw (lit 1) 0 1 1 := .of_eq (by decide +kernel) (by decide)
theorem litBtw_cutoff : Btw ((((lit 6).div (lit 29)).mul ((lit 6).div (lit 29))).mul ((lit 6).div (lit 29))) 30 9509543 9509543 := .of_eq labf_cutoff (by decide)

/-- Above one the cube root is not looked up. -/
theorem labf_above {m : Libm} {x : F32} {k : ℕ} {a b : Int} (hx : Btw x k a b) (h1 : (1 : ℚ) ≤ a / 2 ^ k) : labf m x = .ok (m.cbrt x) := by
  unfold labf
  simp only
  rw [litBtw_cutoff.lt hx (by norm_num; linarith), if_pos rfl, hx.not_lt litBtw_one (by norm_num; exact h1)]
  simp

theorem lit_one_fin : lit 1 = .fin 1 := by decide +kernel

/-- Near one, on either side. -/
theorem labf_near_one {m : Libm} (hm : AccurateLibm m) {y : F32} (hy : Btw y 21 2097139 2097165) : ∃ f, labf m y = .ok f ∧ Btw f 20 1048570 1048579 := by
  obtain ⟨v, hv, v1, v2⟩ := id hy
  by_cases h : 1 ≤ v
  · have h1 : Btw y 21 ((2097152 : ℕ) : Int) ((2097165 : ℕ) : Int) := ⟨v, hv, by norm_num; exact h, by exact_mod_cast v2⟩
    exact ⟨_, labf_above h1 (by norm_num), cbrt_btw hm h1 (by norm_num) (by norm_num) (by decide) (by norm_num) (by decide) (by norm_num)⟩
  · have hlt : v < 1 := not_le.mp h
    norm_num at v1
    obtain ⟨rfl, hv'⟩ := hv.valid (by linarith) (by rw [pow2_128, abs_of_pos (by linarith)]; linarith)
    have r1 : roundQ (v * 65536) ≤ 65536 := roundQ_le_of_repr (by rw [← pow2_16]; exact repr32_pow2 (by decide)) (by linarith)
    have r2 : 65535 ≤ roundQ (v * 65536) := le_roundQ_of_repr (by have := repr32_nat (n := 65535) (by decide); exact_mod_cast this) (by linarith)
    have hidx : ((F32.fin v).mul (F32.ofNat tableSteps)).toUsize = ⌊roundQ (v * 65536)⌋.toNat := by
      rw [ofNat_steps]
      have h3 := mul_val (x := .fin v) (y := .fin 65536) rfl rfl (by rw [pow2_128, abs_of_pos (by linarith)]; linarith)
      obtain ⟨e, -⟩ := h3.valid (by linarith) (by rw [pow2_128, abs_of_pos (by linarith)]; linarith)
      rw [e]
      exact toUsize_fin (by linarith) (by linarith)
    generalize hi : ⌊roundQ (v * 65536)⌋.toNat = i at hidx
    have i1 : 65535 ≤ i := by
      rw [← hi]
      have : (65535 : ℤ) ≤ ⌊roundQ (v * 65536)⌋ := Int.le_floor.mpr (by exact_mod_cast r2)
      omega
    have i2 : i ≤ 65536 := by
      rw [← hi]
      have : ⌊roundQ (v * 65536)⌋ ≤ (65536 : ℤ) := by
        have := Int.floor_le_floor r1
        simpa using this
      omega
    have hval : labf m (.fin v) = .ok (m.cbrt (.fin ((i : ℚ) / 65536))) := by
      unfold labf
      simp only
      rw [litBtw_cutoff.lt hy (by norm_num), if_pos rfl, hidx, lit_one_fin]
      have h0 : (lit 0).lt (.fin v) = true := by rw [lit_zero]; simp only [F32.lt, decide_eq_true_eq]; linarith
      have h1 : (F32.fin v).lt (.fin 1) = true := by simp only [F32.lt, decide_eq_true_eq]; linarith
      rw [h0, h1]
      simp only [Bool.and_self, if_true]
      unfold cbrtLookup
      rw [idx_map_range _ (Nat.lt_succ_of_le i2), step_eq (by omega) i2]
    refine ⟨_, hval, ?_⟩
    have hx : Btw (.fin ((i : ℚ) / 65536)) 16 ((65535 : ℕ) : Int) ((65536 : ℕ) : Int) := by
      refine ⟨_, ⟨rfl, repr32_step i2⟩, ?_, ?_⟩
      · have : (65535 : ℚ) ≤ i := by exact_mod_cast i1
        norm_num; linarith
      · have : (i : ℚ) ≤ 65536 := by exact_mod_cast i2
        norm_num; linarith
    exact cbrt_btw hm hx (by norm_num) (by norm_num) (by decide) (by norm_num) (by decide) (by norm_num)

theorem litBtw_xw : Btw (lit (9642 / 10000)) 20 1011037 1011037 := .of_eq (by decide +kernel) (by decide)
theorem litBtw_zw : Btw (lit (8249 / 10000)) 24 13839525 13839525 := .of_eq (by decide +kernel) (by decide)
theorem litBtw_116 : Btw (lit 116) 0 116 116 := .of_eq (by decide +kernel) (by decide)
theorem litBtw_16 : Btw (lit 16) 0 16 16 := .of_eq (by decide +kernel) (by decide)
theorem litBtw_500 : Btw (lit 500) 0 500 500 := .of_eq (by decide +kernel) (by decide)
theorem litBtw_200 : Btw (lit 200) 0 200 200 := .of_eq (by decide +kernel) (by decide)
theorem litBtw_100 : Btw (lit 100) 0 100 100 := .of_eq (by decide +kernel) (by decide)
theorem litBtw_128 : Btw (lit 128) 0 128 128 := .of_eq (by decide +kernel) (by decide)
theorem litBtw_256 : Btw (lit 256) 0 256 256 := .of_eq (by decide +kernel) (by decide)

/-- White, relative to the reference white of the program, as Lab. -/
theorem white_lab {m : Libm} (hm : AccurateLibm m) {x y z : F32} (hx : Btw x 21 2087816 2087842) (hy : Btw y 21 2097139 2097165) (hz : Btw z 21 2096993 2097019) :
    ∃ l a b, xyzToLab m x y z = .ok (l, a, b) ∧ Btw l 20 1048568 1048580 ∧ Btw a 22 2184956 2185074 ∧ Btw b 22 1880058 1880109 := by
  have hyd : Btw (y.div (lit 1)) 21 2097139 2097165 := hy.div litBtw_one (by norm_num) (by decide) (by unfold Ends; norm_num)
  have hxd : Btw (x.div (lit (9642 / 10000))) 21 ((2165334 : ℕ) : Int) ((2165362 : ℕ) : Int) := hx.div litBtw_xw (by norm_num) (by decide) (by unfold Ends; norm_num)
  have hzd : Btw (z.div (lit (8249 / 10000))) 21 ((2542117 : ℕ) : Int) ((2542150 : ℕ) : Int) := hz.div litBtw_zw (by norm_num) (by decide) (by unfold Ends; norm_num)
  obtain ⟨fy, ey, hfy⟩ := labf_near_one hm hyd
  have hfx : Btw (m.cbrt (x.div (lit (9642 / 10000)))) 20 1059818 1059824 := cbrt_btw hm hxd (by norm_num) (by norm_num) (by decide) (by norm_num) (by decide) (by norm_num)
  have hfz : Btw (m.cbrt (z.div (lit (8249 / 10000)))) 20 1118033 1118040 := cbrt_btw hm hzd (by norm_num) (by norm_num) (by decide) (by norm_num) (by decide) (by norm_num)
  unfold xyzToLab
  simp only
  rw [ey, ok_bind, labf_above hxd (by norm_num), ok_bind, labf_above hzd (by norm_num), ok_bind]
  refine ⟨_, _, _, rfl, ?_, ?_, ?_⟩
  · have h1 : Btw ((lit 116).mul fy) 16 7602132 7602198 := litBtw_116.mul hfy (by decide) (by unfold Ends; norm_num)
    have h2 : Btw (((lit 116).mul fy).sub (lit 16)) 16 6553556 6553622 := h1.sub litBtw_16 (by decide) (by norm_num) (by norm_num)
    exact h2.div litBtw_100 (by norm_num) (by decide) (by unfold Ends; norm_num)
  · have h1 := hfx.sub hfy (k := 20) (a := 11239) (b := 11254) (by decide) (by norm_num) (by norm_num)
    have h2 := litBtw_500.mul h1 (k := 16) (a := 351218) (b := 351688) (by decide) (by unfold Ends; norm_num)
    have h3 := h2.add litBtw_128 (k := 16) (a := 8739826) (b := 8740296) (by decide) (by norm_num) (by norm_num)
    exact h3.div litBtw_256 (by norm_num) (by decide) (by unfold Ends; norm_num)
  · have h1 := hfy.sub hfz (k := 20) (a := -69470) (b := -69454) (by decide) (by norm_num) (by norm_num)
    have h2 := litBtw_200.mul h1 (k := 16) (a := -868375) (b := -868175) (by decide) (by unfold Ends; norm_num)
    have h3 := h2.add litBtw_128 (k := 16) (a := 7520233) (b := 7520433) (by decide) (by norm_num) (by norm_num)
    exact h3.div litBtw_256 (by norm_num) (by decide) (by unfold Ends; norm_num)

/-- The tone curve near one. -/
theorem white_tone {l : F32} (hl : Btw l 20 1048568 1048580) : ∃ t, baseTone l = .ok t ∧ ∃ v, t.val? = some v ∧ 1048512 / 2 ^ 20 ≤ v ∧ v ≤ 1048580 / 2 ^ 20 := by
  obtain ⟨v, hv, v1, v2⟩ := hl
  norm_num at v1 v2
  obtain ⟨a, b, y, z, h1, h2, h3, h4, h5, -, h6⟩ := base_curve_nearly_monotone (.fin (131071 / 131072)) l _ v rfl hv.1 (by norm_num) (by linarith)
  refine ⟨b, h2, z, h4, ?_, ?_⟩
  · have e : ∃ c, baseTone (.fin (131071 / 131072)) = .ok (.fin c) ∧ 1048520 / 2 ^ 20 ≤ c := ⟨16777109 / 16777216, by decide +kernel, by norm_num⟩
    obtain ⟨c, e1, e2⟩ := e
    rw [e1] at h1
    injection h1 with h1
    subst h1
    simp only [val?, Option.some.injEq] at h3
    subst h3
    norm_num at e2 h5 ⊢
    linarith
  · norm_num at h6 ⊢
    linarith

theorem litBtw_d : Btw ((lit 6).div (lit 29)) 26 13884593 13884593 := .of_eq (by decide +kernel) (by decide)
theorem litBtw_i116 : Btw ((lit 1).div (lit 116)) 30 9256395 9256395 := .of_eq (by decide +kernel) (by decide)
theorem litBtw_i500 : Btw ((lit 1).div (lit 500)) 32 8589935 8589935 := .of_eq (by decide +kernel) (by decide)
theorem litBtw_i200 : Btw ((lit 1).div (lit 200)) 30 5368709 5368709 := .of_eq (by decide +kernel) (by decide)

theorem labinvf_above {g : F32} {k : ℕ} {a b : Int} (hg : Btw g k a b) (h : (1 : ℚ) / 2 ≤ a / 2 ^ k) : labinvf g = (g.mul g).mul g := by
  unfold labinvf
  simp only
  rw [litBtw_d.lt hg (by norm_num; linarith), if_pos rfl]

/-- And back from Lab. -/
theorem white_xyz {l a b : F32} {v : ℚ} (hv : l.val? = some v) (v1 : 1048512 / 2 ^ 20 ≤ v) (v2 : v ≤ 1048580 / 2 ^ 20) (ha : Btw a 22 2184956 2185074) (hb : Btw b 22 1880058 1880109) :
    ∃ x y z, labToXyz l a b = (x, y, z) ∧ Btw x 20 1043727 1043957 ∧ Btw y 20 1048408 1048590 ∧ Btw z 20 1048322 1048545 := by
  have hcl := mul_btw (k1 := 20) (a1 := 1048512) (b1 := 1048580) (k := 16) (a := 6553200) (b := 6553625) hv (by push_cast; exact v1) (by push_cast; exact v2) litBtw_100 (by decide) (by unfold Ends; norm_num)
  have hca := (ha.mul litBtw_256 (k := 16) (a := 8739824) (b := 8740296) (by decide) (by unfold Ends; norm_num)).sub litBtw_128 (k := 16) (a := 351216) (b := 351688) (by decide) (by norm_num) (by norm_num)
  have hcb := (hb.mul litBtw_256 (k := 16) (a := 7520232) (b := 7520436) (by decide) (by unfold Ends; norm_num)).sub litBtw_128 (k := 16) (a := -868376) (b := -868172) (by decide) (by norm_num) (by norm_num)
  have hs := hcl.add litBtw_16 (k := 16) (a := 7601776) (b := 7602201) (by decide) (by norm_num) (by norm_num)
  have hgy := litBtw_i116.mul hs (k := 20) (a := 1048520) (b := 1048580) (by decide) (by unfold Ends; norm_num)
  have h5 := litBtw_i500.mul hca (k := 20) (a := 11238) (b := 11255) (by decide) (by unfold Ends; norm_num)
  have h2 := litBtw_i200.mul hcb (k := 20) (a := -69471) (b := -69453) (by decide) (by unfold Ends; norm_num)
  have hgx := hgy.add h5 (k := 20) (a := 1059758) (b := 1059835) (by decide) (by norm_num) (by norm_num)
  have hgz := hgy.sub h2 (k := 20) (a := 1117973) (b := 1118051) (by decide) (by norm_num) (by norm_num)
  refine ⟨_, _, _, rfl, ?_, ?_, ?_⟩
  · rw [labinvf_above hgx (by norm_num)]
    have e1 := hgx.mul hgx (k := 20) (a := 1071059) (b := 1071215) (by decide) (by unfold Ends; norm_num)
    have e2 := e1.mul hgx (k := 20) (a := 1082480) (b := 1082718) (by decide) (by unfold Ends; norm_num)
    exact litBtw_xw.mul e2 (by decide) (by unfold Ends; norm_num)
  · rw [labinvf_above hgy (by norm_num)]
    have e1 := hgy.mul hgy (k := 20) (a := 1048464) (b := 1048585) (by decide) (by unfold Ends; norm_num)
    have e2 := e1.mul hgy (k := 20) (a := 1048408) (b := 1048590) (by decide) (by unfold Ends; norm_num)
    exact litBtw_one.mul e2 (by decide) (by unfold Ends; norm_num)
  · rw [labinvf_above hgz (by norm_num)]
    have e1 := hgz.mul hgz (k := 20) (a := 1191962) (b := 1192130) (by decide) (by unfold Ends; norm_num)
    have e2 := e1.mul hgz (k := 20) (a := 1270848) (b := 1271117) (by decide) (by unfold Ends; norm_num)
    exact litBtw_zw.mul e2 (by decide) (by unfold Ends; norm_num)

theorem rec_00 : Btw (xyzToRec709Matrix 0 0) 22 13591565 13591565 := .of_eq (by decide +kernel) (by decide)
theorem rec_01 : Btw (xyzToRec709Matrix 0 1) 22 (-6447281) (-6447281) := .of_eq (by decide +kernel) (by decide)
theorem rec_02 : Btw (xyzToRec709Matrix 0 2) 22 (-2091013) (-2091013) := .of_eq (by decide +kernel) (by decide)
theorem rec_10 : Btw (xyzToRec709Matrix 1 0) 21 (-2032675) (-2032675) := .of_eq (by decide +kernel) (by decide)
theorem rec_11 : Btw (xyzToRec709Matrix 1 1) 23 15736945 15736945 := .of_eq (by decide +kernel) (by decide)
theorem rec_12 : Btw (xyzToRec709Matrix 1 2) 27 5577543 5577543 := .of_eq (by decide +kernel) (by decide)
theorem rec_20 : Btw (xyzToRec709Matrix 2 0) 28 14937531 14937531 := .of_eq (by decide +kernel) (by decide)
theorem rec_21 : Btw (xyzToRec709Matrix 2 1) 23 (-1711623) (-1711623) := .of_eq (by decide +kernel) (by decide)
theorem rec_22 : Btw (xyzToRec709Matrix 2 2) 20 1108671 1108671 := .of_eq (by decide +kernel) (by decide)

/-- The linear colour: too much red, too little green and blue. -/
theorem white_rec709 {x y z : F32} (hx : Btw x 20 1043727 1043957) (hy : Btw y 20 1048408 1048590) (hz : Btw z 20 1048322 1048545) :
    Btw (dot3 xyzToRec709Matrix 0 x y z) 20 1247598 1248736 ∧ Btw (dot3 xyzToRec709Matrix 1 x y z) 20 998504 999082 ∧
      Btw (dot3 xyzToRec709Matrix 2 x y z) 20 952525 952814 := by
  refine ⟨?_, ?_, ?_⟩
  · have e0 := hx.mul rec_00 (k := 20) (a := 3382178) (b := 3382924) (by decide) (by unfold Ends; norm_num)
    have e1 := hy.mul rec_01 (k := 20) (a := -1611842) (b := -1611562) (by decide) (by unfold Ends; norm_num)
    have e2 := hz.mul rec_02 (k := 20) (a := -522738) (b := -522626) (by decide) (by unfold Ends; norm_num)
    have s := e0.add e1 (k := 20) (a := 1770336) (b := 1771362) (by decide) (by norm_num) (by norm_num)
    exact s.add e2 (by decide) (by norm_num) (by norm_num)
  · have e0 := hx.mul rec_10 (k := 20) (a := -1011861) (b := -1011637) (by decide) (by unfold Ends; norm_num)
    have e1 := hy.mul rec_11 (k := 20) (a := 1966802) (b := 1967145) (by decide) (by unfold Ends; norm_num)
    have e2 := hz.mul rec_12 (k := 20) (a := 43563) (b := 43574) (by decide) (by unfold Ends; norm_num)
    have s := e0.add e1 (k := 20) (a := 954941) (b := 955508) (by decide) (by norm_num) (by norm_num)
    exact s.add e2 (by decide) (by norm_num) (by norm_num)
  · have e0 := hx.mul rec_20 (k := 20) (a := 58079) (b := 58093) (by decide) (by unfold Ends; norm_num)
    have e1 := hy.mul rec_21 (k := 20) (a := -213956) (b := -213918) (by decide) (by unfold Ends; norm_num)
    have e2 := hz.mul rec_22 (k := 20) (a := 1108402) (b := 1108639) (by decide) (by unfold Ends; norm_num)
    have s := e0.add e1 (k := 20) (a := -155877) (b := -155825) (by decide) (by norm_num) (by norm_num)
    exact s.add e2 (by decide) (by norm_num) (by norm_num)

theorem index_btw {x : F32} {k : ℕ} {a b : Int} (hx : Btw x k a b) {i j : ℕ} (h0 : (0 : ℚ) < a / 2 ^ k) (h1 : (i : ℚ) ≤ a / 2 ^ k * 65536) (h2 : (b : ℚ) / 2 ^ k * 65536 < j + 1)
    (h3 : (b : ℚ) / 2 ^ k ≤ 1) : i ≤ gammaIndex x ∧ gammaIndex x ≤ j := by
  obtain ⟨v, hv, v1, v2⟩ := hx
  obtain ⟨rfl, hv'⟩ := hv.valid (by linarith) (by rw [pow2_128, abs_of_pos (by linarith)]; linarith)
  rw [gamma_index_exact _ hv']
  simp only
  rw [min_eq_left (by linarith), max_eq_right (by linarith)]
  have f1 : (i : ℤ) ≤ ⌊v * 65536⌋ := Int.le_floor.mpr (by push_cast; linarith)
  have f2 : ⌊v * 65536⌋ < (j : ℤ) + 1 := Int.floor_lt.mpr (by push_cast; linarith)
  omega

/-- An entry of the gamma table. -/
theorem entry_btw {m : Libm} (hm : AccurateLibm m) {i lo hi : ℕ} (h1 : 32768 ≤ lo) (h2 : lo ≤ i) (h3 : i ≤ hi) (h4 : hi ≤ 65536) {a b : Int} (ha : 0 ≤ a) (hb : 0 ≤ b)
    (hl : ((a : ℚ) / 2 ^ 20) ^ 20 ≤ ((lo : ℚ) / 65536) ^ 9 * (1 - 1 / 2 ^ 17)) (hu : ((hi : ℚ) / 65536) ^ 9 * (1 + 1 / 2 ^ 17) ≤ ((b : ℚ) / 2 ^ 20) ^ 20)
    {a1 b1 a2 b2 : Int} (hB1 : Bounds 20 a1 b1) (hB2 : Bounds 20 a2 b2) (hE : Ends ((1152385 : Int) / 2 ^ 20) ((1152385 : Int) / 2 ^ 20) (a / 2 ^ 20) (b / 2 ^ 20) (a1 / 2 ^ 20) (b1 / 2 ^ 20))
    (hs1 : (a2 : ℚ) / 2 ^ 20 ≤ a1 / 2 ^ 20 - (13287555 : Int) / 2 ^ 27) (hs2 : (b1 : ℚ) / 2 ^ 20 - (13287555 : Int) / 2 ^ 27 ≤ b2 / 2 ^ 20) :
    Btw (gammaEntry m i) 20 a2 b2 := by
  have i1 : (lo : ℚ) ≤ i := by exact_mod_cast h2
  have i2 : (i : ℚ) ≤ hi := by exact_mod_cast h3
  have i3 : (hi : ℚ) ≤ 65536 := by exact_mod_cast h4
  have i0 : (32768 : ℚ) ≤ lo := by exact_mod_cast h1
  obtain ⟨r, hr, r0, e, hp⟩ := hm.powf ((i : ℚ) / 65536) (step_valid (by omega) (by omega)) (by linarith) (by linarith)
  have hp' := abs_le.mp hp
  have q1 : ((lo : ℚ) / 65536) ^ 9 ≤ ((i : ℚ) / 65536) ^ 9 := pow_le_pow_left₀ (by positivity) (by linarith) 9
  have q2 : ((i : ℚ) / 65536) ^ 9 ≤ ((hi : ℚ) / 65536) ^ 9 := pow_le_pow_left₀ (by positivity) (by linarith) 9
  have ha' : (0 : ℚ) ≤ (a : ℚ) / 2 ^ 20 := div_nonneg (by exact_mod_cast ha) (by positivity)
  have hb' : (0 : ℚ) ≤ (b : ℚ) / 2 ^ 20 := div_nonneg (by exact_mod_cast hb) (by positivity)
  have hrb : Btw (.fin r) 20 a b := by
    refine ⟨r, ⟨rfl, valid_repr hr⟩, ?_, ?_⟩
    · refine le_of_pow_le_pow_left₀ (n := 20) (by decide) r0 (le_trans hl ?_)
      linarith
    · refine le_of_pow_le_pow_left₀ (n := 20) (by decide) hb' (le_trans ?_ hu)
      linarith
  unfold gammaEntry
  simp only
  have hle : ((F32.ofNat i).div (F32.ofNat tableSteps)).le (lit (18 / 1000)) = false := by
    rw [step_eq (by omega) (by omega), lit_018]
    simp only [F32.le, F32.lt, F32.feq]
    have : ¬ ((i : ℚ) / 65536 < 2415919 / 134217728) := by rw [not_lt]; linarith
    have h2 : ¬ ((i : ℚ) / 65536 = 2415919 / 134217728) := by intro h; rw [h] at this; linarith
    simp [this, h2]
  rw [hle, if_neg (by decide), step_eq (by omega) (by omega), e]
  have f1 : Btw ((lit 1).add (lit (99 / 1000))) 20 1152385 1152385 := .of_eq (by decide +kernel) (by decide)
  have f2 : Btw (lit (99 / 1000)) 27 13287555 13287555 := .of_eq (by decide +kernel) (by decide)
  exact (f1.mul hrb hB1 hE).sub f2 hB2 hs1 hs2

theorem byte_btw {x : F32} {a b : Int} (hx : Btw x 20 a b) {n : ℕ} (h0 : 0 ≤ a) (h1 : b ≤ 2 ^ 20) (hn : n < 255) (hl : (n : ℚ) ≤ a / 2 ^ 20 * 255)
    (hu : (b : ℚ) / 2 ^ 20 * 255 ≤ n + 1 - 1 / 2 ^ 10) : srgbByte x = n := by
  obtain ⟨v, hv, v1, v2⟩ := hx
  have a0 : (0 : ℚ) ≤ a / 2 ^ 20 := div_nonneg (by exact_mod_cast h0) (by positivity)
  have b1 : (b : ℚ) / 2 ^ 20 ≤ 1 := by rw [div_le_one (by positivity)]; exact_mod_cast h1
  rw [srgbByte_exact x v hv.1 (by linarith) (by linarith)]
  have e1 : (n : ℚ) ≤ roundQ (v * 255) := le_roundQ_of_repr (repr32_nat (by omega)) (by linarith)
  have e2 : roundQ (v * 255) ≤ (((n + 1) * 1024 - 1 : ℕ) : Int) / 2 ^ 10 := by
    refine roundQ_le_of_repr (repr32_dyadic (by decide) ?_) ?_
    · rw [Nat.abs_cast]; exact_mod_cast (by omega : (n + 1) * 1024 - 1 ≤ 2 ^ 24)
    · rw [Int.cast_natCast, Nat.cast_sub (by omega)]
      push_cast
      linarith
  rw [Int.cast_natCast, Nat.cast_sub (by omega)] at e2
  push_cast at e2
  have f : ⌊roundQ (v * 255)⌋ = (n : ℤ) := by
    rw [Int.floor_eq_iff]
    push_cast
    exact ⟨e1, by linarith⟩
  rw [f]
  rfl

/-- The last entry of the table, for everything from one upwards. -/
theorem index_top {x : F32} {k : ℕ} {a b : Int} (hx : Btw x k a b) (h : (1 : ℚ) ≤ a / 2 ^ k) (h' : (b : ℚ) / 2 ^ k ≤ 2) : gammaIndex x = 65536 := by
  obtain ⟨v, hv, v1, v2⟩ := hx
  obtain ⟨rfl, hv'⟩ := hv.valid (by linarith) (by rw [pow2_128, abs_of_pos (by linarith)]; linarith)
  rw [gamma_index_exact _ hv']
  simp only
  rw [min_eq_right (by linarith), max_eq_right (by norm_num)]
  norm_num
  rfl

theorem entry_top {m : Libm} (hm : AccurateLibm m) : gammaEntry m 65536 = .fin 1 := by
  unfold gammaEntry
  simp only
  rw [step_eq (by decide) (by decide)]
  rw [show ((65536 : ℕ) : ℚ) / 65536 = 1 by norm_num, hm.one]
  decide +kernel

/-- The bytes of white: 255, 248 and 243. -/
def castByte : ℕ → ℕ
  | 0 => 255
  | 1 => 248
  | _ => 243

/-- **C89.** White relative to the reference white of the program, after the remaining stages. -/
theorem white_pixel {m : Libm} (hm : AccurateLibm m) {x y z : F32} (hx : Btw x 21 2087816 2087842) (hy : Btw y 21 2097139 2097165) (hz : Btw z 21 2096993 2097019)
    {l a b t : F32} (hlab : xyzToLab m x y z = .ok (l, a, b)) (ht : baseTone l = .ok t) (i : ℕ) (hi : i < 3) :
    srgbByte (gammaEntry m (gammaIndex (dot3 xyzToRec709Matrix i (labToXyz t a b).1 (labToXyz t a b).2.1 (labToXyz t a b).2.2))) = castByte i := by
  obtain ⟨l', a', b', e, hl, ha, hb⟩ := white_lab hm hx hy hz
  rw [e] at hlab
  injection hlab with hlab
  rw [Prod.mk.injEq, Prod.mk.injEq] at hlab
  obtain ⟨rfl, rfl, rfl⟩ := hlab
  obtain ⟨t', e, v, hv, v1, v2⟩ := white_tone hl
  rw [e] at ht
  injection ht with ht
  subst ht
  obtain ⟨x', y', z', e, hx', hy', hz'⟩ := white_xyz hv v1 v2 ha hb
  rw [e]
  obtain ⟨h0, h1, h2⟩ := white_rec709 hx' hy' hz'
  interval_cases i
  · rw [index_top h0 (by norm_num) (by norm_num), entry_top hm]
    decide +kernel
  · obtain ⟨i1, i2⟩ := index_btw (i := 62406) (j := 62442) h1 (by norm_num) (by norm_num) (by norm_num) (by norm_num)
    have := entry_btw hm (lo := 62406) (hi := 62442) (a := 1025736) (b := 1026004) (a1 := 1127283) (b1 := 1127579) (a2 := 1023473) (b2 := 1023770) (by decide) i1 i2 (by decide) (by decide) (by decide)
      (by norm_num) (by norm_num) (by decide) (by decide) (by unfold Ends; norm_num) (by norm_num) (by norm_num)
    exact byte_btw this (by decide) (by decide) (by decide) (by norm_num [castByte]) (by norm_num [castByte])
  · obtain ⟨i1, i2⟩ := index_btw (i := 59532) (j := 59550) h2 (by norm_num) (by norm_num) (by norm_num) (by norm_num)
    have := entry_btw hm (lo := 59532) (hi := 59550) (a := 1004202) (b := 1004341) (a1 := 1103617) (b1 := 1103771) (a2 := 999807) (b2 := 999962) (by decide) i1 i2 (by decide) (by decide) (by decide)
      (by norm_num) (by norm_num) (by decide) (by decide) (by unfold Ends; norm_num) (by norm_num) (by norm_num)
    exact byte_btw this (by decide) (by decide) (by decide) (by norm_num [castByte]) (by norm_num [castByte])

/-! ## The library -/

theorem root_exists (k : ℕ) (hk : k ≠ 0) {t : ℚ} (ht : 0 ≤ t) : ∃ n : ℕ, (n : ℚ) ^ k ≤ t ∧ t < ((n : ℚ) + 1) ^ k := by
  have hex : ∃ n : ℕ, t < ((n : ℚ) + 1) ^ k := by
    obtain ⟨n, hn⟩ : ∃ n : ℕ, t < n := ⟨⌊t⌋.toNat + 1, by
      have h1 := Int.lt_floor_add_one t
      have h2 : ((⌊t⌋.toNat : ℤ) : ℚ) = ⌊t⌋ := by rw [Int.toNat_of_nonneg (Int.floor_nonneg.mpr ht)]
      push_cast at h2 ⊢
      linarith⟩
    refine ⟨n, lt_of_lt_of_le (lt_trans hn (by linarith : (n : ℚ) < n + 1)) (le_self_pow₀ (by linarith [(Nat.cast_nonneg n : (0 : ℚ) ≤ n)]) hk)⟩
  classical
  refine ⟨Nat.find hex, ?_, Nat.find_spec hex⟩
  rcases Nat.eq_zero_or_pos (Nat.find hex) with h0 | h0
  · rw [h0, Nat.cast_zero, zero_pow hk]; exact ht
  · have := Nat.find_min hex (m := Nat.find hex - 1) (by omega)
    rw [not_lt, Nat.cast_sub (by omega), Nat.cast_one, sub_add_cancel] at this
    exact this

theorem grid_root_exists (k : ℕ) (hk : k ≠ 0) {t g : ℚ} (ht : 0 ≤ t) (hg : 0 < g) : ∃ n : ℕ, ((n : ℚ) / g) ^ k ≤ t ∧ t < (((n : ℚ) + 1) / g) ^ k := by
  obtain ⟨n, h1, h2⟩ := root_exists k hk (t := t * g ^ k) (by positivity)
  have hp : 0 < g ^ k := by positivity
  exact ⟨n, by rw [div_pow, div_le_iff₀ hp]; exact h1, by rw [div_pow, lt_div_iff₀ hp]; exact h2⟩

theorem grid_valid {n k : ℕ} (h0 : 0 < n) (hn : n ≤ 2 ^ 24) (hk : k ≤ 149) : (F32.fin ((n : ℚ) / 2 ^ k)).Valid := by
  have ha : |((n : ℕ) : Int)| ≤ 2 ^ 24 := by rw [Nat.abs_cast]; exact_mod_cast hn
  have h := repr32_dyadic (k := k) (a := n) hk ha
  have hs := dyadic_small (k := k) (a := n) ha
  rw [Int.cast_natCast] at h hs
  have : (0 : ℚ) < n := by exact_mod_cast h0
  exact ⟨by positivity, roundQ_of_repr h, by rw [ratAbs_eq]; exact hs⟩

theorem cube_root_exists {q : ℚ} (h1 : 1 / 2 ≤ q) (h2 : q ≤ 2) : ∃ r, (F32.fin r).Valid ∧ |r ^ 3 - q| ≤ q / 2 ^ 20 := by
  obtain ⟨n, e1, e2⟩ := root_exists 3 (by decide) (t := q * 2 ^ 69) (by positivity)
  have n1 : (6600000 : ℚ) ≤ n := by
    by_contra h
    have : ((n : ℚ) + 1) ^ 3 ≤ 6600001 ^ 3 := pow_le_pow_left₀ (by positivity) (by linarith [not_le.mp h]) 3
    norm_num at this e2
    linarith
  have n2 : (n : ℚ) ≤ 2 ^ 24 := by
    refine le_of_pow_le_pow_left₀ (n := 3) (by decide) (by norm_num) (le_trans e1 ?_)
    norm_num
    linarith
  have n0 : 0 < n := by
    have : (0 : ℚ) < n := by linarith
    exact_mod_cast this
  refine ⟨(n : ℚ) / 2 ^ 23, grid_valid n0 (by exact_mod_cast n2) (by decide), ?_⟩
  have e3 : (n : ℚ) ^ 2 * 6600000 ≤ n ^ 3 := by nlinarith [sq_nonneg (n : ℚ)]
  have e4 : (n : ℚ) * 6600000 ≤ n ^ 2 := by nlinarith
  have e5 : ((n : ℚ) / 2 ^ 23) ^ 3 = n ^ 3 / 2 ^ 69 := by rw [div_pow, ← pow_mul]
  rw [e5, abs_le]
  norm_num at e1 e2 ⊢
  constructor
  · nlinarith
  · linarith

theorem power_exists {q : ℚ} (h1 : 1 / 2 ≤ q) (h2 : q ≤ 1) : ∃ r, (F32.fin r).Valid ∧ 0 ≤ r ∧ |r ^ 20 - q ^ 9| ≤ q ^ 9 / 2 ^ 17 ∧ (q = 1 → r = 1) := by
  by_cases hq1 : q = 1
  · subst hq1
    exact ⟨1, ⟨by norm_num, by decide +kernel, by rw [ratAbs_eq, pow2_128]; norm_num⟩, by norm_num, by norm_num, fun _ => rfl⟩
  obtain ⟨n, e1, e2⟩ := grid_root_exists 20 (by decide) (t := q ^ 9) (g := 2 ^ 24) (by positivity) (by positivity)
  have p1 : (1 / 2 : ℚ) ^ 9 ≤ q ^ 9 := pow_le_pow_left₀ (by norm_num) h1 9
  have p2 : q ^ 9 ≤ 1 := pow_le_one₀ (by linarith) h2
  have n1 : (8388608 : ℚ) ≤ n := by
    by_contra h
    have hlt : n < 8388608 := by
      have := not_le.mp h
      exact_mod_cast this
    have hle : (n : ℚ) + 1 ≤ 8388608 := by exact_mod_cast hlt
    have : (((n : ℚ) + 1) / 2 ^ 24) ^ 20 ≤ (1 / 2) ^ 20 := pow_le_pow_left₀ (by positivity) (by rw [div_le_iff₀ (by positivity)]; norm_num; linarith) 20
    have h5 : ((1 : ℚ) / 2) ^ 20 < (1 / 2) ^ 9 := by norm_num
    linarith
  have hx1 : (n : ℚ) / 2 ^ 24 ≤ 1 := by
    refine le_of_pow_le_pow_left₀ (n := 20) (by decide) (by norm_num) (le_trans e1 ?_)
    rw [one_pow]; exact p2
  have n2 : (n : ℚ) ≤ 2 ^ 24 := by rwa [div_le_one (by positivity)] at hx1
  have n0 : 0 < n := by
    have : (0 : ℚ) < n := by linarith
    exact_mod_cast this
  refine ⟨(n : ℚ) / 2 ^ 24, grid_valid n0 (by exact_mod_cast n2) (by decide), by positivity, ?_, fun h => absurd h hq1⟩
  have e3 : (((n : ℚ) + 1) / 2 ^ 24) ^ 20 ≤ ((n : ℚ) / 2 ^ 24) ^ 20 * (1 + 1 / 2 ^ 18) := by
    have h3 : ((n : ℚ) + 1) / 2 ^ 24 ≤ (n : ℚ) / 2 ^ 24 * (1 + 1 / 8388608) := by
      rw [div_mul_eq_mul_div]
      exact div_le_div_of_nonneg_right (by linarith) (by positivity)
    refine le_trans (pow_le_pow_left₀ (by positivity) h3 20) ?_
    rw [mul_pow]
    exact mul_le_mul_of_nonneg_left (by norm_num) (by positivity)
  generalize ((n : ℚ) / 2 ^ 24) ^ 20 = x at *
  have p0 : 0 ≤ q ^ 9 := by positivity
  generalize q ^ 9 = y at *
  rw [abs_le]
  norm_num at e3 ⊢
  constructor <;> linarith

/-- Such a library exists. -/
theorem accurate_exists : ∃ m : Libm, AccurateLibm m := by
  have hc : ∀ x : F32, ∃ y : F32, ∀ q : ℚ, x = .fin q → 1 / 2 ≤ q → q ≤ 2 → ∃ r, (F32.fin r).Valid ∧ y = .fin r ∧ |r ^ 3 - q| ≤ q / 2 ^ 20 := by
    intro x
    by_cases h : ∃ q : ℚ, x = .fin q ∧ 1 / 2 ≤ q ∧ q ≤ 2
    · obtain ⟨q, rfl, h1, h2⟩ := h
      obtain ⟨r, r1, r2⟩ := cube_root_exists h1 h2
      refine ⟨.fin r, fun q' e _ _ => ⟨r, r1, rfl, ?_⟩⟩
      injection e with e
      rw [← e]; exact r2
    · exact ⟨.nan, fun q e h1 h2 => absurd ⟨q, e, h1, h2⟩ h⟩
  have hp : ∀ x : F32, ∃ y : F32, ∀ q : ℚ, x = .fin q → 1 / 2 ≤ q → q ≤ 1 → ∃ r, (F32.fin r).Valid ∧ 0 ≤ r ∧ y = .fin r ∧ |r ^ 20 - q ^ 9| ≤ q ^ 9 / 2 ^ 17 ∧ (q = 1 → r = 1) := by
    intro x
    by_cases h : ∃ q : ℚ, x = .fin q ∧ 1 / 2 ≤ q ∧ q ≤ 1
    · obtain ⟨q, rfl, h1, h2⟩ := h
      obtain ⟨r, r1, r2, r3, r4⟩ := power_exists h1 h2
      refine ⟨.fin r, fun q' e _ _ => ⟨r, r1, r2, rfl, ?_⟩⟩
      injection e with e
      rw [← e]; exact ⟨r3, r4⟩
    · exact ⟨.nan, fun q e h1 h2 => absurd ⟨q, e, h1, h2⟩ h⟩
  obtain ⟨c, hc⟩ := Classical.axiomOfChoice hc
  obtain ⟨p, hp⟩ := Classical.axiomOfChoice hp
  refine ⟨⟨c, fun x _ => p x⟩, fun q _ h1 h2 => hc _ q rfl h1 h2, fun q _ h1 h2 => ?_, ?_⟩
  · obtain ⟨r, r1, r2, r3, r4, -⟩ := hp _ q rfl h1 h2
    exact ⟨r, r1, r2, r3, r4⟩
  · obtain ⟨r, -, -, r3, -, r5⟩ := hp _ 1 rfl (by norm_num) (by norm_num)
    rw [r5 rfl] at r3
    exact r3

end Props

import Verif.Props.PackedMore
/-!
# C07 (clamping) and C44 (dithered lookup)
-/

namespace Props
open Rust Spec Model

/-! ## C07 -/

/-- Saturation to `n` bits, the specification. -/
def saturate (v : Int) (n : Nat) : Int := max 0 (min v (2 ^ n - 1))

/-- C07, the part that holds: values in range are untouched and negative values become zero. What is missing is saturation above
the range, which is false for fewer than sixteen bits (`clampbits_not_saturating`): such values become `-1`. -/
theorem clampbits_partial (v : Int) (n : Nat) (h1 : 1 ≤ n) (h16 : n ≤ 16) (hv : -2147483648 ≤ v ∧ v < 2147483648) :
    (v < 2 ^ n → clampbits v n = saturate v n) ∧ (2 ^ n ≤ v → clampbits v n = -1) := by
  have hp : (0 : Int) < 2 ^ n := Int.pow_pos (by omega)
  have hq : (0 : Int) < 2 ^ (32 - n) := Int.pow_pos (by omega)
  have hpq : (2 : Int) ^ n * 2 ^ (32 - n) = 4294967296 := by
    rw [← Int.pow_add, show n + (32 - n) = 32 by omega]; rfl
  unfold clampbits saturate sarI
  simp only
  refine ⟨fun hlt => ?_, fun hge => ?_⟩
  · by_cases h0 : 0 ≤ v
    · have : v / 2 ^ n = 0 := Int.ediv_eq_zero_of_lt h0 hlt
      rw [if_neg (by omega)]
      omega
    · have hneg : v / 2 ^ n < 0 := Int.ediv_neg_of_neg_of_pos (by omega) hp
      rw [if_pos (by omega)]
      have hlo : -(2 ^ (32 - n)) ≤ v / 2 ^ n := by
        rw [Int.le_ediv_iff_mul_le hp]
        have : -(2 : Int) ^ (32 - n) * 2 ^ n = -4294967296 := by rw [Int.neg_mul, Int.mul_comm, hpq]
        omega
      rw [Int.ediv_eq_zero_of_lt (by omega) (by omega)]
      omega
  · have hpos : 1 ≤ v / 2 ^ n := by
      rw [Int.le_ediv_iff_mul_le hp]; omega
    rw [if_pos (by omega)]
    have hhi : v / 2 ^ n < 2 ^ (32 - n) := by
      apply Int.ediv_lt_of_lt_mul hp
      rw [Int.mul_comm, hpq]; omega
    have e : -(v / 2 ^ n) - 1 = (2 ^ (32 - n) - (v / 2 ^ n) - 1) + (-1) * 2 ^ (32 - n) := by omega
    rw [e, Int.add_mul_ediv_right _ _ (by omega), Int.ediv_eq_zero_of_lt (by omega) (by omega)]
    omega

/-- C07. Values too large for fewer than sixteen bits are not saturated: clamping an overexposed value to `n < 16` bits and
storing it gives 65535 for every such value, never `2^n - 1`. -/
theorem clampbits_not_saturating (v : Int) (n : Nat) (h1 : 1 ≤ n) (h16 : n < 16) (hv : 2 ^ n ≤ v ∧ v < 2147483648) :
    toU16 (clampbits v n) = 65535 ∧ toU16 (saturate v n) = 2 ^ n - 1 ∧ (2 : Nat) ^ n - 1 < 65535 := by
  have hp : (0 : Int) < 2 ^ n := Int.pow_pos (by omega)
  have hlt : (2 : Nat) ^ n < 2 ^ 16 := Nat.pow_lt_pow_right (by omega) h16
  have hpn : 0 < (2 : Nat) ^ n := Nat.pow_pos (by omega)
  have hc : ((2 : Nat) ^ n : Int) = 2 ^ n := by exact_mod_cast rfl
  rw [(clampbits_partial v n h1 (by omega) ⟨by omega, hv.2⟩).2 hv.1]
  refine ⟨by decide, ?_, by omega⟩
  unfold saturate toU16
  rw [Int.min_eq_right (by omega), Int.max_eq_right (by omega), Int.emod_eq_of_lt (by omega) (by omega)]
  omega

/-- C07 at sixteen bits, as used for Canon sRaw: after the cast to `u16` clamping saturates on both sides. -/
theorem clampbits16_saturates (v : Int) (hv : -2147483648 ≤ v ∧ v < 2147483648) :
    (toU16 (clampbits v 16) : Int) = saturate v 16 := by
  have h := clampbits_partial v 16 (by omega) (by omega) hv
  by_cases hlt : v < 2 ^ 16
  · rw [h.1 hlt]
    unfold saturate toU16
    omega
  · rw [h.2 (by omega)]
    unfold saturate
    have : toU16 (-1) = 65535 := by decide
    omega

example : clampbits 5000 12 = -1 ∧ clampbits 4095 12 = 4095 ∧ clampbits (-3) 12 = 0 ∧ saturate 5000 12 = 4095 := by decide
example : toU16 (clampbits 70000 16) = 65535 := by decide
example : toU16 (clampbits 40000 15) = 65535 ∧ toU16 (saturate 40000 15) = 32767 := by
  have := clampbits_not_saturating 40000 15 (by decide) (by decide) (by decide)
  exact ⟨this.1, this.2.1⟩

/-! ## C44 -/

/-- The neighbours of entry `i` of a curve, repeated at the ends. -/
def below (t : List Nat) (i : Nat) : Nat := if i = 0 then t[0]?.getD 0 else t[i - 1]?.getD 0
def above (t : List Nat) (i : Nat) : Nat := if i + 1 < t.length then t[i + 1]?.getD 0 else t[i]?.getD 0

/-- The condition on curves under which dithering is well defined at entry `i`: increasing around `i`, not so steep that a
quarter of the local rise leaves the 16-bit range. -/
def gentle (t : List Nat) (i : Nat) : Prop :=
  below t i ≤ t[i]?.getD 0 ∧ t[i]?.getD 0 ≤ above t i ∧ above t i - below t i + 2 ≤ 65535 ∧
  (t[i]?.getD 0 = 0 ∨ (above t i - below t i + 2) / 4 ≤ t[i]?.getD 0) ∧
  t[i]?.getD 0 + (above t i - below t i + 2) / 4 ≤ 65535

instance (t : List Nat) (i : Nat) : Decidable (gentle t i) := by unfold gentle; infer_instance

theorem entry_eq (b : Build) (t : List Nat) (i : Nat) (hi : i < t.length) (hg : gentle t i) :
    LookupTable.entry b t i = .ok (t[i]?.getD 0,
      (if t[i]?.getD 0 = 0 then 0 else t[i]?.getD 0 - (above t i - below t i + 2) / 4), above t i - below t i) := by
  obtain ⟨g1, g2, g3, g4, g5⟩ := hg
  have e0 : idx t i = .ok (t[i]?.getD 0) := by rw [idx_lt hi]; simp [hi]
  have e1 : (if i > 0 then idx t (i - 1) else .ok (t[i]?.getD 0)) = (.ok (below t i) : M Nat) := by
    unfold below
    by_cases h0 : i = 0
    · subst h0; simp
    · rw [if_pos (by omega), if_neg h0, idx_lt (by omega)]
      simp [show i - 1 < t.length by omega]
  have e2 : (if i < t.length - 1 then idx t (i + 1) else .ok (t[i]?.getD 0)) = (.ok (above t i) : M Nat) := by
    unfold above
    by_cases h0 : i + 1 < t.length
    · rw [if_pos (by omega), if_pos h0, idx_lt h0]; simp [h0]
    · rw [if_neg (by omega), if_neg h0]
  unfold LookupTable.entry
  simp only [e0, ok_bind]
  generalize t[i]?.getD 0 = c at *
  have core : ∀ l u, l = below t i → u = above t i → (do
      let base ← if c = 0 then .ok 0 else do
        let d ← subU 16 b u l
        let d2 ← addU 16 b d 2
        subU 16 b c (d2 / 4)
      let delta ← subU 16 b u l
      .ok (c, base, delta) : M (Nat × Nat × Nat)) =
      .ok (c, (if c = 0 then 0 else c - (above t i - below t i + 2) / 4), above t i - below t i) := by
    intro l u hl hu
    subst hl hu
    by_cases hc : c = 0
    · simp only [hc, if_true]
      rw [subU_ok (by omega)]; simp
    · simp only [hc, if_false]
      rw [subU_ok (by omega), ok_bind, addU_ok (by omega), ok_bind, subU_ok (by omega)]
      simp
  by_cases h0 : i > 0
  · simp only [h0, if_true] at e1 ⊢
    rw [e1, ok_bind]
    by_cases hl : i < t.length - 1
    · simp only [hl, if_true] at e2 ⊢
      rw [e2, ok_bind]
      exact core _ _ rfl rfl
    · simp only [hl, if_false, Except.ok.injEq] at e2 ⊢
      exact core _ _ rfl e2
  · simp only [h0, if_false, Except.ok.injEq] at e1 ⊢
    by_cases hl : i < t.length - 1
    · simp only [hl, if_true] at e2 ⊢
      rw [e2, ok_bind]
      exact core _ _ e1 rfl
    · simp only [hl, if_false, Except.ok.injEq] at e2 ⊢
      exact core _ _ e1 e2

/-- C44. For a curve that is gentle everywhere the dithering table is built without overflow in every build, and looking up
entry `i` with any 32-bit random state succeeds, gives a value within a quarter of the local rise of the curve
(half of it where the curve is zero) that fits 16 bits, and keeps the state in 32 bits. -/
theorem dither_near_curve (b : Build) (t : List Nat) (hg : ∀ i, i < t.length → gentle t i) :
    ∃ tbl, LookupTable.new b t = .ok tbl ∧ tbl.table.length = t.length ∧
      ∀ i rand, i < t.length → rand < 2 ^ 32 → ∃ p rand', tbl.dither b i rand = .ok (p, rand') ∧
        p < 65536 ∧ rand' < 2 ^ 32 ∧ (0 < t[i]?.getD 0 →
          t[i]?.getD 0 ≤ p + (above t i - below t i + 2) / 4 ∧ p ≤ t[i]?.getD 0 + (above t i - below t i + 2) / 4) ∧
        (t[i]?.getD 0 = 0 → p ≤ (above t i + 1) / 2) := by
  refine ⟨⟨(List.range t.length).map fun i => (t[i]?.getD 0,
      (if t[i]?.getD 0 = 0 then 0 else t[i]?.getD 0 - (above t i - below t i + 2) / 4), above t i - below t i)⟩, ?_, ?_, ?_⟩
  · unfold LookupTable.new
    rw [mapM_ok _ _ _ (fun i hi => entry_eq b t i (List.mem_range.mp hi) (hg i (List.mem_range.mp hi))), ok_bind]
  · simp
  · intro i rand hi hr
    obtain ⟨g1, g2, g3, g4, g5⟩ := hg i hi
    have hlook : idx ((List.range t.length).map fun i => (t[i]?.getD 0,
        (if t[i]?.getD 0 = 0 then 0 else t[i]?.getD 0 - (above t i - below t i + 2) / 4), above t i - below t i)) i =
        .ok (t[i]?.getD 0,
          (if t[i]?.getD 0 = 0 then 0 else t[i]?.getD 0 - (above t i - below t i + 2) / 4), above t i - below t i) := by
      rw [idx_lt (by simpa using hi)]; simp
    unfold LookupTable.dither
    simp only [hlook, ok_bind, and_07ff, and_ffff]
    generalize t[i]?.getD 0 = c at *
    generalize hd : above t i - below t i = d at *
    have hm : d * (rand % 2048) ≤ d * 2047 := Nat.mul_le_mul_left _ (by omega)
    have hs : rand >>> 16 = rand / 65536 := Nat.shiftRight_eq_div_pow _ _
    have hs2 : ∀ x, x >>> 12 = x / 4096 := fun x => Nat.shiftRight_eq_div_pow _ _
    rw [mulU_ok (by omega), ok_bind, addU_ok (by omega), ok_bind, hs2]
    generalize d * (rand % 2048) = q at *
    have hbase : (if c = 0 then 0 else c - (d + 2) / 4) + (q + 1024) / 4096 < 65536 := by split <;> omega
    rw [addU_ok (by omega), ok_bind, mulU_ok (by omega), ok_bind, hs, addU_ok (by omega), ok_bind]
    refine ⟨_, _, rfl, by omega, by omega, ?_, ?_⟩
    · intro hc
      rw [if_neg (by omega)] at hbase ⊢
      omega
    · intro hc
      rw [if_pos hc] at hbase ⊢
      omega

/-- C44. The condition is needed: a decreasing curve and a curve rising too fast from a small value panic in a checked build
(and wrap in the other), and without the upper bound the result wraps around. -/
theorem dither_condition_needed :
    LookupTable.new .debug [5, 3] = crash ∧ LookupTable.new .debug [0, 1, 8] = crash ∧
    LookupTable.new .release [0, 1, 8] = .ok ⟨[(0, 0, 1), (1, 65535, 8), (8, 6, 7)]⟩ ∧
    (do let t ← LookupTable.new .debug [0, 65533]; t.dither .debug 1 2047) = .ok (16364, 32137900) := by
  refine ⟨by decide, by decide, by decide, by decide⟩

/-- The state of the random generator and the arithmetic of a lookup stay in range for every table of 16-bit entries: no build
can tell the difference. -/
theorem dither_never_overflows (b : Build) (tbl : LookupTable) (i rand : Nat) (hi : i < tbl.table.length)
    (ht : ∀ e ∈ tbl.table, e.2.1 < 65536 ∧ e.2.2 < 65536) (hr : rand < 2 ^ 32) :
    ∃ p rand', tbl.dither b i rand = .ok (p, rand') ∧ p < 65536 ∧ rand' < 2 ^ 32 := by
  have he := ht _ (List.getElem_mem hi)
  unfold LookupTable.dither
  rw [idx_lt hi, ok_bind]
  simp only [and_07ff, and_ffff]
  generalize tbl.table[i] = e at *
  have hm : e.2.2 * (rand % 2048) ≤ 65535 * 2047 := Nat.mul_le_mul (by omega) (by omega)
  have hs : rand >>> 16 = rand / 65536 := Nat.shiftRight_eq_div_pow _ _
  have hs2 : ∀ x, x >>> 12 = x / 4096 := fun x => Nat.shiftRight_eq_div_pow _ _
  rw [mulU_ok (by omega), ok_bind, addU_ok (by omega), ok_bind, hs2]
  rw [addU_ok (by omega), ok_bind, mulU_ok (by omega), ok_bind, hs, addU_ok (by omega), ok_bind]
  exact ⟨_, _, rfl, by omega, by omega⟩

example : ∃ p r, (do let t ← LookupTable.new .debug [0, 100, 200, 320]; t.dither .debug 2 123456789) = .ok (p, r) ∧
    200 ≤ p + 55 ∧ p ≤ 255 := by
  obtain ⟨tbl, h1, _, h3⟩ := dither_near_curve .debug [0, 100, 200, 320] (by decide)
  obtain ⟨p, r, h4, _, _, h5, _⟩ := h3 2 123456789 (by decide) (by decide)
  exact ⟨p, r, by rw [h1]; exact h4, (h5 (by decide)).1, (h5 (by decide)).2⟩

/-! ## C14 for the table-driven 8-bit raster -/

theorem wtableLoop_length (b : Build) (tbl : LookupTable) : ∀ (out : List Nat) (inb : Bytes) (rand : Nat) (r : List Nat),
    wtableLoop b tbl out inb rand = .ok r → r.length = out.length ∧
      (∀ c, inb.length ≤ c → r[c]? = out[c]?) ∧
      ((∀ x ∈ out, x < 65536) → ∀ x ∈ r, x < 65536) := by
  intro out
  induction out with
  | nil => intro inb rand r h; simp [wtableLoop] at h; subst h; exact ⟨rfl, fun _ _ => rfl, fun h => h⟩
  | cons o os ih =>
    intro inb rand r h
    cases inb with
    | nil => simp [wtableLoop] at h; subst h; exact ⟨rfl, fun _ _ => rfl, fun h => h⟩
    | cons i is =>
      simp only [wtableLoop, bind_eq_ok, Except.ok.injEq] at h
      obtain ⟨⟨p, rand'⟩, hd, rest, hrest, rfl⟩ := h
      obtain ⟨h1, h2, h3⟩ := ih is rand' rest hrest
      refine ⟨by simp [h1], ?_, ?_⟩
      · intro c hc
        cases c with
        | zero => simp at hc
        | succ c => simpa using h2 c (by simpa using hc)
      · intro ho x hx
        rcases List.mem_cons.mp hx with rfl | hx
        · unfold LookupTable.dither at hd
          simp only [bind_eq_ok, Except.ok.injEq, Prod.mk.injEq] at hd
          obtain ⟨_, _, _, _, _, _, _, _, _, _, _, _, rfl, _⟩ := hd
          omega
        · exact h3 (fun y hy => ho y (by simp [hy])) x hx

/-- C14. -/
theorem decode_8bit_wtable_size (b : Build) (buf : Bytes) (tbl : LookupTable) (w h : Nat) (out : List Nat)
    (ho : decode_8bit_wtable b buf tbl w h = .ok out) :
    out.length = w * h ∧ (∀ x ∈ out, x < 2 ^ 16) ∧
    ∀ r c, r < h → c < w → buf.length ≤ r * w + c → out[r * w + c]? = some 0 := by
  have hrow : ∀ r l, (do
      let inb ← sliceFrom buf (r * w)
      let random ← LEu32 inb 0
      wtableLoop b tbl (List.replicate w 0) inb random) = .ok l → l.length = w ∧ (∀ x ∈ l, x < 65536) ∧
        ∀ c, c < w → buf.length ≤ r * w + c → l[c]? = some 0 := by
    intro r l hl
    simp only [bind_eq_ok] at hl
    obtain ⟨inb, hin, rnd, _, hl⟩ := hl
    rw [sliceFrom_eq_ok] at hin
    obtain ⟨h1, h2, h3⟩ := wtableLoop_length b tbl _ _ _ _ hl
    refine ⟨by simpa using h1, h3 (by intro x hx; simp [List.mem_replicate] at hx; omega), ?_⟩
    intro c hc hge
    rw [h2 c (by rw [hin.2, List.length_drop]; omega)]
    simp [hc]
  obtain ⟨hw, rows, rfl, hrows⟩ := decodeThreaded_ok (fun r l _ hl => (hrow r l hl).1) ho
  refine ⟨raster_length _ _ _, ?_, ?_⟩
  · intro x hx
    simp only [raster, List.mem_map, List.mem_range] at hx
    obtain ⟨i, hi, rfl⟩ := hx
    have hr : i / w < h := Nat.div_lt_of_lt_mul hi
    exact (hrow _ _ (hrows _ hr)).2.1 _ (List.mem_map.mpr ⟨i % w, List.mem_range.mpr (Nat.mod_lt _ hw), rfl⟩)
  · intro r c hr hc hge
    rw [raster_getElem? _ _ _ r c hr hc]
    have := (hrow _ _ (hrows r hr)).2.2 c hc hge
    simpa [hc] using this

example : ∃ out, decode_8bit_wtable .debug [1, 2, 3, 4, 5, 6, 7] ⟨List.replicate 256 (7, 7, 0)⟩ 3 1 = .ok out ∧ out = [7, 7, 7] := by
  refine ⟨_, ?_, rfl⟩; decide

end Props

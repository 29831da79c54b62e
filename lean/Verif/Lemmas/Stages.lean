import Verif.Lemmas.Scale
import Verif.Props.Curves
/-!
# The colour stages succeed on every image
-/

namespace Model
open Rust Spec

theorem list4 {α : Type} {l : List α} (h : l.length = 4) : ∃ a b c d, l = [a, b, c, d] := by
  match l, h with
  | [a, b, c, d], _ => exact ⟨a, b, c, d, rfl⟩

theorem range3 {α : Type} (f : Nat → α) : (List.range 3).map f = [f 0, f 1, f 2] := rfl
theorem range4 {α : Type} (f : Nat → α) : (List.range 4).map f = [f 0, f 1, f 2, f 3] := rfl

/-- The fixed size arrays of an image. -/
structure ArraysOk (img : RawImage) : Prop where
  wb : img.wbCoeffs.length = 4
  white : img.whitelevels.length = 4
  black : img.blacklevels.length = 4

theorem balance_total (img : RawImage) (h : ArraysOk img) : ∃ mul, (balanceCoeffs img >>= balanceMul) = .ok mul ∧ mul.length = 4 := by
  obtain ⟨a, b, c, d, hw⟩ := list4 h.wb
  have hb : ∀ l : List F32, l.length = 4 → ∃ mul, balanceMul l = .ok mul ∧ mul.length = 4 := by
    intro l hl
    unfold balanceMul
    rw [idx_lt (by omega), ok_bind]
    exact ⟨_, rfl, by simp [hl]⟩
  unfold balanceCoeffs
  split
  · rw [ok_bind]; exact hb _ rfl
  · rw [hw]
    simp only [idx, List.getElem?_cons_zero, List.getElem?_cons_succ, ok_bind]
    split
    · rw [ok_bind]; exact hb _ rfl
    · rw [ok_bind]; exact hb _ rfl

/-- A sample after levels and white balance. -/
def levelled (img : RawImage) (mul : List F32) (c : Nat) (v : F32) : F32 :=
  ((((v.sub (F32.ofNat (img.blacklevels.getD c 0))).div
    ((F32.ofNat (img.whitelevels.getD c 0)).sub (F32.ofNat (img.blacklevels.getD c 0)))).mul (mul.getD c (.zero false))).min (lit 1))

theorem level_ofPix {w h : Nat} (hw : 0 < w) (img : RawImage) (ha : ArraysOk img) (p : Nat → Nat → Nat → F32) :
    ∃ mul, (balanceCoeffs img >>= balanceMul) = .ok mul ∧
      levelAndBalance img (ofPix w h 4 p) = .ok (ofPix w h 4 (fun r c k => levelled img mul k (p r c k))) := by
  obtain ⟨mul, hm, hl⟩ := balance_total img ha
  refine ⟨mul, hm, ?_⟩
  rw [bind_eq_ok] at hm
  obtain ⟨co, hm1, hm2⟩ := hm
  obtain ⟨b0, b1, b2, b3, hb⟩ := list4 ha.black
  obtain ⟨w0, w1, w2, w3, hwh⟩ := list4 ha.white
  obtain ⟨m0, m1, m2, m3, rfl⟩ := list4 hl
  unfold levelAndBalance
  simp only
  have hr : levelRanges img.whitelevels (img.blacklevels.map F32.ofNat) = .ok
      [(F32.ofNat w0).sub (F32.ofNat b0), (F32.ofNat w1).sub (F32.ofNat b1), (F32.ofNat w2).sub (F32.ofNat b2), (F32.ofNat w3).sub (F32.ofNat b3)] := by
    rw [hb, hwh]; rfl
  rw [hr, ok_bind, hm1, ok_bind, hm2, ok_bind]
  apply mutateLines_ofPix hw (by decide)
  intro r _
  apply mapChunks_pix (by decide)
  intro c _
  rw [range4, range4, hb]
  unfold levelled
  rw [hb, hwh]
  rfl

theorem xyzToLab_total (m : Libm) (x y z : F32) : ∃ l, xyzToLab m x y z = .ok l := by
  unfold xyzToLab
  simp only
  obtain ⟨a, ha⟩ := Props.labf_total m (y.div (lit 1))
  obtain ⟨b, hb⟩ := Props.labf_total m (x.div (lit (9642 / 10000)))
  obtain ⟨c, hc⟩ := Props.labf_total m (z.div (lit (8249 / 10000)))
  rw [ha, ok_bind, hb, ok_bind, hc, ok_bind]
  exact ⟨_, rfl⟩

theorem processIntoNew_ofPix {α : Type} {w h k k' : Nat} (hw : 0 < w) (hk' : 0 < k') (z : α) {p q : Nat → Nat → Nat → α} {f : List α → List α → M (List α)}
    (hf : ∀ r, r < h → f (pixLine w k' (fun _ _ => z)) ((ofPix w h k p).data.drop (w * k * r)) = .ok (pixLine w k' (q r))) :
    OpBuffer.processIntoNew z (ofPix w h k p) k' f = .ok (ofPix w h k' q) := by
  unfold OpBuffer.processIntoNew
  simp only
  have hwk : 0 < w * k' := Nat.mul_pos hw hk'
  have h1 := mutateLines_ofPix (w := w) (h := h) (k := k') hw hk' (p := fun _ _ _ => z) (q := q)
    (f := fun line row => do
      let src ← sliceFrom (ofPix w h k p).data ((ofPix w h k p).width * (ofPix w h k p).colors * row)
      f line src) (by
      intro r hr
      show (sliceFrom (ofPix w h k p).data (w * k * r) >>= _) = _
      rw [sliceFrom_le, ok_bind]
      · exact hf r hr
      · rw [ofPix_wf w h k p]
        show w * k * r ≤ w * h * k
        rw [Nat.mul_assoc, Nat.mul_assoc, Nat.mul_comm h k]
        exact Nat.mul_le_mul_left _ (Nat.mul_le_mul_left _ (by omega)))
  unfold OpBuffer.mutateLines at h1
  rw [← new_eq_ofPix] at h1
  exact h1

theorem drop_drop_pix {α : Type} {w h k r c : Nat} (p : Nat → Nat → Nat → α) (hr : r < h) (hc : c < w) :
    (((ofPix w h k p).data.drop (w * k * r)).drop (k * c)).take k = (List.range k).map (p r c) ∧
      (0 < k → k * c < ((ofPix w h k p).data.drop (w * k * r)).length) := by
  have hlen : (ofPix w h k p).data.length = w * h * k := ofPix_wf w h k p
  have hmul : w * k * r + (k * c + k) ≤ w * h * k := by
    have h1 : k * (c + 1) ≤ k * w := Nat.mul_le_mul_left _ hc
    have h2 : w * k * (r + 1) ≤ w * k * h := Nat.mul_le_mul_left _ hr
    have e1 : w * k * h = w * h * k := by rw [Nat.mul_assoc, Nat.mul_assoc, Nat.mul_comm k h]
    have e2 : k * w = w * k := Nat.mul_comm _ _
    rw [Nat.mul_add] at h1 h2
    omega
  refine ⟨?_, fun hk => by rw [List.length_drop, hlen]; omega⟩
  apply List.ext_getElem?
  intro j
  by_cases hj : j < k
  · rw [List.getElem?_take, if_pos hj, List.getElem?_drop, List.getElem?_drop]
    have := ofPix_at (p := p) hr hc hj
    unfold OpBuffer.at? at this
    have e : w * k * r + (k * c + j) = (r * (ofPix w h k p).width + c) * (ofPix w h k p).colors + j := by
      show _ = (r * w + c) * k + j
      rw [Nat.add_mul, Nat.mul_comm c k, Nat.mul_assoc r w k, Nat.mul_comm r]; omega
    rw [e, this, List.getElem?_map, List.getElem?_range hj]
    rfl
  · rw [List.getElem?_take, if_neg hj, List.getElem?_map, List.getElem?_eq_none (by simpa using hj)]
    rfl

theorem cameraToLab_total (m : Libm) (img : RawImage) {w h : Nat} (hw : 0 < w) (p : Nat → Nat → Nat → F32) :
    ∃ q, cameraToLab m img (ofPix w h 4 p) = .ok (ofPix w h 3 q) := by
  have hp : ∀ r c, ∃ q : Nat → F32, ∀ o : List F32, o.length = 3 →
      labPixel m img.camToXyzMat o [p r c 0, p r c 1, p r c 2, p r c 3] = .ok ((List.range 3).map q) := by
    intro r c
    generalize he : p r c = v
    obtain ⟨l, hl⟩ := xyzToLab_total m (dot4 img.camToXyzMat 0 (v 0) (v 1) (v 2) (v 3)) (dot4 img.camToXyzMat 1 (v 0) (v 1) (v 2) (v 3))
      (dot4 img.camToXyzMat 2 (v 0) (v 1) (v 2) (v 3))
    refine ⟨fun k => if k = 0 then l.1 else if k = 1 then l.2.1 else l.2.2, ?_⟩
    intro o ho
    match o, ho with
    | [x0, x1, x2], _ =>
      unfold labPixel
      simp only [idx, List.getElem?_cons_zero, List.getElem?_cons_succ, ok_bind]
      rw [hl, ok_bind]
      rfl
  refine ⟨fun r c => Classical.choose (hp r c), ?_⟩
  unfold cameraToLab
  apply processIntoNew_ofPix hw (by decide)
  intro r hr
  apply zipChunks_pix (by decide) (pixLine_length _ _ _)
  intro c hc
  obtain ⟨h1, h2⟩ := drop_drop_pix p hr hc (k := 4)
  refine ⟨h2 (by decide), fun o ho => ?_⟩
  rw [h1, range4]
  exact Classical.choose_spec (hp r c) o ho

theorem baseXs_eq : baseXs = (List.range 5).map (fun i => baseXs.getD i (.zero false)) := rfl
theorem baseYs_eq : baseYs = (List.range 5).map (fun i => baseYs.getD i (.zero false)) := rfl

theorem baseCurve_total {w h : Nat} (hw : 0 < w) (p : Nat → Nat → Nat → F32) : ∃ q, baseCurve (ofPix w h 3 p) = .ok (ofPix w h 3 q) := by
  unfold baseCurve
  have ht : ∀ v, ∃ y, (SplineFunc.new OrdArith.f32 baseXs baseYs >>= fun f => f.interpolate OrdArith.f32 v) = .ok y := by
    intro v
    rw [baseXs_eq, baseYs_eq]
    exact Props.curve_total _ _ 5 (by decide) v
  obtain ⟨func, hf⟩ : ∃ func, SplineFunc.new OrdArith.f32 baseXs baseYs = .ok func := by
    obtain ⟨y, hy⟩ := ht (.zero false)
    rw [bind_eq_ok] at hy
    exact ⟨_, hy.choose_spec.1⟩
  rw [hf] at ht
  simp only [ok_bind] at ht
  rw [hf, ok_bind]
  obtain ⟨g, hg⟩ := Classical.axiomOfChoice ht
  refine ⟨fun r c k => if k = 0 then g (p r c 0) else p r c k, ?_⟩
  apply mutateLines_ofPix hw (by decide)
  intro r _
  apply mapChunks_pix (by decide)
  intro c _
  rw [range3, range3]
  simp only [idx, List.getElem?_cons_zero, ok_bind]
  rw [hg (p r c 0), ok_bind]
  rfl

theorem labToRec709_ofPix {w h : Nat} (hw : 0 < w) (p : Nat → Nat → Nat → F32) :
    labToRec709 (ofPix w h 3 p) = .ok (ofPix w h 3 (fun r c k =>
      let xyz := labToXyz (p r c 0) (p r c 1) (p r c 2)
      dot3 xyzToRec709Matrix k xyz.1 xyz.2.1 xyz.2.2)) := by
  unfold labToRec709
  apply mutateLines_ofPix hw (by decide)
  intro r _
  apply mapChunks_pix (by decide)
  intro c _
  rw [range3, range3]
  rfl

end Model

import Verif.Lemmas.FxOps
import Verif.Lemmas.Matrix
/-!
# The matrix code run with the fast arithmetic
-/

namespace Fast
open Rust Model

/-! ## The loops written out -/

section
variable {α : Type} (A : Arith α)

theorem rgbToCam_gen (c t : Mat α) {i j : Nat} (hi : i < 4) (hj : j < 3) :
    rgbToCam A c t i j = A.add (A.add (A.add A.zero (A.mul (c i 0) (t 0 j))) (A.mul (c i 1) (t 1 j))) (A.mul (c i 2) (t 2 j)) := by
  interval_cases i <;> interval_cases j <;> rfl

theorem rowSum_gen (m : Mat α) (i : Nat) : rowSum A m i = A.add (A.add (A.add A.zero (m i 0)) (m i 1)) (m i 2) := rfl

theorem normaliseCam_gen (m : Mat α) {i j : Nat} (hi : i < 4) (hj : j < 3) :
    (normaliseCam A m).1 i j = if A.isZero (rowSum A m i) then A.zero else A.div (m i j) (rowSum A m i) := by
  interval_cases i <;> interval_cases j <;> rfl

theorem normaliseCam_wb (m : Mat α) {i : Nat} (hi : i < 4) : (normaliseCam A m).2 i = A.div A.one (rowSum A m i) := by
  interval_cases i <;> rfl

theorem pinvSetup_gen (m : Mat α) {i j : Nat} (hi : i < 3) (hj : j < 6) :
    pinvSetup A m i j = if j < 3 then A.add (A.add (A.add (A.add A.zero (A.mul (m 0 i) (m 0 j))) (A.mul (m 1 i) (m 1 j))) (A.mul (m 2 i) (m 2 j))) (A.mul (m 3 i) (m 3 j))
      else if j = i + 3 then A.one else A.zero := by
  interval_cases i <;> interval_cases j <;> rfl

theorem pinvStep_gen (r : Nat) (t : Mat α) {i j : Nat} (hr : r < 3) (hi : i < 3) (hj : j < 6) :
    pinvStep A r t i j = if i = r then A.div (t i j) (t i i) else A.sub (t i j) (A.mul (A.div (t r j) (t r r)) (t i r)) := by
  interval_cases r <;> interval_cases i <;> interval_cases j <;> rfl

theorem camToXyz_gen (p t : Mat α) (w : Nat → α) {i j : Nat} (hi : i < 3) (hj : j < 4) :
    camToXyz A p t w i j = A.add (A.add (A.add A.zero (A.div (A.mul (p 0 j) (t i 0)) (w i))) (A.div (A.mul (p 1 j) (t i 1)) (w i))) (A.div (A.mul (p 2 j) (t i 2)) (w i)) := by
  interval_cases i <;> interval_cases j <;> rfl

theorem pureLoop_three {σ : Type} (f : Nat → σ → σ) (x : σ) : pureLoop f 3 x = f 2 (f 1 (f 0 x)) := rfl

theorem pseudoinverse_gen (m : Mat α) {i j : Nat} (hi : i < 3) (hj : j < 4) {t : Mat α}
    (ht : pinvStep A 2 (pinvStep A 1 (pinvStep A 0 (pinvSetup A m))) = t) :
    pseudoinverse A m i j = A.add (A.add (A.add A.zero (A.mul (t i 3) (m j 0))) (A.mul (t i 4) (m j 1))) (A.mul (t i 5) (m j 2)) := by
  unfold pseudoinverse
  rw [pureLoop_three, ht]
  interval_cases i <;> interval_cases j <;> rfl
end

/-! ## The results are related -/

/-- The first `r` rows and `c` columns are related. -/
def MRel (r c : Nat) (m : Mat F32) (a : Mat Fx) : Prop := ∀ i j, i < r → j < c → Rel (m i j) (a i j)

theorem nth_eq : ∀ (l : List Fx) (n : Nat), nth l n = l.getD n .bad := by
  intro l
  induction l with
  | nil => intro n; rfl
  | cons a l ih =>
    intro n
    cases n with
    | zero => rfl
    | succ n => exact ih n

theorem collect_eq {β : Type} (m : Mat Fx) (c : Nat) (k : List Fx → β) : ∀ (n : Nat) (l : List Fx),
    collect m c n l k = k ((List.range n).map (fun n => m (n / c) (n % c)) ++ l) := by
  intro n
  induction n with
  | zero => intro l; rfl
  | succ n ih =>
    intro l
    rw [collect, List.range_succ, List.map_append, List.append_assoc]
    have : ∀ x, collect m c n (x :: l) k = k ((List.range n).map (fun n => m (n / c) (n % c)) ++ (x :: l)) := fun x => ih _
    cases h : m (n / c) (n % c) with
    | bad => simp only [List.map, h]; exact this _
    | val s a => simp only [List.map, h]; exact this _

/-- The matrix is computed, nothing else. -/
theorem freeze_rel {β : Type} {P : β → Prop} {m : Mat F32} {a : Mat Fx} {r c : Nat} {k : Mat Fx → β} (h : MRel r c m a)
    (hk : ∀ a, MRel r c m a → P (k a)) : P (freeze a r c k) := by
  unfold freeze
  rw [collect_eq]
  apply hk
  intro i j hi hj
  have hlt : c * i + j < r * c := by
    calc c * i + j < c * i + c := by omega
      _ = c * (i + 1) := by ring
      _ ≤ c * r := Nat.mul_le_mul_left _ hi
      _ = r * c := Nat.mul_comm _ _
  have e : grid ((List.range (r * c)).map (fun n => a (n / c) (n % c)) ++ []) c i j = a i j := by
    unfold grid
    rw [nth_eq]
    show List.getD _ (c * i + j) _ = _
    rw [List.append_nil, List.getD_eq_getElem?_getD, List.getElem?_map, List.getElem?_range hlt]
    show a ((c * i + j) / c) ((c * i + j) % c) = a i j
    rw [Nat.mul_add_div (by omega), Nat.div_eq_of_lt hj, Nat.add_zero, Nat.mul_add_mod, Nat.mod_eq_of_lt hj]
  rw [e]
  exact h i j hi hj

theorem dot3_rel {x1 x2 x3 x4 x5 x6 : F32} {a1 a2 a3 a4 a5 a6 : Fx} (h1 : Rel x1 a1) (h2 : Rel x2 a2) (h3 : Rel x3 a3) (h4 : Rel x4 a4) (h5 : Rel x5 a5)
    (h6 : Rel x6 a6) : Rel ((((F32.zero false).add (x1.mul x2)).add (x3.mul x4)).add (x5.mul x6)) (dot3 a1 a2 a3 a4 a5 a6) :=
  ((rel_zero.add (h1.mul h2)).add (h3.mul h4)).add (h5.mul h6)

theorem product_rel {c t : Mat F32} {a b : Mat Fx} (hc : MRel 4 3 c a) (ht : MRel 3 3 t b) : MRel 4 3 (rgbToCam Arith.f32 c t) (product a b) := by
  intro i j hi hj
  rw [rgbToCam_gen _ _ _ hi hj]
  exact dot3_rel (hc i 0 hi (by decide)) (ht 0 j (by decide) hj) (hc i 1 hi (by decide)) (ht 1 j (by decide) hj) (hc i 2 hi (by decide)) (ht 2 j (by decide) hj)

theorem total_rel {m : Mat F32} {a : Mat Fx} (h : MRel 4 3 m a) {i : Nat} (hi : i < 4) : Rel (rowSum Arith.f32 m i) (total a i) := by
  rw [rowSum_gen]
  exact ((rel_zero.add (h i 0 hi (by decide))).add (h i 1 hi (by decide))).add (h i 2 hi (by decide))

theorem add_bad (x : Fx) : Fast.add x .bad = .bad := by cases x <;> rfl
theorem div_bad (x : Fx) : Fast.div x .bad = .bad := by cases x <;> rfl

theorem normal_rel {m : Mat F32} {a : Mat Fx} (h : MRel 4 3 m a) : MRel 4 3 (normaliseCam Arith.f32 m).1 (normal a) := by
  intro i j hi hj
  rw [normaliseCam_gen _ _ hi hj]
  have ht := total_rel h hi
  unfold normal
  rcases ht.isZero with hz | hz
  · rw [hz, div_bad]
    exact Or.inl rfl
  · have hz : Arith.f32.isZero (rowSum Arith.f32 m i) = isZero (total a i) := hz
    rw [hz, bo_eq]
    split
    · exact rel_zero
    · exact (h i j hi hj).div ht

theorem setup_rel {m : Mat F32} {a : Mat Fx} (h : MRel 4 3 m a) : MRel 3 6 (pinvSetup Arith.f32 m) (setup a) := by
  intro i j hi hj
  rw [pinvSetup_gen _ _ hi hj]
  unfold setup
  rw [bo_le]
  by_cases h3 : j < 3
  · rw [if_pos h3, if_pos (show j ≤ 2 by omega)]
    exact (dot3_rel (h 0 i (by decide) hi) (h 0 j (by decide) h3) (h 1 i (by decide) hi) (h 1 j (by decide) h3) (h 2 i (by decide) hi) (h 2 j (by decide) h3)).add
      ((h 3 i (by decide) hi).mul (h 3 j (by decide) h3))
  · rw [if_neg h3, if_neg (show ¬ j ≤ 2 by omega), bo_eq]
    by_cases hj' : j = i + 3
    · rw [if_pos hj', if_pos (by rw [hj']; exact Nat.beq_refl _)]
      exact rel_one
    · rw [if_neg hj', if_neg (fun h => hj' (Nat.eq_of_beq_eq_true h))]
      exact rel_zero

theorem pivot_rel {m : Mat F32} {a : Mat Fx} {r : Nat} (hr : r < 3) (h : MRel 3 6 m a) : MRel 3 6 (pinvStep Arith.f32 r m) (pivot r a) := by
  intro i j hi hj
  rw [pinvStep_gen _ _ _ hr hi hj]
  unfold pivot
  rw [bo_eq]
  by_cases hir : i = r
  · rw [if_pos hir, if_pos (by rw [hir]; exact Nat.beq_refl _)]
    exact (h i j hi hj).div (h i i hi (by omega))
  · rw [if_neg hir, if_neg (fun h => hir (Nat.eq_of_beq_eq_true h))]
    exact (h i j hi hj).sub (((h r j hr hj).div (h r r hr (by omega))).mul (h i r hi (by omega)))

theorem pinv_rel {m : Mat F32} {a b : Mat Fx} (hm : MRel 4 3 m a)
    (ht : MRel 3 6 (pinvStep Arith.f32 2 (pinvStep Arith.f32 1 (pinvStep Arith.f32 0 (pinvSetup Arith.f32 m)))) b) :
    MRel 3 4 (pseudoinverse Arith.f32 m) (pinv b a) := by
  intro i j hi hj
  rw [pseudoinverse_gen _ _ hi hj rfl]
  exact dot3_rel (ht i 3 hi (by decide)) (hm j 0 hj (by decide)) (ht i 4 hi (by decide)) (hm j 1 hj (by decide)) (ht i 5 hi (by decide)) (hm j 2 hj (by decide))

theorem scaled_rel {p t : Mat F32} {w : Nat → F32} {a b : Mat Fx} {v : Nat → Fx} (hp : MRel 3 4 p a) (ht : MRel 3 3 t b) (hw : ∀ i, i < 3 → Rel (w i) (v i)) :
    MRel 3 4 (camToXyz Arith.f32 p t w) (scaled a b v) := by
  intro i j hi hj
  rw [camToXyz_gen _ _ _ _ hi hj]
  exact ((rel_zero.add (((hp 0 j (by decide) hj).mul (ht i 0 hi (by decide))).div (hw i hi))).add
    (((hp 1 j (by decide) hj).mul (ht i 1 hi (by decide))).div (hw i hi))).add (((hp 2 j (by decide) hj).mul (ht i 2 hi (by decide))).div (hw i hi))

theorem table_rel : MRel 3 3 (rgbToXyzTable F32.ofRat) table := by
  have h : ∀ (q : ℚ) (n : Nat) (a : Fx), q = (n : ℚ) / (1000000 : Nat) → make false (n * 2 ^ 149) 1000000 = a → Rel (F32.ofRat q) a := by
    intro q n a hq ha
    rw [hq]
    exact rel_const (by decide) ha
  intro i j hi hj
  interval_cases i <;> interval_cases j
  · exact h _ 412453 _ (by norm_num) (by decide +kernel)
  · exact h _ 357580 _ (by norm_num) (by decide +kernel)
  · exact h _ 180423 _ (by norm_num) (by decide +kernel)
  · exact h _ 212671 _ (by norm_num) (by decide +kernel)
  · exact h _ 715160 _ (by norm_num) (by decide +kernel)
  · exact h _ 72169 _ (by norm_num) (by decide +kernel)
  · exact h _ 19334 _ (by norm_num) (by decide +kernel)
  · exact h _ 119193 _ (by norm_num) (by decide +kernel)
  · exact h _ 950227 _ (by norm_num) (by decide +kernel)

theorem white_rel : ∀ i, i < 3 → Rel (d65White F32.ofRat i) (white 0 i) := by
  have h : ∀ (q : ℚ) (n : Nat) (a : Fx), q = (n : ℚ) / (100000 : Nat) → make false (n * 2 ^ 149) 100000 = a → Rel (F32.ofRat q) a := by
    intro q n a hq ha
    rw [hq]
    exact rel_const (by decide) ha
  intro i hi
  interval_cases i
  · exact h _ 95470 _ (by norm_num) (by decide +kernel)
  · exact h _ 100000 _ (by norm_num) (by decide +kernel)
  · exact h _ 108883 _ (by norm_num) (by decide +kernel)

/-- The results of the model are related to those of the fast program. -/
theorem run_rel {β : Type} {P : β → Prop} {cam : Mat F32} {c : List Int} (hc : ∀ i j, i < 4 → j < 3 → cam i j = F32.ofRat ((c.getD (3 * i + j) 0 : Int) : ℚ))
    {k : Mat Fx → Mat Fx → β}
    (hk : ∀ x w, MRel 3 4 (xyzMatrixAndNeutralwb Arith.f32 cam (rgbToXyzTable F32.ofRat) (d65White F32.ofRat)).1 x →
      (∀ i, i < 4 → Rel (((xyzMatrixAndNeutralwb Arith.f32 cam (rgbToXyzTable F32.ofRat) (d65White F32.ofRat)).2 i).div
        ((xyzMatrixAndNeutralwb Arith.f32 cam (rgbToXyzTable F32.ofRat) (d65White F32.ofRat)).2 1)) (w 0 i)) → P (k x w)) : P (run c k) := by
  unfold run
  refine freeze_rel (m := cam) (fun i j hi hj => by rw [hc i j hi hj]; exact rel_int _) fun a1 h1 => ?_
  refine freeze_rel (product_rel h1 table_rel) fun a2 h2 => ?_
  refine freeze_rel (normal_rel h2) fun a3 h3 => ?_
  refine freeze_rel (setup_rel h3) fun a4 h4 => ?_
  refine freeze_rel (pivot_rel (by decide) h4) fun a5 h5 => ?_
  refine freeze_rel (pivot_rel (by decide) h5) fun a6 h6 => ?_
  refine freeze_rel (pivot_rel (by decide) h6) fun a7 h7 => ?_
  refine freeze_rel (pinv_rel h3 h7) fun a8 h8 => ?_
  refine freeze_rel (scaled_rel h8 table_rel white_rel) fun a9 h9 => ?_
  have hb : MRel 1 4 (fun _ i => ((normaliseCam Arith.f32 (rgbToCam Arith.f32 cam (rgbToXyzTable F32.ofRat))).2 i).div
      ((normaliseCam Arith.f32 (rgbToCam Arith.f32 cam (rgbToXyzTable F32.ofRat))).2 1)) (balance a2) := by
    intro _ i _ hi
    dsimp only
    rw [normaliseCam_wb _ _ hi, normaliseCam_wb _ _ (show 1 < 4 by decide)]
    exact (rel_one.div (total_rel h2 hi)).div (rel_one.div (total_rel h2 (by decide)))
  refine freeze_rel hb fun a10 h10 => ?_
  exact hk _ _ h9 fun i hi => h10 0 i (by decide) hi

end Fast

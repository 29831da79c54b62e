import Verif.Lemmas.F32Val
import Mathlib.Tactic.IntervalCases
/-!
# Single precision numbers between two bounds

Bounds that are themselves representable survive rounding.
-/

namespace Rust
namespace F32

/-- A finite number with a representable value. -/
def Val (x : F32) (v : ℚ) : Prop := x.val? = some v ∧ Repr32 v

theorem Val.of_zero (s : Bool) : Val (.zero s) 0 := ⟨rfl, repr32_zero⟩

theorem val_cases {x : F32} {q : ℚ} (h : x.val? = some q) : (∃ s, x = .zero s ∧ q = 0) ∨ x = .fin q := by
  cases x with
  | nan => simp [val?] at h
  | inf s => simp [val?] at h
  | zero s => exact .inl ⟨s, rfl, by simp only [val?, Option.some.injEq] at h; exact h.symm⟩
  | fin r => right; simp only [val?, Option.some.injEq] at h; rw [h]

theorem round_val (s : Bool) {q : ℚ} (h : |roundQ q| < pow2 128) : Val (F32.round s q) (roundQ q) := by
  refine ⟨?_, roundQ_repr q⟩
  unfold F32.round
  by_cases hz : q = 0
  · subst hz; rw [if_pos rfl]; rfl
  · rw [if_neg hz]
    by_cases hr : roundQ q = 0
    · rw [if_pos hr, hr]; rfl
    · rw [if_neg hr, ratAbs_eq, if_neg (not_le.mpr h)]; rfl

theorem mul_val {x y : F32} {p q : ℚ} (hx : x.val? = some p) (hy : y.val? = some q) (h : |roundQ (p * q)| < pow2 128) :
    Val (x.mul y) (roundQ (p * q)) := by
  rcases val_cases hx with ⟨s, e, z⟩ | e <;> rcases val_cases hy with ⟨t, f, w⟩ | f <;> subst e <;> subst f
  · subst z; subst w; simp only [F32.mul, mul_zero]; rw [roundQ_zero]; exact .of_zero _
  · subst z; simp only [F32.mul, zero_mul]; rw [roundQ_zero]; exact .of_zero _
  · subst w; simp only [F32.mul, mul_zero]; rw [roundQ_zero]; exact .of_zero _
  · exact round_val _ h

theorem div_val {x y : F32} {p q : ℚ} (hx : x.val? = some p) (hy : y.val? = some q) (hq : q ≠ 0) (h : |roundQ (p / q)| < pow2 128) :
    Val (x.div y) (roundQ (p / q)) := by
  rcases val_cases hx with ⟨s, e, z⟩ | e <;> rcases val_cases hy with ⟨t, f, w⟩ | f <;> subst e <;> subst f
  · exact absurd w hq
  · subst z; simp only [F32.div, zero_div]; rw [roundQ_zero]; exact .of_zero _
  · exact absurd w hq
  · exact round_val _ h

theorem Val.add {x y : F32} {p q : ℚ} (hx : Val x p) (hy : Val y q) (h : |roundQ (p + q)| < pow2 128) : Val (x.add y) (roundQ (p + q)) := by
  rcases val_cases hx.1 with ⟨s, e, z⟩ | e <;> rcases val_cases hy.1 with ⟨t, f, w⟩ | f <;> subst e <;> subst f
  · subst z; subst w; simp only [F32.add, add_zero]; rw [roundQ_zero]; exact .of_zero _
  · subst z; simp only [F32.add, zero_add]; rw [roundQ_of_repr hy.2]; exact hy
  · subst w; simp only [F32.add, add_zero]; rw [roundQ_of_repr hx.2]; exact hx
  · exact round_val _ h

theorem Val.neg {x : F32} {p : ℚ} (hx : Val x p) : Val x.neg (-p) := by
  have hr : Repr32 (-p) := by
    have := roundQ_repr (-p)
    rwa [roundQ_neg, roundQ_of_repr hx.2] at this
  rcases val_cases hx.1 with ⟨s, e, z⟩ | e <;> subst e
  · subst z; exact ⟨by simp [F32.neg, val?], hr⟩
  · exact ⟨rfl, hr⟩

theorem Val.sub {x y : F32} {p q : ℚ} (hx : Val x p) (hy : Val y q) (h : |roundQ (p - q)| < pow2 128) : Val (x.sub y) (roundQ (p - q)) := by
  rw [sub_eq_add_neg] at h ⊢
  exact hx.add hy.neg h

theorem val_lt {x y : F32} {p q : ℚ} (hx : x.val? = some p) (hy : y.val? = some q) : x.lt y = decide (p < q) := by
  rcases val_cases hx with ⟨s, e, z⟩ | e <;> rcases val_cases hy with ⟨t, f, w⟩ | f <;> subst e <;> subst f
  · subst z; subst w; simp [F32.lt]
  · subst z; simp [F32.lt]
  · subst w; simp [F32.lt]
  · simp [F32.lt]

/-- The number lies between `a / 2^k` and `b / 2^k`. -/
def Btw (x : F32) (k : Nat) (a b : Int) : Prop := ∃ v, Val x v ∧ (a : ℚ) / 2 ^ k ≤ v ∧ v ≤ (b : ℚ) / 2 ^ k

/-- The bounds are representable. -/
def Bounds (k : Nat) (a b : Int) : Prop := k ≤ 149 ∧ |a| ≤ 2 ^ 24 ∧ |b| ≤ 2 ^ 24

instance (k : Nat) (a b : Int) : Decidable (Bounds k a b) := by unfold Bounds; infer_instance

theorem repr32_dyadic {k : Nat} {a : Int} (hk : k ≤ 149) (ha : |a| ≤ 2 ^ 24) : Repr32 ((a : ℚ) / 2 ^ k) :=
  ⟨a, -(k : Int), by rw [pow2_eq, zpow_neg, zpow_natCast, div_eq_mul_inv], ha, by omega⟩

theorem dyadic_small {k : Nat} {a : Int} (ha : |a| ≤ 2 ^ 24) : |(a : ℚ) / 2 ^ k| < pow2 128 := by
  have h1 : |(a : ℚ)| ≤ 2 ^ 24 := by exact_mod_cast ha
  have h2 : (1 : ℚ) ≤ 2 ^ k := one_le_pow₀ (by norm_num)
  rw [abs_div, abs_of_pos (by positivity : (0 : ℚ) < 2 ^ k), pow2_128]
  refine lt_of_le_of_lt (div_le_self (abs_nonneg _) h2) (lt_of_le_of_lt h1 (by norm_num))

theorem roundQ_btw {k : Nat} {a b : Int} (h : Bounds k a b) {q : ℚ} (h1 : (a : ℚ) / 2 ^ k ≤ q) (h2 : q ≤ (b : ℚ) / 2 ^ k) :
    (a : ℚ) / 2 ^ k ≤ roundQ q ∧ roundQ q ≤ (b : ℚ) / 2 ^ k ∧ |roundQ q| < pow2 128 := by
  have e1 := le_roundQ_of_repr (repr32_dyadic h.1 h.2.1) h1
  have e2 := roundQ_le_of_repr (repr32_dyadic h.1 h.2.2) h2
  refine ⟨e1, e2, abs_lt.mpr ⟨?_, ?_⟩⟩
  · have := (abs_lt.mp (dyadic_small (k := k) h.2.1)).1; linarith
  · have := (abs_lt.mp (dyadic_small (k := k) h.2.2)).2; linarith

theorem Btw.add {x y : F32} {k1 k2 k : Nat} {a1 b1 a2 b2 a b : Int} (hx : Btw x k1 a1 b1) (hy : Btw y k2 a2 b2) (h : Bounds k a b)
    (hl : (a : ℚ) / 2 ^ k ≤ a1 / 2 ^ k1 + a2 / 2 ^ k2) (hu : (b1 : ℚ) / 2 ^ k1 + b2 / 2 ^ k2 ≤ b / 2 ^ k) : Btw (x.add y) k a b := by
  obtain ⟨p, hp, p1, p2⟩ := hx
  obtain ⟨q, hq, q1, q2⟩ := hy
  obtain ⟨e1, e2, e3⟩ := roundQ_btw h (q := p + q) (by linarith) (by linarith)
  exact ⟨_, hp.add hq e3, e1, e2⟩

theorem Btw.sub {x y : F32} {k1 k2 k : Nat} {a1 b1 a2 b2 a b : Int} (hx : Btw x k1 a1 b1) (hy : Btw y k2 a2 b2) (h : Bounds k a b)
    (hl : (a : ℚ) / 2 ^ k ≤ a1 / 2 ^ k1 - b2 / 2 ^ k2) (hu : (b1 : ℚ) / 2 ^ k1 - a2 / 2 ^ k2 ≤ b / 2 ^ k) : Btw (x.sub y) k a b := by
  obtain ⟨p, hp, p1, p2⟩ := hx
  obtain ⟨q, hq, q1, q2⟩ := hy
  obtain ⟨e1, e2, e3⟩ := roundQ_btw h (q := p - q) (by linarith) (by linarith)
  exact ⟨_, hp.sub hq e3, e1, e2⟩

/-- A product lies above a bound when the products of the ends do. -/
theorem le_mul_of_ends {p a b q c d l : ℚ} (h1 : a ≤ p) (h2 : p ≤ b) (h3 : c ≤ q) (h4 : q ≤ d)
    (e1 : l ≤ a * c) (e2 : l ≤ a * d) (e3 : l ≤ b * c) (e4 : l ≤ b * d) : l ≤ p * q := by
  have key : ∀ t, l ≤ t * c → l ≤ t * d → l ≤ t * q := by
    intro t u1 u2
    rcases le_total 0 t with h | h
    · exact le_trans u1 (mul_le_mul_of_nonneg_left h3 h)
    · exact le_trans u2 (mul_le_mul_of_nonpos_left h4 h)
  rcases le_total 0 q with h | h
  · exact le_trans (key a e1 e2) (mul_le_mul_of_nonneg_right h1 h)
  · exact le_trans (key b e3 e4) (mul_le_mul_of_nonpos_right h2 h)

theorem mul_le_of_ends {p a b q c d u : ℚ} (h1 : a ≤ p) (h2 : p ≤ b) (h3 : c ≤ q) (h4 : q ≤ d)
    (e1 : a * c ≤ u) (e2 : a * d ≤ u) (e3 : b * c ≤ u) (e4 : b * d ≤ u) : p * q ≤ u := by
  have := le_mul_of_ends (l := -u) (neg_le_neg h2) (neg_le_neg h1) h3 h4 (by linarith) (by linarith) (by linarith) (by linarith)
  linarith

/-- The four products of the ends of two ranges lie between `l` and `u`. -/
def Ends (a b c d l u : ℚ) : Prop := (l ≤ a * c ∧ l ≤ a * d ∧ l ≤ b * c ∧ l ≤ b * d) ∧ (a * c ≤ u ∧ a * d ≤ u ∧ b * c ≤ u ∧ b * d ≤ u)

theorem mul_btw {x y : F32} {p : ℚ} {k1 k2 k : Nat} {a1 b1 a2 b2 a b : Int} (hp : x.val? = some p) (p1 : (a1 : ℚ) / 2 ^ k1 ≤ p) (p2 : p ≤ (b1 : ℚ) / 2 ^ k1)
    (hy : Btw y k2 a2 b2) (h : Bounds k a b) (he : Ends (a1 / 2 ^ k1) (b1 / 2 ^ k1) (a2 / 2 ^ k2) (b2 / 2 ^ k2) (a / 2 ^ k) (b / 2 ^ k)) : Btw (x.mul y) k a b := by
  obtain ⟨q, hq, q1, q2⟩ := hy
  obtain ⟨⟨l1, l2, l3, l4⟩, u1, u2, u3, u4⟩ := he
  obtain ⟨e1, e2, e3⟩ := roundQ_btw h (q := p * q) (le_mul_of_ends p1 p2 q1 q2 l1 l2 l3 l4) (mul_le_of_ends p1 p2 q1 q2 u1 u2 u3 u4)
  exact ⟨_, mul_val hp hq.1 e3, e1, e2⟩

theorem Btw.mul {x y : F32} {k1 k2 k : Nat} {a1 b1 a2 b2 a b : Int} (hx : Btw x k1 a1 b1) (hy : Btw y k2 a2 b2) (h : Bounds k a b)
    (he : Ends (a1 / 2 ^ k1) (b1 / 2 ^ k1) (a2 / 2 ^ k2) (b2 / 2 ^ k2) (a / 2 ^ k) (b / 2 ^ k)) : Btw (x.mul y) k a b := by
  obtain ⟨p, hp, p1, p2⟩ := hx
  exact mul_btw hp.1 p1 p2 hy h he

theorem Btw.div {x y : F32} {k1 k2 k : Nat} {a1 b1 a2 b2 a b : Int} (hx : Btw x k1 a1 b1) (hy : Btw y k2 a2 b2) (hpos : (0 : ℚ) < a2 / 2 ^ k2) (h : Bounds k a b)
    (he : Ends (a1 / 2 ^ k1) (b1 / 2 ^ k1) (1 / (b2 / 2 ^ k2)) (1 / (a2 / 2 ^ k2)) (a / 2 ^ k) (b / 2 ^ k)) : Btw (x.div y) k a b := by
  obtain ⟨p, hp, p1, p2⟩ := hx
  obtain ⟨q, hq, q1, q2⟩ := hy
  have hq0 : 0 < q := lt_of_lt_of_le hpos q1
  have r1 : 1 / ((b2 : ℚ) / 2 ^ k2) ≤ 1 / q := one_div_le_one_div_of_le hq0 q2
  have r2 : 1 / q ≤ 1 / ((a2 : ℚ) / 2 ^ k2) := one_div_le_one_div_of_le hpos q1
  obtain ⟨⟨l1, l2, l3, l4⟩, u1, u2, u3, u4⟩ := he
  have e : p / q = p * (1 / q) := by ring
  obtain ⟨e1, e2, e3⟩ := roundQ_btw h (q := p / q) (by rw [e]; exact le_mul_of_ends p1 p2 r1 r2 l1 l2 l3 l4) (by rw [e]; exact mul_le_of_ends p1 p2 r1 r2 u1 u2 u3 u4)
  exact ⟨_, div_val hp.1 hq.1 (ne_of_gt hq0) e3, e1, e2⟩

theorem Btw.exact {k : Nat} {a : Int} (h : Bounds k a a) : Btw (.fin ((a : ℚ) / 2 ^ k)) k a a := ⟨_, ⟨rfl, repr32_dyadic h.1 h.2.1⟩, le_refl _, le_refl _⟩

theorem Btw.of_eq {x : F32} {k : Nat} {a : Int} (e : x = .fin ((a : ℚ) / 2 ^ k)) (h : Bounds k a a) : Btw x k a a := e ▸ Btw.exact h

theorem Btw.lt {x y : F32} {k1 k2 : Nat} {a1 b1 a2 b2 : Int} (hx : Btw x k1 a1 b1) (hy : Btw y k2 a2 b2) (h : (b1 : ℚ) / 2 ^ k1 < a2 / 2 ^ k2) : x.lt y = true := by
  obtain ⟨p, hp, p1, p2⟩ := hx
  obtain ⟨q, hq, q1, q2⟩ := hy
  rw [val_lt hp.1 hq.1, decide_eq_true_eq]
  linarith

theorem Btw.not_lt {x y : F32} {k1 k2 : Nat} {a1 b1 a2 b2 : Int} (hx : Btw x k1 a1 b1) (hy : Btw y k2 a2 b2) (h : (b2 : ℚ) / 2 ^ k2 ≤ a1 / 2 ^ k1) : x.lt y = false := by
  obtain ⟨p, hp, p1, p2⟩ := hx
  obtain ⟨q, hq, q1, q2⟩ := hy
  rw [val_lt hp.1 hq.1, decide_eq_false_iff_not]
  linarith

theorem Val.valid {x : F32} {v : ℚ} (h : Val x v) (h0 : v ≠ 0) (hs : |v| < pow2 128) : x = .fin v ∧ (F32.fin v).Valid := by
  rcases val_cases h.1 with ⟨s, e, z⟩ | e
  · exact absurd z h0
  · exact ⟨e, h0, roundQ_of_repr h.2, by rw [ratAbs_eq]; exact hs⟩

end F32
end Rust

import Verif.Lemmas.Fx
import Verif.Lemmas.F32
import Verif.Lemmas.F32Ops
import Mathlib.Data.Rat.Floor
/-!
# The fast arithmetic computes what `F32` computes
-/

namespace Fast
open Rust Model

theorem fo_eq {β : Type} (n : Nat) (k : Nat → β) : fo n k = k n := by cases n <;> rfl

theorem bo_eq {β : Type} (b : Bool) (x y : β) : bo b x y = if b then x else y := by cases b <;> rfl

theorem bo_le {β : Type} (a b : Nat) (x y : β) : bo (Nat.ble a b) x y = if a ≤ b then x else y := by
  rw [bo_eq]
  by_cases h : a ≤ b
  · rw [if_pos h, if_pos (Nat.ble_eq.mpr h)]
  · rw [if_neg h, if_neg (fun h' => h (Nat.ble_eq.mp h'))]

/-! ## Rounding -/

/-- `u` is `v` without its last `s` places, 24 of which are left if any are gone. -/
def Inv (e v u s : Nat) : Prop := u = v / 2 ^ s ∧ (s = 0 ∨ 2 ^ 23 ≤ u) ∧ u < 2 ^ (23 + e)

theorem step_eq {β : Type} (q p w u s : Nat) (k : Nat → Nat → β) : step q p w u s k = if q ≤ u then k (u / p) (s + w) else k u s := by
  unfold step
  rw [bo_le, fo_eq]
  rfl

theorem step_inv {β : Type} {P : β → Prop} {q p w e v u s : Nat} {k : Nat → Nat → β} (hq : q = 2 ^ (w + 23)) (hp : p = 2 ^ w) (he : e = w + w)
    (h : Inv e v u s) (hk : ∀ u s, Inv w v u s → P (k u s)) : P (step q p w u s k) := by
  rw [step_eq]
  have hp0 : 0 < p := by rw [hp]; positivity
  obtain ⟨h1, h2, h3⟩ := h
  split
  · rename_i hle
    apply hk
    refine ⟨?_, Or.inr ?_, ?_⟩
    · rw [h1, Nat.div_div_eq_div_mul, hp, ← pow_add]
    · rw [Nat.le_div_iff_mul_le hp0, hp, ← pow_add, Nat.add_comm, ← hq]
      exact hle
    · rw [Nat.div_lt_iff_lt_mul hp0, hp, ← pow_add, Nat.add_assoc, ← he]
      exact h3
  · rename_i hlt
    apply hk
    refine ⟨h1, h2, ?_⟩
    rw [Nat.add_comm, ← hq]
    exact Nat.lt_of_not_le hlt

theorem places_spec {β : Type} {P : β → Prop} {u : Nat} {k : Nat → β} (hu : u < 2 ^ 400)
    (hk : ∀ s, (s = 0 ∨ 2 ^ 23 ≤ u / 2 ^ s) → u / 2 ^ s < 2 ^ 24 → P (k s)) : P (places u k) := by
  unfold places
  refine step_inv (e := 512) (v := u) (by decide +kernel) (by decide +kernel) rfl ⟨by simp, Or.inl rfl, ?_⟩ fun u1 s1 h1 => ?_
  · exact lt_trans hu (Nat.pow_lt_pow_right (by decide) (by decide))
  refine step_inv (by decide +kernel) (by decide +kernel) rfl h1 fun u2 s2 h2 => ?_
  refine step_inv (by decide +kernel) (by decide +kernel) rfl h2 fun u3 s3 h3 => ?_
  refine step_inv (by decide +kernel) (by decide +kernel) rfl h3 fun u4 s4 h4 => ?_
  refine step_inv (by decide +kernel) (by decide +kernel) rfl h4 fun u5 s5 h5 => ?_
  refine step_inv (by decide +kernel) (by decide +kernel) rfl h5 fun u6 s6 h6 => ?_
  refine step_inv (by decide +kernel) (by decide +kernel) rfl h6 fun u7 s7 h7 => ?_
  refine step_inv (by decide +kernel) (by decide +kernel) rfl h7 fun u8 s8 h8 => ?_
  refine step_inv (by decide +kernel) (by decide +kernel) rfl h8 fun u9 s9 h9 => ?_
  rw [fo_eq]
  obtain ⟨e1, e2, e3⟩ := h9
  rw [e1] at e2 e3
  exact hk _ e2 e3

theorem rne_nat {n m : Nat} (hm : 0 < m) :
    rne ((n : ℚ) / m) = ((if m ≤ 2 * (n % m) then if 2 * (n % m) ≤ m then n / m + n / m % 2 else n / m + 1 else n / m : Nat) : Int) := by
  have hm' : (0 : ℚ) < m := by exact_mod_cast hm
  have hf : ⌊(n : ℚ) / m⌋ = ((n / m : Nat) : Int) := by
    rw [Rat.floor_natCast_div_natCast]
    rfl
  have hfrac : (n : ℚ) / m - ((n / m : Nat) : ℚ) = ((n % m : Nat) : ℚ) / m := by
    rw [eq_div_iff (ne_of_gt hm'), sub_mul, div_mul_cancel₀ _ (ne_of_gt hm')]
    have : (n : ℚ) = ((m * (n / m) + n % m : Nat) : ℚ) := by rw [Nat.div_add_mod]
    nth_rw 1 [this]
    push_cast
    ring
  rw [rne_eq hf, Int.cast_natCast, hfrac]
  have h1 : (((n % m : Nat) : ℚ) / m < 1 / 2) ↔ 2 * (n % m) < m := by
    rw [div_lt_iff₀ hm']
    constructor
    · intro h
      have : ((2 * (n % m) : Nat) : ℚ) < m := by push_cast; linarith
      exact_mod_cast this
    · intro h
      have : ((2 * (n % m) : Nat) : ℚ) < m := by exact_mod_cast h
      push_cast at this
      linarith
  have h2 : (1 / 2 < ((n % m : Nat) : ℚ) / m) ↔ m < 2 * (n % m) := by
    rw [lt_div_iff₀ hm']
    constructor
    · intro h
      have : (m : ℚ) < ((2 * (n % m) : Nat) : ℚ) := by push_cast; linarith
      exact_mod_cast this
    · intro h
      have : (m : ℚ) < ((2 * (n % m) : Nat) : ℚ) := by exact_mod_cast h
      push_cast at this
      linarith
  simp only [h1, h2]
  by_cases c1 : 2 * (n % m) < m
  · have c3 : ¬ m ≤ 2 * (n % m) := by omega
    rw [if_pos c1, if_neg c3]
  · have c3 : m ≤ 2 * (n % m) := by omega
    rw [if_neg c1, if_pos c3]
    by_cases c2 : m < 2 * (n % m)
    · have c4 : ¬ 2 * (n % m) ≤ m := by omega
      rw [if_pos c2, if_neg c4]
      push_cast
      rfl
    · have c4 : 2 * (n % m) ≤ m := by omega
      rw [if_neg c2, if_pos c4]
      split <;> omega

theorem roundQ_nat {n d s : Nat} (hd : 0 < d) (hn : 0 < n) (h1 : s = 0 ∨ 2 ^ 23 ≤ n / d / 2 ^ s) (h2 : n / d / 2 ^ s < 2 ^ 24) :
    roundQ ((n : ℚ) / d * pow2 (-149)) = (rne ((n : ℚ) / (d * 2 ^ s : Nat)) : ℚ) * 2 ^ s * pow2 (-149) := by
  have hd' : (0 : ℚ) < d := by exact_mod_cast hd
  have hn' : (0 : ℚ) < n := by exact_mod_cast hn
  have hq : (0 : ℚ) < (n : ℚ) / d * pow2 (-149) := mul_pos (by positivity) (pow2_pos _)
  have hm : 0 < d * 2 ^ s := by positivity
  have hlt : (n : ℚ) / d < pow2 (24 + s : Nat) := by
    rw [pow2_ofNat, div_lt_iff₀ hd']
    rw [Nat.div_div_eq_div_mul, Nat.div_lt_iff_lt_mul hm] at h2
    have : n < 2 ^ (24 + s) * d := by rw [pow_add]; calc n < _ := h2
      _ = _ := by ring
    exact_mod_cast this
  have hu : ulpExp ((n : ℚ) / d * pow2 (-149)) = s - 149 := by
    unfold ulpExp
    rw [ratAbs_eq, abs_of_pos hq]
    rcases h1 with h1 | h1
    · subst h1
      have h24 : (n : ℚ) / d * pow2 (-149) < pow2 (-125) := by
        calc _ < pow2 (24 + 0 : Nat) * pow2 (-149) := mul_lt_mul_of_pos_right hlt (pow2_pos _)
          _ = pow2 (-125) := by rw [← pow2_add]; norm_num
      have := (log2Rat_spec hq).1
      have h3 : pow2 (log2Rat ((n : ℚ) / d * pow2 (-149))) < pow2 (-125) := lt_of_le_of_lt this h24
      rw [pow2_lt_iff] at h3
      rw [max_eq_right (by omega)]
      norm_num
    · have hge : pow2 (23 + s : Nat) ≤ (n : ℚ) / d := by
        rw [pow2_ofNat, le_div_iff₀ hd']
        rw [Nat.div_div_eq_div_mul, Nat.le_div_iff_mul_le hm] at h1
        have : 2 ^ (23 + s) * d ≤ n := by rw [pow_add]; calc _ = 2 ^ 23 * (d * 2 ^ s) := by ring
          _ ≤ n := h1
        exact_mod_cast this
      have hl : log2Rat ((n : ℚ) / d * pow2 (-149)) = s - 126 := by
        apply log2Rat_eq
        · calc pow2 (s - 126) = pow2 (23 + s : Nat) * pow2 (-149) := by rw [← pow2_add]; congr 1; push_cast; ring
            _ ≤ _ := mul_le_mul_of_nonneg_right hge (le_of_lt (pow2_pos _))
        · calc _ < pow2 (24 + s : Nat) * pow2 (-149) := mul_lt_mul_of_pos_right hlt (pow2_pos _)
            _ = _ := by rw [← pow2_add]; congr 1; push_cast; ring
      rw [hl]
      omega
  rw [roundQ_of_ne (ne_of_gt hq), hu]
  have e : pow2 (s - 149) = 2 ^ s * pow2 (-149) := by
    rw [sub_eq_add_neg, pow2_add, pow2_ofNat]
    push_cast
    rfl
  rw [e, ← mul_assoc]
  congr 3
  have := ne_of_gt (pow2_pos (-149))
  push_cast
  field_simp

/-- The value of a number. -/
def Fx.value : Fx → ℚ
  | .bad => 0
  | .val s k => (if s then -1 else 1) * (k * pow2 (-149))

theorem make_spec (neg : Bool) {n d : Nat} (hd : 0 < d) :
    make neg n d = .bad ∨ ∃ k, make neg n d = .val neg k ∧ k < 2 ^ 277 ∧ roundQ ((n : ℚ) / d * pow2 (-149)) = k * pow2 (-149) := by
  unfold make
  simp only [fo_eq]
  rw [bo_le]
  split
  · exact Or.inl rfl
  rename_i hu
  have hu : n / d < 2 ^ 400 := by
    have h400 : (nat_lit 2582249878086908589655919172003011874329705792829223512830659356540647622016841194629645353280137831435903171972747493376) = 2 ^ 400 := by
      decide +kernel
    rw [← h400]
    exact Nat.lt_of_not_le hu
  refine places_spec (P := fun x => x = Fx.bad ∨ ∃ k, x = Fx.val neg k ∧ k < 2 ^ 277 ∧ roundQ ((n : ℚ) / d * pow2 (-149)) = k * pow2 (-149)) hu ?_
  intro s h1 h2
  rw [bo_le]
  split
  · exact Or.inl rfl
  rename_i hk
  refine Or.inr ⟨_, ?_, Nat.lt_of_not_le (fun h => hk (le_trans (by decide +kernel) h)), ?_⟩
  · cases neg <;> rfl
  rw [bo_le, bo_le]
  by_cases hn : n = 0
  · subst hn
    have hz : ∀ m, Nat.div 0 m = 0 := fun m => Nat.zero_div m
    have hz' : ∀ m, Nat.mod 0 m = 0 := fun m => Nat.zero_mod m
    rw [hz, hz']
    have hpos : 0 < Nat.mul d (Nat.pow 2 s) := by show 0 < d * 2 ^ s; positivity
    rw [if_neg (by show ¬ _ ≤ 2 * 0; omega)]
    have : Nat.mul 0 (Nat.pow 2 s) = 0 := Nat.zero_mul _
    rw [this]
    simp [roundQ_zero]
  · have := roundQ_nat hd (Nat.pos_of_ne_zero hn) h1 h2
    rw [this, rne_nat (by positivity)]
    show _ = (((if d * 2 ^ s ≤ 2 * (n % (d * 2 ^ s)) then if 2 * (n % (d * 2 ^ s)) ≤ d * 2 ^ s then n / (d * 2 ^ s) + n / (d * 2 ^ s) % 2 else n / (d * 2 ^ s) + 1
      else n / (d * 2 ^ s)) * 2 ^ s : Nat) : ℚ) * pow2 (-149)
    push_cast
    rfl

/-! ## Operations -/

/-- The number is the `f32`; nothing is said about an `f32` if the number is `bad`. -/
def Rel (x : F32) (a : Fx) : Prop :=
  a = .bad ∨ ∃ s k, a = .val s k ∧ Repr32 a.value ∧ (k = 0 ∧ (∃ t, x = .zero t) ∨ k ≠ 0 ∧ x = .fin a.value)

theorem Rel.bad {x : F32} : Rel x .bad := Or.inl rfl

theorem value_zero_iff {s : Bool} {k : Nat} : (Fx.val s k).value = 0 ↔ k = 0 := by
  unfold Fx.value
  have := ne_of_gt (pow2_pos (-149))
  cases s <;> simp [this]

/-- A rounded value. -/
theorem round_rel (z : Bool) {neg : Bool} {n d : Nat} (hd : 0 < d) {q : ℚ} (hq : q = (if neg then -1 else 1) * ((n : ℚ) / d * pow2 (-149))) :
    Rel (F32.round z q) (make neg n d) := by
  rcases make_spec neg (n := n) hd with h | ⟨k, h, hk, hr⟩
  · exact Or.inl h
  · refine Or.inr ⟨neg, k, h, ?_⟩
    rw [h]
    have hv : (Fx.val neg k).value = roundQ q := by
      rw [hq]
      unfold Fx.value
      cases neg
      · simp [hr]
      · simp [hr, roundQ_neg]
    rw [hv]
    refine ⟨roundQ_repr q, ?_⟩
    unfold F32.round
    by_cases h0 : q = 0
    · left
      rw [if_pos h0]
      refine ⟨?_, _, rfl⟩
      rw [← value_zero_iff (s := neg), hv, h0, roundQ_zero]
    · rw [if_neg h0]
      by_cases h1 : roundQ q = 0
      · left
        rw [if_pos h1]
        exact ⟨by rw [← value_zero_iff (s := neg), hv, h1], _, rfl⟩
      · right
        rw [if_neg h1, if_neg ?_]
        · exact ⟨fun hk => h1 (by rw [← hv, value_zero_iff]; exact hk), rfl⟩
        · rw [not_le, ratAbs_eq, ← hv]
          have hk' : (k : ℚ) * pow2 (-149) < pow2 128 := by
            calc (k : ℚ) * pow2 (-149) < pow2 (277 : Nat) * pow2 (-149) :=
                  mul_lt_mul_of_pos_right (by rw [pow2_ofNat]; exact_mod_cast hk) (pow2_pos _)
              _ = pow2 128 := by rw [← pow2_add]; norm_num
          have h0' : (0 : ℚ) ≤ k * pow2 (-149) := mul_nonneg (by positivity) (le_of_lt (pow2_pos _))
          unfold Fx.value
          cases neg
          · simpa [abs_of_nonneg h0'] using hk'
          · simpa [abs_of_nonneg h0'] using hk'

theorem Rel.neg {x : F32} {a : Fx} (h : Rel x a) : Rel x.neg (Fast.neg a) := by
  rcases h with rfl | ⟨s, k, rfl, hr, h⟩
  · exact Or.inl rfl
  · have hv : (Fx.val (Fast.not s) k).value = -(Fx.val s k).value := by cases s <;> simp [Fx.value, Fast.not, bo]
    refine Or.inr ⟨_, k, rfl, ?_, ?_⟩
    · show Repr32 (Fx.val (Fast.not s) k).value
      rw [hv]
      obtain ⟨m, e, h1, h2, h3⟩ := hr
      exact ⟨-m, e, by rw [h1]; push_cast; ring, by rwa [abs_neg], h3⟩
    · rcases h with ⟨h0, t, rfl⟩ | ⟨h0, rfl⟩
      · exact Or.inl ⟨h0, _, rfl⟩
      · refine Or.inr ⟨h0, ?_⟩
        show _ = F32.fin (Fx.val (Fast.not s) k).value
        rw [hv]
        rfl

/-- Adding zero does not change a number that is an `f32`. -/
theorem make_repr {s : Bool} {k : Nat} (hr : Repr32 (Fx.val s k).value) : make s k 1 = .bad ∨ make s k 1 = .val s k := by
  rcases make_spec s (n := k) (d := 1) (by decide) with h | ⟨k', h, -, h'⟩
  · exact Or.inl h
  · right
    rw [h]
    congr 1
    have hp : Repr32 ((k : ℚ) * pow2 (-149)) := by
      unfold Fx.value at hr
      cases s
      · simpa using hr
      · obtain ⟨m, e, h1, h2, h3⟩ := hr
        refine ⟨-m, e, ?_, by rwa [abs_neg], h3⟩
        simp only [if_true] at h1
        push_cast
        linarith
    rw [Nat.cast_one, div_one, roundQ_of_repr hp] at h'
    have := mul_right_cancel₀ (ne_of_gt (pow2_pos (-149))) h'
    exact_mod_cast this.symm

theorem Rel.add {x y : F32} {a b : Fx} (hx : Rel x a) (hy : Rel y b) : Rel (x.add y) (Fast.add a b) := by
  rcases hx with rfl | ⟨s, k, rfl, hr, hx⟩
  · exact Or.inl rfl
  rcases hy with rfl | ⟨t, l, rfl, hr', hy⟩
  · exact Or.inl rfl
  have hsum : ∃ neg n, Fast.add (.val s k) (.val t l) = make neg n 1 ∧
      (Fx.val s k).value + (Fx.val t l).value = (if neg then -1 else 1) * ((n : ℚ) / (1 : Nat) * pow2 (-149)) ∧
      (k = 0 → l ≠ 0 → neg = t ∧ n = l) ∧ (l = 0 → k ≠ 0 → neg = s ∧ n = k) ∧ (k = 0 → l = 0 → n = 0) := by
    unfold Fast.add
    dsimp only
    by_cases hst : s = t
    · subst hst
      refine ⟨s, k + l, ?_, ?_, ?_, ?_, ?_⟩
      · cases s <;> rfl
      · unfold Fx.value
        cases s <;> simp <;> ring
      · intro h _; exact ⟨rfl, by omega⟩
      · intro h _; exact ⟨rfl, by omega⟩
      · omega
    · have hb : bo s t (Fast.not t) = false := by cases s <;> cases t <;> first | rfl | exact absurd rfl hst
      rw [hb]
      by_cases hle : k ≤ l
      · refine ⟨t, l - k, ?_, ?_, ?_, ?_, ?_⟩
        · show bo (Nat.ble k l) _ _ = _
          rw [bo_le, if_pos hle]
          rfl
        · unfold Fx.value
          rw [Nat.cast_sub hle]
          cases s <;> cases t <;> first | exact absurd rfl hst | (simp; ring)
        · intro h _; exact ⟨rfl, by omega⟩
        · omega
        · omega
      · refine ⟨s, k - l, ?_, ?_, ?_, ?_, ?_⟩
        · show bo (Nat.ble k l) _ _ = _
          rw [bo_le, if_neg hle]
          rfl
        · unfold Fx.value
          rw [Nat.cast_sub (by omega)]
          cases s <;> cases t <;> first | exact absurd rfl hst | (simp; ring)
        · omega
        · intro h _; exact ⟨rfl, by omega⟩
        · omega
  obtain ⟨neg, n, e, hv, c1, c2, c3⟩ := hsum
  rw [e]
  rcases hx with ⟨hk, z, rfl⟩ | ⟨hk, rfl⟩ <;> rcases hy with ⟨hl, z', rfl⟩ | ⟨hl, rfl⟩
  · have := round_rel (z && z') (neg := neg) (n := 0) (d := 1) (by decide) (q := 0) (by simp)
    rw [c3 hk hl]
    unfold F32.round at this
    rwa [if_pos rfl] at this
  · obtain ⟨rfl, rfl⟩ := c1 hk hl
    rcases make_repr hr' with h | h
    · rw [h]; exact Rel.bad
    · rw [h]
      exact Or.inr ⟨_, _, rfl, hr', Or.inr ⟨hl, rfl⟩⟩
  · obtain ⟨rfl, rfl⟩ := c2 hl hk
    rcases make_repr hr with h | h
    · rw [h]; exact Rel.bad
    · rw [h]
      exact Or.inr ⟨_, _, rfl, hr, Or.inr ⟨hk, rfl⟩⟩
  · exact round_rel false (by decide) hv

theorem Rel.sub {x y : F32} {a b : Fx} (hx : Rel x a) (hy : Rel y b) : Rel (x.sub y) (Fast.sub a b) := hx.add hy.neg

theorem pow149 : (nat_lit 713623846352979940529142984724747568191373312) = 2 ^ 149 := by decide +kernel

theorem pow2_149 : ((2 ^ 149 : Nat) : ℚ) * pow2 (-149) = 1 := by
  rw [← pow2_ofNat, ← pow2_add]
  exact pow2_zero

theorem unit_eq : ∃ D : ℚ, D ≠ 0 ∧ ((2 ^ 149 : Nat) : ℚ) = D ∧ pow2 (-149) = 1 / D := by
  have h2 : ((2 ^ 149 : Nat) : ℚ) ≠ 0 := by positivity
  exact ⟨_, h2, rfl, by rw [eq_div_iff h2, mul_comm]; exact pow2_149⟩

theorem Rel.mul {x y : F32} {a b : Fx} (hx : Rel x a) (hy : Rel y b) : Rel (x.mul y) (Fast.mul a b) := by
  rcases hx with rfl | ⟨s, k, rfl, hr, hx⟩
  · exact Or.inl rfl
  rcases hy with rfl | ⟨t, l, rfl, hr', hy⟩
  · exact Or.inl rfl
  have e : Fast.mul (.val s k) (.val t l) = make (bo s (Fast.not t) t) (k * l) (2 ^ 149) := by
    rw [← pow149]
    rfl
  rw [e]
  have zero : ∀ z : Bool, k * l = 0 → Rel (.zero z) (make (bo s (Fast.not t) t) (k * l) (2 ^ 149)) := by
    intro z h
    rw [h]
    have := round_rel z (neg := bo s (Fast.not t) t) (n := 0) (d := 2 ^ 149) (by positivity) (q := 0) (by simp)
    unfold F32.round at this
    rwa [if_pos rfl] at this
  rcases hx with ⟨hk, z, rfl⟩ | ⟨hk, rfl⟩ <;> rcases hy with ⟨hl, z', rfl⟩ | ⟨hl, rfl⟩
  · exact zero _ (by rw [hk, Nat.zero_mul])
  · exact zero _ (by rw [hk, Nat.zero_mul])
  · exact zero _ (by rw [hl, Nat.mul_zero])
  · refine round_rel false (by positivity) ?_
    obtain ⟨D, h0, h1, h2⟩ := unit_eq
    unfold Fx.value
    rw [h1, h2]
    push_cast
    cases s <;> cases t <;> simp [bo, Fast.not] <;> ring

theorem beq_zero {l : Nat} (h : l ≠ 0) : Nat.beq l (nat_lit 0) = false := by
  cases l with
  | zero => exact absurd rfl h
  | succ _ => rfl

theorem div_eq (s t : Bool) (k l : Nat) :
    Fast.div (.val s k) (.val t l) = bo (Nat.beq l (nat_lit 0)) .bad (make (bo s (Fast.not t) t) (Nat.mul k (nat_lit 713623846352979940529142984724747568191373312)) l) := rfl

theorem Rel.div {x y : F32} {a b : Fx} (hx : Rel x a) (hy : Rel y b) : Rel (x.div y) (Fast.div a b) := by
  rcases hx with rfl | ⟨s, k, rfl, hr, hx⟩
  · exact Or.inl rfl
  rcases hy with rfl | ⟨t, l, rfl, hr', hy⟩
  · exact Or.inl rfl
  by_cases hl : l = 0
  · rw [div_eq, hl]
    exact Or.inl rfl
  have e : Fast.div (.val s k) (.val t l) = make (bo s (Fast.not t) t) (k * 2 ^ 149) l := by
    rw [div_eq, bo_eq, beq_zero hl, if_neg (by decide), pow149]
    rfl
  rw [e]
  obtain ⟨-, rfl⟩ : l ≠ 0 ∧ y = .fin _ := hy.resolve_left fun h => hl h.1
  have hl0 : 0 < l := Nat.pos_of_ne_zero hl
  rcases hx with ⟨hk, z, rfl⟩ | ⟨hk, rfl⟩
  · subst hk
    rw [Nat.zero_mul]
    have := round_rel (z != F32.signBit (.fin (Fx.val t l).value)) (neg := bo s (Fast.not t) t) (n := 0) (d := l) hl0 (q := 0) (by simp)
    unfold F32.round at this
    rwa [if_pos rfl] at this
  · refine round_rel false hl0 ?_
    obtain ⟨D, h0, h1, h2⟩ := unit_eq
    have h4 : (l : ℚ) ≠ 0 := by exact_mod_cast hl
    unfold Fx.value
    rw [Nat.cast_mul, h1, h2]
    cases s <;> cases t <;> simp [bo, Fast.not] <;> field_simp

theorem Rel.isZero {x : F32} {a : Fx} (hx : Rel x a) : a = .bad ∨ x.feq (.zero false) = Fast.isZero a := by
  rcases hx with rfl | ⟨s, k, rfl, -, ⟨hk, z, rfl⟩ | ⟨hk, rfl⟩⟩
  · exact Or.inl rfl
  · subst hk; exact Or.inr rfl
  · refine Or.inr ?_
    exact (beq_zero hk).symm

theorem rel_zero : Rel (.zero false) Fast.zero :=
  Or.inr ⟨_, _, rfl, by rw [show Fast.zero.value = 0 from value_zero_iff.mpr rfl]; exact ⟨0, 0, by simp, by norm_num, by norm_num⟩, Or.inl ⟨rfl, _, rfl⟩⟩

/-- A constant. -/
theorem rel_const {n d : Nat} (hd : 0 < d) {a : Fx} (h : make false (n * 2 ^ 149) d = a) : Rel (F32.ofRat ((n : ℚ) / d)) a := by
  rw [← h]
  refine round_rel false hd ?_
  have h4 : (d : ℚ) ≠ 0 := by exact_mod_cast (Nat.ne_of_gt hd)
  obtain ⟨D, h0, h1, h2⟩ := unit_eq
  rw [Nat.cast_mul, h1, h2, if_neg (by decide)]
  field_simp

theorem rel_one : Rel (F32.ofNat 1) Fast.one := by
  have := rel_const (n := 1) (d := 1) (a := Fast.one) (by decide) (by decide +kernel)
  simpa [F32.ofNat] using this

theorem rel_int (i : Int) : Rel (F32.ofRat (i : ℚ)) (ofInt i) := by
  obtain ⟨D, h0, h1, h2⟩ := unit_eq
  cases i with
  | ofNat n =>
    have e : ofInt (.ofNat n) = make false (n * 2 ^ 149) 1 := by rw [← pow149]; rfl
    rw [e]
    refine round_rel false (by decide) ?_
    rw [Nat.cast_mul, h1, h2, if_neg (by decide)]
    push_cast
    field_simp
    rfl
  | negSucc n =>
    have e : ofInt (.negSucc n) = make true ((n + 1) * 2 ^ 149) 1 := by rw [← pow149]; rfl
    rw [e]
    refine round_rel false (by decide) ?_
    rw [Nat.cast_mul, h1, h2, if_pos rfl, Int.cast_negSucc]
    push_cast
    field_simp

/-- What the relation says about the value. -/
theorem Rel.val {x : F32} {a : Fx} (h : Rel x a) (hb : a ≠ .bad) : x.val? = some a.value := by
  rcases h with rfl | ⟨s, k, rfl, -, ⟨hk, z, rfl⟩ | ⟨hk, rfl⟩⟩
  · exact absurd rfl hb
  · rw [value_zero_iff.mpr hk]; rfl
  · rfl

end Fast

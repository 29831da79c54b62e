import Verif.Rust
import Verif.Model.Basics
import Verif.Lemmas.Bits
/-!
# Lemmas on the Rust semantics: slices, chunks, loops
-/

namespace Rust

@[simp] theorem ok_bind {α β : Type} (a : α) (f : α → M β) : ((.ok a : M α) >>= f) = f a := rfl
@[simp] theorem error_bind {α β : Type} (e : Stop) (f : α → M β) : ((.error e : M α) >>= f) = .error e := rfl
@[simp] theorem crash_bind {α β : Type} (f : α → M β) : ((crash : M α) >>= f) = crash := rfl
@[simp] theorem fail_bind {α β : Type} (m : String) (f : α → M β) : ((fail m : M α) >>= f) = fail m := rfl
@[simp] theorem pure_eq_ok {α : Type} (a : α) : (pure a : M α) = .ok a := rfl
@[simp] theorem crash_ne_ok {α : Type} (a : α) : (crash : M α) ≠ .ok a := by simp [crash]
@[simp] theorem fail_ne_ok {α : Type} (m : String) (a : α) : (fail m : M α) ≠ .ok a := by simp [fail]
@[simp] theorem crash_eq_ok {α : Type} (a : α) : ((crash : M α) = .ok a) = False := by simp [crash]
@[simp] theorem fail_eq_ok {α : Type} (m : String) (a : α) : ((fail m : M α) = .ok a) = False := by simp [fail]

theorem bind_eq_ok {α β : Type} {x : M α} {f : α → M β} {b : β} :
    (x >>= f) = .ok b ↔ ∃ a, x = .ok a ∧ f a = .ok b := by
  cases x with
  | error e => simp
  | ok a => simp

theorem idx_eq_ok {α : Type} {l : List α} {i : Nat} {a : α} : idx l i = .ok a ↔ l[i]? = some a := by
  unfold idx; split <;> simp_all

theorem idx_lt {α : Type} {l : List α} {i : Nat} (h : i < l.length) : idx l i = .ok l[i] := by
  simp [idx, h]

theorem idx_ge {α : Type} {l : List α} {i : Nat} (h : l.length ≤ i) : idx l i = crash := by
  simp [idx, h]

theorem setIdx_lt {α : Type} {l : List α} {i : Nat} {v : α} (h : i < l.length) : setIdx l i v = .ok (l.set i v) := by
  simp [setIdx, h]

theorem setIdx_ge {α : Type} {l : List α} {i : Nat} {v : α} (h : l.length ≤ i) : setIdx l i v = crash := by
  simp [setIdx, Nat.not_lt.mpr h]

theorem setIdx_eq_ok {α : Type} {l l' : List α} {i : Nat} {v : α} :
    setIdx l i v = .ok l' ↔ i < l.length ∧ l' = l.set i v := by
  unfold setIdx; split
  · rename_i h; simp [h, eq_comm]
  · rename_i h; simp [h]

theorem setIdx_length {α : Type} {l l' : List α} {i : Nat} {v : α} (h : setIdx l i v = .ok l') :
    l'.length = l.length := by
  rw [setIdx_eq_ok] at h; simp [h.2]

theorem sliceFrom_le {α : Type} {l : List α} {i : Nat} (h : i ≤ l.length) : sliceFrom l i = .ok (l.drop i) := by
  simp [sliceFrom, h]

theorem sliceFrom_eq_ok {α : Type} {l s : List α} {i : Nat} : sliceFrom l i = .ok s ↔ i ≤ l.length ∧ s = l.drop i := by
  unfold sliceFrom; split
  · rename_i h; simp [h, eq_comm]
  · rename_i h; simp [h]

theorem slice_eq_ok {α : Type} {l s : List α} {a b : Nat} :
    slice l a b = .ok s ↔ (a ≤ b ∧ b ≤ l.length) ∧ s = (l.take b).drop a := by
  unfold slice; split
  · rename_i h; simp [h, eq_comm]
  · rename_i h; simp only [h, false_and, crash_eq_ok]

theorem slice_le {α : Type} {l : List α} {a b : Nat} (h : a ≤ b) (h' : b ≤ l.length) :
    slice l a b = .ok ((l.take b).drop a) := by
  simp [slice, h, h']

theorem slice_gt {α : Type} {l : List α} {a b : Nat} (h' : l.length < b) : slice l a b = crash := by
  simp [slice, Nat.not_le.mpr h']

theorem addU_ok {w : Nat} {b : Build} {x y : Nat} (h : x + y < 2 ^ w) : addU w b x y = .ok (x + y) := by
  unfold addU; rw [if_pos h]

theorem subU_ok {w : Nat} {b : Build} {x y : Nat} (h : y ≤ x) : subU w b x y = .ok (x - y) := by
  unfold subU; rw [if_pos h]

theorem mulU_ok {w : Nat} {b : Build} {x y : Nat} (h : x * y < 2 ^ w) : mulU w b x y = .ok (x * y) := by
  unfold mulU; rw [if_pos h]

/-! ### `zipChunks` -/

theorem zipChunksFuel_eq {α β : Type} {ko ki : Nat} (hko : 0 < ko)
    (f : List α → List β → M (List α)) :
    ∀ (fuel : Nat) (p : Nat → α) (out : List α) (inb : List β), out.length ≤ fuel →
      (∀ q, ko * q < out.length → ki * q < inb.length ∧ ∀ o, o.length = min ko (out.length - ko * q) →
        f o ((inb.drop (ki * q)).take ki) = .ok ((List.range o.length).map fun j => p (ko * q + j))) →
      zipChunksFuel ko ki f fuel out inb = .ok ((List.range out.length).map p) := by
  intro fuel
  induction fuel with
  | zero =>
    intro p out inb hl _
    have : out = [] := List.eq_nil_of_length_eq_zero (by omega)
    subst this
    simp [zipChunksFuel]
  | succ fuel ih =>
    intro p out inb hl hf
    by_cases h0 : out.length = 0
    · have : out = [] := List.eq_nil_of_length_eq_zero h0
      subst this
      simp [zipChunksFuel]
    · have hf0 := hf 0 (by omega)
      have h1 : out.isEmpty = false := by
        cases out with
        | nil => simp at h0
        | cons _ _ => rfl
      have h2 : inb.isEmpty = false := by
        cases inb with
        | nil => simp at hf0
        | cons _ _ => rfl
      rw [zipChunksFuel]
      simp only [h1, h2, Bool.or_self, Bool.false_eq_true, if_false]
      have hf1 := hf0.2 (out.take ko) (by simp)
      simp only [Nat.mul_zero, List.drop_zero, Nat.zero_add] at hf1
      rw [hf1]
      have ih' := ih (fun i => p (ko + i)) (out.drop ko) (inb.drop ki) (by simp; omega)
        (by
          intro q hq
          rw [List.length_drop] at hq
          have := hf (q + 1) (by rw [Nat.mul_succ]; omega)
          refine ⟨?_, ?_⟩
          · rw [List.length_drop]
            have := this.1
            rw [Nat.mul_succ] at this; omega
          · intro o ho
            have := this.2 o (by rw [ho, List.length_drop, Nat.mul_succ]; omega)
            rw [List.drop_drop]
            have e : ki + ki * q = ki * (q + 1) := by rw [Nat.mul_succ]; omega
            rw [e, this]
            congr 2
            funext j
            congr 1
            rw [Nat.mul_succ]; omega)
      simp only [ok_bind]
      rw [ih']
      simp only [ok_bind]
      by_cases hk : ko ≤ out.length
      · rw [List.length_take, List.length_drop, Nat.min_eq_left hk]
        obtain ⟨d, hd⟩ : ∃ d, out.length = ko + d := ⟨out.length - ko, by omega⟩
        rw [hd, List.range_add, Nat.add_sub_cancel_left]
        simp
      · rw [List.length_take, List.length_drop, Nat.min_eq_right (by omega)]
        have : out.length - ko = 0 := by omega
        rw [this]; simp

/-- All input chunks present: the result is given chunk by chunk. -/
theorem zipChunks_eq {α β : Type} {ko ki : Nat} (hko : 0 < ko)
    (f : List α → List β → M (List α)) (p : Nat → α) (out : List α) (inb : List β)
    (hf : ∀ q, ko * q < out.length → ki * q < inb.length ∧ ∀ o, o.length = min ko (out.length - ko * q) →
        f o ((inb.drop (ki * q)).take ki) = .ok ((List.range o.length).map fun j => p (ko * q + j))) :
    zipChunks ko ki f out inb = .ok ((List.range out.length).map p) :=
  zipChunksFuel_eq hko f _ p out inb (Nat.le_refl _) hf

/-- A successful `zipChunks` whose body keeps lengths keeps the length, and any predicate on elements that the body
establishes or keeps. -/
theorem zipChunksFuel_inv {α β : Type} {ko ki : Nat} (f : List α → List β → M (List α)) (P : α → Prop)
    (hf : ∀ o i o', f o i = .ok o' → (∀ x ∈ o, P x) → o'.length = o.length ∧ ∀ x ∈ o', P x) :
    ∀ (fuel : Nat) (out : List α) (inb : List β) (r : List α), zipChunksFuel ko ki f fuel out inb = .ok r →
      (∀ x ∈ out, P x) → r.length = out.length ∧ ∀ x ∈ r, P x := by
  intro fuel
  induction fuel with
  | zero =>
    intro out inb r h hP
    simp only [zipChunksFuel, Except.ok.injEq] at h
    subst h
    exact ⟨rfl, hP⟩
  | succ fuel ih =>
    intro out inb r h hP
    rw [zipChunksFuel] at h
    split at h
    · simp only [Except.ok.injEq] at h
      subst h
      exact ⟨rfl, hP⟩
    · rw [bind_eq_ok] at h
      obtain ⟨o, ho, h⟩ := h
      rw [bind_eq_ok] at h
      obtain ⟨rest, hrest, h⟩ := h
      simp only [Except.ok.injEq] at h
      subst h
      have h1 := hf _ _ _ ho (fun x hx => hP x (List.mem_of_mem_take hx))
      have h2 := ih _ _ _ hrest (fun x hx => hP x (List.mem_of_mem_drop hx))
      refine ⟨?_, ?_⟩
      · rw [List.length_append, h1.1, h2.1, List.length_take, List.length_drop]; omega
      · intro x hx
        rcases List.mem_append.mp hx with hx | hx
        · exact h1.2 x hx
        · exact h2.2 x hx

theorem zipChunks_inv {α β : Type} {ko ki : Nat} {f : List α → List β → M (List α)} (P : α → Prop)
    (hf : ∀ o i o', f o i = .ok o' → (∀ x ∈ o, P x) → o'.length = o.length ∧ ∀ x ∈ o', P x)
    {out : List α} {inb : List β} {r : List α} (h : zipChunks ko ki f out inb = .ok r) (hP : ∀ x ∈ out, P x) :
    r.length = out.length ∧ ∀ x ∈ r, P x :=
  zipChunksFuel_inv f P hf _ _ _ _ h hP

/-- What a successful `zipChunks` did to chunk `q`: the body ran on it if input was left, otherwise it is untouched. -/
theorem zipChunksFuel_at {α β : Type} {ko ki : Nat} (hko : 0 < ko) (f : List α → List β → M (List α))
    (hf : ∀ o i o', f o i = .ok o' → o'.length = o.length) :
    ∀ (fuel : Nat) (out : List α) (inb : List β) (r : List α), out.length ≤ fuel →
      zipChunksFuel ko ki f fuel out inb = .ok r →
      ∀ q, ko * q < out.length →
        (ki * q < inb.length →
          f ((out.drop (ko * q)).take ko) ((inb.drop (ki * q)).take ki) = .ok ((r.drop (ko * q)).take ko)) ∧
        (inb.length ≤ ki * q → (r.drop (ko * q)).take ko = (out.drop (ko * q)).take ko) := by
  intro fuel
  induction fuel with
  | zero =>
    intro out inb r hl h q hq
    omega
  | succ fuel ih =>
    intro out inb r hl h q hq
    rw [zipChunksFuel] at h
    split at h
    · rename_i he
      simp only [Except.ok.injEq] at h
      subst h
      refine ⟨?_, fun _ => rfl⟩
      intro hlt
      simp only [Bool.or_eq_true, List.isEmpty_iff] at he
      rcases he with he | he <;> subst he <;> simp at hlt hq
    · rename_i he
      simp only [Bool.or_eq_true, List.isEmpty_iff, not_or] at he
      rw [bind_eq_ok] at h
      obtain ⟨o, ho, h⟩ := h
      rw [bind_eq_ok] at h
      obtain ⟨rest, hrest, h⟩ := h
      simp only [Except.ok.injEq] at h
      subst h
      have hol : o.length = min ko out.length := by rw [hf _ _ _ ho, List.length_take]
      cases q with
      | zero =>
        simp only [Nat.mul_zero, List.drop_zero]
        have hrl : rest.length = out.length - ko := by
          have := (zipChunksFuel_inv f (fun _ => True) (fun o i o' h _ => ⟨hf o i o' h, fun _ _ => trivial⟩) _ _ _ _ hrest
            (fun _ _ => trivial)).1
          rw [this, List.length_drop]
        have htake : (o ++ rest).take ko = o := by
          rw [List.take_append]
          by_cases hk : ko ≤ out.length
          · rw [List.take_of_length_le (by omega)]
            have : ko - o.length = 0 := by omega
            simp [this]
          · have : rest = [] := by
              apply List.eq_nil_of_length_eq_zero; omega
            subst this
            rw [List.take_of_length_le (by omega)]; simp
        refine ⟨fun _ => ?_, fun hle => ?_⟩
        · rw [ho, htake]
        · exfalso
          have : inb.length = 0 := by omega
          exact he.2 (List.eq_nil_of_length_eq_zero this)
      | succ q =>
        rw [Nat.mul_succ] at hq
        have hdrop : (o ++ rest).drop (ko * (q + 1)) = rest.drop (ko * q) := by
          rw [List.drop_append]
          have h1 : o.length = ko := by omega
          have h2 : ko * (q + 1) - o.length = ko * q := by rw [Nat.mul_succ]; omega
          rw [h2, List.drop_of_length_le (by rw [Nat.mul_succ]; omega)]; simp
        have ih' := ih (out.drop ko) (inb.drop ki) rest (by simp; omega) hrest q (by simp; omega)
        rw [hdrop]
        simp only [List.drop_drop, List.length_drop] at ih'
        have e1 : ko + ko * q = ko * (q + 1) := by rw [Nat.mul_succ]; omega
        have e2 : ki + ki * q = ki * (q + 1) := by rw [Nat.mul_succ]; omega
        rw [e1, e2] at ih'
        refine ⟨fun hlt => ih'.1 ?_, fun hle => ih'.2 ?_⟩
        · rw [Nat.mul_succ] at hlt; omega
        · rw [Nat.mul_succ] at hle; omega

theorem zipChunks_at {α β : Type} {ko ki : Nat} (hko : 0 < ko) {f : List α → List β → M (List α)}
    (hf : ∀ o i o', f o i = .ok o' → o'.length = o.length)
    {out : List α} {inb : List β} {r : List α} (h : zipChunks ko ki f out inb = .ok r)
    {q : Nat} (hq : ko * q < out.length) :
        (ki * q < inb.length →
          f ((out.drop (ko * q)).take ko) ((inb.drop (ki * q)).take ki) = .ok ((r.drop (ko * q)).take ko)) ∧
        (inb.length ≤ ki * q → (r.drop (ko * q)).take ko = (out.drop (ko * q)).take ko) :=
  zipChunksFuel_at hko f hf _ _ _ _ (Nat.le_refl _) h q hq

/-! ### `chunks` -/

theorem chunksFuel_replicate {α : Type} (n : Nat) (hn : 0 < n) (a : α) (h : Nat) :
    ∀ fuel, h ≤ fuel → chunksFuel n fuel (List.replicate (n * h) a) = List.replicate h (List.replicate n a) := by
  induction h with
  | zero => intro fuel _; cases fuel <;> simp [chunksFuel]
  | succ h ih =>
    intro fuel hf
    obtain ⟨fuel, rfl⟩ : ∃ k, fuel = k + 1 := ⟨fuel - 1, by omega⟩
    have hne : (List.replicate (n * (h + 1)) a).isEmpty = false := by
      rw [Nat.mul_succ, Bool.eq_false_iff]
      simp; omega
    rw [chunksFuel, hne]
    simp only [Bool.false_eq_true, if_false, List.take_replicate, List.drop_replicate]
    have e1 : min n (n * (h + 1)) = n := by rw [Nat.mul_succ]; omega
    have e2 : n * (h + 1) - n = n * h := by rw [Nat.mul_succ]; omega
    rw [e1, e2, ih fuel (by omega), List.replicate_succ]

theorem chunks_replicate {α : Type} (n : Nat) (hn : 0 < n) (a : α) (h : Nat) :
    chunks n (List.replicate (n * h) a) = List.replicate h (List.replicate n a) := by
  unfold chunks
  apply chunksFuel_replicate n hn
  rw [List.length_replicate]
  exact Nat.le_mul_of_pos_left h hn

theorem chunksFuel_length_le {α : Type} (n : Nat) : ∀ (fuel : Nat) (l : List α),
    ∀ c ∈ chunksFuel n fuel l, c.length ≤ n := by
  intro fuel
  induction fuel with
  | zero => intro l c hc; simp [chunksFuel] at hc
  | succ fuel ih =>
    intro l c hc
    rw [chunksFuel] at hc
    split at hc
    · simp at hc
    · rcases List.mem_cons.mp hc with hc | hc
      · subst hc; rw [List.length_take]; omega
      · exact ih _ _ hc

theorem chunksFuel_getElem? {α : Type} (n : Nat) (hn : 0 < n) : ∀ (fuel : Nat) (l : List α) (q : Nat), l.length ≤ fuel →
    (chunksFuel n fuel l)[q]? = if n * q < l.length then some ((l.drop (n * q)).take n) else none := by
  intro fuel
  induction fuel with
  | zero =>
    intro l q hl
    have : l = [] := List.eq_nil_of_length_eq_zero (by omega)
    subst this; simp [chunksFuel]
  | succ fuel ih =>
    intro l q hl
    rw [chunksFuel]
    split
    · rename_i he
      rw [List.isEmpty_iff] at he; subst he; simp
    · rename_i he
      rw [List.isEmpty_iff] at he
      have hlen : 0 < l.length := List.length_pos_iff.mpr he
      cases q with
      | zero => simp [hlen]
      | succ q =>
        rw [List.getElem?_cons_succ, ih (l.drop n) q (by simp; omega), Nat.mul_succ, List.drop_drop, List.length_drop]
        have e1 : n + n * q = n * q + n := by omega
        rw [e1]
        by_cases hlt : n * q + n < l.length
        · rw [if_pos (by omega), if_pos hlt]
        · rw [if_neg (by omega), if_neg hlt]

theorem chunks_getElem? {α : Type} (n : Nat) (hn : 0 < n) (l : List α) (q : Nat) :
    (chunks n l)[q]? = if n * q < l.length then some ((l.drop (n * q)).take n) else none :=
  chunksFuel_getElem? n hn _ l q (Nat.le_refl _)

theorem chunks_length {α : Type} (n : Nat) (hn : 0 < n) (l : List α) : (chunks n l).length = (l.length + n - 1) / n := by
  apply Nat.le_antisymm
  · have := chunks_getElem? n hn l ((l.length + n - 1) / n)
    have hge : ¬ n * ((l.length + n - 1) / n) < l.length := by
      have h1 := Nat.div_add_mod (l.length + n - 1) n
      have h2 := Nat.mod_lt (l.length + n - 1) hn
      omega
    rw [if_neg hge] at this
    exact List.getElem?_eq_none_iff.mp this
  · by_cases h0 : (l.length + n - 1) / n = 0
    · rw [h0]; exact Nat.zero_le _
    · have := chunks_getElem? n hn l ((l.length + n - 1) / n - 1)
      have hlt : n * ((l.length + n - 1) / n - 1) < l.length := by
        have h1 := Nat.div_add_mod (l.length + n - 1) n
        rw [Nat.mul_sub, Nat.mul_one]
        have : n ≤ n * ((l.length + n - 1) / n) := Nat.le_mul_of_pos_right n (Nat.pos_of_ne_zero h0)
        omega
      rw [if_pos hlt] at this
      obtain ⟨hh, _⟩ := List.getElem?_eq_some_iff.mp this
      omega

/-! ### `mapM` -/

theorem mapM_ok {α β : Type} (f : α → M β) (g : α → β) (l : List α) (h : ∀ x ∈ l, f x = .ok (g x)) :
    l.mapM f = .ok (l.map g) := by
  induction l with
  | nil => rfl
  | cons a l ih =>
    rw [List.mapM_cons, h a (by simp), ih (fun x hx => h x (by simp [hx]))]
    rfl

theorem mapM_eq_ok_iff {α β : Type} (f : α → M β) (l : List α) (r : List β) :
    l.mapM f = .ok r ↔ r.length = l.length ∧ ∀ (i : Nat) (a : α), l[i]? = some a → ∃ b, r[i]? = some b ∧ f a = .ok b := by
  induction l generalizing r with
  | nil =>
    simp only [List.mapM_nil, pure_eq_ok, Except.ok.injEq]
    constructor
    · rintro rfl; simp
    · intro h; exact (List.eq_nil_of_length_eq_zero h.1).symm
  | cons a l ih =>
    rw [List.mapM_cons]
    constructor
    · intro h
      rw [bind_eq_ok] at h
      obtain ⟨b, hb, h⟩ := h
      rw [bind_eq_ok] at h
      obtain ⟨rs, hrs, h⟩ := h
      simp only [pure_eq_ok, Except.ok.injEq] at h
      subst h
      have := (ih rs).mp hrs
      refine ⟨by simp [this.1], ?_⟩
      intro i x hx
      cases i with
      | zero => simp at hx; subst hx; exact ⟨b, by simp, hb⟩
      | succ i => simp at hx; simpa using this.2 i x hx
    · rintro ⟨hl, h⟩
      cases r with
      | nil => simp at hl
      | cons b rs =>
        obtain ⟨b', hb', hfb⟩ := h 0 a (by simp)
        simp at hb'
        subst hb'
        rw [hfb]
        have := (ih rs).mpr ⟨by simpa using hl, fun i x hx => by simpa using h (i + 1) x (by simpa using hx)⟩
        rw [this]; rfl

/-! ### `parChunksMut` -/

theorem zipIdx_replicate_mapM {α β : Type} (h : Nat) (a : α) (f : α → Nat → M β) (g : Nat → β)
    (hg : ∀ r, r < h → f a r = .ok (g r)) :
    (List.replicate h a).zipIdx.mapM (fun p => f p.1 p.2) = .ok ((List.range h).map g) := by
  rw [mapM_ok (g := fun p => g p.2)]
  · congr 1
    apply List.ext_getElem
    · simp
    · intro i h1 h2; simp
  · intro x hx
    obtain ⟨i, hi, rfl⟩ := List.mem_iff_getElem.mp hx
    simp at hi ⊢
    exact hg i hi

theorem flatten_map_range {α : Type} (h : Nat) (g : Nat → List α) : ((List.range h).map g).flatten = (List.range h).flatMap g := by
  rw [List.flatMap_def]

end Rust

namespace Model
open Rust Spec

theorem byteAt_lt {buf : Bytes} {i : Nat} (h : i < buf.length) : byteAt buf i = .ok (bytesOf buf i) := by
  simp [byteAt, bytesOf, idx, h]

theorem byteAt_ge {buf : Bytes} {i : Nat} (h : buf.length ≤ i) : byteAt buf i = crash := by
  simp [byteAt, idx_ge h]

theorem byteAt_eq_ok {buf : Bytes} {i v : Nat} : byteAt buf i = .ok v ↔ i < buf.length ∧ v = bytesOf buf i := by
  by_cases h : i < buf.length
  · rw [byteAt_lt h]; simp [h, eq_comm]
  · rw [byteAt_ge (by omega)]; simp [h]

/-- Rows decoded one by one. -/
theorem decodeThreaded_eq {w h : Nat} (hw : 0 < w) (closure : List Nat → Nat → M (List Nat)) (pix : Nat → Nat → Nat)
    (hc : ∀ r, r < h → closure (List.replicate w 0) r = .ok ((List.range w).map (pix r))) :
    decodeThreaded w h closure = .ok (raster w h pix) := by
  unfold decodeThreaded parChunksMut
  rw [if_neg (by omega), chunks_replicate w hw,
    zipIdx_replicate_mapM h (List.replicate w 0) closure (fun r => (List.range w).map (pix r)) hc]
  simp only [ok_bind]
  rw [flatten_map_range, raster_eq_flatMap]

/-- What a successful parallel decode is made of. -/
theorem decodeThreaded_ok {w h : Nat} {closure : List Nat → Nat → M (List Nat)} {out : List Nat}
    (hlen : ∀ r l, r < h → closure (List.replicate w 0) r = .ok l → l.length = w)
    (ho : decodeThreaded w h closure = .ok out) :
    0 < w ∧ ∃ rows : Nat → Nat → Nat, out = raster w h rows ∧
      ∀ r, r < h → closure (List.replicate w 0) r = .ok ((List.range w).map (rows r)) := by
  unfold decodeThreaded parChunksMut at ho
  split at ho
  · simp at ho
  · rename_i hw
    have hw : 0 < w := by omega
    refine ⟨hw, ?_⟩
    rw [chunks_replicate w hw, bind_eq_ok] at ho
    obtain ⟨parts, hp, ho⟩ := ho
    simp only [Except.ok.injEq] at ho
    subst ho
    rw [mapM_eq_ok_iff] at hp
    obtain ⟨hpl, hp⟩ := hp
    simp only [List.length_zipIdx, List.length_replicate] at hpl
    have hrow : ∀ r, (hr : r < h) → closure (List.replicate w 0) r = .ok (parts[r]'(by omega)) := by
      intro r hr
      obtain ⟨b, hb, hfb⟩ := hp r (List.replicate w 0, r) (by simp [hr])
      rw [List.getElem?_eq_getElem (by omega)] at hb
      simp only [Option.some.injEq] at hb
      rw [hb]; exact hfb
    refine ⟨fun r c => ((parts[r]?).bind (fun l => l[c]?)).getD 0, ?_, ?_⟩
    · rw [raster_eq_flatMap, List.flatMap_def]
      congr 1
      apply List.ext_getElem
      · simp [hpl]
      · intro r h1 h2
        have hl := hlen r _ (by omega) (hrow r (by omega))
        simp only [List.getElem_map, List.getElem_range]
        apply List.ext_getElem
        · simp [hl]
        · intro c h3 h4
          simp [h1, h3]
    · intro r hr
      rw [hrow r hr]
      congr 1
      have hl := hlen r _ hr (hrow r hr)
      apply List.ext_getElem
      · simp [hl]
      · intro c h3 h4
        simp [hpl, hr, h3]

end Model

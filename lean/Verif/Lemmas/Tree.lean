import Verif.Spec.Tree
/-!
# Lemmas about directory trees
-/

namespace Spec

variable {α β : Type} {kids : α → List α} {get : α → Option β}

theorem atPath_cons {d c : α} {i : Nat} (p : List Nat) (h : (kids d)[i]? = some c) : atPath kids d (i :: p) = atPath kids c p := by
  simp only [atPath, h]

theorem atPath_cons_some {d d' : α} {i : Nat} {p : List Nat} (h : atPath kids d (i :: p) = some d') :
    ∃ c, (kids d)[i]? = some c ∧ atPath kids c p = some d' := by
  simp only [atPath] at h
  split at h
  · exact ⟨_, ‹_›, h⟩
  · cases h

theorem below_refl (d : α) : Below kids d d := ⟨[], rfl⟩

theorem below_child {d c d' : α} (hc : c ∈ kids d) (h : Below kids c d') : Below kids d d' := by
  obtain ⟨p, hp⟩ := h
  obtain ⟨i, hi⟩ := List.getElem?_of_mem hc
  exact ⟨i :: p, by rw [atPath_cons p hi, hp]⟩

theorem below_cases {d d' : α} (h : Below kids d d') : d' = d ∨ ∃ c ∈ kids d, Below kids c d' := by
  obtain ⟨p, hp⟩ := h
  cases p with
  | nil => left; simpa [atPath] using hp.symm
  | cons i p =>
    right
    obtain ⟨c, hc, h⟩ := atPath_cons_some hp
    exact ⟨c, List.mem_of_getElem? hc, p, h⟩

theorem noneIn_of {d : α} (h : get d = none) (hc : ∀ c ∈ kids d, NoneIn kids get c) : NoneIn kids get d := by
  intro d' hd
  rcases below_cases hd with rfl | ⟨c, hm, hb⟩
  · exact h
  · exact hc c hm d' hb

theorem firstIn_root {d : α} {e : β} (h : get d = some e) : FirstIn kids get d e :=
  ⟨[], d, rfl, h, fun q _ hq => absurd hq (by simp)⟩

theorem firstIn_child {d c : α} {e : β} {pre post : List α} (h : get d = none) (hk : kids d = pre ++ c :: post)
    (hpre : ∀ c' ∈ pre, NoneIn kids get c') (hc : FirstIn kids get c e) : FirstIn kids get d e := by
  obtain ⟨p, d', hp, hd, hlt⟩ := hc
  refine ⟨pre.length :: p, d', ?_, hd, ?_⟩
  · rw [atPath_cons (c := c) p (by rw [hk]; simp)]; exact hp
  · intro q d'' hq hat
    cases q with
    | nil => simp [atPath] at hat; subst hat; exact h
    | cons i q =>
      obtain ⟨c', hc', hat'⟩ := atPath_cons_some hat
      rw [hk] at hc'
      rw [List.cons_lt_cons_iff] at hq
      rcases hq with hi | ⟨rfl, hq⟩
      · rw [List.getElem?_append_left hi] at hc'
        exact hpre c' (List.mem_of_getElem? hc') d'' ⟨q, hat'⟩
      · rw [List.getElem?_append_right (Nat.le_refl _)] at hc'
        simp at hc'
        subst hc'
        exact hlt q d'' hq hat'

/-- There is only one first value. -/
theorem firstIn_unique {d : α} {e e' : β} (h : FirstIn kids get d e) (h' : FirstIn kids get d e') : e = e' := by
  obtain ⟨p, n, hp, hn, hlt⟩ := h
  obtain ⟨p', n', hp', hn', hlt'⟩ := h'
  by_cases h1 : p < p'
  · rw [hlt' p n h1 hp] at hn; cases hn
  · by_cases h2 : p' < p
    · rw [hlt p' n' h2 hp'] at hn'; cases hn'
    · have : p = p' := List.le_antisymm (Std.not_lt.mp h2) (Std.not_lt.mp h1)
      subst this
      rw [hp] at hp'; cases hp'
      rw [hn] at hn'; cases hn'; rfl

theorem noneIn_not_firstIn {d : α} {e : β} (h : NoneIn kids get d) (h' : FirstIn kids get d e) : False := by
  obtain ⟨p, n, hp, hn, _⟩ := h'
  rw [h n ⟨p, hp⟩] at hn; cases hn

theorem depthAtMost_of {n : Nat} {d : α} (h : ∀ c ∈ kids d, DepthAtMost kids n c) : DepthAtMost kids (n + 1) d := by
  intro p d' hp
  cases p with
  | nil => simp
  | cons i p =>
    obtain ⟨c, hc, hat⟩ := atPath_cons_some hp
    have := h c (List.mem_of_getElem? hc) p d' hat
    simp; omega

theorem depthAtMost_leaf {n : Nat} {d : α} (h : kids d = []) : DepthAtMost kids n d := by
  intro p d' hp
  cases p with
  | nil => simp
  | cons i p =>
    obtain ⟨c, hc, _⟩ := atPath_cons_some hp
    rw [h] at hc; simp at hc

theorem depthAtMost_mono {n m : Nat} {d : α} (hnm : n ≤ m) (h : DepthAtMost kids n d) : DepthAtMost kids m d :=
  fun p d' hp => Nat.le_trans (h p d' hp) hnm

theorem below_forall {Q : α → Prop} {d : α} (h : Q d) (hc : ∀ c ∈ kids d, ∀ d', Below kids c d' → Q d') : ∀ d', Below kids d d' → Q d' := by
  intro d' hd
  rcases below_cases hd with rfl | ⟨c, hm, hb⟩
  · exact h
  · exact hc c hm d' hb

end Spec

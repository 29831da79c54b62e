import Verif.Lemmas.Tiff
import Verif.Lemmas.Loops
import Verif.Spec.Camera
/-!
# Lemmas about the camera database
-/

namespace Model
open Rust Spec

theorem Map.get_eq_lookup {α : Type} (m : Map Bytes α) (k : Bytes) : Map.get m k = List.lookup k m := by
  induction m with
  | nil => rfl
  | cons p m ih =>
    obtain ⟨a, v⟩ := p
    rw [Map.get, List.lookup_cons, ih]
    by_cases h : a = k
    · subst h; simp
    · rw [if_neg h]
      have : (k == a) = false := by simpa using fun h' => h h'.symm
      rw [this]

namespace Camera

/-- The value of a setting before and after reading a table that may contain its key. -/
def Updated {α : Type} (set : Toml → α → M α) (o : Option Toml) (old new : α) : Prop :=
  match o with
  | none => new = old
  | some v => set v old = .ok new

/-! The effects of the keys. -/
def setStr : Toml → Bytes → M Bytes := fun v _ => v.asStr
def setUsize : Toml → Nat → M Nat := fun v _ => v.asUsize
def setLevel : Toml → List Nat → M (List Nat) := fun v _ => do
  let s ← v.asInt
  .ok [toU16 s, toU16 s, toU16 s, toU16 s]
def setPair : Toml → Nat × Nat → M (Nat × Nat) := fun v _ => pairOf v
def setCfa : Toml → CFA → M CFA := fun v _ => v.asStr >>= CFA.new
def setHints : Toml → List Bytes → M (List Bytes) := fun v _ => v.asArr >>= fun l => l.mapM Toml.asStr
def setMat : Toml → List (List F32) → M (List (List F32)) := fun v old => v.asArr >>= fun l => setMatrix 0 l old
def setCrop : Toml → List Nat → M (List Nat) := fun v old => v.asArr >>= fun l => setCrops 0 l old

/-- A setting that one key determines. -/
theorem fold_field {α : Type} (g : Camera → α) (k0 : Bytes) (set : Toml → α → M α)
    (hset : ∀ c c' v, setKey c k0 v = .ok c' → set v (g c) = .ok (g c'))
    (hother : ∀ c c' k v, k ≠ k0 → setKey c k v = .ok c' → g c' = g c) :
    ∀ (l : Table) (c c' : Camera), (l.map Prod.fst).Nodup → updateFromToml c l = .ok c' →
      Updated set (l.lookup k0) (g c) (g c') := by
  intro l
  induction l with
  | nil => intro c c' _ h; injection h with h; subst h; rfl
  | cons p l ih =>
    intro c c' hn h
    obtain ⟨k, v⟩ := p
    unfold updateFromToml at h ih
    rw [List.foldlM_cons, bind_eq_ok] at h
    obtain ⟨c1, h1, h2⟩ := h
    rw [List.map_cons, List.nodup_cons] at hn
    have hr := ih c1 c' hn.2 h2
    rw [List.lookup_cons]
    by_cases hk : k = k0
    · subst hk
      have hnone : l.lookup k = none := by
        rw [List.lookup_eq_none_iff]
        intro p hp
        have : p.1 ≠ k := fun e => by
          have hm : p.1 ∈ l.map Prod.fst := List.mem_map_of_mem hp
          rw [e] at hm
          exact hn.1 hm
        simpa using fun h => this h.symm
      rw [hnone] at hr
      have hr : g c' = g c1 := hr
      simp only [beq_self_eq_true]
      show set v (g c) = .ok (g c')
      rw [hr]
      exact hset _ _ _ h1
    · have : (k0 == k) = false := by simpa using fun h' => hk h'.symm
      rw [this]
      rw [hother _ _ _ _ hk h1] at hr
      exact hr

/-- The successful outcomes of `setKey`. -/
theorem setKey_cases {c c' : Camera} {k : Bytes} {v : Toml} (h : setKey c k v = .ok c') :
    (k = b! "make" ∧ ∃ s, v.asStr = .ok s ∧ c' = { c with make := s }) ∨
    (k = b! "model" ∧ ∃ s, v.asStr = .ok s ∧ c' = { c with model := s }) ∨
    (k = b! "mode" ∧ ∃ s, v.asStr = .ok s ∧ c' = { c with mode := s }) ∨
    (k = b! "clean_make" ∧ ∃ s, v.asStr = .ok s ∧ c' = { c with cleanMake := s }) ∨
    (k = b! "clean_model" ∧ ∃ s, v.asStr = .ok s ∧ c' = { c with cleanModel := s }) ∨
    (k = b! "whitepoint" ∧ ∃ s, v.asInt = .ok s ∧ c' = { c with whitelevels := [toU16 s, toU16 s, toU16 s, toU16 s] }) ∨
    (k = b! "blackpoint" ∧ ∃ s, v.asInt = .ok s ∧ c' = { c with blacklevels := [toU16 s, toU16 s, toU16 s, toU16 s] }) ∨
    (k = b! "blackareah" ∧ ∃ s, pairOf v = .ok s ∧ c' = { c with blackareah := s }) ∨
    (k = b! "blackareav" ∧ ∃ s, pairOf v = .ok s ∧ c' = { c with blackareav := s }) ∨
    (k = b! "color_matrix" ∧ ∃ s, (v.asArr >>= fun l => setMatrix 0 l c.xyzToCam) = .ok s ∧ c' = { c with xyzToCam := s }) ∨
    (k = b! "crops" ∧ ∃ s, (v.asArr >>= fun l => setCrops 0 l c.crops) = .ok s ∧ c' = { c with crops := s }) ∨
    (k = b! "color_pattern" ∧ ∃ s, (v.asStr >>= CFA.new) = .ok s ∧ c' = { c with cfa := s }) ∨
    (k = b! "bps" ∧ ∃ s, v.asUsize = .ok s ∧ c' = { c with bps := s }) ∨
    (k = b! "wb_offset" ∧ ∃ s, v.asUsize = .ok s ∧ c' = { c with wbOffset := s }) ∨
    (k = b! "filesize" ∧ ∃ s, v.asUsize = .ok s ∧ c' = { c with filesize := s }) ∨
    (k = b! "raw_width" ∧ ∃ s, v.asUsize = .ok s ∧ c' = { c with rawWidth := s }) ∨
    (k = b! "raw_height" ∧ ∃ s, v.asUsize = .ok s ∧ c' = { c with rawHeight := s }) ∨
    (k = b! "hints" ∧ ∃ s, (v.asArr >>= fun l => l.mapM Toml.asStr) = .ok s ∧ c' = { c with hints := s }) ∨
    (k ≠ b! "make" ∧ k ≠ b! "model" ∧ k ≠ b! "mode" ∧ k ≠ b! "clean_make" ∧ k ≠ b! "clean_model" ∧ k ≠ b! "whitepoint" ∧ k ≠ b! "blackpoint" ∧ k ≠ b! "blackareah" ∧ k ≠ b! "blackareav" ∧ k ≠ b! "color_matrix" ∧ k ≠ b! "crops" ∧ k ≠ b! "color_pattern" ∧ k ≠ b! "bps" ∧ k ≠ b! "wb_offset" ∧ k ≠ b! "filesize" ∧ k ≠ b! "raw_width" ∧ k ≠ b! "raw_height" ∧ k ≠ b! "hints" ∧ c' = c) := by
  unfold setKey at h
  by_cases h0 : k = b! "make"
  · rw [if_pos h0, bind_eq_ok] at h
    obtain ⟨s, hs, h⟩ := h
    injection h with h
    exact Or.inl ⟨h0, s, hs, h.symm⟩
  rw [if_neg h0] at h
  by_cases h1 : k = b! "model"
  · rw [if_pos h1, bind_eq_ok] at h
    obtain ⟨s, hs, h⟩ := h
    injection h with h
    exact Or.inr (Or.inl ⟨h1, s, hs, h.symm⟩)
  rw [if_neg h1] at h
  by_cases h2 : k = b! "mode"
  · rw [if_pos h2, bind_eq_ok] at h
    obtain ⟨s, hs, h⟩ := h
    injection h with h
    exact Or.inr (Or.inr (Or.inl ⟨h2, s, hs, h.symm⟩))
  rw [if_neg h2] at h
  by_cases h3 : k = b! "clean_make"
  · rw [if_pos h3, bind_eq_ok] at h
    obtain ⟨s, hs, h⟩ := h
    injection h with h
    exact Or.inr (Or.inr (Or.inr (Or.inl ⟨h3, s, hs, h.symm⟩)))
  rw [if_neg h3] at h
  by_cases h4 : k = b! "clean_model"
  · rw [if_pos h4, bind_eq_ok] at h
    obtain ⟨s, hs, h⟩ := h
    injection h with h
    exact Or.inr (Or.inr (Or.inr (Or.inr (Or.inl ⟨h4, s, hs, h.symm⟩))))
  rw [if_neg h4] at h
  by_cases h5 : k = b! "whitepoint"
  · rw [if_pos h5, bind_eq_ok] at h
    obtain ⟨s, hs, h⟩ := h
    injection h with h
    exact Or.inr (Or.inr (Or.inr (Or.inr (Or.inr (Or.inl ⟨h5, s, hs, h.symm⟩)))))
  rw [if_neg h5] at h
  by_cases h6 : k = b! "blackpoint"
  · rw [if_pos h6, bind_eq_ok] at h
    obtain ⟨s, hs, h⟩ := h
    injection h with h
    exact Or.inr (Or.inr (Or.inr (Or.inr (Or.inr (Or.inr (Or.inl ⟨h6, s, hs, h.symm⟩))))))
  rw [if_neg h6] at h
  by_cases h7 : k = b! "blackareah"
  · rw [if_pos h7, bind_eq_ok] at h
    obtain ⟨s, hs, h⟩ := h
    injection h with h
    exact Or.inr (Or.inr (Or.inr (Or.inr (Or.inr (Or.inr (Or.inr (Or.inl ⟨h7, s, hs, h.symm⟩)))))))
  rw [if_neg h7] at h
  by_cases h8 : k = b! "blackareav"
  · rw [if_pos h8, bind_eq_ok] at h
    obtain ⟨s, hs, h⟩ := h
    injection h with h
    exact Or.inr (Or.inr (Or.inr (Or.inr (Or.inr (Or.inr (Or.inr (Or.inr (Or.inl ⟨h8, s, hs, h.symm⟩))))))))
  rw [if_neg h8] at h
  by_cases h9 : k = b! "color_matrix"
  · rw [if_pos h9, bind_eq_ok] at h
    obtain ⟨l, hl, h⟩ := h
    rw [bind_eq_ok] at h
    obtain ⟨s, hs, h⟩ := h
    injection h with h
    exact Or.inr (Or.inr (Or.inr (Or.inr (Or.inr (Or.inr (Or.inr (Or.inr (Or.inr (Or.inl ⟨h9, s, by rw [hl, ok_bind]; exact hs, h.symm⟩)))))))))
  rw [if_neg h9] at h
  by_cases h10 : k = b! "crops"
  · rw [if_pos h10, bind_eq_ok] at h
    obtain ⟨l, hl, h⟩ := h
    rw [bind_eq_ok] at h
    obtain ⟨s, hs, h⟩ := h
    injection h with h
    exact Or.inr (Or.inr (Or.inr (Or.inr (Or.inr (Or.inr (Or.inr (Or.inr (Or.inr (Or.inr (Or.inl ⟨h10, s, by rw [hl, ok_bind]; exact hs, h.symm⟩))))))))))
  rw [if_neg h10] at h
  by_cases h11 : k = b! "color_pattern"
  · rw [if_pos h11, bind_eq_ok] at h
    obtain ⟨l, hl, h⟩ := h
    rw [bind_eq_ok] at h
    obtain ⟨s, hs, h⟩ := h
    injection h with h
    exact Or.inr (Or.inr (Or.inr (Or.inr (Or.inr (Or.inr (Or.inr (Or.inr (Or.inr (Or.inr (Or.inr (Or.inl ⟨h11, s, by rw [hl, ok_bind]; exact hs, h.symm⟩)))))))))))
  rw [if_neg h11] at h
  by_cases h12 : k = b! "bps"
  · rw [if_pos h12, bind_eq_ok] at h
    obtain ⟨s, hs, h⟩ := h
    injection h with h
    exact Or.inr (Or.inr (Or.inr (Or.inr (Or.inr (Or.inr (Or.inr (Or.inr (Or.inr (Or.inr (Or.inr (Or.inr (Or.inl ⟨h12, s, hs, h.symm⟩))))))))))))
  rw [if_neg h12] at h
  by_cases h13 : k = b! "wb_offset"
  · rw [if_pos h13, bind_eq_ok] at h
    obtain ⟨s, hs, h⟩ := h
    injection h with h
    exact Or.inr (Or.inr (Or.inr (Or.inr (Or.inr (Or.inr (Or.inr (Or.inr (Or.inr (Or.inr (Or.inr (Or.inr (Or.inr (Or.inl ⟨h13, s, hs, h.symm⟩)))))))))))))
  rw [if_neg h13] at h
  by_cases h14 : k = b! "filesize"
  · rw [if_pos h14, bind_eq_ok] at h
    obtain ⟨s, hs, h⟩ := h
    injection h with h
    exact Or.inr (Or.inr (Or.inr (Or.inr (Or.inr (Or.inr (Or.inr (Or.inr (Or.inr (Or.inr (Or.inr (Or.inr (Or.inr (Or.inr (Or.inl ⟨h14, s, hs, h.symm⟩))))))))))))))
  rw [if_neg h14] at h
  by_cases h15 : k = b! "raw_width"
  · rw [if_pos h15, bind_eq_ok] at h
    obtain ⟨s, hs, h⟩ := h
    injection h with h
    exact Or.inr (Or.inr (Or.inr (Or.inr (Or.inr (Or.inr (Or.inr (Or.inr (Or.inr (Or.inr (Or.inr (Or.inr (Or.inr (Or.inr (Or.inr (Or.inl ⟨h15, s, hs, h.symm⟩)))))))))))))))
  rw [if_neg h15] at h
  by_cases h16 : k = b! "raw_height"
  · rw [if_pos h16, bind_eq_ok] at h
    obtain ⟨s, hs, h⟩ := h
    injection h with h
    exact Or.inr (Or.inr (Or.inr (Or.inr (Or.inr (Or.inr (Or.inr (Or.inr (Or.inr (Or.inr (Or.inr (Or.inr (Or.inr (Or.inr (Or.inr (Or.inr (Or.inl ⟨h16, s, hs, h.symm⟩))))))))))))))))
  rw [if_neg h16] at h
  by_cases h17 : k = b! "hints"
  · rw [if_pos h17, bind_eq_ok] at h
    obtain ⟨l, hl, h⟩ := h
    rw [bind_eq_ok] at h
    obtain ⟨s, hs, h⟩ := h
    injection h with h
    exact Or.inr (Or.inr (Or.inr (Or.inr (Or.inr (Or.inr (Or.inr (Or.inr (Or.inr (Or.inr (Or.inr (Or.inr (Or.inr (Or.inr (Or.inr (Or.inr (Or.inr (Or.inl ⟨h17, s, by rw [hl, ok_bind]; exact hs, h.symm⟩)))))))))))))))))
  rw [if_neg h17] at h
  injection h with h
  exact Or.inr (Or.inr (Or.inr (Or.inr (Or.inr (Or.inr (Or.inr (Or.inr (Or.inr (Or.inr (Or.inr (Or.inr (Or.inr (Or.inr (Or.inr (Or.inr (Or.inr (Or.inr (⟨h0, h1, h2, h3, h4, h5, h6, h7, h8, h9, h10, h11, h12, h13, h14, h15, h16, h17, h.symm⟩))))))))))))))))))

theorem field_make {l : Table} {c c' : Camera} (hn : (l.map Prod.fst).Nodup) (h : updateFromToml c l = .ok c') :
    Updated setStr (l.lookup (b! "make")) c.make c'.make := by
  refine fold_field (fun c => c.make) (b! "make") setStr (fun c c' v h => ?_) (fun c c' k v hk h => ?_) l c c' hn h
  · obtain hx := setKey_cases h
    simp (config := { decide := true }) only [false_and, or_false, false_or, true_and] at hx
    obtain ⟨s, hs, rfl⟩ := hx
    exact hs
  · rcases setKey_cases h with h | h | h | h | h | h | h | h | h | h | h | h | h | h | h | h | h | h | h
    all_goals first
      | exact absurd h.1 hk
      | (obtain ⟨_, s, _, rfl⟩ := h; rfl)
      | (obtain ⟨_, _, _, _, _, _, _, _, _, _, _, _, _, _, _, _, _, _, rfl⟩ := h; rfl)

theorem field_model {l : Table} {c c' : Camera} (hn : (l.map Prod.fst).Nodup) (h : updateFromToml c l = .ok c') :
    Updated setStr (l.lookup (b! "model")) c.model c'.model := by
  refine fold_field (fun c => c.model) (b! "model") setStr (fun c c' v h => ?_) (fun c c' k v hk h => ?_) l c c' hn h
  · obtain hx := setKey_cases h
    simp (config := { decide := true }) only [false_and, or_false, false_or, true_and] at hx
    obtain ⟨s, hs, rfl⟩ := hx
    exact hs
  · rcases setKey_cases h with h | h | h | h | h | h | h | h | h | h | h | h | h | h | h | h | h | h | h
    all_goals first
      | exact absurd h.1 hk
      | (obtain ⟨_, s, _, rfl⟩ := h; rfl)
      | (obtain ⟨_, _, _, _, _, _, _, _, _, _, _, _, _, _, _, _, _, _, rfl⟩ := h; rfl)

theorem field_mode {l : Table} {c c' : Camera} (hn : (l.map Prod.fst).Nodup) (h : updateFromToml c l = .ok c') :
    Updated setStr (l.lookup (b! "mode")) c.mode c'.mode := by
  refine fold_field (fun c => c.mode) (b! "mode") setStr (fun c c' v h => ?_) (fun c c' k v hk h => ?_) l c c' hn h
  · obtain hx := setKey_cases h
    simp (config := { decide := true }) only [false_and, or_false, false_or, true_and] at hx
    obtain ⟨s, hs, rfl⟩ := hx
    exact hs
  · rcases setKey_cases h with h | h | h | h | h | h | h | h | h | h | h | h | h | h | h | h | h | h | h
    all_goals first
      | exact absurd h.1 hk
      | (obtain ⟨_, s, _, rfl⟩ := h; rfl)
      | (obtain ⟨_, _, _, _, _, _, _, _, _, _, _, _, _, _, _, _, _, _, rfl⟩ := h; rfl)

theorem field_cleanMake {l : Table} {c c' : Camera} (hn : (l.map Prod.fst).Nodup) (h : updateFromToml c l = .ok c') :
    Updated setStr (l.lookup (b! "clean_make")) c.cleanMake c'.cleanMake := by
  refine fold_field (fun c => c.cleanMake) (b! "clean_make") setStr (fun c c' v h => ?_) (fun c c' k v hk h => ?_) l c c' hn h
  · obtain hx := setKey_cases h
    simp (config := { decide := true }) only [false_and, or_false, false_or, true_and] at hx
    obtain ⟨s, hs, rfl⟩ := hx
    exact hs
  · rcases setKey_cases h with h | h | h | h | h | h | h | h | h | h | h | h | h | h | h | h | h | h | h
    all_goals first
      | exact absurd h.1 hk
      | (obtain ⟨_, s, _, rfl⟩ := h; rfl)
      | (obtain ⟨_, _, _, _, _, _, _, _, _, _, _, _, _, _, _, _, _, _, rfl⟩ := h; rfl)

theorem field_cleanModel {l : Table} {c c' : Camera} (hn : (l.map Prod.fst).Nodup) (h : updateFromToml c l = .ok c') :
    Updated setStr (l.lookup (b! "clean_model")) c.cleanModel c'.cleanModel := by
  refine fold_field (fun c => c.cleanModel) (b! "clean_model") setStr (fun c c' v h => ?_) (fun c c' k v hk h => ?_) l c c' hn h
  · obtain hx := setKey_cases h
    simp (config := { decide := true }) only [false_and, or_false, false_or, true_and] at hx
    obtain ⟨s, hs, rfl⟩ := hx
    exact hs
  · rcases setKey_cases h with h | h | h | h | h | h | h | h | h | h | h | h | h | h | h | h | h | h | h
    all_goals first
      | exact absurd h.1 hk
      | (obtain ⟨_, s, _, rfl⟩ := h; rfl)
      | (obtain ⟨_, _, _, _, _, _, _, _, _, _, _, _, _, _, _, _, _, _, rfl⟩ := h; rfl)

theorem field_whitelevels {l : Table} {c c' : Camera} (hn : (l.map Prod.fst).Nodup) (h : updateFromToml c l = .ok c') :
    Updated setLevel (l.lookup (b! "whitepoint")) c.whitelevels c'.whitelevels := by
  refine fold_field (fun c => c.whitelevels) (b! "whitepoint") setLevel (fun c c' v h => ?_) (fun c c' k v hk h => ?_) l c c' hn h
  · obtain hx := setKey_cases h
    simp (config := { decide := true }) only [false_and, or_false, false_or, true_and] at hx
    obtain ⟨s, hs, rfl⟩ := hx
    exact (by rw [setLevel, hs]; rfl)
  · rcases setKey_cases h with h | h | h | h | h | h | h | h | h | h | h | h | h | h | h | h | h | h | h
    all_goals first
      | exact absurd h.1 hk
      | (obtain ⟨_, s, _, rfl⟩ := h; rfl)
      | (obtain ⟨_, _, _, _, _, _, _, _, _, _, _, _, _, _, _, _, _, _, rfl⟩ := h; rfl)

theorem field_blacklevels {l : Table} {c c' : Camera} (hn : (l.map Prod.fst).Nodup) (h : updateFromToml c l = .ok c') :
    Updated setLevel (l.lookup (b! "blackpoint")) c.blacklevels c'.blacklevels := by
  refine fold_field (fun c => c.blacklevels) (b! "blackpoint") setLevel (fun c c' v h => ?_) (fun c c' k v hk h => ?_) l c c' hn h
  · obtain hx := setKey_cases h
    simp (config := { decide := true }) only [false_and, or_false, false_or, true_and] at hx
    obtain ⟨s, hs, rfl⟩ := hx
    exact (by rw [setLevel, hs]; rfl)
  · rcases setKey_cases h with h | h | h | h | h | h | h | h | h | h | h | h | h | h | h | h | h | h | h
    all_goals first
      | exact absurd h.1 hk
      | (obtain ⟨_, s, _, rfl⟩ := h; rfl)
      | (obtain ⟨_, _, _, _, _, _, _, _, _, _, _, _, _, _, _, _, _, _, rfl⟩ := h; rfl)

theorem field_blackareah {l : Table} {c c' : Camera} (hn : (l.map Prod.fst).Nodup) (h : updateFromToml c l = .ok c') :
    Updated setPair (l.lookup (b! "blackareah")) c.blackareah c'.blackareah := by
  refine fold_field (fun c => c.blackareah) (b! "blackareah") setPair (fun c c' v h => ?_) (fun c c' k v hk h => ?_) l c c' hn h
  · obtain hx := setKey_cases h
    simp (config := { decide := true }) only [false_and, or_false, false_or, true_and] at hx
    obtain ⟨s, hs, rfl⟩ := hx
    exact hs
  · rcases setKey_cases h with h | h | h | h | h | h | h | h | h | h | h | h | h | h | h | h | h | h | h
    all_goals first
      | exact absurd h.1 hk
      | (obtain ⟨_, s, _, rfl⟩ := h; rfl)
      | (obtain ⟨_, _, _, _, _, _, _, _, _, _, _, _, _, _, _, _, _, _, rfl⟩ := h; rfl)

theorem field_blackareav {l : Table} {c c' : Camera} (hn : (l.map Prod.fst).Nodup) (h : updateFromToml c l = .ok c') :
    Updated setPair (l.lookup (b! "blackareav")) c.blackareav c'.blackareav := by
  refine fold_field (fun c => c.blackareav) (b! "blackareav") setPair (fun c c' v h => ?_) (fun c c' k v hk h => ?_) l c c' hn h
  · obtain hx := setKey_cases h
    simp (config := { decide := true }) only [false_and, or_false, false_or, true_and] at hx
    obtain ⟨s, hs, rfl⟩ := hx
    exact hs
  · rcases setKey_cases h with h | h | h | h | h | h | h | h | h | h | h | h | h | h | h | h | h | h | h
    all_goals first
      | exact absurd h.1 hk
      | (obtain ⟨_, s, _, rfl⟩ := h; rfl)
      | (obtain ⟨_, _, _, _, _, _, _, _, _, _, _, _, _, _, _, _, _, _, rfl⟩ := h; rfl)

theorem field_xyzToCam {l : Table} {c c' : Camera} (hn : (l.map Prod.fst).Nodup) (h : updateFromToml c l = .ok c') :
    Updated setMat (l.lookup (b! "color_matrix")) c.xyzToCam c'.xyzToCam := by
  refine fold_field (fun c => c.xyzToCam) (b! "color_matrix") setMat (fun c c' v h => ?_) (fun c c' k v hk h => ?_) l c c' hn h
  · obtain hx := setKey_cases h
    simp (config := { decide := true }) only [false_and, or_false, false_or, true_and] at hx
    obtain ⟨s, hs, rfl⟩ := hx
    exact hs
  · rcases setKey_cases h with h | h | h | h | h | h | h | h | h | h | h | h | h | h | h | h | h | h | h
    all_goals first
      | exact absurd h.1 hk
      | (obtain ⟨_, s, _, rfl⟩ := h; rfl)
      | (obtain ⟨_, _, _, _, _, _, _, _, _, _, _, _, _, _, _, _, _, _, rfl⟩ := h; rfl)

theorem field_crops {l : Table} {c c' : Camera} (hn : (l.map Prod.fst).Nodup) (h : updateFromToml c l = .ok c') :
    Updated setCrop (l.lookup (b! "crops")) c.crops c'.crops := by
  refine fold_field (fun c => c.crops) (b! "crops") setCrop (fun c c' v h => ?_) (fun c c' k v hk h => ?_) l c c' hn h
  · obtain hx := setKey_cases h
    simp (config := { decide := true }) only [false_and, or_false, false_or, true_and] at hx
    obtain ⟨s, hs, rfl⟩ := hx
    exact hs
  · rcases setKey_cases h with h | h | h | h | h | h | h | h | h | h | h | h | h | h | h | h | h | h | h
    all_goals first
      | exact absurd h.1 hk
      | (obtain ⟨_, s, _, rfl⟩ := h; rfl)
      | (obtain ⟨_, _, _, _, _, _, _, _, _, _, _, _, _, _, _, _, _, _, rfl⟩ := h; rfl)

theorem field_cfa {l : Table} {c c' : Camera} (hn : (l.map Prod.fst).Nodup) (h : updateFromToml c l = .ok c') :
    Updated setCfa (l.lookup (b! "color_pattern")) c.cfa c'.cfa := by
  refine fold_field (fun c => c.cfa) (b! "color_pattern") setCfa (fun c c' v h => ?_) (fun c c' k v hk h => ?_) l c c' hn h
  · obtain hx := setKey_cases h
    simp (config := { decide := true }) only [false_and, or_false, false_or, true_and] at hx
    obtain ⟨s, hs, rfl⟩ := hx
    exact hs
  · rcases setKey_cases h with h | h | h | h | h | h | h | h | h | h | h | h | h | h | h | h | h | h | h
    all_goals first
      | exact absurd h.1 hk
      | (obtain ⟨_, s, _, rfl⟩ := h; rfl)
      | (obtain ⟨_, _, _, _, _, _, _, _, _, _, _, _, _, _, _, _, _, _, rfl⟩ := h; rfl)

theorem field_bps {l : Table} {c c' : Camera} (hn : (l.map Prod.fst).Nodup) (h : updateFromToml c l = .ok c') :
    Updated setUsize (l.lookup (b! "bps")) c.bps c'.bps := by
  refine fold_field (fun c => c.bps) (b! "bps") setUsize (fun c c' v h => ?_) (fun c c' k v hk h => ?_) l c c' hn h
  · obtain hx := setKey_cases h
    simp (config := { decide := true }) only [false_and, or_false, false_or, true_and] at hx
    obtain ⟨s, hs, rfl⟩ := hx
    exact hs
  · rcases setKey_cases h with h | h | h | h | h | h | h | h | h | h | h | h | h | h | h | h | h | h | h
    all_goals first
      | exact absurd h.1 hk
      | (obtain ⟨_, s, _, rfl⟩ := h; rfl)
      | (obtain ⟨_, _, _, _, _, _, _, _, _, _, _, _, _, _, _, _, _, _, rfl⟩ := h; rfl)

theorem field_wbOffset {l : Table} {c c' : Camera} (hn : (l.map Prod.fst).Nodup) (h : updateFromToml c l = .ok c') :
    Updated setUsize (l.lookup (b! "wb_offset")) c.wbOffset c'.wbOffset := by
  refine fold_field (fun c => c.wbOffset) (b! "wb_offset") setUsize (fun c c' v h => ?_) (fun c c' k v hk h => ?_) l c c' hn h
  · obtain hx := setKey_cases h
    simp (config := { decide := true }) only [false_and, or_false, false_or, true_and] at hx
    obtain ⟨s, hs, rfl⟩ := hx
    exact hs
  · rcases setKey_cases h with h | h | h | h | h | h | h | h | h | h | h | h | h | h | h | h | h | h | h
    all_goals first
      | exact absurd h.1 hk
      | (obtain ⟨_, s, _, rfl⟩ := h; rfl)
      | (obtain ⟨_, _, _, _, _, _, _, _, _, _, _, _, _, _, _, _, _, _, rfl⟩ := h; rfl)

theorem field_filesize {l : Table} {c c' : Camera} (hn : (l.map Prod.fst).Nodup) (h : updateFromToml c l = .ok c') :
    Updated setUsize (l.lookup (b! "filesize")) c.filesize c'.filesize := by
  refine fold_field (fun c => c.filesize) (b! "filesize") setUsize (fun c c' v h => ?_) (fun c c' k v hk h => ?_) l c c' hn h
  · obtain hx := setKey_cases h
    simp (config := { decide := true }) only [false_and, or_false, false_or, true_and] at hx
    obtain ⟨s, hs, rfl⟩ := hx
    exact hs
  · rcases setKey_cases h with h | h | h | h | h | h | h | h | h | h | h | h | h | h | h | h | h | h | h
    all_goals first
      | exact absurd h.1 hk
      | (obtain ⟨_, s, _, rfl⟩ := h; rfl)
      | (obtain ⟨_, _, _, _, _, _, _, _, _, _, _, _, _, _, _, _, _, _, rfl⟩ := h; rfl)

theorem field_rawWidth {l : Table} {c c' : Camera} (hn : (l.map Prod.fst).Nodup) (h : updateFromToml c l = .ok c') :
    Updated setUsize (l.lookup (b! "raw_width")) c.rawWidth c'.rawWidth := by
  refine fold_field (fun c => c.rawWidth) (b! "raw_width") setUsize (fun c c' v h => ?_) (fun c c' k v hk h => ?_) l c c' hn h
  · obtain hx := setKey_cases h
    simp (config := { decide := true }) only [false_and, or_false, false_or, true_and] at hx
    obtain ⟨s, hs, rfl⟩ := hx
    exact hs
  · rcases setKey_cases h with h | h | h | h | h | h | h | h | h | h | h | h | h | h | h | h | h | h | h
    all_goals first
      | exact absurd h.1 hk
      | (obtain ⟨_, s, _, rfl⟩ := h; rfl)
      | (obtain ⟨_, _, _, _, _, _, _, _, _, _, _, _, _, _, _, _, _, _, rfl⟩ := h; rfl)

theorem field_rawHeight {l : Table} {c c' : Camera} (hn : (l.map Prod.fst).Nodup) (h : updateFromToml c l = .ok c') :
    Updated setUsize (l.lookup (b! "raw_height")) c.rawHeight c'.rawHeight := by
  refine fold_field (fun c => c.rawHeight) (b! "raw_height") setUsize (fun c c' v h => ?_) (fun c c' k v hk h => ?_) l c c' hn h
  · obtain hx := setKey_cases h
    simp (config := { decide := true }) only [false_and, or_false, false_or, true_and] at hx
    obtain ⟨s, hs, rfl⟩ := hx
    exact hs
  · rcases setKey_cases h with h | h | h | h | h | h | h | h | h | h | h | h | h | h | h | h | h | h | h
    all_goals first
      | exact absurd h.1 hk
      | (obtain ⟨_, s, _, rfl⟩ := h; rfl)
      | (obtain ⟨_, _, _, _, _, _, _, _, _, _, _, _, _, _, _, _, _, _, rfl⟩ := h; rfl)

theorem field_hints {l : Table} {c c' : Camera} (hn : (l.map Prod.fst).Nodup) (h : updateFromToml c l = .ok c') :
    Updated setHints (l.lookup (b! "hints")) c.hints c'.hints := by
  refine fold_field (fun c => c.hints) (b! "hints") setHints (fun c c' v h => ?_) (fun c c' k v hk h => ?_) l c c' hn h
  · obtain hx := setKey_cases h
    simp (config := { decide := true }) only [false_and, or_false, false_or, true_and] at hx
    obtain ⟨s, hs, rfl⟩ := hx
    exact hs
  · rcases setKey_cases h with h | h | h | h | h | h | h | h | h | h | h | h | h | h | h | h | h | h | h
    all_goals first
      | exact absurd h.1 hk
      | (obtain ⟨_, s, _, rfl⟩ := h; rfl)
      | (obtain ⟨_, _, _, _, _, _, _, _, _, _, _, _, _, _, _, _, _, _, rfl⟩ := h; rfl)

theorem field_orientation {l : Table} {c c' : Camera} (h : updateFromToml c l = .ok c') : c'.orientation = c.orientation := by
  induction l generalizing c with
  | nil => injection h with h; subst h; rfl
  | cons p l ih =>
    unfold updateFromToml at h ih
    rw [List.foldlM_cons, bind_eq_ok] at h
    obtain ⟨c1, h1, h2⟩ := h
    rw [ih h2]
    rcases setKey_cases h1 with h | h | h | h | h | h | h | h | h | h | h | h | h | h | h | h | h | h | h
    all_goals first
      | (obtain ⟨_, s, _, rfl⟩ := h; rfl)
      | (obtain ⟨_, _, _, _, _, _, _, _, _, _, _, _, _, _, _, _, _, _, rfl⟩ := h; rfl)

/-! ## Results of the readers -/

theorem setStr_ok {v : Toml} {old new : Bytes} (h : setStr v old = .ok new) : new = textOf (some v) := by
  cases v <;> first | (injection h with h; exact h.symm) | exact absurd h (crash_ne_ok _)

theorem asInt_ok {v : Toml} {i : Int} (h : v.asInt = .ok i) : i = intOf (some v) := by
  cases v <;> first | (injection h with h; exact h.symm) | exact absurd h (crash_ne_ok _)

theorem asArr_ok {v : Toml} {l : List Toml} (h : v.asArr = .ok l) : l = itemsOf (some v) := by
  cases v <;> first | (injection h with h; exact h.symm) | exact absurd h (crash_ne_ok _)

theorem asStr_ok {v : Toml} {l : Bytes} (h : v.asStr = .ok l) : l = textOf (some v) := by
  cases v <;> first | (injection h with h; exact h.symm) | exact absurd h (crash_ne_ok _)

theorem asTable_ok {v : Toml} {l : Table} (h : v.asTable = .ok l) : l = tableOf v := by
  cases v <;> first | (injection h with h; exact h.symm) | exact absurd h (crash_ne_ok _)

theorem asUsize_ok {v : Toml} {n : Nat} (h : v.asUsize = .ok n) : n = natOf (some v) := by
  unfold Toml.asUsize at h
  rw [bind_eq_ok] at h
  obtain ⟨i, hi, h⟩ := h
  injection h with h
  rw [asInt_ok hi] at h
  exact h.symm

theorem setUsize_ok {v : Toml} {old new : Nat} (h : setUsize v old = .ok new) : new = natOf (some v) := asUsize_ok h

theorem setLevel_ok {v : Toml} {old new : List Nat} (h : setLevel v old = .ok new) : new = List.replicate 4 (levelOf (some v)) := by
  unfold setLevel at h
  rw [bind_eq_ok] at h
  obtain ⟨i, hi, h⟩ := h
  injection h with h
  rw [asInt_ok hi] at h
  exact h.symm

theorem setPair_ok {v : Toml} {old new : Nat × Nat} (h : setPair v old = .ok new) :
    new = (natOf (itemsOf (some v))[0]?, natOf (itemsOf (some v))[1]?) := by
  unfold setPair pairOf at h
  simp only [bind_eq_ok, idx_eq_ok] at h
  obtain ⟨l, hl, v0, h0, a, ha, v1, h1, b, hb, h⟩ := h
  injection h with h
  rw [← asArr_ok hl, h0, h1, ← h, asUsize_ok ha, asUsize_ok hb]

theorem setCfa_ok {v : Toml} {old new : CFA} (h : setCfa v old = .ok new) : CFA.new (textOf (some v)) = .ok new := by
  unfold setCfa at h
  rw [bind_eq_ok] at h
  obtain ⟨s, hs, h⟩ := h
  rwa [asStr_ok hs] at h

theorem mapM_map {α β : Type} {f : α → M β} {g : α → β} (hfg : ∀ a b, f a = .ok b → b = g a) : ∀ {l : List α} {r : List β}, l.mapM f = .ok r → r = l.map g := by
  intro l
  induction l with
  | nil => intro r h; injection h with h; exact h.symm
  | cons a l ih =>
    intro r h
    rw [List.mapM_cons, bind_eq_ok] at h
    obtain ⟨b, hb, h⟩ := h
    rw [bind_eq_ok] at h
    obtain ⟨r', hr, h⟩ := h
    injection h with h
    rw [← h, hfg a b hb, ih hr]; rfl

theorem setHints_ok {v : Toml} {old new : List Bytes} (h : setHints v old = .ok new) :
    new = (itemsOf (some v)).map fun h => textOf (some h) := by
  unfold setHints at h
  rw [bind_eq_ok] at h
  obtain ⟨l, hl, h⟩ := h
  rw [← asArr_ok hl]
  exact mapM_map (fun a b => asStr_ok) h

theorem setCrops_ok : ∀ (l : List Toml) (i : Nat) (old new : List Nat), setCrops i l old = .ok new →
    new.length = old.length ∧ ∀ j, new[j]? = if i ≤ j ∧ j < i + l.length then (l[j - i]?).map (fun v => natOf (some v)) else old[j]? := by
  intro l
  induction l with
  | nil =>
    intro i old new h
    injection h with h
    subst h
    refine ⟨rfl, fun j => ?_⟩
    rw [if_neg (by simp only [List.length_nil]; omega)]
  | cons v l ih =>
    intro i old new h
    rw [setCrops, bind_eq_ok] at h
    obtain ⟨x, hx, h⟩ := h
    rw [bind_eq_ok] at h
    obtain ⟨c, hc, h⟩ := h
    rw [setIdx_eq_ok] at hc
    obtain ⟨h1, h2⟩ := ih _ _ _ h
    refine ⟨by rw [h1, hc.2, List.length_set], fun j => ?_⟩
    rw [h2 j, hc.2, List.length_cons]
    by_cases hj : j = i
    · subst hj
      rw [if_neg (by omega), if_pos (by omega), List.getElem?_set_self hc.1, Nat.sub_self, List.getElem?_cons_zero, asUsize_ok hx]; rfl
    · by_cases hin : i + 1 ≤ j ∧ j < i + 1 + l.length
      · rw [if_pos hin, if_pos (by omega), show j - i = (j - (i + 1)) + 1 by omega, List.getElem?_cons_succ]
      · rw [if_neg hin, if_neg (by omega), List.getElem?_set_ne (by omega)]

theorem setCrop_ok {v : Toml} {old new : List Nat} (hl4 : old.length = 4) (h : setCrop v old = .ok new) : new.length = 4 ∧
    ∀ j, j < 4 → new[j]? = some (match (itemsOf (some v))[j]? with | some x => natOf (some x) | none => (old[j]?).getD 0) := by
  unfold setCrop at h
  rw [bind_eq_ok] at h
  obtain ⟨l, hl, h⟩ := h
  obtain ⟨h1, h2⟩ := setCrops_ok _ _ _ _ h
  refine ⟨by omega, fun j hj => ?_⟩
  rw [h2 j, ← asArr_ok hl]
  by_cases hjl : j < l.length
  · rw [if_pos (by omega), Nat.sub_zero, List.getElem?_eq_getElem hjl]; rfl
  · rw [if_neg (by omega), List.getElem?_eq_none (l := l) (by omega), List.getElem?_eq_getElem (l := old) (by omega)]; rfl

theorem setMatrix_ok : ∀ (l : List Toml) (i : Nat) (old new : List (List F32)), IsGrid 4 3 old → setMatrix i l old = .ok new →
    IsGrid 4 3 new ∧ ∀ r c, r < 4 → c < 3 → cell new r c =
      if i ≤ 3 * r + c ∧ 3 * r + c < i + l.length then (l[3 * r + c - i]?).map (fun v => F32.ofRat (intOf (some v))) else cell old r c := by
  intro l
  induction l with
  | nil =>
    intro i old new ho h
    injection h with h
    subst h
    refine ⟨ho, fun r c _ _ => ?_⟩
    rw [if_neg (by simp only [List.length_nil]; omega)]
  | cons v l ih =>
    intro i old new ho h
    rw [setMatrix, bind_eq_ok] at h
    obtain ⟨x, hx, h⟩ := h
    rw [bind_eq_ok] at h
    obtain ⟨m, hm, h⟩ := h
    have hi : i / 3 < 4 := by
      by_cases hi : i / 3 < 4
      · exact hi
      · unfold setIdx2 at hm
        rw [idx_ge (by rw [ho.1]; omega)] at hm
        exact absurd hm (crash_ne_ok _)
    obtain ⟨m', e1, e2, e3⟩ := setIdx2_grid ho hi (Nat.mod_lt i (by omega)) (F32.ofRat x)
    rw [e1] at hm
    injection hm with hm
    subst hm
    obtain ⟨h1, h2⟩ := ih _ _ _ e2 h
    refine ⟨h1, fun r c hr hc => ?_⟩
    rw [h2 r c hr hc, List.length_cons, e3]
    by_cases hj : 3 * r + c = i
    · rw [if_neg (by omega), if_pos (by omega), if_pos (by omega), hj, Nat.sub_self, List.getElem?_cons_zero, asInt_ok hx]; rfl
    · by_cases hin : i + 1 ≤ 3 * r + c ∧ 3 * r + c < i + 1 + l.length
      · rw [if_pos hin, if_pos (by omega), show 3 * r + c - i = (3 * r + c - (i + 1)) + 1 by omega, List.getElem?_cons_succ]
      · rw [if_neg hin, if_neg (by omega), if_neg (by omega)]

theorem setMat_ok {v : Toml} {old new : List (List F32)} (ho : IsGrid 4 3 old) (h : setMat v old = .ok new) : IsGrid 4 3 new ∧
    ∀ r c, r < 4 → c < 3 → cell new r c = match (itemsOf (some v))[3 * r + c]? with
      | some x => some (F32.ofRat (intOf (some x)))
      | none => cell old r c := by
  unfold setMat at h
  rw [bind_eq_ok] at h
  obtain ⟨l, hl, h⟩ := h
  obtain ⟨h1, h2⟩ := setMatrix_ok _ _ _ _ ho h
  refine ⟨h1, fun r c hr hc => ?_⟩
  rw [h2 r c hr hc, ← asArr_ok hl]
  by_cases hjl : 3 * r + c < l.length
  · rw [if_pos (by omega), Nat.sub_zero, List.getElem?_eq_getElem hjl]; rfl
  · rw [if_neg (by omega), List.getElem?_eq_none (l := l) (by omega)]

/-! ## A camera and its mode -/

/-- Two updates: the second wins. -/
theorem updated_twice {α : Type} {set : Toml → α → M α} {f : Option Toml → α} (hf : ∀ v old new, set v old = .ok new → new = f (some v))
    {a c : Option Toml} {x0 x1 x2 : α} (h0 : x0 = f none) (h1 : Updated set a x0 x1) (h2 : Updated set c x1 x2) : x2 = f (c.or a) := by
  cases c with
  | some v => exact hf _ _ _ h2
  | none =>
    have h2 : x2 = x1 := h2
    subst h2
    cases a with
    | some v => exact hf _ _ _ h1
    | none => have h1 : x2 = x0 := h1; rw [h1, h0]; rfl

theorem new_ok : ∃ cfa, CFA.new [] = .ok cfa ∧ new = .ok {
    make := [], model := [], mode := [], cleanMake := [], cleanModel := [], filesize := 0, rawWidth := 0, rawHeight := 0,
    orientation := .unknown, whitelevels := [0, 0, 0, 0], blacklevels := [0, 0, 0, 0], blackareah := (0, 0),
    blackareav := (0, 0), xyzToCam := List.replicate 4 (List.replicate 3 (.zero false)), cfa := cfa, crops := [0, 0, 0, 0],
    bps := 0, wbOffset := 0, hints := [] } := by
  cases h : CFA.new [] with
  | error e => have : (match CFA.new [] with | .ok _ => true | _ => false) = true := by decide +kernel
               rw [h] at this; cases this
  | ok cfa => exact ⟨cfa, rfl, by unfold new; rw [h]; rfl⟩

/-- A camera updated with its own table and with that of a mode. -/
theorem describes {base mode : Table} {c0 c1 c2 : Camera} (name : Bytes × Bytes) (hb : (base.map Prod.fst).Nodup) (hm : (mode.map Prod.fst).Nodup)
    (h0 : new = .ok c0) (h1 : updateFromToml c0 base = .ok c1) (h2 : updateFromToml c1 mode = .ok c2) :
    Variant.Describes ⟨base, mode, name⟩ { c2 with model := name.1, cleanModel := name.2 } := by
  obtain ⟨cfa, hcfa, hnew⟩ := new_ok
  rw [hnew] at h0
  injection h0 with h0
  subst h0
  refine ⟨?_, rfl, ?_, ?_, rfl, ?_, ?_, ?_, ?_, ?_, ?_, ?_, ?_, ?_, ?_, ?_, ?_, ?_, ?_⟩
  · have := updated_twice (f := textOf) (fun _ _ _ => setStr_ok) rfl (field_make hb h1) (field_make hm h2)
    exact this
  · have := updated_twice (f := textOf) (fun _ _ _ => setStr_ok) rfl (field_mode hb h1) (field_mode hm h2)
    exact this
  · have := updated_twice (f := textOf) (fun _ _ _ => setStr_ok) rfl (field_cleanMake hb h1) (field_cleanMake hm h2)
    exact this
  · have := updated_twice (f := natOf) (fun _ _ _ => setUsize_ok) rfl (field_filesize hb h1) (field_filesize hm h2)
    exact this
  · have := updated_twice (f := natOf) (fun _ _ _ => setUsize_ok) rfl (field_rawWidth hb h1) (field_rawWidth hm h2)
    exact this
  · have := updated_twice (f := natOf) (fun _ _ _ => setUsize_ok) rfl (field_rawHeight hb h1) (field_rawHeight hm h2)
    exact this
  · show c2.orientation = _
    rw [field_orientation h2, field_orientation h1]
  · have := updated_twice (f := fun o => List.replicate 4 (levelOf o)) (fun _ _ _ => setLevel_ok) rfl (field_whitelevels hb h1) (field_whitelevels hm h2)
    exact this
  · have := updated_twice (f := fun o => List.replicate 4 (levelOf o)) (fun _ _ _ => setLevel_ok) rfl (field_blacklevels hb h1) (field_blacklevels hm h2)
    exact this
  · have := updated_twice (f := fun o => (natOf (itemsOf o)[0]?, natOf (itemsOf o)[1]?)) (fun _ _ _ => setPair_ok) rfl (field_blackareah hb h1) (field_blackareah hm h2)
    exact this
  · have := updated_twice (f := fun o => (natOf (itemsOf o)[0]?, natOf (itemsOf o)[1]?)) (fun _ _ _ => setPair_ok) rfl (field_blackareav hb h1) (field_blackareav hm h2)
    exact this
  · intro i j hi hj
    have step : ∀ (t : Table) (o n : List (List F32)), IsGrid 4 3 o → Updated setMat (t.lookup (b! "color_matrix")) o n → IsGrid 4 3 n ∧
        ∀ r c, r < 4 → c < 3 → cell n r c = match (itemsOf (t.lookup (b! "color_matrix")))[3 * r + c]? with
          | some x => some (F32.ofRat (intOf (some x)))
          | none => cell o r c := by
      intro t o n ho hu
      cases hl : t.lookup (b! "color_matrix") with
      | none => rw [hl] at hu; have hu : n = o := hu; subst hu; exact ⟨ho, fun r c _ _ => rfl⟩
      | some v => rw [hl] at hu; exact setMat_ok ho hu
    have g0 : IsGrid 4 3 (List.replicate 4 (List.replicate 3 (F32.zero false))) := ⟨rfl, fun r hr => by rw [List.eq_of_mem_replicate hr]; rfl⟩
    obtain ⟨g1, e1⟩ := step base _ _ g0 (field_xyzToCam hb h1)
    obtain ⟨g2, e2⟩ := step mode _ _ g1 (field_xyzToCam hm h2)
    have hz : cell (List.replicate 4 (List.replicate 3 (F32.zero false))) i j = some (F32.ofRat (0 : Int)) := by
      have : F32.ofRat (((0 : Int) : Rat)) = .zero false := by decide +kernel
      rw [this]
      unfold cell
      rw [List.getElem?_replicate, if_pos hi, Option.bind_some, List.getElem?_replicate, if_pos hj]
    show cell c2.xyzToCam i j = _
    rw [e2 i j hi hj, e1 i j hi hj, hz]
    unfold Variant.item
    dsimp only
    cases (itemsOf (mode.lookup (b! "color_matrix")))[3 * i + j]? with
    | some x => rfl
    | none =>
      cases (itemsOf (base.lookup (b! "color_matrix")))[3 * i + j]? with
      | some x => rfl
      | none => rfl
  · have e1 := field_cfa hb h1
    have e2 := field_cfa hm h2
    show CFA.new (textOf ((mode.lookup (b! "color_pattern")).or (base.lookup (b! "color_pattern")))) = .ok c2.cfa
    cases hc : mode.lookup (b! "color_pattern") with
    | some v => rw [hc] at e2; exact setCfa_ok e2
    | none =>
      rw [hc] at e2
      have e2 : c2.cfa = c1.cfa := e2
      rw [e2]
      cases ha : base.lookup (b! "color_pattern") with
      | some v => rw [ha] at e1; exact setCfa_ok e1
      | none => rw [ha] at e1; have e1 : c1.cfa = cfa := e1; rw [e1]; exact hcfa
  · intro j hj
    have step : ∀ (t : Table) (o n : List Nat), o.length = 4 → Updated setCrop (t.lookup (b! "crops")) o n → n.length = 4 ∧
        ∀ j, j < 4 → n[j]? = some (match (itemsOf (t.lookup (b! "crops")))[j]? with | some x => natOf (some x) | none => (o[j]?).getD 0) := by
      intro t o n ho hu
      cases hl : t.lookup (b! "crops") with
      | none => rw [hl] at hu; have hu : n = o := hu; subst hu; exact ⟨ho, fun j hj => by
          rw [List.getElem?_eq_getElem (l := n) (by omega)]; rfl⟩
      | some v => rw [hl] at hu; exact setCrop_ok ho hu
    obtain ⟨g1, e1⟩ := step base _ _ rfl (field_crops hb h1)
    obtain ⟨g2, e2⟩ := step mode _ _ g1 (field_crops hm h2)
    show c2.crops[j]? = _
    rw [e2 j hj, e1 j hj]
    have hz : (([0, 0, 0, 0] : List Nat)[j]?).getD 0 = 0 := by
      match j, hj with
      | 0, _ => rfl
      | 1, _ => rfl
      | 2, _ => rfl
      | 3, _ => rfl
    rw [hz]
    unfold Variant.item
    dsimp only
    cases (itemsOf (mode.lookup (b! "crops")))[j]? with
    | some x => rfl
    | none =>
      cases (itemsOf (base.lookup (b! "crops")))[j]? with
      | some x => rfl
      | none => rfl
  · have := updated_twice (f := natOf) (fun _ _ _ => setUsize_ok) rfl (field_bps hb h1) (field_bps hm h2)
    exact this
  · have := updated_twice (f := natOf) (fun _ _ _ => setUsize_ok) rfl (field_wbOffset hb h1) (field_wbOffset hm h2)
    exact this
  · have := updated_twice (f := fun o => (itemsOf o).map fun h => textOf (some h)) (fun _ _ _ => setHints_ok) rfl (field_hints hb h1) (field_hints hm h2)
    exact this

end Camera
end Model

namespace Model
open Rust Spec

/-- Two lists related element by element. -/
def Paired {α β : Type} (R : α → β → Prop) (l : List α) (r : List β) : Prop :=
  ∃ ps : List (α × β), ps.map Prod.fst = l ∧ ps.map Prod.snd = r ∧ ∀ p ∈ ps, R p.1 p.2

theorem Paired.append {α β : Type} {R : α → β → Prop} {l l' : List α} {r r' : List β} (h : Paired R l r) (h' : Paired R l' r') :
    Paired R (l ++ l') (r ++ r') := by
  obtain ⟨ps, h1, h2, h3⟩ := h
  obtain ⟨ps', h1', h2', h3'⟩ := h'
  refine ⟨ps ++ ps', by simp [h1, h1'], by simp [h2, h2'], ?_⟩
  intro p hp
  rcases List.mem_append.mp hp with hp | hp
  · exact h3 p hp
  · exact h3' p hp

theorem paired_nil {α β : Type} {R : α → β → Prop} : Paired R [] [] := ⟨[], rfl, rfl, by simp⟩

theorem paired_one {α β : Type} {R : α → β → Prop} {a : α} {b : β} (h : R a b) : Paired R [a] [b] := ⟨[(a, b)], rfl, rfl, by simpa using h⟩

theorem paired_mapM {α β γ : Type} {R : γ → β → Prop} {f : α → M β} {g : α → γ} : ∀ {l : List α} {r : List β},
    (∀ a ∈ l, ∀ b, f a = .ok b → R (g a) b) → l.mapM f = .ok r → Paired R (l.map g) r := by
  intro l
  induction l with
  | nil => intro r _ h; injection h with h; subst h; exact paired_nil
  | cons a l ih =>
    intro r hf h
    rw [List.mapM_cons, bind_eq_ok] at h
    obtain ⟨b, hb, h⟩ := h
    rw [bind_eq_ok] at h
    obtain ⟨r', hr, h⟩ := h
    injection h with h
    subst h
    exact Paired.append (paired_one (hf a (by simp) b hb)) (ih (fun a ha => hf a (by simp [ha])) hr)

theorem paired_flat {α β γ : Type} {R : γ → β → Prop} {f : α → M (List β)} {g : α → List γ} : ∀ {l : List α} {r : List (List β)},
    (∀ a ∈ l, ∀ b, f a = .ok b → Paired R (g a) b) → l.mapM f = .ok r → Paired R (l.flatMap g) r.flatten := by
  intro l
  induction l with
  | nil => intro r _ h; injection h with h; subst h; exact paired_nil
  | cons a l ih =>
    intro r hf h
    rw [List.mapM_cons, bind_eq_ok] at h
    obtain ⟨b, hb, h⟩ := h
    rw [bind_eq_ok] at h
    obtain ⟨r', hr, h⟩ := h
    injection h with h
    subst h
    exact Paired.append (hf a (by simp) b hb) (ih (fun a ha => hf a (by simp [ha])) hr)

theorem paired_last {α β : Type} {R : α → β → Prop} {l : List α} {r : List β} {p : α → Prop} {q : β → Prop} (h : Paired R l r)
    (hpq : ∀ a b, R a b → (p a ↔ q b)) {x : β} (hx : LastWith q r x) : ∃ a, LastWith p l a ∧ R a x := by
  obtain ⟨ps, h1, h2, h3⟩ := h
  obtain ⟨pre, post, e, hq, hn⟩ := hx
  rw [e] at h2
  obtain ⟨ps1, ps2, rfl, e1, e2⟩ := List.map_eq_append_iff.mp h2
  obtain ⟨z, ps3, rfl, e3, e4⟩ := List.map_eq_cons_iff.mp e2
  obtain ⟨a, b⟩ := z
  have e3 : b = x := e3
  subst e3
  have hR : R a b := h3 (a, b) (by simp)
  refine ⟨a, ⟨ps1.map Prod.fst, ps3.map Prod.fst, by rw [← h1]; simp, (hpq _ _ hR).mpr hq, ?_⟩, hR⟩
  intro y hy hpy
  obtain ⟨z, hz, rfl⟩ := List.mem_map.mp hy
  refine hn z.2 ?_ ((hpq _ _ (h3 z (by simp [hz]))).mp hpy)
  rw [← e4]
  exact List.mem_map_of_mem hz

theorem paired_none {α β : Type} {R : α → β → Prop} {l : List α} {r : List β} {p : α → Prop} {q : β → Prop} (h : Paired R l r)
    (hpq : ∀ a b, R a b → (p a ↔ q b)) (hx : ∀ b ∈ r, ¬ q b) : ∀ a ∈ l, ¬ p a := by
  obtain ⟨ps, h1, h2, h3⟩ := h
  intro a ha hp
  rw [← h1] at ha
  obtain ⟨z, hz, rfl⟩ := List.mem_map.mp ha
  refine hx z.2 ?_ ((hpq _ _ (h3 z hz)).mp hp)
  rw [← h2]
  exact List.mem_map_of_mem hz

namespace RawLoader

theorem modesOf_ok {ct : Table} {ms : List Table} (h : modesOf ct = .ok ms) : ms = modesIn ct := by
  unfold modesOf at h
  rw [Map.get_eq_lookup] at h
  unfold modesIn
  cases hl : ct.lookup (b! "modes") with
  | none => rw [hl] at h; injection h with h; subst h; rfl
  | some v =>
    rw [hl] at h
    dsimp only at h
    rw [bind_eq_ok] at h
    obtain ⟨l, h1, h⟩ := h
    rw [bind_eq_ok] at h
    obtain ⟨ms', h2, h⟩ := h
    injection h with h
    rw [← h, Camera.mapM_map (fun a b => Camera.asTable_ok) h2, Camera.asArr_ok h1]

theorem aliasOf_ok {v : Toml} {p : Bytes × Bytes} (h : aliasOf v = .ok p) : p = (textOf (itemsOf (some v))[0]?, textOf (itemsOf (some v))[1]?) := by
  unfold aliasOf at h
  simp only [bind_eq_ok, idx_eq_ok] at h
  obtain ⟨l, hl, v0, h0, a, ha, v1, h1, b, hb, h⟩ := h
  injection h with h
  rw [← Camera.asArr_ok hl, h0, h1, ← h, Camera.asStr_ok ha, Camera.asStr_ok hb]

theorem namesOf_ok {ct : Table} {c0 cam : Camera} {ns : List (Bytes × Bytes)} (hb : (ct.map Prod.fst).Nodup) (h0 : Camera.new = .ok c0)
    (h1 : c0.updateFromToml ct = .ok cam) (h : namesOf cam ct = .ok ns) : ns = namesIn ct := by
  have e1 : cam.model = textOf (ct.lookup (b! "model")) ∧ cam.cleanModel = textOf (ct.lookup (b! "clean_model")) := by
    obtain ⟨cfa, _, hnew⟩ := Camera.new_ok
    rw [hnew] at h0
    injection h0 with h0
    subst h0
    constructor
    · have := Camera.updated_twice (f := textOf) (fun _ _ _ => Camera.setStr_ok) rfl (Camera.field_model hb h1) (c := none) rfl
      exact this
    · have := Camera.updated_twice (f := textOf) (fun _ _ _ => Camera.setStr_ok) rfl (Camera.field_cleanModel hb h1) (c := none) rfl
      exact this
  unfold namesOf at h
  rw [Map.get_eq_lookup] at h
  unfold namesIn
  rw [← e1.1, ← e1.2]
  cases hl : ct.lookup (b! "model_aliases") with
  | none => rw [hl] at h; injection h with h; subst h; rfl
  | some v =>
    rw [hl] at h
    dsimp only at h
    rw [bind_eq_ok] at h
    obtain ⟨l, h1, h⟩ := h
    rw [bind_eq_ok] at h
    obtain ⟨ms', h2, h⟩ := h
    injection h with h
    rw [← h, Camera.mapM_map (fun a b => aliasOf_ok) h2, Camera.asArr_ok h1]

theorem expand_ok {t : Toml} {l : List Camera} (hd : ∀ v ∈ variantsIn (tableOf t), (v.base.map Prod.fst).Nodup ∧ (v.mode.map Prod.fst).Nodup)
    (h : expand t = .ok l) : Paired Variant.Describes (variantsIn (tableOf t)) l := by
  unfold expand at h
  rw [bind_eq_ok] at h
  obtain ⟨ct, hct, h⟩ := h
  rw [bind_eq_ok] at h
  obtain ⟨modes, hmodes, h⟩ := h
  rw [bind_eq_ok] at h
  obtain ⟨c0, h0, h⟩ := h
  rw [bind_eq_ok] at h
  obtain ⟨cam, hcam, h⟩ := h
  rw [bind_eq_ok] at h
  obtain ⟨names, hnames, h⟩ := h
  rw [bind_eq_ok] at h
  obtain ⟨ll, hll, h⟩ := h
  injection h with h
  subst h
  have hct := Camera.asTable_ok hct
  rw [← hct] at hd ⊢
  have hnb : (ct.map Prod.fst).Nodup := (hd ⟨ct, ct, (textOf (ct.lookup (b! "model")), textOf (ct.lookup (b! "clean_model")))⟩ (by
    unfold variantsIn namesIn modesIn
    simp)).1
  have hms := modesOf_ok hmodes
  have hns := namesOf_ok hnb h0 hcam hnames
  subst hms
  subst hns
  unfold variantsIn
  refine paired_flat (fun n hn l hl => paired_mapM (fun t ht c hc => ?_) hl) hll
  rw [bind_eq_ok] at hc
  obtain ⟨mcam, hm, hc⟩ := hc
  injection hc with hc
  subst hc
  have hv : (⟨ct, t, n⟩ : Variant) ∈ variantsIn ct := by
    unfold variantsIn
    exact List.mem_flatMap.mpr ⟨n, hn, List.mem_map.mpr ⟨t, ht, rfl⟩⟩
  exact Camera.describes n hnb (hd _ hv).2 h0 hcam hm

/-- All cameras of a database that loads. -/
theorem new_ok {db : Toml} {s : RawLoader} (hd : DistinctKeys db) (h : new db = .ok s) :
    ∃ cams, Paired Variant.Describes (variants db) cams ∧ s = cams.foldl addCamera ⟨[], []⟩ := by
  unfold new at h
  rw [bind_eq_ok] at h
  obtain ⟨t, ht, h⟩ := h
  dsimp only at h
  rw [Map.get_eq_lookup] at h
  have ht := Camera.asTable_ok ht
  subst ht
  unfold DistinctKeys variants at hd
  unfold variants
  cases hl : (tableOf db).lookup (b! "cameras") with
  | none => rw [hl] at h; exact absurd h (crash_ne_ok _)
  | some v =>
    rw [hl] at h hd
    simp only [ok_bind] at h
    rw [bind_eq_ok] at h
    obtain ⟨l, hl, h⟩ := h
    rw [bind_eq_ok] at h
    obtain ⟨cams, hc, h⟩ := h
    injection h with h
    subst h
    rw [Camera.asArr_ok hl] at hc
    refine ⟨cams.flatten, paired_flat (fun c hcm r hr => expand_ok (fun v hv => hd v ?_) hr) hc, rfl⟩
    exact List.mem_flatMap.mpr ⟨c, hcm, hv⟩

/-- What a camera is found by. -/
def keyOf (c : Camera) : Bytes × Bytes × Bytes := (c.make, c.model, c.mode)

theorem fold_cameras (key : Bytes × Bytes × Bytes) : ∀ (cams : List Camera) (s : RawLoader),
    (∃ c, Map.get (cams.foldl addCamera s).cameras key = some c ∧ LastWith (fun c => keyOf c = key) cams c) ∨
    ((∀ c ∈ cams, keyOf c ≠ key) ∧ Map.get (cams.foldl addCamera s).cameras key = Map.get s.cameras key) := by
  intro cams
  induction cams with
  | nil => intro s; exact Or.inr ⟨by simp, rfl⟩
  | cons a l ih =>
    intro s
    rw [List.foldl_cons]
    rcases ih (addCamera s a) with ⟨c, h1, pre, post, e, h2, h3⟩ | ⟨h1, h2⟩
    · exact Or.inl ⟨c, h1, a :: pre, post, by rw [e]; rfl, h2, h3⟩
    · rw [h2]
      by_cases hk : keyOf a = key
      · refine Or.inl ⟨a, ?_, [], l, rfl, hk, fun y hy => h1 y hy⟩
        subst hk
        exact Map.get_insert_self _ _ _
      · refine Or.inr ⟨?_, Map.get_insert_ne _ _ fun h => hk h.symm⟩
        intro c hc
        rcases List.mem_cons.mp hc with rfl | hc
        · exact hk
        · exact h1 c hc

theorem fold_naked (size : Nat) : ∀ (cams : List Camera) (s : RawLoader),
    (∃ c, Map.get (cams.foldl addCamera s).naked size = some c ∧ LastWith (fun c => 0 < c.filesize ∧ c.filesize = size) cams c) ∨
    ((∀ c ∈ cams, ¬ (0 < c.filesize ∧ c.filesize = size)) ∧ Map.get (cams.foldl addCamera s).naked size = Map.get s.naked size) := by
  intro cams
  induction cams with
  | nil => intro s; exact Or.inr ⟨by simp, rfl⟩
  | cons a l ih =>
    intro s
    rw [List.foldl_cons]
    rcases ih (addCamera s a) with ⟨c, h1, pre, post, e, h2, h3⟩ | ⟨h1, h2⟩
    · exact Or.inl ⟨c, h1, a :: pre, post, by rw [e]; rfl, h2, h3⟩
    · rw [h2]
      by_cases hk : 0 < a.filesize ∧ a.filesize = size
      · refine Or.inl ⟨a, ?_, [], l, rfl, hk, fun y hy => h1 y hy⟩
        obtain ⟨h0, rfl⟩ := hk
        unfold addCamera
        rw [if_pos h0]
        exact Map.get_insert_self _ _ _
      · refine Or.inr ⟨?_, ?_⟩
        · intro c hc
          rcases List.mem_cons.mp hc with rfl | hc
          · exact hk
          · exact h1 c hc
        · unfold addCamera
          dsimp only
          split
          · rename_i h0
            exact Map.get_insert_ne _ _ fun h => hk ⟨h0, h.symm⟩
          · rfl

end RawLoader
end Model

import Verif.Lemmas.WholeFile
/-!
# Examples of files with one directory
-/

namespace Props
open Rust Spec Model

/-- A field is stored in its entry. -/
macro "stored_inline" : tactic => `(tactic| exact ⟨⟨by decide, by decide, by decide, by decide, by decide +kernel, by decide +kernel, by decide +kernel, by decide +kernel,
  fun _ => by decide +kernel, fun h => absurd h (by decide +kernel)⟩, by decide, by decide⟩)

/-- A field is stored at a place. -/
macro "stored_outside" n:num : tactic => `(tactic| exact ⟨⟨by decide, by decide, by decide, by decide, by decide +kernel, by decide +kernel, by decide +kernel, by decide +kernel,
  fun h => absurd h (by decide +kernel), fun _ => ⟨$n, by decide, by decide +kernel, by decide +kernel⟩⟩, by decide, by decide⟩)

/-- In a file with one directory. -/
theorem first_one {big : Bool} {items : List Item} {tag : Nat} {f : Field} (hf : (Dir.mk big items).field tag = some f) :
    (fileRoot big [.mk big items]).First tag big f := by
  refine ⟨[0], .mk big items, rfl, by dsimp only; rw [hf]; rfl, ?_⟩
  intro q d'' hq hd''
  match q with
  | [] => obtain rfl : fileRoot big [.mk big items] = d'' := Option.some.inj hd''; rfl
  | 0 :: q => simp [List.cons_lt_cons_iff] at hq
  | (k + 1) :: q => simp [List.cons_lt_cons_iff] at hq

theorem first_with {big : Bool} {items : List Item} {tag : Nat} {f : Field} (hf : (Dir.mk big items).field tag = some f) :
    (fileRoot big [.mk big items]).FirstWith tag (.mk big items) := by
  refine ⟨[0], .mk big items, rfl, by dsimp only; rw [hf]; rfl, ?_⟩
  intro q d'' hq hd''
  match q with
  | [] => obtain rfl : fileRoot big [.mk big items] = d'' := Option.some.inj hd''; rfl
  | 0 :: q => simp [List.cons_lt_cons_iff] at hq
  | (k + 1) :: q => simp [List.cons_lt_cons_iff] at hq

theorem numbers_here {d : Dir} {tag : Nat} {f : Field} (hf : d.field tag = some f) (ht : f.typ ∈ [1, 3, 4]) : d.Numbers tag f.values :=
  ⟨d.big, f, ⟨[], d, rfl, by dsimp only; rw [hf]; rfl, fun q _ hq _ => by cases q <;> simp at hq⟩, ht, rfl⟩

theorem numbers_one {big : Bool} {items : List Item} {tag : Nat} {f : Field} (hf : (Dir.mk big items).field tag = some f) (ht : f.typ ∈ [1, 3, 4]) :
    (fileRoot big [.mk big items]).Numbers tag f.values := ⟨big, f, first_one hf, ht, rfl⟩

theorem lacks_one {big : Bool} {items : List Item} {tag : Nat} (hs : (Dir.mk big items).subdirs = []) (hf : (Dir.mk big items).field tag = none) :
    (fileRoot big [.mk big items]).Lacks tag := by
  intro d' ⟨p, hp⟩
  match p with
  | [] => obtain rfl : fileRoot big [.mk big items] = d' := Option.some.inj hp; rfl
  | [0] => obtain rfl : Dir.mk big items = d' := Option.some.inj hp; exact hf
  | 0 :: k :: q =>
    change atPath Dir.subdirs (.mk big items) (k :: q) = some d' at hp
    unfold atPath at hp
    rw [hs] at hp
    cases hp
  | (k + 1) :: q => cases hp

theorem below_one {big : Bool} {items : List Item} (hs : (Dir.mk big items).subdirs = []) {d : Dir} (h : Below Dir.subdirs (fileRoot big [.mk big items]) d) :
    d = fileRoot big [.mk big items] ∨ d = .mk big items := by
  obtain ⟨p, hp⟩ := h
  match p with
  | [] => exact Or.inl (Option.some.inj hp).symm
  | [0] => exact Or.inr (Option.some.inj hp).symm
  | 0 :: k :: q =>
    change atPath Dir.subdirs (.mk big items) (k :: q) = some d at hp
    unfold atPath at hp
    rw [hs] at hp
    cases hp
  | (k + 1) :: q => cases hp

/-- In a directory without sub-directories. -/
theorem lacks_leaf {d : Dir} {tag : Nat} (hs : d.subdirs = []) (hf : d.field tag = none) : d.Lacks tag := by
  intro d' ⟨p, hp⟩
  match p with
  | [] => obtain rfl : d = d' := Option.some.inj hp; exact hf
  | k :: q =>
    unfold atPath at hp
    rw [hs] at hp
    cases hp

theorem first_here {d : Dir} {tag : Nat} {f : Field} (hf : d.field tag = some f) : d.First tag d.big f :=
  ⟨[], d, rfl, by dsimp only; rw [hf]; rfl, fun q _ hq _ => by cases q <;> simp at hq⟩

/-- In a file with one directory that has one sub-directory, which has none. -/
theorem below_two {big : Bool} {main sub : Dir} (hm : main.subdirs = [sub]) (hs : sub.subdirs = []) {d : Dir} (h : Below Dir.subdirs (fileRoot big [main]) d) :
    d = fileRoot big [main] ∨ d = main ∨ d = sub := by
  obtain ⟨p, hp⟩ := h
  match p with
  | [] => exact Or.inl (Option.some.inj hp).symm
  | [0] => exact Or.inr (Or.inl (Option.some.inj hp).symm)
  | 0 :: k :: q =>
    change atPath Dir.subdirs main (k :: q) = some d at hp
    unfold atPath at hp
    rw [hm] at hp
    match k with
    | 0 =>
      change atPath Dir.subdirs sub q = some d at hp
      match q with
      | [] => exact Or.inr (Or.inr (Option.some.inj hp).symm)
      | j :: q =>
        unfold atPath at hp
        rw [hs] at hp
        cases hp
    | k + 1 => cases hp
  | (k + 1) :: q => cases hp

theorem first_main {big : Bool} {main : Dir} {tag : Nat} {f : Field} (hf : main.field tag = some f) :
    (fileRoot big [main]).First tag main.big f := by
  refine ⟨[0], main, rfl, by dsimp only; rw [hf]; rfl, ?_⟩
  intro q d'' hq hd''
  match q with
  | [] => obtain rfl : fileRoot big [main] = d'' := Option.some.inj hd''; rfl
  | 0 :: q => simp [List.cons_lt_cons_iff] at hq
  | (k + 1) :: q => simp [List.cons_lt_cons_iff] at hq

theorem lacks_two {big : Bool} {main sub : Dir} {tag : Nat} (hm : main.subdirs = [sub]) (hs : sub.subdirs = []) (h1 : main.field tag = none) (h2 : sub.field tag = none) :
    (fileRoot big [main]).Lacks tag := by
  intro d' hd
  rcases below_two hm hs hd with rfl | rfl | rfl
  · rfl
  · exact h1
  · exact h2

/-- A database of one camera. -/
def loaderOf (make model mode : Bytes) (cam : Camera) : RawLoader := ⟨[((make, model, mode), cam)], []⟩

end Props

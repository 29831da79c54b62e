import Verif.Lemmas.ShippedFiles
import Verif.Props.Camera
import Mathlib.Data.List.Nodup
import Mathlib.Tactic.Tauto
/-!
# C85: the database that comes with the program

The files of `data/cameras` are part of the model (`Model/Shipped.lean`); what is proved holds for every order in which they may have
been joined.
-/

namespace Props
open Model Rust Spec Shipped TomlText

/-! ## The tables -/

theorem tables_unique {ts ts' : List Table} (h : IsTables ts) (h' : IsTables ts') : ts = ts' := by
  unfold IsTables at h h'
  rw [h] at h'
  exact List.map_injective_iff.mpr (fun _ _ e => Option.some.inj e) h'

theorem tables_checked : ∃ ts : List Table, IsTables ts ∧ (∀ t ∈ ts, Checked t) ∧ (ts.flatMap ownNames).Nodup ∧ (ts.flatMap ownSizes).Nodup := by
  obtain ⟨ts, h1, h2, h3, h4⟩ := files_good
  refine ⟨ts, h1, h2, ?_, ?_⟩
  · have := (fresh_ok names_fresh).1
    rw [← h3] at this
    exact List.Nodup.of_map _ this
  · rw [h4]; exact sizes_distinct

/-- The database with the tables in a given order. -/
def joined (order : List Table) : Toml := .table [(b! "cameras", .arr (order.map .table))]

theorem variants_joined (order : List Table) : variants (joined order) = order.flatMap variantsIn := by
  show (order.map Toml.table).flatMap _ = _
  rw [List.flatMap_map]
  rfl

theorem shipped_order {db : Toml} (h : IsShipped db) : ∃ order, db = joined order ∧ (∀ t, t ∈ order ↔ ∃ f ∈ Model.Shipped.files, readFile f = some t) ∧
    (∀ t ∈ order, Checked t) ∧ (order.flatMap ownNames).Nodup ∧ (order.flatMap ownSizes).Nodup := by
  obtain ⟨ts, order, h1, h2, rfl⟩ := h
  obtain ⟨ts', g1, g2, g3, g4⟩ := tables_checked
  obtain rfl := tables_unique h1 g1
  refine ⟨order, rfl, fun t => ?_, fun t ht => g2 t (h2.mem_iff.mp ht), (h2.flatMap_right _).nodup_iff.mpr g3, (h2.flatMap_right _).nodup_iff.mpr g4⟩
  rw [h2.mem_iff]
  constructor
  · intro ht
    have : some t ∈ ts.map some := List.mem_map.mpr ⟨t, ht, rfl⟩
    rw [← h1] at this
    exact List.mem_map.mp this
  · rintro ⟨f, hf, ht⟩
    have : some t ∈ Model.Shipped.files.map readFile := List.mem_map.mpr ⟨f, hf, ht⟩
    rw [h1] at this
    obtain ⟨u, hu, e⟩ := List.mem_map.mp this
    cases e
    exact hu

/-! ## Loading -/

/-- **C85**. The program can load its database, in whatever order the files were joined, and no table repeats a key. -/
theorem shipped_loads {db : Toml} (h : IsShipped db) : DistinctKeys db ∧ ∃ s, RawLoader.new db = .ok s := by
  obtain ⟨order, rfl, -, hc, -, -⟩ := shipped_order h
  constructor
  · intro v hv
    rw [variants_joined] at hv
    obtain ⟨t, ht, hv⟩ := List.mem_flatMap.mp hv
    unfold variantsIn at hv
    obtain ⟨n, -, hv⟩ := List.mem_flatMap.mp hv
    obtain ⟨m, hm, rfl⟩ := List.mem_map.mp hv
    exact ⟨(hc t ht).keys t (by unfold modesIn; simp), (hc t ht).keys m hm⟩
  · have : ∃ r, (order.map Toml.table).mapM RawLoader.expand = .ok r := by
      apply mapM_total
      intro x hx
      obtain ⟨t, ht, rfl⟩ := List.mem_map.mp hx
      exact (hc t ht).expands
    obtain ⟨r, hr⟩ := this
    refine ⟨r.flatten.foldl RawLoader.addCamera ⟨[], []⟩, ?_⟩
    show ((order.map Toml.table).mapM RawLoader.expand >>= _) = _
    rw [hr, ok_bind]

/-- There is such a database. -/
theorem shipped_exists : ∃ db, IsShipped db := by
  obtain ⟨ts, h, -⟩ := tables_checked
  exact ⟨joined ts, ts, ts, h, List.Perm.refl _, rfl⟩

/-! ## Looking up -/

theorem flatMap_filter_key {α β κ : Type} (f : α → List β) (key : β → κ) (p : κ → Bool) : ∀ l : List α,
    l.flatMap (fun t => ((f t).map key).filter p) = ((l.flatMap f).map key).filter p := by
  intro l
  induction l with
  | nil => rfl
  | cons a l ih => simp only [List.flatMap_cons, List.map_append, List.filter_append, ih]

/-- Elements with the same key are the same if the keys that satisfy `p` are distinct. -/
theorem eq_of_key {α κ : Type} {key : α → κ} {p : κ → Bool} : ∀ {l : List α}, ((l.map key).filter p).Nodup → ∀ {x y : α}, x ∈ l → y ∈ l →
    key x = key y → p (key x) = true → x = y := by
  intro l
  induction l with
  | nil => intro _ x y hx; simp at hx
  | cons a l ih =>
    intro h x y hx hy e hp
    rw [List.map_cons, List.filter_cons] at h
    have hin : ∀ z, z ∈ l → p (key z) = true → key z ∈ (l.map key).filter p := fun z hz hpz => List.mem_filter.mpr ⟨List.mem_map.mpr ⟨z, hz, rfl⟩, hpz⟩
    rcases List.mem_cons.mp hx with rfl | hx' <;> rcases List.mem_cons.mp hy with rfl | hy'
    · rfl
    · rw [if_pos hp] at h
      exact absurd (e ▸ hin y hy' (e ▸ hp)) (List.nodup_cons.mp h).1
    · rw [if_pos (e ▸ hp)] at h
      exact absurd (e ▸ hin x hx' hp) (List.nodup_cons.mp h).1
    · refine ih ?_ hx' hy' e hp
      split at h
      · exact (List.nodup_cons.mp h).2
      · exact h

/-- **C85**. Every camera listed in a file is found under each of its names and in each of its modes. Unless two files list the same
name, it is found with the settings its own file gives. -/
theorem shipped_found {db : Toml} (h : IsShipped db) {s : RawLoader} (hs : RawLoader.new db = .ok s) {f : Nat} (hf : f ∈ Model.Shipped.files)
    {t : Table} (ht : readFile f = some t) {v : Variant} (hv : v ∈ variantsIn t) :
    ∃ cam, s.checkSupportedWithEverything v.make v.model v.modeName = .ok cam ∧ (v.key ∉ sharedNames → v.Describes cam) := by
  obtain ⟨order, rfl, hmem, -, hn, -⟩ := shipped_order h
  have hvo : v ∈ variants (joined order) := by
    rw [variants_joined]
    exact List.mem_flatMap.mpr ⟨t, (hmem t).mpr ⟨f, hf, ht⟩, hv⟩
  rcases camera_lookup _ s (shipped_loads h).1 hs v.make v.model v.modeName with ⟨w, cam, ⟨pre, post, e, hw, -⟩, hd, hl⟩ | ⟨hno, -⟩
  · refine ⟨cam, hl, fun hsh => ?_⟩
    have hwo : w ∈ variants (joined order) := by rw [e]; simp
    have hkey : v.key = w.key := by
      unfold Variant.key
      rw [hw.1, hw.2.1, hw.2.2]
    have : v = w := by
      refine eq_of_key (key := Variant.key) (p := fun k => !sharedNames.contains k) (l := variants (joined order)) ?_ hvo hwo hkey ?_
      · rw [variants_joined, ← flatMap_filter_key]
        exact hn
      · simpa using hsh
    rw [this]
    exact hd
  · exact absurd ⟨rfl, rfl, rfl⟩ (hno v hvo)

/-- **C85**. Conversely, whatever is found has the settings of a variant with that name in one of the files. -/
theorem shipped_from_file {db : Toml} (h : IsShipped db) {s : RawLoader} (hs : RawLoader.new db = .ok s) {make model mode : Bytes} {cam : Camera}
    (hl : s.checkSupportedWithEverything make model mode = .ok cam) :
    ∃ f ∈ Model.Shipped.files, ∃ t, readFile f = some t ∧ ∃ v ∈ variantsIn t, v.key = (make, model, mode) ∧ v.Describes cam := by
  obtain ⟨order, rfl, hmem, -, -, -⟩ := shipped_order h
  rcases camera_lookup _ s (shipped_loads h).1 hs make model mode with ⟨w, cam', ⟨pre, post, e, hw, -⟩, hd, hl'⟩ | ⟨-, hno⟩
  · rw [hl'] at hl
    injection hl with hl
    subst hl
    have hwo : w ∈ variants (joined order) := by rw [e]; simp
    rw [variants_joined] at hwo
    obtain ⟨t, ht, hwt⟩ := List.mem_flatMap.mp hwo
    obtain ⟨f, hf, hft⟩ := (hmem t).mp ht
    refine ⟨f, hf, t, hft, w, hwt, ?_, hd⟩
    unfold Variant.key
    rw [hw.1, hw.2.1, hw.2.2]
  · rw [hno] at hl
    exact absurd hl (fail_ne_ok _ _)

/-! ## Names in two files -/

theorem last_in_second {α : Type} {p : α → Prop} {l r : List α} {x : α} (h : LastWith p (l ++ r) x) (hr : ∃ y ∈ r, p y) : x ∈ r := by
  obtain ⟨pre, post, e, hx, hpost⟩ := h
  obtain ⟨y, hy, hpy⟩ := hr
  rcases List.append_eq_append_iff.mp e with ⟨as, e1, e2⟩ | ⟨bs, e1, e2⟩
  · rw [e2]; simp
  · cases bs with
    | nil => rw [← List.nil_append r, ← e2]; simp
    | cons b bs =>
      rw [List.cons_append, List.cons.injEq] at e2
      exact absurd hpy (hpost y (by rw [e2.2]; simp [hy]))

/-- A file that comes last wins. -/
theorem last_file_wins {f : Nat} (hf : f ∈ Model.Shipped.files) {t : Table} (ht : readFile f = some t) {key : Bytes × Bytes × Bytes} (hk : ∃ v ∈ variantsIn t, v.key = key) :
    ∃ db s cam, IsShipped db ∧ RawLoader.new db = .ok s ∧ s.checkSupportedWithEverything key.1 key.2.1 key.2.2 = .ok cam ∧
      ∃ v ∈ variantsIn t, v.key = key ∧ v.Describes cam := by
  obtain ⟨ts, hts, -⟩ := tables_checked
  have hm : t ∈ ts := by
    have : some t ∈ Model.Shipped.files.map readFile := List.mem_map.mpr ⟨f, hf, ht⟩
    rw [hts] at this
    obtain ⟨u, hu, e⟩ := List.mem_map.mp this
    cases e
    exact hu
  obtain ⟨a, c, rfl⟩ := List.append_of_mem hm
  have hp : ((a ++ c) ++ [t]).Perm (a ++ t :: c) := by
    rw [List.append_assoc]
    exact List.Perm.append_left a List.perm_append_comm
  have hsh : IsShipped (joined ((a ++ c) ++ [t])) := ⟨_, _, hts, hp, rfl⟩
  obtain ⟨hd, s, hs⟩ := shipped_loads hsh
  have hv : variants (joined ((a ++ c) ++ [t])) = (a ++ c).flatMap variantsIn ++ variantsIn t := by
    rw [variants_joined, List.flatMap_append]
    simp
  obtain ⟨v, hvt, hvk⟩ := hk
  have hvk' : v.make = key.1 ∧ v.model = key.2.1 ∧ v.modeName = key.2.2 := by rw [← hvk]; exact ⟨rfl, rfl, rfl⟩
  rcases camera_lookup _ s hd hs key.1 key.2.1 key.2.2 with ⟨w, cam, hw, hdesc, hl⟩ | ⟨hno, -⟩
  · refine ⟨_, s, cam, hsh, hs, hl, w, ?_, ?_, hdesc⟩
    · rw [hv] at hw
      exact last_in_second hw ⟨v, hvt, hvk'⟩
    · obtain ⟨-, -, -, hw, -⟩ := hw
      unfold Variant.key
      rw [hw.1, hw.2.1, hw.2.2]
  · exact absurd hvk' (hno v (by rw [hv]; simp [hvt]))

/-- The levels in a table for a name, if it lists the name once. -/
def levelsIn (t : Table) (key : Bytes × Bytes × Bytes) : List (Nat × Nat) :=
  ((variantsIn t).filter fun v => v.key = key).map fun v => (levelOf (v.setting (b! "blackpoint")), levelOf (v.setting (b! "whitepoint")))

theorem levels_of_last {f : Nat} (hf : f ∈ Model.Shipped.files) {key : Bytes × Bytes × Bytes} {black white : Nat}
    (hl : (readFile f).map (levelsIn · key) = some [(black, white)]) :
    ∃ db s cam, IsShipped db ∧ RawLoader.new db = .ok s ∧ s.checkSupportedWithEverything key.1 key.2.1 key.2.2 = .ok cam ∧
      cam.blacklevels = List.replicate 4 black ∧ cam.whitelevels = List.replicate 4 white := by
  obtain ⟨t, ht, hl⟩ := Option.map_eq_some_iff.mp hl
  have hall : ∀ v ∈ variantsIn t, v.key = key → (levelOf (v.setting (b! "blackpoint")), levelOf (v.setting (b! "whitepoint"))) = (black, white) := by
    intro v hv hk
    have : (levelOf (v.setting (b! "blackpoint")), levelOf (v.setting (b! "whitepoint"))) ∈ levelsIn t key :=
      List.mem_map.mpr ⟨v, List.mem_filter.mpr ⟨hv, by simpa using hk⟩, rfl⟩
    rw [hl] at this
    simpa using this
  have hex : ∃ v ∈ variantsIn t, v.key = key := by
    have : (black, white) ∈ levelsIn t key := by rw [hl]; simp
    obtain ⟨v, hv, -⟩ := List.mem_map.mp this
    obtain ⟨hv, hk⟩ := List.mem_filter.mp hv
    exact ⟨v, hv, by simpa using hk⟩
  obtain ⟨db, s, cam, h1, h2, h3, v, hv, hk, hd⟩ := last_file_wins hf ht hex
  have := hall v hv hk
  rw [Prod.mk.injEq] at this
  exact ⟨db, s, cam, h1, h2, h3, by rw [hd.blacklevels, this.1], by rw [hd.whitelevels, this.2]⟩

/-- **C85**. For the shared names the order of the files decides: the EOS 350D is found with the levels of the 300D or with its own. -/
theorem shipped_order_matters : ∃ db db' s s' cam cam', IsShipped db ∧ IsShipped db' ∧ RawLoader.new db = .ok s ∧ RawLoader.new db' = .ok s' ∧
    s.checkSupportedWithEverything (b! "Canon") (b! "Canon EOS 350D Digital") [] = .ok cam ∧
    s'.checkSupportedWithEverything (b! "Canon") (b! "Canon EOS 350D Digital") [] = .ok cam' ∧
    cam.whitelevels = [4000, 4000, 4000, 4000] ∧ cam'.whitelevels = [4095, 4095, 4095, 4095] := by
  have hin : ∀ i (hi : i < Model.Shipped.canon.length), Model.Shipped.canon[i] ∈ Model.Shipped.files := by
    intro i hi
    have := List.getElem_mem hi
    unfold Model.Shipped.files
    simp only [List.mem_append]
    tauto
  obtain ⟨db, s, cam, h1, h2, h3, -, h5⟩ := levels_of_last (hin 17 (by decide)) (key := (b! "Canon", b! "Canon EOS 350D Digital", [])) (black := 124) (white := 4000) (by decide +kernel)
  obtain ⟨db', s', cam', g1, g2, g3, -, g5⟩ := levels_of_last (hin 19 (by decide)) (key := (b! "Canon", b! "Canon EOS 350D Digital", [])) (black := 0) (white := 4095) (by decide +kernel)
  exact ⟨db, db', s, s', cam, cam', h1, g1, h2, g2, h3, g3, h5, g5⟩

section Examples

/-- The database is not empty: 442 files. -/
example : Model.Shipped.files.length = 442 := by decide +kernel

/-- The Arri Alexa is found with its white level. -/
example {db : Toml} (h : IsShipped db) {s : RawLoader} (hs : RawLoader.new db = .ok s) :
    ∃ cam, s.checkSupportedWithEverything (b! "ARRI") (b! "ALEXA") [] = .ok cam ∧ cam.whitelevels = [4095, 4095, 4095, 4095] := by
  have hf : Model.Shipped.arri[0] ∈ Model.Shipped.files := by
    have := List.getElem_mem (l := Model.Shipped.arri) (n := 0) (by decide)
    unfold Model.Shipped.files
    simp only [List.mem_append]
    tauto
  have hc : (readFile Model.Shipped.arri[0]).map (fun t => (variantsIn t).map fun v => (v.key, levelOf (v.setting (b! "whitepoint")))) =
      some [((b! "ARRI", b! "ALEXA", []), 4095)] := by decide +kernel
  obtain ⟨t, ht, hc⟩ := Option.map_eq_some_iff.mp hc
  have : ((b! "ARRI", b! "ALEXA", []), 4095) ∈ (variantsIn t).map fun v => (v.key, levelOf (v.setting (b! "whitepoint"))) := by rw [hc]; simp
  obtain ⟨v, hv, e⟩ := List.mem_map.mp this
  rw [Prod.mk.injEq] at e
  obtain ⟨cam, h1, h2⟩ := shipped_found h hs hf ht hv
  have h2 := h2 (by rw [e.1]; decide)
  have e1 := e.1
  unfold Variant.key at e1
  rw [Prod.mk.injEq, Prod.mk.injEq] at e1
  rw [e1.1, e1.2.1, e1.2.2] at h1
  exact ⟨cam, h1, by rw [h2.whitelevels, e.2]; rfl⟩

end Examples

end Props

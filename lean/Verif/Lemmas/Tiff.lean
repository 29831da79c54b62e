import Verif.Lemmas.EndsTac
import Verif.Lemmas.Tree
import Verif.Model.Tiff
import Verif.Model.Ciff
/-!
# Lemmas about directory parsing
-/

namespace Model
open Rust Spec

/-! ## Maps -/

namespace Map

theorem length_insert {κ α : Type} [DecidableEq κ] (m : Map κ α) (k : κ) (v : α) : (Map.insert m k v).length ≤ m.length + 1 := by
  unfold Map.insert
  have := List.length_filter_le (fun p : κ × α => decide (p.1 ≠ k)) m
  simp only [List.length_cons]
  omega

theorem get_insert_self {κ α : Type} [DecidableEq κ] (m : Map κ α) (k : κ) (v : α) : Map.get (Map.insert m k v) k = some v := by
  simp [Map.insert, Map.get]

theorem get_filter_ne {κ α : Type} [DecidableEq κ] (m : Map κ α) {k k' : κ} (h : k' ≠ k) :
    Map.get (m.filter fun p => p.1 ≠ k) k' = Map.get m k' := by
  induction m with
  | nil => rfl
  | cons p m ih =>
    obtain ⟨a, v⟩ := p
    by_cases ha : a = k
    · subst ha
      have : (List.filter (fun p : κ × α => decide (p.1 ≠ a)) ((a, v) :: m)) = List.filter (fun p => decide (p.1 ≠ a)) m := by simp
      rw [this, ih]
      simp only [Map.get]
      rw [if_neg (fun h' => h h'.symm)]
    · have : (List.filter (fun p : κ × α => decide (p.1 ≠ k)) ((a, v) :: m)) = (a, v) :: List.filter (fun p => decide (p.1 ≠ k)) m := by
        simp [ha]
      rw [this]
      simp only [Map.get]
      rw [ih]

theorem get_insert_ne {κ α : Type} [DecidableEq κ] (m : Map κ α) {k k' : κ} (v : α) (h : k' ≠ k) :
    Map.get (Map.insert m k v) k' = Map.get m k' := by
  unfold Map.insert
  simp only [Map.get]
  rw [if_neg (fun h' => h h'.symm), get_filter_ne m h]

theorem containsKey_iff {κ α : Type} [DecidableEq κ] (m : Map κ α) (k : κ) : Map.containsKey m k = true ↔ ∃ v, Map.get m k = some v := by
  unfold Map.containsKey
  exact Option.isSome_iff_exists

theorem not_containsKey {κ α : Type} [DecidableEq κ] (m : Map κ α) (k : κ) : ¬ Map.containsKey m k = true ↔ Map.get m k = none := by
  unfold Map.containsKey
  cases Map.get m k <;> simp

end Map

/-! ## TIFF lookup -/

namespace TiffIFD

/-- The entry stored in the directory itself. -/
abbrev own (tag : Nat) (d : TiffIFD) : Option TiffEntry := Map.get d.entries tag

mutual
  theorem findEntry_spec (tag : Nat) : ∀ d : TiffIFD, match findEntry tag d with
      | some e => FirstIn subifds (own tag) d e
      | none => NoneIn subifds (own tag) d
    | mk entries subs n o en => by
      rw [findEntry]
      by_cases h : Map.containsKey entries tag = true
      · rw [if_pos h]
        obtain ⟨v, hv⟩ := (Map.containsKey_iff _ _).mp h
        rw [hv]
        exact firstIn_root (get := own tag) hv
      · rw [if_neg h]
        rw [Map.not_containsKey] at h
        have hl := findEntryList_spec tag subs
        generalize hr : findEntryList tag subs = r at hl
        cases r with
        | none => exact noneIn_of h hl
        | some e =>
          obtain ⟨pre, c, post, rfl, h1, h2⟩ := hl
          exact firstIn_child (d := mk entries _ n o en) (get := own tag) h rfl h1 h2
  theorem findEntryList_spec (tag : Nat) : ∀ l : List TiffIFD, match findEntryList tag l with
      | some e => ∃ pre c post, l = pre ++ c :: post ∧ (∀ c' ∈ pre, NoneIn subifds (own tag) c') ∧ FirstIn subifds (own tag) c e
      | none => ∀ c ∈ l, NoneIn subifds (own tag) c
    | [] => by rw [findEntryList]; intro c hc; cases hc
    | ifd :: rest => by
      have h1 := findEntry_spec tag ifd
      have h2 := findEntryList_spec tag rest
      rw [findEntryList]
      generalize findEntry tag ifd = r at h1
      cases r with
      | some e => exact ⟨[], ifd, rest, rfl, by simp, h1⟩
      | none =>
        dsimp only at h1 ⊢
        generalize findEntryList tag rest = r at h2
        cases r with
        | none =>
          intro c hc
          rcases List.mem_cons.mp hc with rfl | hc
          · exact h1
          · exact h2 c hc
        | some e =>
          obtain ⟨pre, c, post, rfl, ha, hb⟩ := h2
          refine ⟨ifd :: pre, c, post, rfl, ?_, hb⟩
          intro c' hc'
          rcases List.mem_cons.mp hc' with rfl | hc'
          · exact h1
          · exact ha c' hc'
end

/-- The directory itself, if it stores the tag. -/
def ownDir (tag : Nat) (d : TiffIFD) : Option TiffIFD := if Map.containsKey d.entries tag then some d else none

theorem ownDir_some {tag : Nat} {d d' : TiffIFD} : ownDir tag d = some d' ↔ d' = d ∧ Map.containsKey d.entries tag = true := by
  unfold ownDir
  split <;> rename_i h
  · simp [h, eq_comm]
  · simp [h]

mutual
  theorem findIfds_mem (tag : Nat) : ∀ (d x : TiffIFD), x ∈ findIfdsWithTag tag d ↔ Below subifds d x ∧ Map.containsKey x.entries tag = true
    | mk entries subs n o en, x => by
      rw [findIfdsWithTag]
      rw [List.mem_append, findIfdsList_mem tag subs x]
      constructor
      · rintro (h | ⟨c, hc, hb, hk⟩)
        · split at h
          · rename_i hk
            simp at h; subst h
            exact ⟨below_refl _, hk⟩
          · cases h
        · exact ⟨below_child (d := mk entries subs n o en) hc hb, hk⟩
      · rintro ⟨hb, hk⟩
        rcases below_cases hb with rfl | ⟨c, hc, hb⟩
        · left
          rw [if_pos (by exact hk)]
          simp
        · exact Or.inr ⟨c, hc, hb, hk⟩
  theorem findIfdsList_mem (tag : Nat) : ∀ (l : List TiffIFD) (x : TiffIFD), x ∈ findIfdsList tag l ↔
      ∃ c ∈ l, Below subifds c x ∧ Map.containsKey x.entries tag = true
    | [], x => by rw [findIfdsList]; simp
    | ifd :: rest, x => by
      rw [findIfdsList, List.mem_append, List.mem_append, findIfds_mem tag ifd x, findIfdsList_mem tag rest x]
      constructor
      · rintro (h | ⟨hb, hk⟩ | ⟨c, hc, h⟩)
        · split at h
          · rename_i hk
            simp at h; subst h
            exact ⟨x, by simp, below_refl _, hk⟩
          · cases h
        · exact ⟨ifd, by simp, hb, hk⟩
        · exact ⟨c, by simp [hc], h⟩
      · rintro ⟨c, hc, hb, hk⟩
        rcases List.mem_cons.mp hc with rfl | hc
        · exact Or.inr (Or.inl ⟨hb, hk⟩)
        · exact Or.inr (Or.inr ⟨c, hc, hb, hk⟩)
end

mutual
  theorem findIfds_head (tag : Nat) : ∀ d : TiffIFD, match (findIfdsWithTag tag d)[0]? with
      | some x => FirstIn subifds (ownDir tag) d x
      | none => NoneIn subifds (ownDir tag) d
    | mk entries subs n o en => by
      rw [findIfdsWithTag]
      by_cases h : Map.containsKey entries tag = true
      · rw [if_pos h]
        exact firstIn_root (ownDir_some.mpr ⟨rfl, h⟩)
      · rw [if_neg h, List.nil_append]
        have hn : ownDir tag (mk entries subs n o en) = none := by unfold ownDir; exact if_neg h
        have hl := findIfdsList_head tag subs
        generalize (findIfdsList tag subs)[0]? = r at hl
        cases r with
        | none => exact noneIn_of hn hl
        | some e =>
          obtain ⟨pre, c, post, rfl, h1, h2⟩ := hl
          exact firstIn_child (d := mk entries _ n o en) hn rfl h1 h2
  theorem findIfdsList_head (tag : Nat) : ∀ l : List TiffIFD, match (findIfdsList tag l)[0]? with
      | some x => ∃ pre c post, l = pre ++ c :: post ∧ (∀ c' ∈ pre, NoneIn subifds (ownDir tag) c') ∧ FirstIn subifds (ownDir tag) c x
      | none => ∀ c ∈ l, NoneIn subifds (ownDir tag) c
    | [] => by rw [findIfdsList]; intro c hc; cases hc
    | ifd :: rest => by
      have h1 := findIfds_head tag ifd
      have h2 := findIfdsList_head tag rest
      rw [findIfdsList]
      by_cases h : Map.containsKey ifd.entries tag = true
      · rw [if_pos h]
        exact ⟨[], ifd, rest, rfl, by simp, firstIn_root (ownDir_some.mpr ⟨rfl, h⟩)⟩
      · rw [if_neg h, List.nil_append]
        cases hf : findIfdsWithTag tag ifd with
        | cons x xs =>
          rw [hf] at h1
          exact ⟨[], ifd, rest, rfl, by simp, h1⟩
        | nil =>
          rw [hf] at h1
          rw [List.nil_append]
          generalize (findIfdsList tag rest)[0]? = r at h2
          cases r with
          | none =>
            intro c hc
            rcases List.mem_cons.mp hc with rfl | hc
            · exact h1
            · exact h2 c hc
          | some e =>
            obtain ⟨pre, c, post, rfl, ha, hb⟩ := h2
            refine ⟨ifd :: pre, c, post, rfl, ?_, hb⟩
            intro c' hc'
            rcases List.mem_cons.mp hc' with rfl | hc'
            · exact h1
            · exact ha c' hc'
end

/-! ## TIFF parsing -/

theorem ends_entryNew (b : Build) (buf : Bytes) (o ba p : Nat) (e : Endian) : Ends (TiffEntry.new b buf o ba p e) := by
  unfold TiffEntry.new; ends

theorem ends_getU32 (s : TiffEntry) (i : Nat) : Ends (s.getU32 i) := by unfold TiffEntry.getU32 TiffEntry.getForceU32; ends

theorem ends_getF32 (s : TiffEntry) (i : Nat) : Ends (s.getF32 i) := by
  unfold TiffEntry.getF32
  have := ends_getU32 s i
  ends

theorem ends_getStr (s : TiffEntry) : Ends s.getStr := by unfold TiffEntry.getStr; ends

theorem ends_makernoteTarget (buf : Bytes) (o : Nat) (e : Endian) : Ends (makernoteTarget buf o e) := by unfold makernoteTarget; ends

/-- What parsing guarantees about a directory: nesting and number of entries. -/
def Fine (n : Nat) (d : TiffIFD) : Prop := DepthAtMost subifds n d ∧ ∀ d', Below subifds d d' → d'.entries.length ≤ 4000

theorem Fine.mono {n m : Nat} {d : TiffIFD} (hnm : n ≤ m) (h : Fine n d) : Fine m d := ⟨depthAtMost_mono hnm h.1, h.2⟩

theorem fine_of {n : Nat} {d : TiffIFD} (h : d.entries.length ≤ 4000) (hc : ∀ c ∈ d.subifds, Fine n c) : Fine (n + 1) d :=
  ⟨depthAtMost_of fun c hm => (hc c hm).1, below_forall h fun c hm => (hc c hm).2⟩

theorem fine_leaf {n : Nat} {d : TiffIFD} (h : d.entries.length ≤ 4000) (hc : d.subifds = []) : Fine n d :=
  ⟨depthAtMost_leaf hc, below_forall h fun c hm => by rw [hc] at hm; cases hm⟩

/-- The entries without those of one tag. -/
abbrev without (tag : Nat) (m : Map Nat TiffEntry) : Map Nat TiffEntry := m.filter fun p => p.1 ≠ tag

theorem post_keepIfd {entry : TiffEntry} {r : M TiffIFD} {s : Acc} {k : Nat} {Q : TiffIFD → Prop} (hr : Post r Q)
    (h1 : s.1.length ≤ k + 1 ∧ (without entry.tag s.1).length ≤ k) (h2 : ∀ c ∈ s.2, Q c) :
    Post (keepIfd entry r s) (fun s => (s.1.length ≤ k + 1 ∧ (without entry.tag s.1).length ≤ k) ∧ ∀ c ∈ s.2, Q c) := by
  unfold keepIfd
  split
  · rename_i v
    refine post_ok ⟨h1, ?_⟩
    intro c hc
    rcases List.mem_append.mp hc with hc | hc
    · exact h2 c hc
    · simp at hc; subst hc; exact hr.2 _ rfl
  · refine post_ok ⟨⟨?_, ?_⟩, h2⟩
    · exact Nat.succ_le_succ h1.2
    · have := h1.2
      simpa [Map.insert, without, List.filter_filter] using this
  · refine ⟨?_, fun a h => by cases h⟩
    intro h
    injection h with h
    exact hr.1 (by rw [h])

theorem post_entryStep {b : Build} {parse : Bytes → Nat → Nat → Nat → Endian → M TiffIFD} {buf : Bytes} {offset baseOffset startOffset depth : Nat}
    {e : Endian} {Q : TiffIFD → Prop} (hp : depth < 10 → ∀ buf o so e, Post (parse buf o so (depth + 1) e) Q)
    (i k : Nat) (s : Acc) (h1 : s.1.length ≤ k) (h2 : ∀ c ∈ s.2, Q c) :
    Post (entryStep b parse buf offset baseOffset startOffset depth e i s) (fun s => s.1.length ≤ k + 1 ∧ ∀ c ∈ s.2, Q c) := by
  unfold entryStep
  refine post_bind (post_ends (ends_ru16 _ _ _)) fun t _ => ?_
  refine post_ite (fun _ => post_ok ⟨by omega, h2⟩) fun _ => ?_
  refine post_bind (post_ends (ends_entryNew _ _ _ _ _ _)) fun entry _ => ?_
  have hw : (without entry.tag s.1).length ≤ k := Nat.le_trans (List.length_filter_le _ _) h1
  refine post_ite (fun _ => ?_) fun _ => post_ite (fun _ => ?_) fun _ => ?_
  · refine post_ite (fun hd => ?_) fun _ => post_ok ⟨by omega, h2⟩
    refine post_weaken (Q := fun s => (s.1.length ≤ k + 1 ∧ (without entry.tag s.1).length ≤ k) ∧ ∀ c ∈ s.2, Q c) ?_ fun s h => ⟨h.1.1, h.2⟩
    refine post_loop _ ⟨⟨by omega, hw⟩, h2⟩ fun j s hs => ?_
    refine post_bind (post_ends (ends_getU32 _ _)) fun o _ => ?_
    exact post_keepIfd (hp hd _ _ _ _) hs.1 hs.2
  · refine post_ite (fun hd => ?_) fun _ => post_ok ⟨by omega, h2⟩
    refine post_bind (post_ends (ends_makernoteTarget _ _ _)) fun o _ => ?_
    refine post_weaken (post_keepIfd (hp hd _ _ _ _) ⟨by omega, hw⟩ h2) fun s h => ⟨h.1.1, h.2⟩
  · refine post_ok ⟨?_, h2⟩
    have := Map.length_insert s.1 entry.tag entry
    dsimp only
    omega

theorem post_new (b : Build) : ∀ (n : Nat) (buf : Bytes) (offset baseOffset startOffset depth : Nat) (e : Endian),
    depth ≤ 10 → 11 ≤ depth + n → Post (new b n buf offset baseOffset startOffset depth e) (Fine (10 - depth)) := by
  intro n
  induction n with
  | zero => intro buf offset baseOffset startOffset depth e h1 h2; omega
  | succ n ih =>
    intro buf offset baseOffset startOffset depth e h1 h2
    rw [new]
    refine post_bind (post_ends (ends_ru16 _ _ _)) fun num _ => ?_
    refine post_ite (fun _ => post_fail) fun hn => ?_
    refine post_bind (post_forRange (fun j s => s.1.length ≤ j ∧ ∀ c ∈ s.2, depth < 10 ∧ Fine (10 - (depth + 1)) c) (Nat.zero_le _)
      ⟨Nat.le_refl _, by simp⟩ fun j s _ _ hs => ?_) fun s hs => ?_
    · refine post_entryStep (fun hd buf o so e => ?_) j j s hs.1 hs.2
      exact post_weaken (ih buf o baseOffset so (depth + 1) e (by omega) (by omega)) fun c hc => ⟨hd, hc⟩
    · refine post_bind (post_ends (ends_ru32 _ _ _)) fun next _ => post_ok ?_
      by_cases hd : depth < 10
      · rw [show 10 - depth = 10 - (depth + 1) + 1 by omega]
        exact fine_of (d := mk s.1 s.2 next startOffset e) (Nat.le_trans hs.1 (by omega)) fun c hc => (hs.2 c hc).2
      · refine fine_leaf (d := mk s.1 s.2 next startOffset e) (Nat.le_trans hs.1 (by omega)) ?_
        cases h : s.2 with
        | nil => rfl
        | cons c l => exact absurd (hs.2 c (by rw [h]; simp)).1 hd

theorem post_parse (b : Build) (buf : Bytes) (offset baseOffset startOffset : Nat) (e : Endian) :
    Post (parse b buf offset baseOffset startOffset e) (Fine 10) :=
  post_new b 11 buf offset baseOffset startOffset 0 e (by omega) (by omega)

theorem post_newMakernote (b : Build) (buf : Bytes) (offset baseOffset : Nat) (e : Endian) :
    Post (newMakernote b buf offset baseOffset e) (Fine 10) := by
  unfold newMakernote
  refine post_bind (post_ends (ends_makernoteTarget _ _ _)) fun o _ => ?_
  exact post_new b 11 _ _ _ _ 0 _ (by omega) (by omega)

theorem post_chain (b : Build) (sub : Bytes) (offset : Nat) (e : Endian) : ∀ (n next : Nat) (acc : List TiffIFD) (k : Nat),
    acc.length + n ≤ k → (∀ c ∈ acc, Fine 10 c) → Post (chain b sub offset e n next acc) (fun l => l.length ≤ k ∧ ∀ c ∈ l, Fine 10 c) := by
  intro n
  induction n with
  | zero => intro next acc k h1 h2; exact post_ok ⟨h1, h2⟩
  | succ n ih =>
    intro next acc k h1 h2
    rw [chain]
    refine post_bind (post_parse b sub next 0 offset e) fun ifd hi => ?_
    have h2' : ∀ c ∈ acc ++ [ifd], Fine 10 c := by
      intro c hc
      rcases List.mem_append.mp hc with hc | hc
      · exact h2 c hc
      · simp at hc; subst hc; exact hi
    refine post_ite (fun _ => post_ok ⟨?_, h2'⟩) fun _ => ih _ _ _ ?_ h2'
    · simp; omega
    · simp; omega

theorem post_newRoot (b : Build) (buf : Bytes) (offset : Nat) :
    Post (newRoot b buf offset) (fun d => Fine 11 d ∧ d.subifds.length ≤ 100 ∧ d.entries = []) := by
  unfold newRoot
  refine post_bind (post_ends (ends_LEu16 _ _)) fun m _ => ?_
  refine post_bind (post_ends (x := markerEndian m) (by unfold markerEndian; ends)) fun endian _ => ?_
  refine post_bind (post_ends (ends_ru32 _ _ _)) fun next _ => ?_
  refine post_bind (post_ends (ends_sliceFrom _ _)) fun sub _ => ?_
  refine post_bind (post_chain b sub offset endian 100 next [] 100 (by simp) (by simp)) fun l hl => post_ok ⟨?_, hl.1, rfl⟩
  exact fine_of (d := mk [] l 0 offset endian) (by simp [entries]) hl.2

theorem post_newFuji (b : Build) (buf : Bytes) (offset : Nat) : Post (newFuji b buf offset) (Fine 0) := by
  unfold newFuji
  refine post_bind (post_ends (ends_BEu32 _ _)) fun num _ => ?_
  refine post_ite (fun _ => post_fail) fun hn => ?_
  refine post_bind (post_forRange (fun j s => s.1.length ≤ j) (Nat.zero_le _) (Nat.le_refl _) fun j s _ _ hs => ?_) fun s hs => ?_
  · obtain ⟨ent, off⟩ := s
    unfold fujiStep
    refine post_bind (post_ends (ends_BEu16 _ _)) fun tag _ => ?_
    refine post_bind (post_ends (ends_BEu16 _ _)) fun len _ => ?_
    have hl : ∀ k v, (Map.insert ent k v).length ≤ j + 1 := fun k v => Nat.le_trans (Map.length_insert ent k v) (Nat.succ_le_succ hs)
    refine post_bind (Q := fun m => m.length ≤ j + 1) ?_ fun m hm => post_bind (post_ends (ends_addU _ _ _ _)) fun st _ => post_ok hm
    unfold fujiEntry
    refine post_ite (fun _ => ?_) fun _ => post_ite (fun _ => ?_) fun _ => post_ok (Nat.le_succ_of_le hs)
    · exact post_bind (post_ends (ends_slice _ _ _)) fun d _ => post_ok (hl _ _)
    · exact post_bind (post_ends (ends_slice _ _ _)) fun d _ => post_ok (hl _ _)
  · exact post_ok (fine_leaf (d := mk s.1 [] 0 0 BIG_ENDIAN) (Nat.le_trans hs (by omega)) rfl)

theorem post_newFile (b : Build) (buf : Bytes) : Post (newFile b buf) (fun d => Fine 12 d ∧ d.subifds.length ≤ 100) := by
  unfold newFile
  refine post_bind (post_ends (ends_slice _ _ _)) fun magic _ => ?_
  refine post_ite (fun _ => ?_) fun _ => post_weaken (post_newRoot b buf 0) fun d h => ⟨h.1.mono (by omega), h.2.1⟩
  refine post_bind (post_ends (ends_BEu32 _ _)) fun o _ => ?_
  refine post_bind (post_ends (ends_addU _ _ _ _)) fun o _ => ?_
  refine post_bind (post_newRoot b buf o) fun ifd1 h1 => ?_
  refine post_bind (post_ends (ends_BEu32 _ _)) fun io _ => ?_
  have hr := post_newRoot b buf io
  refine post_bind (Q := fun p : List TiffIFD × Map Nat TiffEntry => p.1.length ≤ 2 ∧ (∀ c ∈ p.1, Fine 11 c) ∧ p.2.length ≤ 1) ?_ fun p hp => ?_
  · generalize newRoot b buf io = r at hr
    unfold fujiSecond
    split
    · refine post_ok ⟨by simp, ?_, by simp⟩
      intro c hc
      simp at hc
      rcases hc with rfl | rfl
      · exact h1.1
      · exact (hr.2 _ rfl).1
    · refine post_bind (post_ends (ends_slice _ _ _)) fun d _ => post_ok ⟨by simp, ?_, by simp [Map.insert]⟩
      intro c hc
      simp at hc; subst hc
      exact h1.1
    · refine ⟨?_, fun a h => by cases h⟩
      intro h
      injection h with h
      exact hr.1 (by rw [h])
  · obtain ⟨subs, ent⟩ := p
    refine post_bind (post_ends (ends_BEu32 _ _)) fun f _ => ?_
    have hf := post_newFuji b buf f
    refine post_bind (Q := fun l : List TiffIFD => l.length ≤ 3 ∧ (∀ c ∈ l, Fine 11 c)) ?_ fun l hl => post_ok ⟨?_, ?_⟩
    · generalize newFuji b buf f = r at hf
      unfold fujiThird
      split
      · refine post_ok ⟨by have := hp.1; simp at this ⊢; omega, ?_⟩
        intro c hc
        rcases List.mem_append.mp hc with hc | hc
        · exact hp.2.1 c hc
        · simp at hc; subst hc
          exact (hf.2 _ rfl).mono (by omega)
      · exact post_ok ⟨by have := hp.1; dsimp only at this; omega, hp.2.1⟩
      · refine ⟨?_, fun a h => by cases h⟩
        intro h
        injection h with h
        exact hf.1 (by rw [h])
    · exact fine_of (d := mk ent l 0 0 ifd1.endian) (Nat.le_trans hp.2.2 (by omega)) hl.2
    · show l.length ≤ 100
      omega

end TiffIFD
end Model

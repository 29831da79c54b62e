import Verif.Lemmas.WholeFile
import Verif.Spec.WideDir
import Verif.Model.Dec.Simple
/-!
# The directories listed for a tag
-/

namespace Props
open Rust Spec Model

theorem filterM_ok {α : Type} {f : α → M Bool} {p : α → Bool} (l : List α) (h : ∀ x ∈ l, f x = .ok (p x)) : l.filterM f = .ok (l.filter p) := by
  have haux : ∀ (l acc : List α), (∀ x ∈ l, f x = .ok (p x)) → l.filterAuxM f acc = .ok ((l.filter p).reverse ++ acc) := by
    intro l
    induction l with
    | nil => intro acc _; rfl
    | cons a l ih =>
      intro acc h
      unfold List.filterAuxM
      rw [h a List.mem_cons_self, ok_bind, ih _ fun x hx => h x (List.mem_cons_of_mem _ hx), List.filter_cons]
      cases p a
      · rfl
      · simp
  unfold List.filterM
  rw [haux _ _ h, ok_bind, List.append_nil, List.reverse_reverse]
  rfl

/-- The first of the directories listed for a tag that pass a test, in document order. -/
def passing (tag : Nat) (p : TiffIFD → Bool) (d : TiffIFD) : Option TiffIFD := if Map.containsKey d.entries tag && p d then some d else none

theorem head_append {α : Type} (l m : List α) : (l ++ m)[0]? = match l[0]? with | some x => some x | none => m[0]? := by cases l <;> rfl

mutual
  theorem listed_head (tag : Nat) (p : TiffIFD → Bool) : ∀ d : TiffIFD, match ((TiffIFD.findIfdsWithTag tag d).filter p)[0]? with
      | some x => FirstIn TiffIFD.subifds (passing tag p) d x
      | none => NoneIn TiffIFD.subifds (passing tag p) d
    | .mk entries subs n o en => by
      rw [TiffIFD.findIfdsWithTag, List.filter_append, head_append]
      by_cases h : (Map.containsKey entries tag && p (.mk entries subs n o en)) = true
      · rw [Bool.and_eq_true] at h
        rw [if_pos h.1, List.filter_cons, if_pos h.2]
        refine firstIn_root ?_
        unfold passing
        exact if_pos (by rw [Bool.and_eq_true]; exact h)
      · have hn : passing tag p (.mk entries subs n o en) = none := if_neg h
        have he : (if Map.containsKey entries tag then [TiffIFD.mk entries subs n o en] else []).filter p = [] := by
          split
          · rename_i hc
            rw [hc, Bool.true_and] at h
            rw [List.filter_cons, if_neg h]
            rfl
          · rfl
        rw [he]
        dsimp only [List.getElem?_nil]
        have hl := listed_head_list tag p subs
        generalize ((TiffIFD.findIfdsList tag subs).filter p)[0]? = r at hl
        cases r with
        | none => exact noneIn_of hn hl
        | some e =>
          obtain ⟨pre, c, post, rfl, h1, h2⟩ := hl
          exact firstIn_child (d := .mk entries _ n o en) hn rfl h1 h2
  theorem listed_head_list (tag : Nat) (p : TiffIFD → Bool) : ∀ l : List TiffIFD, match ((TiffIFD.findIfdsList tag l).filter p)[0]? with
      | some x => ∃ pre c post, l = pre ++ c :: post ∧ (∀ c' ∈ pre, NoneIn TiffIFD.subifds (passing tag p) c') ∧ FirstIn TiffIFD.subifds (passing tag p) c x
      | none => ∀ c ∈ l, NoneIn TiffIFD.subifds (passing tag p) c
    | [] => by rw [TiffIFD.findIfdsList]; intro c hc; cases hc
    | ifd :: rest => by
      have h1 := listed_head tag p ifd
      have h2 := listed_head_list tag p rest
      rw [TiffIFD.findIfdsList, List.filter_append, List.filter_append, head_append, head_append]
      by_cases h : (Map.containsKey ifd.entries tag && p ifd) = true
      · rw [Bool.and_eq_true] at h
        rw [if_pos h.1, List.filter_cons, if_pos h.2]
        refine ⟨[], ifd, rest, rfl, by simp, firstIn_root ?_⟩
        unfold passing
        exact if_pos (by rw [Bool.and_eq_true]; exact h)
      · have he : (if Map.containsKey ifd.entries tag then [ifd] else []).filter p = [] := by
          split
          · rename_i hc
            rw [hc, Bool.true_and] at h
            rw [List.filter_cons, if_neg h]
            rfl
          · rfl
        rw [he]
        dsimp only [List.getElem?_nil]
        generalize ((TiffIFD.findIfdsWithTag tag ifd).filter p)[0]? = q at h1
        cases q with
        | some x => exact ⟨[], ifd, rest, rfl, by simp, h1⟩
        | none =>
          dsimp only
          generalize ((TiffIFD.findIfdsList tag rest).filter p)[0]? = r at h2
          cases r with
          | none =>
            intro c hc
            rcases List.mem_cons.mp hc with rfl | hc
            · exact h1
            · exact h2 c hc
          | some e =>
            obtain ⟨pre, c, post, rfl, ha, hb⟩ := h2
            refine ⟨ifd :: pre, c, post, rfl, ?_, hb⟩
            intro c' hc'
            rcases List.mem_cons.mp hc' with rfl | hc'
            · exact h1
            · exact ha c' hc'
end

theorem present_iff {d : Dir} {ifd : TiffIFD} (hh : Holds d ifd) {tag : Nat} (hk : tag ∈ knownTags) :
    Map.containsKey ifd.entries tag = true ↔ (d.field tag).isSome = true := by
  rw [Map.containsKey_iff]
  cases hh with
  | mk _ _ _ absent present _ _ =>
    have hkn : knownField tag d = d.field tag := if_pos hk
    constructor
    · rintro ⟨v, hv⟩
      cases hf : d.field tag with
      | some f => rfl
      | none => rw [absent tag (by rw [hkn]; exact hf)] at hv; cases hv
    · intro hf
      obtain ⟨f, hf⟩ := Option.isSome_iff_exists.mp hf
      obtain ⟨ent, he, _⟩ := present tag f (by rw [hkn]; exact hf)
      exact ⟨ent, he⟩

/-- The first that is not plainly refused. -/
theorem findM_first {α : Type} {f : α → M Bool} {p : α → Bool} (hp : ∀ x, p x = false → f x = .ok false) {a : α} (ha : f a = .ok true) :
    ∀ l : List α, (l.filter p)[0]? = some a → findM f l = .ok (some a)
  | [], h => by cases h
  | x :: l, h => by
    unfold findM
    rw [List.filter_cons] at h
    by_cases hx : p x = true
    · rw [if_pos hx] at h
      obtain rfl : x = a := by simpa using h
      rw [ha]
      rfl
    · rw [if_neg hx] at h
      rw [hp x (by simpa using hx), ok_bind, if_neg (by decide)]
      exact findM_first hp ha l h

private def wideTest (ifd : TiffIFD) : M Bool :=
  match ifd.findEntry Tag.ImageWidth with
  | some e => do
    let v ← e.getU32 0
    .ok (decide (v > 1000))
  | none => crash

private def notNarrow (ifd : TiffIFD) : Bool := match wideTest ifd with | .ok x => x | .error _ => true

private theorem wide_test {d : Dir} {ifd : TiffIFD} (hh : Holds d ifd) {v : Nat} {t : List Nat} (h : d.Numbers 0x100 (v :: t)) : wideTest ifd = .ok (decide (v > 1000)) := by
  obtain ⟨ent, e1, _, e2, _⟩ := find_numbers hh (tag := 0x100) (by decide) h
  unfold wideTest
  rw [show TiffIFD.findEntry Tag.ImageWidth ifd = some ent from e1]
  dsimp only
  rw [e2 0 (by simp), ok_bind]
  rfl

/-- The wide picture is found. -/
theorem wide_found {root raw : Dir} {tree : TiffIFD} (hh : Holds root tree) {tag w : Nat} (hk : tag ∈ knownTags) (h : WideDir root tag raw w) :
    ∃ ifd, wideIfd (tree.findIfdsWithTag tag) = .ok ifd ∧ Holds raw ifd := by
  obtain ⟨path, hpath, hbefore⟩ := h.first
  obtain ⟨ifd, hifd, hhr⟩ := (holds_path hh path).1 raw hpath
  obtain ⟨t, hw⟩ := h.width
  refine ⟨ifd, ?_, hhr⟩
  have htest : wideTest ifd = .ok true := by
    rw [wide_test hhr hw]
    exact congrArg Except.ok (decide_eq_true h.wide)
  have hfirst : FirstIn TiffIFD.subifds (passing tag notNarrow) tree ifd := by
    refine ⟨path, ifd, hifd, ?_, ?_⟩
    · unfold passing
      rw [if_pos]
      rw [Bool.and_eq_true]
      refine ⟨(present_iff hhr hk).mpr h.has, ?_⟩
      unfold notNarrow
      rw [htest]
    · intro q c hq hc
      obtain ⟨d, hd, hhd⟩ := (holds_path hh q).2 c hc
      unfold passing
      rw [if_neg]
      rw [Bool.and_eq_true]
      rintro ⟨hk', hp⟩
      obtain ⟨v, t', hv, hle⟩ := hbefore q d hq hd ((present_iff hhd hk).mp hk')
      unfold notNarrow at hp
      rw [wide_test hhd hv] at hp
      have := of_decide_eq_true hp
      omega
  have hl := listed_head tag notNarrow tree
  have hhead : ((TiffIFD.findIfdsWithTag tag tree).filter notNarrow)[0]? = some ifd := by
    cases hr : ((TiffIFD.findIfdsWithTag tag tree).filter notNarrow)[0]? with
    | none => rw [hr] at hl; exact absurd hfirst (noneIn_not_firstIn hl)
    | some x => rw [hr] at hl; rw [firstIn_unique hl hfirst]
  have hfound : findM wideTest (TiffIFD.findIfdsWithTag tag tree) = .ok (some ifd) := findM_first (f := wideTest) (p := notNarrow) (by
    intro x hx
    unfold notNarrow at hx
    cases hw : wideTest x with
    | ok y => rw [hw] at hx; rw [show y = false from hx]
    | error e => rw [hw] at hx; cases hx) htest _ hhead
  show (findM wideTest _ >>= _) = _
  rw [hfound]
  rfl

end Props

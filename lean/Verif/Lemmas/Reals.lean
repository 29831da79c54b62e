import Verif.Lemmas.WholeFile
import Verif.Props.Tiff
/-!
# Fields with fractions
-/

namespace Props
open Rust Spec Model

/-- The first field with a tag has the numbers: integers, or fractions with or without sign, each rounded as the processor divides. -/
def Dir.Reals (d : Dir) (tag : Nat) (l : List F32) : Prop :=
  ∃ big f, d.First tag big f ∧
    (f.typ ∈ [1, 3, 4] ∧ l = f.values.map F32.ofNat ∨
     ∃ pairs : List (Nat × Nat), (∀ p ∈ pairs, p.1 < 4294967296 ∧ p.2 < 4294967296) ∧ f.values = (pairs.map fun p => pairNumber big p.1 p.2) ∧
       (f.typ = 5 ∧ l = (pairs.map fun p => (F32.ofNat p.1).div (F32.ofNat p.2)) ∨
        f.typ = 10 ∧ l = pairs.map fun p => (F32.ofRat (signed32 p.1)).div (F32.ofRat (signed32 p.2))))

/-- The two numbers of a fraction. -/
theorem carries_pair {big : Bool} {f : Field} {ent : TiffEntry} (hc : Carries big f ent) {pairs : List (Nat × Nat)}
    (hp : ∀ p ∈ pairs, p.1 < 4294967296 ∧ p.2 < 4294967296) (hv : f.values = pairs.map fun p => pairNumber big p.1 p.2) (h8 : tiffSize f.typ = 8)
    (i : Nat) (hi : i < pairs.length) :
    number ent.endian.big (bytesAt ent.data (i * 8) 4) = pairs[i].1 ∧ number ent.endian.big (bytesAt ent.data (i * 8 + 4) 4) = pairs[i].2 := by
  have hb := hp _ (List.getElem_mem hi)
  have hi' : i < f.values.length := by rw [hv, List.length_map]; exact hi
  have hch := flatMap_chunk (encode big 8) 8 (fun _ => encode_length _ _ _) f.values i hi'
  have hval : f.values[i] = pairNumber big pairs[i].1 pairs[i].2 := by simp only [hv, List.getElem_map]
  rw [hval, encode_pair _ _ _ hb.1 hb.2] at hch
  have hd : ent.data = f.values.flatMap (encode big 8) := by rw [hc.data]; unfold Field.bytes; rw [h8]
  rw [hd, hc.order]
  constructor
  · have h4 : bytesAt (f.values.flatMap (encode big 8)) (i * 8) 4 = (bytesAt (f.values.flatMap (encode big 8)) (i * 8) 8).take 4 := by
      unfold bytesAt; rw [List.take_take]; rfl
    rw [h4, hch, List.take_left' (encode_length _ _ _), number_encode _ _ _ hb.1]
  · have h4 : bytesAt (f.values.flatMap (encode big 8)) (i * 8 + 4) 4 = (bytesAt (f.values.flatMap (encode big 8)) (i * 8) 8).drop 4 := by
      unfold bytesAt; rw [List.drop_take, List.drop_drop]
    rw [h4, hch, List.drop_left' (encode_length _ _ _), number_encode _ _ _ hb.2]

theorem find_reals {d : Dir} {ifd : TiffIFD} (hh : Holds d ifd) {tag : Nat} (hk : tag ∈ knownTags) {l : List F32} (h : Dir.Reals d tag l) :
    ∃ ent, TiffIFD.findEntry tag ifd = some ent ∧ ent.count = l.length ∧ ∀ i (hi : i < l.length), ent.getF32 i = .ok l[i] := by
  obtain ⟨big, f, h1, h2⟩ := h
  rcases h2 with ⟨ht, rfl⟩ | ⟨pairs, hp, hv, h2⟩
  · obtain ⟨ent, e1, e2, _, e3⟩ := find_numbers hh hk ⟨big, f, h1, ht, rfl⟩
    refine ⟨ent, e1, by rw [List.length_map]; exact e2, fun i hi => ?_⟩
    rw [List.length_map] at hi
    rw [e3 i hi, List.getElem_map]
  · obtain ⟨ent, e1, e2⟩ := find_first hh hk h1
    have hcount : ent.count = pairs.length := by rw [e2.count, hv, List.length_map]
    have h8 : tiffSize f.typ = 8 := by rcases h2 with ⟨h, _⟩ | ⟨h, _⟩ <;> rw [h] <;> rfl
    have hlen : ent.data.length = ent.count * tiffSize ent.typ := by
      rw [e2.data, e2.count, e2.typ]
      exact Field.bytes_length _ _
    have hpair := carries_pair e2 hp hv h8
    rcases h2 with ⟨ht, rfl⟩ | ⟨ht, rfl⟩
    · refine ⟨ent, e1, by rw [List.length_map]; exact hcount, fun i hi => ?_⟩
      rw [List.length_map] at hi
      rw [tiff_rational ent i (by rw [e2.typ, ht]) hlen (by omega), (hpair i hi).1, (hpair i hi).2, List.getElem_map]
    · refine ⟨ent, e1, by rw [List.length_map]; exact hcount, fun i hi => ?_⟩
      rw [List.length_map] at hi
      rw [tiff_srational ent i (by rw [e2.typ, ht]) hlen (by omega), (hpair i hi).1, (hpair i hi).2, List.getElem_map]

end Props

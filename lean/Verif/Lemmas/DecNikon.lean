import Verif.Lemmas.DecSimple
/-!
# NEF, PEF and CRW: decoding ends and fills the image
-/

namespace Model
open Rust

/-! ## Nikon -/

namespace Nef

theorem ends_serial (b : Build) (d : Bytes) : ∀ n i no, Ends (serial b d n i no)
  | 0, _, _ => ends_ok _
  | n + 1, i, no => by
    have := ends_serial b d n
    unfold serial
    refine ends_bind (by ends) fun _ _ => ends_ite (fun _ => ends_ok _) fun _ => ends_bind (by ends) fun _ _ => ends_bind (by ends) fun _ _ => this _ _
macro_rules | `(tactic| ends_leaf) => `(tactic| with_reducible exact Nef.ends_serial _ _ _ _ _)
theorem ends_decryptStep (src : Bytes) (ci i : Nat) (s : Bytes × Nat × Nat) : Ends (decryptStep src ci i s) := by unfold decryptStep; ends
macro_rules | `(tactic| ends_leaf) => `(tactic| with_reducible exact Nef.ends_decryptStep _ _ _ _)
theorem ends_encryptedWb (b : Build) (t : TiffIFD) (e : TiffEntry) (v : Nat) : Ends (encryptedWb b t e v) := by unfold encryptedWb; ends
macro_rules | `(tactic| ends_leaf) => `(tactic| with_reducible exact Nef.ends_encryptedWb _ _ _ _)
theorem ends_getWb (b : Build) (t : TiffIFD) : Ends (getWb b t) := by unfold getWb; ends
macro_rules | `(tactic| ends_leaf) => `(tactic| with_reducible exact Nef.ends_getWb _ _)

theorem post_createHufftable (b : Build) (n bps : Nat) : Post (createHufftable b n bps) HuffTable.Bounded := by
  unfold createHufftable
  refine post_bind (post_ends (by ends)) fun t _ => post_bind (Q := fun s => size s = 17) ?_ fun s hs => ?_
  · exact post_forRange_size fun j s _ => by sized
  · refine post_bind (post_setIdx_size _ _ _) fun bits hb => post_bind (post_ends (by ends)) fun hv _ => ?_
    exact HuffTable.post_init b hv bps false true (by size_done)

theorem ends_twoDiffs (b : Build) {t : HuffTable} (ht : t.Bounded) (s : Int × Int × Pump) : Ends (twoDiffs b t s) := by unfold twoDiffs; ends
macro_rules | `(tactic| ends_leaf) => `(tactic| with_reducible exact Nef.ends_twoDiffs _ (by assumption) _)

theorem ends_interpolate (l : List Nat) (c s m : Nat) (st : ByteStream) : Ends (interpolate l c s m st) := by unfold interpolate; ends
macro_rules | `(tactic| ends_leaf) => `(tactic| with_reducible exact Nef.ends_interpolate _ _ _ _ _)
theorem ends_curvePoints (b : Build) (x y z : Nat) (t : TiffEntry) (e : Endian) (s : ByteStream) : Ends (curvePoints b x y z t e s) := by
  unfold curvePoints; ends
macro_rules | `(tactic| ends_leaf) => `(tactic| with_reducible exact Nef.ends_curvePoints _ _ _ _ _ _ _)

theorem post_pair (b : Build) {t : HuffTable} (ht : t.Bounded) (c : LookupTable) (w r col : Nat) (s : List Nat × Nat × Int × Int × Pump) :
    Post (pair b t c w r col s) (fun r => size r = size s) := by unfold pair; sized

theorem post_row (b : Build) (c : LookupTable) (sel bps split w r : Nat) (s : State) (hs : s.table.Bounded) :
    Post (row b c sel bps split w r s) (fun s' => s'.table.Bounded ∧ s'.out.length = s.out.length) := by
  have key : ∀ t : HuffTable, t.Bounded → Post (do
      let u1 ← idx s.up1 (r % 2)
      let u2 ← idx s.up2 (r % 2)
      let (p1, p2, p) ← twoDiffs b t (u1, u2, s.pump)
      let up1 ← setIdx s.up1 (r % 2) p1
      let up2 ← setIdx s.up2 (r % 2) p2
      let r ← forStep 0 w 2 (pair b t c w r) (s.out, s.random, p1, p2, p)
      (.ok ⟨r.1, up1, up2, r.2.1, t, r.2.2.2.2⟩ : M State)) (fun s' => s'.table.Bounded ∧ s'.out.length = s.out.length) := by
    intro t ht
    refine post_bind (post_ends (by ends)) fun _ _ => post_bind (post_ends (by ends)) fun _ _ => post_bind (post_ends (by ends)) fun _ _ =>
      post_bind (post_ends (by ends)) fun _ _ => post_bind (post_ends (by ends)) fun _ _ => post_bind (post_forStep_size fun _ _ _ => post_pair _ ht _ _ _ _ _)
      fun r hr => post_ok ⟨ht, ?_⟩
    size_done
  unfold row
  dsimp only
  split
  · exact post_bind (post_createHufftable _ _ _) fun t ht => key t ht
  · exact post_bind (Q := HuffTable.Bounded) (post_ok hs) fun t ht => key t ht

theorem post_decodeCompressed (b : Build) (t : TiffIFD) (src : Bytes) (w h bps : Nat) : Post (decodeCompressed b t src w h bps) (fun r => size r = w * h) := by
  have key : ∀ (mi : TiffIFD) (tag : TiffEntry), Post (do
      let stream := ByteStream.new tag.data mi.endian
      let (v0, stream) ← stream.getU8
      let (v1, stream) ← stream.getU8
      let stream := if v0 = 73 ∨ v1 = 88 then stream.consumeBytes 2110 else stream
      let select := (if v0 = 70 then 2 else 0) + (if bps = 14 then 3 else 0)
      let table ← createHufftable b select bps
      let (a0, stream) ← stream.getU16
      let (a1, stream) ← stream.getU16
      let (b0, stream) ← stream.getU16
      let (b1, stream) ← stream.getU16
      let (points, split) ← curvePoints b v0 v1 bps tag mi.endian stream
      let curve ← LookupTable.new b points
      let (random, p) ← (pumpMSB b).peek (Pump.new src) 24
      let s ← forRange 0 h (row b curve select bps split w)
        ⟨List.replicate (w * h) 0, [(a0 : Int), (a1 : Int)], [(b0 : Int), (b1 : Int)], random, table, p⟩
      .ok s.out) (fun r => size r = w * h) := by
    intro mi tag
    dsimp only
    refine post_bind (post_ends (by ends)) fun _ _ => post_bind (post_ends (by ends)) fun _ _ => post_bind (post_createHufftable _ _ _) fun ht hht =>
      post_bind (post_ends (by ends)) fun _ _ => post_bind (post_ends (by ends)) fun _ _ => post_bind (post_ends (by ends)) fun _ _ =>
      post_bind (post_ends (by ends)) fun _ _ => post_bind (post_ends (by ends)) fun _ _ => post_bind (post_ends (by ends)) fun _ _ =>
      post_bind (post_ends (by ends)) fun _ _ => ?_
    refine post_bind (post_loop (fun s : State => s.table.Bounded ∧ s.out.length = w * h) ⟨hht, by simp⟩ fun j s hs =>
      post_weaken (post_row _ _ _ _ _ _ _ s hs.1) fun r hr => ⟨hr.1, hr.2.trans hs.2⟩) fun s hs => post_ok hs.2
  unfold decodeCompressed
  refine post_bind (post_ends (by ends)) fun mi _ => ?_
  dsimp only
  split
  · exact post_bind (Q := fun _ => True) (post_ok trivial) fun tag _ => key mi tag
  · exact post_bind (post_ends (by ends)) fun tag _ => key mi tag

theorem ends_snefCurve (m : Libm) (b : Build) : Ends (snefCurve m b) := ends_lookup _ _
macro_rules | `(tactic| ends_leaf) => `(tactic| with_reducible exact Nef.ends_snefCurve _ _)
theorem post_snefPixel (b : Build) (c : LookupTable) (ir ib : Int) (y cb cr : F32) (k : Nat) (s : List Nat × Nat) :
    Post (snefPixel b c ir ib y cb cr k s) (fun r => size r = size s) := by unfold snefPixel; sized
macro_rules | `(tactic| post_leaf) => `(tactic| with_reducible exact Nef.post_snefPixel _ _ _ _ _ _ _ _ _)
theorem post_snefPair (m : Libm) (b : Build) (ir ib : Int) (o : List Nat) (i : Bytes) (rd : Nat) : Post (snefPair m b ir ib o i rd) (fun r => size r = size o) := by
  unfold snefPair; dsimp only; sized

theorem post_snefRow (m : Libm) (b : Build) (ir ib : Int) : ∀ (l : List (List Nat × Bytes)) (rd : Nat), Post (snefRow m b ir ib l rd) (fun r => r.length = (l.map fun p => p.1.length).sum)
  | [], _ => by unfold snefRow; exact post_ok rfl
  | (o, i) :: rest, rd => by
    unfold snefRow
    refine post_bind (post_snefPair _ _ _ _ _ _ _) fun p hp => post_bind (post_snefRow m b ir ib rest p.2) fun r hr => post_ok ?_
    rw [List.length_append, hr, List.map_cons, List.sum_cons]
    rw [size_pair, size_list, size_list] at hp
    rw [hp]

theorem zip_sum_le : ∀ (c : List (List Nat)) (d : List Bytes), (((c.zip d).map fun p : List Nat × Bytes => p.1.length).sum) ≤ (c.map List.length).sum
  | [], _ => by simp
  | _ :: _, [] => by simp
  | x :: c, y :: d => by
    have := zip_sum_le c d
    simp only [List.zip_cons_cons, List.map_cons, List.sum_cons]
    omega

theorem post_decodeSnef (m : Libm) (b : Build) (t : TiffIFD) (src : Bytes) (w h : Nat) : Post (decodeSnef m b t src w h) (fun r => size r = w * 3 * h) := by
  unfold decodeSnef
  refine post_bind (post_ends (by ends)) fun _ _ => post_bind (post_ends (by ends)) fun _ _ => post_bind (post_ends (by ends)) fun _ _ => ?_
  dsimp only
  refine post_threaded fun o i => post_bind (post_ends (by ends)) fun inb _ => post_bind (post_ends (by ends)) fun rd _ =>
    post_bind (post_snefRow _ _ _ _ _ _) fun r hr => post_ok ?_
  have := zip_sum_le (chunks 6 o) (chunks 6 inb)
  rw [chunks_sum 6 (by omega), ← hr] at this
  simp only [size_list, List.length_append, List.length_drop]
  omega

macro_rules | `(tactic| post_leaf) => `(tactic| with_reducible exact Nef.post_decodeCompressed _ _ _ _ _ _)
macro_rules | `(tactic| post_leaf) => `(tactic| with_reducible exact Nef.post_decodeSnef _ _ _ _ _ _)

theorem post_pixels (m : Libm) (b : Build) (t : TiffIFD) (src : Bytes) (d : Bool) (w h bps c s : Nat) :
    Post (pixels m b t src d w h bps c s) (fun r => (r.2.1 = 1 ∨ r.2.1 = 3) ∧ r.2.2.length = r.1 * h * r.2.1) := by
  unfold pixels
  have one : ∀ {w h : Nat} {l : List Nat}, size l = w * h → (1 = 1 ∨ 1 = 3) ∧ l.length = w * h * 1 := fun h => ⟨Or.inl rfl, by rw [Nat.mul_one]; exact h⟩
  refine post_ite (fun _ => post_bind (by post_leaf) fun l hl => post_ok (one hl)) fun _ => post_ite (fun _ => ?_) fun _ => post_ite (fun _ => ?_) fun _ =>
    post_ite (fun _ => post_bind (by post_leaf) fun l hl => post_ok (one hl)) fun _ => post_fail
  · dsimp only
    split
    · split <;> exact post_bind (by post_leaf) fun l hl => post_ok (one hl)
    · split
      · split <;> exact post_bind (by post_leaf) fun l hl => post_ok (one hl)
      · exact post_fail
  · refine post_bind (by post_leaf) fun l hl => post_ok ⟨Or.inr rfl, ?_⟩
    rw [size_list] at hl
    show l.length = w * h * 3
    rw [hl, Nat.mul_right_comm]

end Nef

theorem full_nef (m : Libm) (b : Build) (buffer : Bytes) (t : TiffIFD) (l : RawLoader) : Post (Nef.image m b buffer t l) Full := by
  unfold Nef.image
  refine post_bind (post_ends (by ends)) fun _ _ => post_bind (post_ends (by ends)) fun _ _ => post_bind (post_ends (by ends)) fun _ _ =>
    post_bind (post_ends (by ends)) fun _ _ => post_bind (post_ends (by ends)) fun _ _ => post_bind (post_ends (by ends)) fun _ _ =>
    post_bind (post_ends (by ends)) fun _ _ => post_bind (post_ends (by ends)) fun _ _ => post_bind (post_ends (by ends)) fun _ _ =>
    post_bind (Nef.post_pixels _ _ _ _ _ _ _ _ _ _) fun p hp => post_bind (post_ends (by ends)) fun _ _ =>
    post_bind (post_rawImage _ _ _ _ _ _) fun img hi => post_ok ?_
  obtain ⟨hc, hd⟩ := hp
  unfold Full
  obtain ⟨i1, i2, i3, i4⟩ := hi
  split
  · rename_i h3
    show img.data.length = img.width * img.height * 3
    rw [i1, i2, i4, hd, h3]
  · rename_i h3
    rw [i1, i2, i3, i4, hd, hc.resolve_right h3]

/-! ## Pentax -/

namespace Pef

theorem ends_getWb (t : TiffIFD) : Ends (getWb t) := by unfold getWb; ends
macro_rules | `(tactic| ends_leaf) => `(tactic| with_reducible exact Pef.ends_getWb _)
theorem ends_blacks (t : TiffIFD) (d : List Nat) : Ends (getBlacklevels t d) := by unfold getBlacklevels; ends
macro_rules | `(tactic| ends_leaf) => `(tactic| with_reducible exact Pef.ends_blacks _ _)
theorem ends_smallest (l : List Nat) (d : Nat) : Ends (smallest l d) := by unfold smallest; ends
macro_rules | `(tactic| ends_leaf) => `(tactic| with_reducible exact Pef.ends_smallest _ _)

theorem post_readTable (b : Build) (d : Bytes) (e : Endian) : Post (readTable b d e) (fun r => r.1.length = 17) := by
  unfold readTable
  dsimp only
  refine post_bind (post_ends (by ends)) fun _ _ => post_bind (post_ends (by ends)) fun _ _ => post_bind (post_ends (by ends)) fun _ _ => ?_
  refine post_bind (post_loop (fun s : List Nat × List Nat => s.2.length = 17) (by simp) fun j s hs => ?_) fun s hs => post_bind (post_ends (by ends)) fun _ _ => post_ok hs
  refine post_bind (post_ends (by ends)) fun _ _ => post_bind (post_ends (by ends)) fun _ _ => post_bind (post_ends (by ends)) fun _ _ =>
    post_bind (post_ends (by ends)) fun _ _ => post_bind (post_ends (by ends)) fun _ _ => post_bind (post_ends (by ends)) fun _ _ =>
    post_bind (post_setIdx_size _ _ _) fun l hl => post_ok ?_
  size_done

theorem post_legacyTable : Post legacyTable (fun r => r.1.length = 17) := by
  unfold legacyTable
  refine post_bind (Q := fun s => size s = 17) ?_ fun s hs => post_bind (post_ends (by ends)) fun _ _ => post_ok hs
  exact post_forRange_size fun j s _ => by sized

theorem post_put (w r c : Nat) (out : List Nat) (p1 p2 : Int) : Post (put w r c out p1 p2) (fun o => size o = size out) := by unfold put; sized
macro_rules | `(tactic| post_leaf) => `(tactic| with_reducible exact Pef.post_put _ _ _ _ _ _)
theorem post_row (b : Build) {t : HuffTable} (ht : t.Bounded) (w r : Nat) (s : List Nat × List Int × List Int × Pump) :
    Post (row b t w r s) (fun o => size o = size s) := by unfold row; sized

theorem post_decodeCompressed (b : Build) (t : TiffIFD) (src : Bytes) (w h : Nat) : Post (decodeCompressed b t src w h) (fun r => size r = w * h) := by
  have key : ∀ r : List Nat × List Nat, r.1.length = 17 → Post (do
      let t ← HuffTable.init b { HuffTable.empty 16 with bits := r.1, huffval := r.2 } true
      let s ← forRange 0 h (row b t w) (List.replicate (w * h) 0, [0, 0], [0, 0], Pump.new src)
      .ok s.1) (fun r => size r = w * h) := by
    intro r hr
    refine post_bind (HuffTable.post_init b r.2 16 false true hr) fun t ht => post_bind (post_forRange_size fun j s _ => post_row b ht _ _ _) fun s hs => post_ok ?_
    size_done
  unfold decodeCompressed
  dsimp only
  split
  · exact post_bind (post_readTable _ _ _) key
  · exact post_bind post_legacyTable key
macro_rules | `(tactic| post_leaf) => `(tactic| with_reducible exact Pef.post_decodeCompressed _ _ _ _ _)

end Pef

theorem full_pef (b : Build) (buffer : Bytes) (t : TiffIFD) (l : RawLoader) : Post (Pef.image b buffer t l) Full := by unfold Pef.image; sized

/-! ## Canon CRW -/

theorem ends_ciffU32 (e : CiffEntry) (i : Nat) : Ends (e.getU32 i) := by unfold CiffEntry.getU32; ends
macro_rules | `(tactic| ends_leaf) => `(tactic| with_reducible exact ends_ciffU32 _ _)
theorem ends_ciffF32 (e : CiffEntry) (i : Nat) : Ends (e.getF32 i) := by unfold CiffEntry.getF32; ends
macro_rules | `(tactic| ends_leaf) => `(tactic| with_reducible exact ends_ciffF32 _ _)
theorem ends_ciffForceU16 (e : CiffEntry) (i : Nat) : Ends (e.getForceU16 i) := by unfold CiffEntry.getForceU16; ends
macro_rules | `(tactic| ends_leaf) => `(tactic| with_reducible exact ends_ciffForceU16 _ _)
theorem ends_ciffTag (c : CiffIFD) (t : Nat) : Ends (c.fetchTag t) := by unfold CiffIFD.fetchTag; ends
macro_rules | `(tactic| ends_leaf) => `(tactic| with_reducible exact ends_ciffTag _ _)

namespace Crw

theorem ends_maxLen (s : List Nat) : ∀ n, Ends (maxLen s n)
  | 0 => ends_ok _
  | n + 1 => by unfold maxLen; exact ends_bind (by ends) fun _ _ => ends_ite (fun _ => ends_ok _) fun _ => ends_maxLen s n
macro_rules | `(tactic| ends_leaf) => `(tactic| with_reducible exact Crw.ends_maxLen _ _)
theorem ends_fill (m l v : Nat) (s : List (Nat × Nat) × Nat) : Ends (fill m l v s) := by unfold fill; ends
macro_rules | `(tactic| ends_leaf) => `(tactic| with_reducible exact Crw.ends_fill _ _ _ _)
theorem ends_table (s : List Nat) : Ends (Table.new s) := by unfold Table.new; ends
macro_rules | `(tactic| ends_leaf) => `(tactic| with_reducible exact Crw.ends_table _)
theorem ends_huffTables (n : Nat) : Ends (huffTables n) := by unfold huffTables; ends
macro_rules | `(tactic| ends_leaf) => `(tactic| with_reducible exact Crw.ends_huffTables _)
theorem ends_tableBits {σ : Type} (P : PumpOps σ) [P.Total] (t : Table) (s : σ) : Ends (t.getBits P s) := by unfold Table.getBits; ends
macro_rules | `(tactic| ends_leaf) => `(tactic| with_reducible exact Crw.ends_tableBits _ _ _)

theorem ends_diffs {σ : Type} (P : PumpOps σ) [P.Total] (ht : Table × Table) : ∀ (n i : Nat) (s : List Int × σ), 0 < n → 65 ≤ n + i → Ends (diffs P ht n i s)
  | 0, _, _, h, _ => by omega
  | n + 1, i, s, _, h => by
    have ih := ends_diffs P ht n
    unfold diffs
    refine ends_ite (fun hi => ?_) fun _ => ends_ok _
    have hn : 0 < n := by omega
    refine ends_bind (by ends) fun r _ => ends_ite (fun _ => ends_ok _) fun _ => ends_ite (fun _ => ih _ _ hn (by omega)) fun _ => ?_
    have h2 : 65 ≤ n + (i + r.1 >>> 4 + 1) := by omega
    dsimp only
    refine ends_ite (fun _ => ih _ _ hn h2) fun _ => ends_bind (by ends) fun v _ => ?_
    split
    · exact ends_bind (by ends) fun _ _ => ih _ _ hn h2
    · exact ends_bind (by ends) fun _ _ => ih _ _ hn h2

theorem post_pixel (b : Build) (w : Nat) (d : List Int) (i : Nat) (s : List Nat × List Int × Nat) : Post (pixel b w d i s) (fun r => size r = size s) := by
  unfold pixel; dsimp only; sized
macro_rules | `(tactic| post_leaf) => `(tactic| with_reducible exact Crw.post_pixel _ _ _ _ _)

theorem post_block {σ : Type} (b : Build) (P : PumpOps σ) [P.Total] (ht : Table × Table) (w : Nat) (o : List Nat) (c : Carry σ) :
    Post (block b P ht w o c) (fun r => r.1.length = o.length) := by
  unfold block
  refine post_bind (post_ends (ends_diffs P ht 65 0 _ (by omega) (by omega))) fun _ _ => ?_
  show Post _ (fun r : List Nat × Carry σ => size r = size o)
  sized

theorem post_lowPixel (w c k : Nat) (o : List Nat) : Post (lowPixel w c k o) (fun r => size r = size o) := by unfold lowPixel; dsimp only; sized
macro_rules | `(tactic| post_leaf) => `(tactic| with_reducible exact Crw.post_lowPixel _ _ _ _)

theorem post_addLowBits (buf : Bytes) (w : Nat) (o : List Nat) : Post (addLowBits buf w o) (fun r => size r = size o) := by
  unfold addLowBits
  refine post_bind (Ljpeg.post_foldChunks_size (fun o i => ?_) (by omega) _ _) fun r hr => post_ok hr
  show Post _ (fun r : List Nat × Nat => size r = size o)
  sized

theorem post_decodeCompressed (b : Build) (buf : Bytes) (c : CiffIFD) (cam : Camera) (w h : Nat) : Post (decodeCompressed b buf c cam w h) (fun r => size r = w * h) := by
  unfold decodeCompressed
  dsimp only
  refine post_bind (post_ends (by ends)) fun _ _ => post_bind (post_ends (by ends)) fun _ _ => post_ite (fun _ => post_fail) fun _ =>
    post_bind (post_ends (by ends)) fun _ _ => post_bind (post_ends (by ends)) fun _ _ =>
    post_bind (Ljpeg.post_foldChunks_size (fun o s => post_block _ _ _ _ _ _) (by omega) _ _) fun r hr => ?_
  rw [List.length_replicate] at hr
  split
  · exact post_weaken (post_addLowBits _ _ _) fun o ho => ho.trans hr
  · exact post_ok hr
macro_rules | `(tactic| post_leaf) => `(tactic| with_reducible exact Crw.post_decodeCompressed _ _ _ _ _ _)

theorem ends_getWb (c : CiffIFD) (cam : Camera) : Ends (getWb c cam) := by unfold getWb; ends
macro_rules | `(tactic| ends_leaf) => `(tactic| with_reducible exact Crw.ends_getWb _ _)

end Crw

theorem full_crw (b : Build) (buffer : Bytes) (c : CiffIFD) (l : RawLoader) : Post (Crw.image b buffer c l) Full := by
  unfold Crw.image
  dsimp only
  refine post_bind (post_ends (by ends)) fun _ _ => post_ite (fun _ => post_fail) fun _ => post_bind (post_ends (by ends)) fun _ _ =>
    post_bind (post_ends (by ends)) fun _ _ => post_bind (post_ends (by ends)) fun _ _ => ?_
  split
  · refine post_bind (post_ends (by ends)) fun _ _ => post_bind (by post_leaf) fun _ hd => ?_
    exact post_bind (Q := fun r => r.2.2.length = r.1 * r.2.1) (post_ok hd) fun r hr => post_bind (post_ends (by ends)) fun _ _ => post_okImage hr
  · refine post_bind (post_ends (by ends)) fun _ _ => post_bind (post_ends (by ends)) fun _ _ => post_bind (post_ends (by ends)) fun _ _ => post_bind (by post_leaf) fun _ hd => ?_
    exact post_bind (Q := fun r => r.2.2.length = r.1 * r.2.1) (post_ok hd) fun r hr => post_bind (post_ends (by ends)) fun _ _ => post_okImage hr

end Model

import Verif.Lemmas.DecBasics
/-!
# Huffman tables and lossless JPEG: decoding ends and keeps the size of the output
-/

namespace Model
open Rust Spec

/-! ## Huffman tables -/

namespace HuffTable

/-- The table of longest codes has no more entries than a finished table has: the search for a code stops at its end. -/
def Bounded (t : HuffTable) : Prop := t.maxcode.length ≤ 18

theorem ends_lenWalk {σ : Type} (P : PumpOps σ) [P.Total] (mc : List Int) (hm : mc.length ≤ 18) :
    ∀ (fuel code l : Nat) (s : σ), 0 < fuel → 19 ≤ fuel + l → Ends (lenWalk P mc fuel code l s)
  | 0, _, _, _, h, _ => by omega
  | fuel + 1, code, l, s, _, h => by
    unfold lenWalk
    refine ends_bind (ends_idx _ _) fun m hi => ends_ite (fun _ => ?_) fun _ => ends_ok _
    have hl : l < mc.length := by
      have := idx_eq_ok.mp hi
      rw [List.getElem?_eq_some_iff] at this
      exact this.1
    exact ends_bind (ends_getBits _ _ _) fun r _ => ends_lenWalk P mc hm fuel _ _ _ (by omega) (by omega)

theorem ends_huffLen {σ : Type} (b : Build) (P : PumpOps σ) [P.Total] {t : HuffTable} (ht : t.Bounded) (s : σ) : Ends (huffLen b P t s) := by
  have h : ∀ code s, Ends (lenWalk P t.maxcode 11 code 8 s) := fun code s => ends_lenWalk P _ ht 11 code 8 s (by omega) (by omega)
  unfold huffLen
  ends
  exact h _ _

theorem ends_huffDiff {σ : Type} (b : Build) (P : PumpOps σ) [P.Total] (t : HuffTable) (s : σ) (n : Nat) : Ends (huffDiff b P t s n) := by
  unfold huffDiff; ends
macro_rules | `(tactic| ends_leaf) => `(tactic| with_reducible exact HuffTable.ends_huffLen _ _ (by assumption) _)
macro_rules | `(tactic| ends_leaf) => `(tactic| with_reducible exact HuffTable.ends_huffDiff _ _ _ _ _)

theorem ends_huffDecode {σ : Type} (b : Build) (P : PumpOps σ) [P.Total] {t : HuffTable} (ht : t.Bounded) (s : σ) : Ends (huffDecode b P t s) := by
  have h : ∀ s, Ends (do let (len, s) ← huffLen b P t s; huffDiff b P t s len) := fun s => by ends
  unfold huffDecode
  dsimp only
  refine ends_ite (fun _ => ?_) fun _ => h _
  refine ends_bind (ends_peek _ _ _) fun r _ => ends_bind (ends_idx _ _) fun v _ => ends_ite (fun _ => ?_) fun _ => h _
  ends
macro_rules | `(tactic| ends_leaf) => `(tactic| with_reducible exact HuffTable.ends_huffDecode _ _ (by assumption) _)

theorem ends_bigWalk (mc : List Int) (input : Nat) : ∀ n code l, Ends (bigWalk mc input n code l) := by
  intro n
  induction n with
  | zero => intro code l; exact ends_ok _
  | succ n ih => intro code l; exact ends_bind (ends_idx _ _) fun _ _ => ends_ite (fun _ => ih _ _) fun _ => ends_ok _
macro_rules | `(tactic| ends_leaf) => `(tactic| with_reducible exact HuffTable.ends_bigWalk _ _ _ _ _)

theorem ends_valIndex (b : Build) (x y z : Nat) : Ends (valIndex b x y z) := ends_addU _ _ _ _
macro_rules | `(tactic| ends_leaf) => `(tactic| with_reducible exact HuffTable.ends_valIndex _ _ _ _)
theorem ends_bigEntry (b : Build) (t : HuffTable) (i : Nat) : Ends (bigEntry b t i) := by unfold bigEntry; ends
macro_rules | `(tactic| ends_leaf) => `(tactic| with_reducible exact HuffTable.ends_bigEntry _ _ _)
theorem ends_shortEnd (x y : Nat) : Ends (shortEnd x y) := by unfold shortEnd; ends
macro_rules | `(tactic| ends_leaf) => `(tactic| with_reducible exact HuffTable.ends_shortEnd _ _)
theorem ends_shortStep (a c d : List Nat) (p : Nat) (n : List Nat) : Ends (shortStep a c d p n) := by unfold shortStep; ends
macro_rules | `(tactic| ends_leaf) => `(tactic| with_reducible exact HuffTable.ends_shortStep _ _ _ _ _)

theorem post_bigtable (b : Build) (t : HuffTable) : Post (initializeBigtable b t) (fun r => r.maxcode = t.maxcode) := by
  unfold initializeBigtable
  exact post_bind (post_ends (by ends)) fun _ _ => post_ok rfl

theorem post_decodeStep (bits hc : List Nat) (l : Nat) (s : Nat × List Nat × List Int × List Nat) :
    Post (decodeStep bits hc l s) (fun r => r.2.2.1.length = s.2.2.1.length) := by
  unfold decodeStep
  refine post_bind (post_ends (ends_idx _ _)) fun n _ => ?_
  dsimp only
  split
  · refine post_bind (post_ends (by ends)) fun _ _ => post_bind (post_ends (by ends)) fun _ _ => post_bind (post_ends (by ends)) fun _ _ =>
      post_bind (post_ends (by ends)) fun _ _ => post_bind post_setIdx fun mx hmx => ?_
    refine post_bind (Q := fun r => r.2.2.1.length = s.2.2.1.length) (post_ok ?_) fun r hr => post_ite (fun _ => post_fail) fun _ => post_ok hr
    rw [hmx.2, List.length_set]
  · refine post_bind (post_ends (by ends)) fun _ _ => post_bind post_setIdx fun mx hmx => ?_
    refine post_bind (Q := fun r => r.2.2.1.length = s.2.2.1.length) (post_ok ?_) fun r hr => post_ite (fun _ => post_fail) fun _ => post_ok hr
    rw [hmx.2, List.length_set]

/-- Building a table from any 17 counts ends and gives a table that the search can use. -/
theorem post_init (b : Build) {bits : List Nat} (huffval : List Nat) (precision : Nat) (dngBug u : Bool) (hs : bits.length = 17) :
    Post (init b (raw bits huffval precision dngBug) u) Bounded := by
  unfold init
  simp only [raw]
  rw [sizes_eq bits hs]
  refine post_bind (Q := fun r => (codeLengths (counts bits)).length ≤ 256 ∧ r = (pad (codeLengths (counts bits)), (codeLengths (counts bits)).length))
    (post_ite (fun h => post_ok ⟨h, rfl⟩) fun _ => post_fail) fun r hr => ?_
  obtain ⟨hN, rfl⟩ := hr
  dsimp only
  refine post_bind (Q := fun _ => True) ?_ fun hc _ => ?_
  · rcases codes_any (b := b) hN with h | h
    · rw [h]; exact post_crash
    · rw [h]; exact post_ok trivial
  refine post_bind (post_ends (by ends)) fun mn _ => post_bind post_setIdx fun mx hmx => ?_
  have hmx : mx.length = 18 := by rw [hmx.2, List.length_set, List.length_replicate]
  refine post_bind (post_loop (fun s : Nat × List Nat × List Int × List Nat => s.2.2.1.length = 18) hmx fun j s h =>
    post_weaken (post_decodeStep _ _ _ _) fun r hr => hr.trans h) fun s hs => ?_
  refine post_bind post_setIdx fun mx' hmx' => ?_
  have hmx' : mx'.length = 18 := by rw [hmx'.2, List.length_set, hs]
  refine post_bind (post_ends (by ends)) fun nb _ => ?_
  split
  · exact post_bind (post_bigtable _ _) fun t ht => post_ok (Nat.le_of_eq ((congrArg List.length ht).trans hmx'))
  · exact post_bind (Q := fun t => t.maxcode = mx') (post_ok rfl) fun t ht => post_ok (Nat.le_of_eq ((congrArg List.length ht).trans hmx'))

theorem post_new (b : Build) {bits : List Nat} (huffval : List Nat) (precision : Nat) (dngBug : Bool) (hs : bits.length = 17) :
    Post (new b bits huffval precision dngBug) Bounded := post_init b huffval precision dngBug true hs

theorem short_empty (p : Nat) : (empty p).Bounded := Nat.le_of_eq (by simp [empty, raw])

end HuffTable

/-! ## Lossless JPEG -/

namespace Ljpeg
variable {σ : Type}

/-- Every table of a decompressor can be searched. -/
def Decompressor.Bounded (d : Decompressor) : Prop := ∀ t ∈ d.dhts, t.Bounded

theorem post_newFull (b : Build) (src : Bytes) (dngBug csfix : Bool) : Post (newFull b src dngBug csfix) Decompressor.Bounded := by
  unfold newFull
  refine post_bind (post_parseHeader b src csfix) ?_
  rintro h ⟨h0, h1, hd, -⟩
  refine post_bind (post_mapM (Q := fun _ t => t.Bounded) fun k hk => ?_) fun ts ht => post_bind (post_ends (by ends)) fun _ _ => post_ok ?_
  · unfold table
    refine post_bind (post_ends (by ends)) fun init _ => post_ite (fun _ => ?_) fun _ => post_ok (HuffTable.short_empty 0)
    exact post_bind post_idx_mem fun bits hb => post_bind (post_ends (by ends)) fun vals _ => HuffTable.post_new _ _ _ _ (hd.bits.2 _ hb)
  · intro t hm
    obtain ⟨i, hi, rfl⟩ := List.getElem_of_mem hm
    exact ht.2 i _ _ (List.getElem?_eq_getElem (by rw [← ht.1]; exact hi)) (List.getElem?_eq_getElem hi)

theorem post_newLjpeg (b : Build) (src : Bytes) : Post (Ljpeg.new b src) Decompressor.Bounded := post_newFull b src false false

theorem post_htable {d : Decompressor} (hd : d.Bounded) (i : Nat) : Post (d.htable i) HuffTable.Bounded := by
  unfold Decompressor.htable
  exact post_bind (post_ends (by ends)) fun _ _ => post_weaken post_idx_mem fun t ht => hd t ht

theorem ends_basePrediction (b : Build) (d : Decompressor) : Ends (d.basePrediction b) := by unfold Decompressor.basePrediction; ends
macro_rules | `(tactic| ends_leaf) => `(tactic| with_reducible exact ends_basePrediction _ _)

section
variable (b : Build) (P : PumpOps σ) [P.Total]

theorem ends_diffs : ∀ (ts : List HuffTable) (_ : ∀ t ∈ ts, t.Bounded) (s : σ), Ends (diffs b P ts s)
  | [], _, _ => ends_ok _
  | t :: ts, h, s => by
    unfold diffs
    exact ends_bind (HuffTable.ends_huffDecode b P (h t (by simp)) s) fun _ _ =>
      ends_bind (ends_diffs ts (fun t ht => h t (by simp [ht])) _) fun _ _ => ends_ok _

theorem post_firstPixel (base : Int) : ∀ (pos : Nat) (ts : List HuffTable) (_ : ∀ t ∈ ts, t.Bounded) (s : List Nat × σ),
    Post (firstPixel b P base pos ts s) (fun r => size r = size s)
  | _, [], _, _ => by unfold firstPixel; exact post_ok rfl
  | pos, t :: ts, h, (out, s) => by
    unfold firstPixel
    refine post_bind (post_ends (HuffTable.ends_huffDecode b P (h t (by simp)) s)) fun _ _ => post_bind (post_ends (by ends)) fun _ _ =>
      post_bind (post_setIdx_size _ _ _) fun o ho => post_weaken (post_firstPixel base (pos + 1) ts (fun t ht => h t (by simp [ht])) _) fun r hr => ?_
    size_done
end

theorem post_writePixel (b : Build) : ∀ (pos : Nat) (ps : List Nat) (ds : List Int) (out : List Nat), Post (writePixel b pos ps ds out) (fun r => size r = size out)
  | pos, p :: ps, d :: ds, out => by
    unfold writePixel
    exact post_bind (post_ends (by ends)) fun _ _ => post_bind (post_setIdx_size _ _ _) fun o ho =>
      post_weaken (post_writePixel b (pos + 1) ps ds o) fun r hr => hr.trans ho
  | _, [], _, _ => by unfold writePixel; exact post_ok rfl
  | _, _ :: _, [], _ => by unfold writePixel; exact post_ok rfl
macro_rules | `(tactic| post_leaf) => `(tactic| with_reducible exact post_writePixel _ _ _ _ _)

theorem ends_predPos (b : Build) (n x s r c : Nat) : Ends (predPos b n x s r c) := by unfold predPos; ends
macro_rules | `(tactic| ends_leaf) => `(tactic| with_reducible exact ends_predPos _ _ _ _ _ _)

section
variable (b : Build) (P : PumpOps σ) [P.Total] {ts : List HuffTable} (h : ∀ t ∈ ts, t.Bounded)
include h

theorem post_pixel (x sw row col : Nat) (s : List Nat × σ) : Post (pixel b P ts x sw row col s) (fun r => size r = size s) := by
  unfold pixel
  have := ends_diffs b P ts h
  refine post_bind (post_ends (by ends)) fun _ _ => post_bind (post_ends (by ends)) fun _ _ => post_bind (post_ends (this _)) fun _ _ => ?_
  sized

theorem post_line (x sw w k row : Nat) (s : List Nat × σ) : Post (line b P ts x sw w k row s) (fun r => size r = size s) := by
  unfold line
  have := ends_diffs b P ts h
  refine post_bind (post_forStep_size fun j t _ => post_pixel b P h _ _ _ _ _) fun s' hs => ?_
  refine post_weaken (post_forRange_size fun j t _ => post_bind (post_ends (this _)) fun _ _ => post_ok rfl) fun r hr => hr.trans hs

end

theorem post_tables {d : Decompressor} (hd : d.Bounded) (n : Nat) : Post ((List.range n).mapM d.htable) (fun ts => ∀ t ∈ ts, t.Bounded) := by
  refine post_weaken (post_mapM (Q := fun _ t => t.Bounded) fun k _ => post_htable hd k) fun ts ht => ?_
  intro t hm
  obtain ⟨i, hi, rfl⟩ := List.getElem_of_mem hm
  exact ht.2 i _ _ (List.getElem?_eq_getElem (by rw [← ht.1]; exact hi)) (List.getElem?_eq_getElem hi)

theorem post_components (b : Build) (n : Nat) {d : Decompressor} (hd : d.Bounded) (out : List Nat) (x sw w h : Nat) :
    Post (components b n d out x sw w h) (fun r => size r = size out) := by
  unfold components
  refine post_ite (fun _ => post_fail) fun _ => post_bind (post_tables hd n) fun ts ht => post_bind (post_ends (by ends)) fun base _ =>
    post_bind (post_firstPixel _ _ _ _ _ ht _) fun s hs => post_bind (post_ends (by ends)) fun k _ =>
    post_bind (post_forRange_size fun j t _ => post_line _ _ ht _ _ _ _ _ _) fun s' hs' => post_ok ?_
  size_done

theorem post_putAll : ∀ (vs : List Int) (out : List Nat) (pos : Nat), Post (putAll out pos vs) (fun r => size r = size out)
  | [], _, _ => by unfold putAll; exact post_ok rfl
  | v :: vs, out, pos => by
    unfold putAll
    exact post_bind (post_setIdx_size _ _ _) fun o ho => post_weaken (post_putAll vs o _) fun r hr => hr.trans ho
macro_rules | `(tactic| post_leaf) => `(tactic| with_reducible exact post_putAll _ _ _)

theorem post_setYuv420 (out : List Nat) (r c w : Nat) (y1 y2 y3 y4 cb cr : Int) : Post (setYuv420 out r c w y1 y2 y3 y4 cb cr) (fun r => size r = size out) := by
  unfold setYuv420; sized
theorem post_setYuv422 (out : List Nat) (r c w : Nat) (y1 y2 cb cr : Int) : Post (setYuv422 out r c w y1 y2 cb cr) (fun r => size r = size out) := by
  unfold setYuv422; sized
macro_rules | `(tactic| post_leaf) => `(tactic| with_reducible exact post_setYuv420 _ _ _ _ _ _ _ _ _ _)
macro_rules | `(tactic| post_leaf) => `(tactic| with_reducible exact post_setYuv422 _ _ _ _ _ _ _ _)

theorem ends_addDiff (b : Build) (P : PumpOps σ) [P.Total] {t : HuffTable} (ht : t.Bounded) (p : Int) (s : σ) : Ends (addDiff b P t p s) := by
  unfold addDiff; ends
macro_rules | `(tactic| ends_leaf) => `(tactic| with_reducible exact ends_addDiff _ _ (by assumption) _ _)
theorem ends_predPos420 (b : Build) (w r c : Nat) : Ends (predPos420 b w r c) := by unfold predPos420; ends
theorem ends_predPos422 (b : Build) (w r c : Nat) : Ends (predPos422 b w r c) := by unfold predPos422; ends
macro_rules | `(tactic| ends_leaf) => `(tactic| with_reducible exact ends_predPos420 _ _ _ _)
macro_rules | `(tactic| ends_leaf) => `(tactic| with_reducible exact ends_predPos422 _ _ _ _)

section
variable (b : Build) (P : PumpOps σ) [P.Total] {t1 t2 t3 : HuffTable} (h1 : t1.Bounded) (h2 : t2.Bounded) (h3 : t3.Bounded)
include h1 h2 h3

theorem post_block420 (py pcb pcr : Int) (r c w : Nat) (s : List Nat × σ) : Post (block420 b P t1 t2 t3 py pcb pcr r c w s) (fun r => size r = size s) := by
  unfold block420; sized
theorem post_block422 (py pcb pcr : Int) (r c w : Nat) (s : List Nat × σ) : Post (block422 b P t1 t2 t3 py pcb pcr r c w s) (fun r => size r = size s) := by
  unfold block422; sized
theorem post_step420 (w r c : Nat) (s : List Nat × σ) : Post (step420 b P t1 t2 t3 w r c s) (fun r => size r = size s) := by
  unfold step420
  exact post_bind (post_ends (by ends)) fun _ _ => post_bind (post_ends (by ends)) fun _ _ => post_bind (post_ends (by ends)) fun _ _ =>
    post_bind (post_ends (by ends)) fun _ _ => post_block420 b P h1 h2 h3 _ _ _ _ _ _ _
theorem post_step422 (w r c : Nat) (s : List Nat × σ) : Post (step422 b P t1 t2 t3 w r c s) (fun r => size r = size s) := by
  unfold step422
  exact post_bind (post_ends (by ends)) fun _ _ => post_bind (post_ends (by ends)) fun _ _ => post_bind (post_ends (by ends)) fun _ _ =>
    post_bind (post_ends (by ends)) fun _ _ => post_block422 b P h1 h2 h3 _ _ _ _ _ _ _
end

theorem post_decode420 (b : Build) {d : Decompressor} (hd : d.Bounded) (out : List Nat) (w h : Nat) : Post (decode420 b d out w h) (fun r => size r = size out) := by
  unfold decode420
  refine post_ite (fun _ => post_fail) fun _ => post_bind (post_htable hd _) fun t1 h1 => post_bind (post_htable hd _) fun t2 h2 =>
    post_bind (post_htable hd _) fun t3 h3 => post_bind (post_ends (by ends)) fun base _ => post_bind (post_block420 _ _ h1 h2 h3 _ _ _ _ _ _ _) fun s hs =>
    post_bind (post_forStep_size fun j t _ => post_forStep_size fun k t _ => post_step420 _ _ h1 h2 h3 _ _ _ _) fun s' hs' => post_ok ?_
  size_done

theorem post_decode422 (b : Build) {d : Decompressor} (hd : d.Bounded) (out : List Nat) (w h : Nat) : Post (decode422 b d out w h) (fun r => size r = size out) := by
  unfold decode422
  refine post_ite (fun _ => post_fail) fun _ => post_bind (post_htable hd _) fun t1 h1 => post_bind (post_htable hd _) fun t2 h2 =>
    post_bind (post_htable hd _) fun t3 h3 => post_bind (post_ends (by ends)) fun base _ => post_bind (post_block422 _ _ h1 h2 h3 _ _ _ _ _ _ _) fun s hs =>
    post_bind (post_forRange_size fun j t _ => post_forStep_size fun k t _ => post_step422 _ _ h1 h2 h3 _ _ _ _) fun s' hs' => post_ok ?_
  size_done

theorem post_foldChunks {α τ : Type} {f : List α → τ → M (List α × τ)} (hf : ∀ o s, Post (f o s) (fun r => r.1.length = o.length)) :
    ∀ (cs : List (List α)) (s : τ), Post (foldChunks f cs s) (fun r => r.1.length = (cs.map List.length).sum)
  | [], _ => by unfold foldChunks; exact post_ok rfl
  | c :: cs, s => by
    unfold foldChunks
    refine post_bind (hf c s) fun o ho => post_bind (post_foldChunks hf cs _) fun r hr => post_ok ?_
    rw [List.length_append, ho, hr, List.map_cons, List.sum_cons]

theorem post_foldChunks_size {α τ : Type} {f : List α → τ → M (List α × τ)} (hf : ∀ o s, Post (f o s) (fun r => r.1.length = o.length)) {n : Nat} (hn : 0 < n)
    (out : List α) (s : τ) : Post (foldChunks f (chunks n out) s) (fun r => r.1.length = out.length) :=
  post_weaken (post_foldChunks hf _ s) fun r hr => hr.trans (chunks_sum n hn out)

theorem post_hasselbladPair (b : Build) (P : PumpOps σ) [P.Total] {t : HuffTable} (ht : t.Bounded) (o : List Nat) (s : Int × Int × σ) :
    Post (hasselbladPair b P t o s) (fun r => r.1.length = o.length) := by
  show Post (hasselbladPair b P t o s) (fun r => size r = size o)
  unfold hasselbladPair; sized

theorem post_decodeHasselblad (b : Build) {d : Decompressor} (hd : d.Bounded) (out : List Nat) (w : Nat) : Post (decodeHasselblad b d out w) (fun r => size r = size out) := by
  unfold decodeHasselblad
  refine post_bind (post_htable hd _) fun t ht => post_ite (fun _ => post_crash) fun hw => ?_
  refine post_bind (post_foldChunks_size (fun o s => ?_) (by omega) _ _) fun r hr => post_ok hr
  exact post_bind (post_foldChunks_size (fun o s => post_hasselbladPair _ _ ht _ _) (by omega) _ _) fun r hr => post_ok hr

/-- Decoding ends and gives a buffer of the size that it was given. -/
theorem post_decode (b : Build) {d : Decompressor} (hd : d.Bounded) (out : List Nat) (x sw w h : Nat) : Post (d.decode b out x sw w h) (fun r => size r = size out) := by
  unfold Decompressor.decode
  refine post_bind (post_ends (by ends)) fun c _ => ?_
  refine post_ite (fun _ => post_decode420 b hd out w h) fun _ => post_ite (fun _ => post_decode422 b hd out w h) fun _ => post_ite (fun _ => ?_) fun _ =>
    post_ite (fun _ => post_decodeHasselblad b hd out w) fun _ => post_fail
  exact post_ite (fun _ => post_components b 2 hd out _ _ _ _) fun _ => post_ite (fun _ => post_components b 3 hd out _ _ _ _) fun _ =>
    post_ite (fun _ => post_components b 4 hd out _ _ _ _) fun _ => post_fail

theorem ends_leafOffsets {src : Bytes} : ∀ (fuel p : Nat) (s : ByteStream) (acc : List Nat), On src p s → 0 < fuel → src.length < fuel + p → Ends (leafOffsets fuel s acc)
  | 0, _, _, _, _, h, _ => by omega
  | fuel + 1, p, s, acc, ho, _, h => by
    unfold leafOffsets
    have hp := post_getNextMarker ho
    cases e : getNextMarker s true with
    | ok r =>
      obtain ⟨q, hq, hoq, -⟩ := hp.2 _ e
      have := hoq.2.2.2
      exact ends_ite (fun _ => ends_ok _) fun _ => ends_leafOffsets fuel q r.2 _ hoq (by omega) (by omega)
    | error x =>
      cases x with
      | err m => exact ends_ok _
      | panic => exact ends_crash
      | fuel => exact absurd e hp.1

theorem post_leafStrip (b : Build) (d : Decompressor) (offsets : List Nat) (w : Nat) {t1 t2 : HuffTable} (h1 : t1.Bounded) (h2 : t2.Bounded) (bp : Int) (strip : List Nat) (row : Nat) :
    Post (leafStrip b d offsets w t1 t2 bp strip row) (fun r => size r = size strip) := by
  unfold leafStrip
  refine post_bind (post_ends (by ends)) fun _ _ => post_bind (post_ends (by ends)) fun src _ => ?_
  have ht : ∀ t ∈ [t1, t2], t.Bounded := by
    intro t ht
    simp only [List.mem_cons, List.not_mem_nil, or_false] at ht
    rcases ht with rfl | rfl <;> assumption
  have h : Post (decodeLeafStrip b src strip w (strip.length / w) t1 t2 bp) (fun r => size r = size strip) := by
    unfold decodeLeafStrip
    refine post_bind (post_firstPixel _ _ _ _ _ ht _) fun s hs => post_bind (post_forRange_size fun j t _ => post_line _ _ ht _ _ _ _ _ _) fun s' hs' => post_ok ?_
    size_done
  cases e : decodeLeafStrip b src strip w (strip.length / w) t1 t2 bp with
  | ok o => exact post_ok (h.2 o e)
  | error x =>
    cases x with
    | err m => exact post_crash
    | panic => exact post_crash
    | fuel => exact absurd e h.1

theorem post_decodeLeaf (b : Build) {d : Decompressor} (hd : d.Bounded) (w h : Nat) : Post (d.decodeLeaf b w h) (fun r => size r = w * h) := by
  unfold Decompressor.decodeLeaf
  refine post_bind (post_ends (ends_leafOffsets (src := d.buffer) _ 0 _ _ ⟨rfl, rfl, rfl, Nat.zero_le _⟩ (by omega) (by omega))) fun offs _ =>
    post_bind (post_ends (by ends)) fun _ _ => post_ite (fun _ => post_fail) fun _ => post_bind (post_htable hd _) fun t1 h1 =>
    post_bind (post_htable hd _) fun t2 h2 => post_bind (post_ends (by ends)) fun bp _ => post_multiline fun o i => post_leafStrip _ _ _ _ h1 h2 _ _ _

end Ljpeg
end Model

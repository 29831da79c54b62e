import Verif.Spec.MrwFile
import Verif.Lemmas.OpenFile
import Verif.Lemmas.FileExample
import Verif.Props.CrwFile
import Verif.Props.Packed
/-!
# C80: whole files that are not TIFF: Minolta, ARRI, Sigma and files without a header

From the bytes of a file to the picture the public function returns.
-/

namespace Props
open Rust Spec Model

/-! ## Opening -/

/-- The camera named in a directory is found. -/
theorem supported (s : RawLoader) {d : Dir} {root : TiffIFD} (hh : Holds d root) {make model : Bytes} (h1 : d.Text 0x10f make) (h2 : d.Text 0x110 model) {o : Option Nat}
    (ho : match o with | none => d.Lacks 0x112 | some o => d.Numbers 0x112 [o]) {mode : Bytes} {cam : Camera} (hcam : Map.get s.cameras (make, model, mode) = some cam) :
    s.checkSupportedWithMode root mode = .ok (turned cam o) := by
  obtain ⟨emake, m1, m2⟩ := fetch_text hh (tag := 0x10f) (by decide) h1
  obtain ⟨emodel, n1, n2⟩ := fetch_text hh (tag := 0x110) (by decide) h2
  unfold RawLoader.checkSupportedWithMode TiffIFD.fetchTag
  rw [show TiffIFD.findEntry Tag.Make root = some emake from m1]
  simp only [ok_bind]
  rw [m2, show TiffIFD.findEntry Tag.Model root = some emodel from n1]
  simp only [ok_bind]
  rw [n2, ok_bind]
  unfold RawLoader.checkSupportedWithEverything
  rw [hcam]
  simp only [ok_bind]
  rw [orientation_read hh ho]
  cases o <;> rfl

/-! ## Minolta -/

/-- What a block changes. -/
private def effect (buf : Bytes) (tag : Nat) (s : Mrw.Walk) : Mrw.Walk :=
  if tag = 0x505244 then
    { s with rawHeight := number true (bytesAt buf (s.currpos + 16) 2), rawWidth := number true (bytesAt buf (s.currpos + 18) 2),
             packed := decide (bytesOf buf (s.currpos + 24) = 12) }
  else if tag = 0x574247 then { s with wbVals := (List.range 4).map fun i => number true (bytesAt buf (s.currpos + 12 + i * 2) 2) }
  else if tag = 0x545457 then { s with tiffpos := s.currpos + 8 }
  else s

private def run (buf : Bytes) : List MrwBlock → Mrw.Walk → Mrw.Walk
  | [], s => s
  | x :: t, s => run buf t { effect buf x.tag s with currpos := s.currpos + x.bytes.length }

private theorem effect_currpos (buf : Bytes) (tag : Nat) (s : Mrw.Walk) : (effect buf tag s).currpos = s.currpos := by
  unfold effect
  split
  · rfl
  · split
    · rfl
    · split <;> rfl

private theorem run_append (buf : Bytes) (l l' : List MrwBlock) (s : Mrw.Walk) : run buf (l ++ l') s = run buf l' (run buf l s) := by
  induction l generalizing s with
  | nil => rfl
  | cons x t ih => exact ih _

private theorem run_currpos (buf : Bytes) (l : List MrwBlock) (s : Mrw.Walk) : (run buf l s).currpos = s.currpos + (mrwBlocks l).length := by
  induction l generalizing s with
  | nil => simp [run, mrwBlocks]
  | cons x t ih =>
    show (run buf t _).currpos = _
    rw [ih]
    unfold mrwBlocks
    rw [List.flatMap_cons, List.length_append]
    dsimp only
    omega

private theorem block_ok (buf : Bytes) (tag : Nat) (s : Mrw.Walk) (hw : s.wbVals.length = 4) (h : s.currpos + 24 < buf.length) :
    Mrw.block buf tag s = .ok (effect buf tag s) := by
  unfold Mrw.block effect
  have h16 : ∀ p, p + 2 ≤ buf.length → BEu16 buf p = .ok (number true (bytesAt buf p 2)) := fun p hp => ru16_number (e := BIG_ENDIAN) hp
  split
  · rw [h16 _ (by omega), ok_bind, h16 _ (by omega), ok_bind, byteAt_lt h, ok_bind]
  · split
    · generalize hv : (fun i => number true (bytesAt buf (s.currpos + 12 + i * 2) 2)) = v
      have hv' : ∀ i, i < 4 → BEu16 buf (s.currpos + 12 + i * 2) = .ok (v i) := fun i hi => by rw [← hv]; exact h16 _ (by omega)
      match hl : s.wbVals, hw with
      | [a0, a1, a2, a3], _ =>
        rw [show forRange 0 4 (fun i wb => do
          let x ← BEu16 buf (s.currpos + 12 + i * 2)
          setIdx wb i x) [a0, a1, a2, a3] = .ok ((List.range 4).map v) by
            rw [forRange_cons _ (by decide), hv' 0 (by decide), ok_bind, setIdx_lt (by simp), ok_bind, forRange_cons _ (by decide), hv' 1 (by decide), ok_bind, setIdx_lt (by simp), ok_bind,
              forRange_cons _ (by decide), hv' 2 (by decide), ok_bind, setIdx_lt (by simp), ok_bind, forRange_cons _ (by decide), hv' 3 (by decide), ok_bind, setIdx_lt (by simp), ok_bind,
              forRange_nil (by decide)]
            rfl, ok_bind]
    · split <;> rfl

private theorem effect_wb (buf : Bytes) (tag : Nat) (s : Mrw.Walk) (hw : s.wbVals.length = 4) : (effect buf tag s).wbVals.length = 4 := by
  unfold effect
  split
  · exact hw
  · split
    · simp
    · split <;> exact hw

private theorem block_length (x : MrwBlock) : x.bytes.length = x.body.length + 8 := by
  unfold MrwBlock.bytes
  rw [List.length_append, List.length_append, encode_length, encode_length]
  omega

/-- Bytes behind others. -/
theorem bytesAt_behind (pre rest : Bytes) (pos n : Nat) : bytesAt (pre ++ rest) (pre.length + pos) n = bytesAt rest pos n := by
  unfold bytesAt
  rw [List.drop_append, List.drop_eq_nil_of_le (by omega), Nat.add_sub_cancel_left, List.nil_append]

private theorem walk_blocks (b : Build) (buf : Bytes) (dataOffset : Nat) (hroom : dataOffset + 4 ≤ buf.length) (hfits : dataOffset < 4294967296) (tail : Bytes) :
    ∀ (l : List MrwBlock) (pre : Bytes) (s : Mrw.Walk) (fuel : Nat), s.currpos = pre.length → s.wbVals.length = 4 → buf = pre ++ (mrwBlocks l ++ tail) → l.length ≤ fuel →
      (∀ x ∈ l, x.tag < 4294967296) → (∀ a x post, l = a ++ x :: post → pre.length + (mrwBlocks a).length + 20 < dataOffset) → dataOffset ≤ pre.length + (mrwBlocks l).length + 20 →
      (pre.length + (mrwBlocks l).length ≤ dataOffset) →
      Mrw.walk b buf dataOffset fuel s = .ok (run buf l s) := by
  intro l
  induction l with
  | nil =>
    intro pre s fuel hs _ _ _ _ _ hend _
    have : ¬ s.currpos + 20 < dataOffset := by simp [mrwBlocks] at hend; omega
    cases fuel <;> (unfold Mrw.walk; rw [if_neg this]; rfl)
  | cons x t ih =>
    intro pre s fuel hs hw hbuf hfuel htags hlive hend hle
    have hcons : mrwBlocks (x :: t) = x.bytes ++ mrwBlocks t := rfl
    have hx := hlive [] x t rfl
    simp only [mrwBlocks, List.flatMap_nil, List.length_nil] at hx
    cases fuel with
    | zero => simp at hfuel
    | succ n =>
      unfold Mrw.walk
      rw [if_pos (by omega)]
      have htag : BEu32 buf s.currpos = .ok x.tag := by
        apply be32_known (htags x (by simp))
        rw [hs, hbuf, hcons, show pre.length = pre.length + 0 from rfl, bytesAt_behind]
        unfold MrwBlock.bytes bytesAt
        simp [encode_length]
      have hlen : BEu32 buf (s.currpos + 4) = .ok x.body.length := by
        apply be32_known
        · have := block_length x
          rw [hcons, List.length_append] at hle
          omega
        · rw [hs, hbuf, hcons, bytesAt_behind]
          unfold MrwBlock.bytes bytesAt
          simp [encode_length]
      rw [htag, ok_bind, hlen, ok_bind, block_ok _ _ _ hw (by omega), ok_bind,
        addU_ok (by have := block_length x; rw [hcons, List.length_append] at hle; omega), ok_bind]
      have := ih (pre ++ x.bytes) { effect buf x.tag s with currpos := s.currpos + x.bytes.length } n (by simp [hs]) (effect_wb _ _ _ hw)
        (by rw [hbuf, hcons]; simp) (by simp at hfuel; omega) (fun y hy => htags y (by simp [hy]))
        (fun a y post e => by
          have := hlive (x :: a) y post (by rw [e]; rfl)
          rw [show mrwBlocks (x :: a) = x.bytes ++ mrwBlocks a from rfl, List.length_append] at this
          rw [List.length_append]
          omega)
        (by rw [hcons, List.length_append] at hend; rw [List.length_append]; omega)
        (by rw [hcons, List.length_append] at hle; rw [List.length_append]; omega)
      rw [effect_currpos, ← block_length x]
      exact this

/-- A field of the walk that the other blocks leave alone. -/
private theorem run_keeps {α : Type} (f : Mrw.Walk → α) (buf : Bytes) (tag : Nat) (hpos : ∀ s c, f { s with currpos := c } = f s)
    (hf : ∀ t s, t ≠ tag → f (effect buf t s) = f s) (l : List MrwBlock) (s : Mrw.Walk) (h : ∀ y ∈ l, y.tag ≠ tag) : f (run buf l s) = f s := by
  induction l generalizing s with
  | nil => rfl
  | cons x t ih =>
    show f (run buf t _) = _
    rw [ih _ fun y hy => h y (by simp [hy]), hpos, hf _ _ (h x (by simp))]

private theorem run_last {α : Type} (f : Mrw.Walk → α) (buf : Bytes) (tag : Nat) (hpos : ∀ s c, f { s with currpos := c } = f s)
    (hf : ∀ t s, t ≠ tag → f (effect buf t s) = f s) {pre post : List MrwBlock} {x : MrwBlock} (s : Mrw.Walk) (hx : x.tag = tag) (h : ∀ y ∈ post, y.tag ≠ tag) :
    f (run buf (pre ++ x :: post) s) = f (effect buf tag (run buf pre s)) := by
  rw [run_append]
  show f (run buf post _) = _
  rw [run_keeps f buf tag hpos hf post _ h, hpos, hx]

/-- The four levels in the block of the white balance; zeros if there is none. -/
def MinoltaLevels (blocks : List MrwBlock) (l : List Nat) : Prop :=
  (∀ x ∈ blocks, x.tag ≠ 0x574247) ∧ l = [0, 0, 0, 0] ∨
  ∃ x, LastBlock blocks 0x574247 x ∧ l.length = 4 ∧ ∀ i (hi : i < l.length), l[i] < 65536 ∧ bytesAt x.body (4 + 2 * i) 2 = encode true 2 l[i]

/-- The block with the size of the picture and the way it is stored: 12 bits, packed, or 16 bits. -/
def MinoltaSize (blocks : List MrwBlock) (w h : Nat) (packed : Bool) : Prop :=
  ∃ x way, LastBlock blocks 0x505244 x ∧ w < 65536 ∧ h < 65536 ∧ bytesAt x.body 8 2 = encode true 2 h ∧ bytesAt x.body 10 2 = encode true 2 w ∧
    x.body[16]? = some way ∧ packed = decide (way = 12)

/-- The block with the directory. -/
def MinoltaDir (blocks : List MrwBlock) (d : Dir) : Prop :=
  d.big = true ∧ ∃ x next, LastBlock blocks 0x545457 x ∧ d.StoredAt 11 x.body 8 next

/-- The samples: 12 bits, packed, or the low 12 of 16 bits, from an offset on. -/
def minoltaSample (packed : Bool) (contents : Bytes) (offset w r c : Nat) : Nat :=
  if packed then fieldMSB (bytesOf contents) (8 * offset + 12 * (r * w + c)) 12
  else (256 * bytesOf contents (offset + 2 * (r * w + c)) + bytesOf contents (offset + 2 * (r * w + c) + 1)) % 4096

/-- **C80**, Minolta. -/
theorem mrw_file (s : RawLoader) (env : Platform) (b : Build) {blocks : List MrwBlock} {slack picture : Bytes} (hl : MrwLayout blocks slack)
    {w ht : Nat} {packed : Bool} (hsize : MinoltaSize blocks w ht packed) {d : Dir} (hdir : MinoltaDir blocks d) {l0 l1 l2 l3 : Nat} (hlev : MinoltaLevels blocks [l0, l1, l2, l3])
    {make model : Bytes} (hmake : d.Text 0x10f make) (hmodel : d.Text 0x110 model) {o : Option Nat} (ho : match o with | none => d.Lacks 0x112 | some o => d.Numbers 0x112 [o])
    {cam : Camera} (hcam : Map.get s.cameras (make, model, []) = some cam) (hw : 0 < w)
    (hroom : if packed then w % 2 = 0 ∧ w * ht * 12 / 8 ≤ picture.length else 2 * (w * ht) ≤ picture.length) {blacks : List Nat}
    (hb : BlacksOf cam w ht (minoltaSample packed (mrwContents blocks slack picture) (mrwOffset blocks slack) w) blacks) :
    s.decodeSafe env b (.ok (mrwContents blocks slack picture)) = .ok (pictureOf cam (orientationOf o) w ht
      (if cam.findHint (b! "swapped_wb") then [F32.ofNat l2, F32.ofNat l0, F32.ofNat l1, .nan] else [F32.ofNat l0, F32.ofNat l1, F32.ofNat l3, .nan]) blacks
      (raster w ht (minoltaSample packed (mrwContents blocks slack picture) (mrwOffset blocks slack) w))) := by
  generalize hc : mrwContents blocks slack picture = contents at *
  generalize hbuf : contents ++ List.replicate 16 0 = buf
  have hlenc : contents.length = mrwOffset blocks slack + picture.length := by
    rw [← hc]; unfold mrwContents mrwOffset
    simp only [List.length_append, encode_length, List.length_cons, List.length_nil]
    omega
  have hlenb : buf.length = contents.length + 16 := by rw [← hbuf]; simp
  have hfits := hl.fits
  have hform : buf = ([0, 0x4d, 0x52, 0x4d] ++ encode true 4 ((mrwBlocks blocks).length + slack.length)) ++ (mrwBlocks blocks ++ ((slack ++ picture) ++ List.replicate 16 0)) := by
    rw [← hbuf, ← hc]; unfold mrwContents; simp only [List.append_assoc]
  have hpre8 : ([0, 0x4d, 0x52, 0x4d] ++ encode true 4 ((mrwBlocks blocks).length + slack.length) : Bytes).length = 8 := by simp [encode_length]
  -- the walk
  have hwalk : Mrw.walk b buf (mrwOffset blocks slack) (mrwOffset blocks slack) Mrw.start = .ok (run buf blocks Mrw.start) := by
    have hcount : ∀ l : List MrwBlock, l.length ≤ (mrwBlocks l).length := by
      intro l
      induction l with
      | nil => simp [mrwBlocks]
      | cons x t ih => rw [show mrwBlocks (x :: t) = x.bytes ++ mrwBlocks t from rfl, List.length_append, block_length, List.length_cons]; omega
    have hrest := hl.rest
    refine walk_blocks b buf _ (by omega) hfits _ blocks _ Mrw.start _ hpre8.symm rfl hform ?_ hl.tags ?_ ?_ ?_
    · have := hcount blocks; unfold mrwOffset; omega
    · intro a x post e
      have := hl.live a.length (by rw [e]; simp)
      rw [e, List.drop_left] at this
      rw [hpre8]
      unfold mrwOffset
      rw [e, show mrwBlocks (a ++ x :: post) = mrwBlocks a ++ mrwBlocks (x :: post) from List.flatMap_append, List.length_append]
      omega
    · rw [hpre8]; unfold mrwOffset; omega
    · rw [hpre8]; unfold mrwOffset; omega
  -- positions in the blocks
  have hat : ∀ {tag x}, LastBlock blocks tag x → ∃ pre post rest, blocks = pre ++ x :: post ∧ (∀ y ∈ post, y.tag ≠ tag) ∧ x.tag = tag ∧
      buf.drop ((run buf pre Mrw.start).currpos + 8) = x.body ++ rest ∧ (run buf pre Mrw.start).currpos + 8 ≤ buf.length := by
    intro tag x ⟨pre, post, e, ht, hn⟩
    have hpos : (run buf pre Mrw.start).currpos = 8 + (mrwBlocks pre).length := run_currpos _ _ _
    have he : buf = (([0, 0x4d, 0x52, 0x4d] ++ encode true 4 ((mrwBlocks blocks).length + slack.length)) ++ (mrwBlocks pre ++ (encode true 4 x.tag ++ encode true 4 x.body.length))) ++
        (x.body ++ (mrwBlocks post ++ ((slack ++ picture) ++ List.replicate 16 0))) := by
      rw [hform]
      conv_lhs => rw [show mrwBlocks blocks = mrwBlocks pre ++ (x.bytes ++ mrwBlocks post) by rw [e]; simp [mrwBlocks]]
      unfold MrwBlock.bytes
      rw [show mrwBlocks blocks = mrwBlocks pre ++ (x.bytes ++ mrwBlocks post) by rw [e]; simp [mrwBlocks]]
      unfold MrwBlock.bytes
      simp only [List.append_assoc]
    have hlen : (([0, 0x4d, 0x52, 0x4d] ++ encode true 4 ((mrwBlocks blocks).length + slack.length)) ++ (mrwBlocks pre ++ (encode true 4 x.tag ++ encode true 4 x.body.length)) : Bytes).length
        = (run buf pre Mrw.start).currpos + 8 := by
      rw [List.length_append, hpre8, List.length_append, List.length_append, encode_length, encode_length, hpos]
      omega
    refine ⟨pre, post, mrwBlocks post ++ ((slack ++ picture) ++ List.replicate 16 0), e, hn, ht, ?_, ?_⟩
    · rw [← hlen]
      conv_lhs => rw [he]
      exact List.drop_left
    · rw [← hlen]
      have hle := congrArg List.length he
      rw [List.length_append] at hle
      omega
  have hbytes : ∀ {p x : Nat} {body rest : Bytes} {n : Nat} {l : Bytes}, buf.drop (p + 8) = body ++ rest → bytesAt body x n = l → l.length = n → bytesAt buf (p + 8 + x) n = l := by
    intro p x body rest n l h1 h2 h3
    have := bytesAt_pad (pad := rest) h2 h3
    unfold bytesAt at this ⊢
    rw [← h1, List.drop_drop] at this
    exact this
  obtain ⟨xs, way, hs1, hs2, hs3, hs4, hs5, hs6, hs7⟩ := hsize
  obtain ⟨hbig, xd, next, hd1, hd2⟩ := hdir
  -- the size
  have hsz : (run buf blocks Mrw.start).rawHeight = ht ∧ (run buf blocks Mrw.start).rawWidth = w ∧ (run buf blocks Mrw.start).packed = packed := by
    obtain ⟨pre, post, rest, e, hn, htag, hdrop, hle⟩ := hat hs1
    have key := run_last (fun s => (s.rawHeight, s.rawWidth, s.packed)) buf 0x505244 (fun _ _ => rfl) (fun t s ht => by
      unfold effect
      rw [if_neg ht]
      split
      · rfl
      · split <;> rfl) (pre := pre) (post := post) (x := xs) Mrw.start htag hn
    rw [← e] at key
    unfold effect at key
    rw [if_pos rfl] at key
    dsimp only at key
    injection key with k1 k2
    injection k2 with k2 k3
    refine ⟨?_, ?_, ?_⟩
    · rw [k1, show (run buf pre Mrw.start).currpos + 16 = (run buf pre Mrw.start).currpos + 8 + 8 from rfl, hbytes hdrop hs4 (encode_length _ _ _), number_encode _ _ _ (by omega)]
    · rw [k2, show (run buf pre Mrw.start).currpos + 18 = (run buf pre Mrw.start).currpos + 8 + 10 from rfl, hbytes hdrop hs5 (encode_length _ _ _), number_encode _ _ _ (by omega)]
    · rw [k3, hs7]
      have : buf[(run buf pre Mrw.start).currpos + 24]? = some way := by
        rw [show (run buf pre Mrw.start).currpos + 24 = (run buf pre Mrw.start).currpos + 8 + 16 from rfl, ← List.getElem?_drop, hdrop, List.getElem?_append_left, hs6]
        exact (List.getElem?_eq_some_iff.mp hs6).1
      unfold bytesOf
      rw [this]
      simp only [Option.map_some, Option.getD_some]
      congr 1
      rw [eq_iff_iff]
      constructor
      · intro h; exact UInt8.toNat_inj.mp h
      · intro h; rw [h]; rfl
  -- the levels
  have hwb : (run buf blocks Mrw.start).wbVals = [l0, l1, l2, l3] := by
    have hkeep : ∀ (t : Nat) (s : Mrw.Walk), t ≠ 0x574247 → (effect buf t s).wbVals = s.wbVals := fun t s ht => by
      unfold effect
      rw [if_neg ht]
      split
      · rfl
      · split <;> rfl
    rcases hlev with ⟨hn, e⟩ | ⟨xw, hw1, _, hw3⟩
    · rw [run_keeps (fun s => s.wbVals) buf 0x574247 (fun _ _ => rfl) hkeep blocks Mrw.start hn, e]
      rfl
    · obtain ⟨pre, post, rest, e, hn, htag, hdrop, hle⟩ := hat hw1
      have key := run_last (fun s => s.wbVals) buf 0x574247 (fun _ _ => rfl) hkeep (pre := pre) (post := post) (x := xw) Mrw.start htag hn
      rw [← e] at key
      rw [key]
      unfold effect
      rw [if_neg (by decide), if_pos rfl]
      dsimp only
      have h16 : ∀ i (hi : i < 4), number true (bytesAt buf ((run buf pre Mrw.start).currpos + 12 + i * 2) 2) = [l0, l1, l2, l3][i] := by
        intro i hi
        obtain ⟨q1, q2⟩ := hw3 i hi
        rw [show (run buf pre Mrw.start).currpos + 12 + i * 2 = (run buf pre Mrw.start).currpos + 8 + (4 + 2 * i) by omega, hbytes hdrop q2 (encode_length _ _ _), number_encode _ _ _ (by omega)]
      rw [show List.range 4 = [0, 1, 2, 3] from rfl]
      simp only [List.map_cons, List.map_nil]
      rw [h16 0 (by decide), h16 1 (by decide), h16 2 (by decide), h16 3 (by decide)]
      rfl
  -- the directory
  obtain ⟨tree, htree, hholds⟩ : ∃ tree, TiffIFD.parse b (buf.drop (run buf blocks Mrw.start).tiffpos) 8 0 0 BIG_ENDIAN = .ok tree ∧ Holds d tree := by
    obtain ⟨pre, post, rest, e, hn, htag, hdrop, hle⟩ := hat hd1
    have key := run_last (fun s => s.tiffpos) buf 0x545457 (fun _ _ => rfl) (fun t s ht => by
      unfold effect
      rw [if_neg ht]
      split
      · rfl
      · split <;> rfl) (pre := pre) (post := post) (x := xd) Mrw.start htag hn
    rw [← e] at key
    unfold effect at key
    rw [if_neg (by decide), if_neg (by decide), if_pos rfl] at key
    dsimp only at key
    rw [key, hdrop]
    have := tiff_dir_roundtrip b (xd.body ++ rest) 8 0 d next (dir_pad rest _ _ _ _ _ hd2)
    rw [hbig] at this
    exact this
  have htp : (run buf blocks Mrw.start).tiffpos ≤ buf.length := by
    by_contra hcon
    rw [List.drop_eq_nil_of_le (by omega)] at htree
    exact absurd htree (by cases b <;> intro h <;> cases h)
  have hnew : Mrw.new b buf = .ok ⟨mrwOffset blocks slack, w, ht, packed, [l0, l1, l2, l3], tree⟩ := by
    unfold Mrw.new Mrw.newWithin
    have h4 : BEu32 buf 4 = .ok ((mrwBlocks blocks).length + slack.length) := by
      apply be32_known (by unfold mrwOffset at hfits; omega)
      rw [hform]
      unfold bytesAt
      simp [encode_length]
    rw [h4, ok_bind, addU_ok (by unfold mrwOffset at hfits; omega), ok_bind, show (mrwBlocks blocks).length + slack.length + 8 = mrwOffset blocks slack by unfold mrwOffset; omega,
      hwalk, ok_bind, sliceFrom_le htp, ok_bind, htree, hsz.1, hsz.2.1, hsz.2.2, hwb]
  have hmagic : magicKind contents = some .mrw := by
    rw [← hc]
    unfold magicKind magics mrwContents
    rw [List.find?_cons, show hasMagic _ 0 [0, 0x4d, 0x52, 0x4d] = true by unfold hasMagic; rw [beq_iff_eq]; simp]
    rfl
  rw [(decode_results s env b contents).1]
  unfold RawLoader.decode
  dsimp only
  rw [getDecoder_eq, hmagic]
  dsimp only
  rw [show (Buffer.new contents).buf = buf from hbuf, hnew, ok_bind, ok_bind]
  show Mrw.image b buf _ s = _
  unfold Mrw.image RawLoader.checkSupported
  dsimp only
  rw [supported s hholds hmake hmodel ho hcam, ok_bind, sliceFrom_le (by omega), ok_bind]
  have hpix : (if packed = true then decode_12be (buf.drop (mrwOffset blocks slack)) w ht else decode_12be_unpacked (buf.drop (mrwOffset blocks slack)) w ht) =
      .ok (raster w ht (minoltaSample packed contents (mrwOffset blocks slack) w)) := by
    have hfrom : bytesOf (buf.drop (mrwOffset blocks slack)) = fun i => bytesOf contents (mrwOffset blocks slack + i) := funext fun i => by rw [← hbuf]; exact bytes_from_offset contents _ i
    unfold minoltaSample
    cases packed with
    | true =>
      simp only [if_true] at hroom ⊢
      rw [decode_12be_exact _ _ _ hw hroom.1 (by rw [List.length_drop]; omega), ← hbuf]
      congr 1
      apply raster_congr
      intro r c _ _
      rw [field_at]
    | false =>
      simp only [Bool.false_eq_true, if_false] at hroom ⊢
      rw [decode_12be_unpacked_exact _ _ _ hw (by rw [List.length_drop]; omega), hfrom]
      rfl
  have hfin := ok_image b o hb (if (turned cam o).findHint (b! "swapped_wb") = true then [F32.ofNat l2, F32.ofNat l0, F32.ofNat l1, .nan] else [F32.ofNat l0, F32.ofNat l1, F32.ofNat l3, .nan])
  rw [turned_hint] at hfin
  cases packed with
  | true =>
    rw [if_pos rfl] at hpix ⊢
    rw [hpix, ok_bind]
    show okImage b _ w ht _ _ = _
    rw [turned_hint]
    exact hfin
  | false =>
    rw [if_neg (by decide)] at hpix ⊢
    rw [hpix, ok_bind]
    show okImage b _ w ht _ _ = _
    rw [turned_hint]
    exact hfin

/-! ## ARRI -/

/-- The name of the camera from byte 668 on, up to a zero. -/
def ArriName (contents model : Bytes) : Prop := IsAscii model ∧ bytesAt contents 668 (model.length + 1) = model ++ [0]

/-- **C80**, ARRI: 12 bits in words of 32 bits. The numbers of the white balance are stored as they are. -/
theorem ari_file (s : RawLoader) (env : Platform) (b : Build) {contents model : Bytes} (hmark : bytesAt contents 0 4 = b! "ARRI")
    (hciff : bytesAt contents 6 8 ≠ b! "HEAPCCDR") (hname : ArriName contents model) {cam : Camera} (hcam : Map.get s.cameras (b! "ARRI", model, []) = some cam)
    {offset w ht red green blue : Nat} (hsmall : offset < 4294967296 ∧ w < 4294967296 ∧ ht < 4294967296 ∧ red < 4294967296 ∧ green < 4294967296 ∧ blue < 4294967296)
    (h1 : bytesAt contents 8 4 = encode false 4 offset) (h2 : bytesAt contents 20 4 = encode false 4 w) (h3 : bytesAt contents 24 4 = encode false 4 ht)
    (h4 : bytesAt contents 100 4 = encode false 4 red) (h5 : bytesAt contents 104 4 = encode false 4 green) (h6 : bytesAt contents 108 4 = encode false 4 blue)
    (hmod : w * ht % 8 = 0) (hlen : offset + w * ht * 12 / 8 ≤ contents.length) {blacks : List Nat}
    (hb : BlacksOf cam w ht (fun r c => fieldMSB (swap32 fun i => bytesOf contents (offset + i)) (12 * (r * w + c)) 12) blacks) :
    s.decodeSafe env b (.ok contents) = .ok (pictureOf cam cam.orientation w ht [F32.ofBits red, F32.ofBits green, F32.ofBits blue, .nan] blacks
      (raster w ht fun r c => fieldMSB (swap32 fun i => bytesOf contents (offset + i)) (12 * (r * w + c)) 12)) := by
  have hmagic : magicKind contents = some .ari := by
    have e4 : contents.take 4 = b! "ARRI" := by have := hmark; unfold bytesAt at this; rwa [List.drop_zero] at this
    unfold magicKind magics
    rw [List.find?_cons, show hasMagic contents 0 [0, 0x4d, 0x52, 0x4d] = false by
        unfold hasMagic; rw [beq_eq_false_iff_ne, List.drop_zero]; show contents.take 4 ≠ _; rw [e4]; decide]
    dsimp only
    rw [List.find?_cons, show hasMagic contents 6 (b! "HEAPCCDR") = false by unfold hasMagic; rw [beq_eq_false_iff_ne]; exact hciff]
    dsimp only
    rw [List.find?_cons, show hasMagic contents 0 (b! "ARRI") = true by unfold hasMagic; rw [beq_iff_eq, List.drop_zero]; exact e4]
    rfl
  rw [(decode_results s env b contents).1]
  unfold RawLoader.decode
  dsimp only
  rw [getDecoder_eq, hmagic]
  dsimp only
  rw [ok_bind]
  show Ari.image b (contents ++ List.replicate 16 0) s = _
  obtain ⟨n1, n2⟩ := hname
  have hroom := bytesAt_known n2 (by simp) (by omega)
  have hle : ∀ {pos v : Nat}, v < 4294967296 → bytesAt contents pos 4 = encode false 4 v → LEu32 (contents ++ List.replicate 16 0) pos = .ok v :=
    fun hv h => le32_known hv (bytesAt_pad h (encode_length _ _ _))
  have hfl : ∀ {pos v : Nat}, v < 4294967296 → bytesAt contents pos 4 = encode false 4 v → LEf32 (contents ++ List.replicate 16 0) pos = .ok (F32.ofBits v) :=
    fun hv h => by unfold LEf32; rw [hle hv h]; rfl
  have hstr : firstString (fromUtf8Lossy ((contents ++ List.replicate 16 0).drop 668)) = model := by
    have e : (contents ++ List.replicate 16 0).drop 668 = model ++ ([0] ++ (contents ++ List.replicate 16 0).drop (668 + (model.length + 1))) := by
      have := bytesAt_pad (pad := List.replicate 16 0) n2 (by simp)
      unfold bytesAt at this
      rw [← List.append_assoc, ← this, ← List.drop_drop, List.take_append_drop]
    rw [e, lossy_ascii model _ fun c hc => (n1 c hc).2, lossy_ascii [0] _ (by decide)]
    unfold firstString
    rw [List.takeWhile_append_of_pos (by intro c hc; simpa using (n1 c hc).1), List.singleton_append, List.takeWhile_cons_of_neg (by simp), List.append_nil]
  have hfrom : bytesOf ((contents ++ List.replicate 16 0).drop offset) = fun i => bytesOf contents (offset + i) := funext fun i => bytes_from_offset contents offset i
  unfold Ari.image
  rw [hle hsmall.1 h1, ok_bind, hle hsmall.2.1 h2, ok_bind, hle hsmall.2.2.1 h3, ok_bind, sliceFrom_le (by rw [List.length_append]; omega), ok_bind, hstr]
  unfold RawLoader.checkSupportedWithEverything
  rw [hcam]
  dsimp only
  rw [ok_bind, sliceFrom_le (by rw [List.length_append]; omega), ok_bind, decode_12be_msb32_exact _ _ _ hmod (by rw [List.length_drop, List.length_append, List.length_replicate]; omega), ok_bind,
    hfl hsmall.2.2.2.1 h4, ok_bind, hfl hsmall.2.2.2.2.1 h5, ok_bind, hfl hsmall.2.2.2.2.2 h6, ok_bind, hfrom]
  exact raw_image_new b hb _

/-! ## Sigma -/

/-- **C80**, Sigma: never decoded. -/
theorem x3f_refused (s : RawLoader) (env : Platform) (b : Build) (contents : Bytes) (hmark : magicKind contents = some .x3f) (img : RawImage) :
    s.decodeSafe env b (.ok contents) ≠ .ok img := by
  rw [ne_eq, (decode_results s env b contents).1]
  unfold RawLoader.decode
  dsimp only
  rw [getDecoder_eq, hmark]
  intro h
  simp only [bind_eq_ok] at h
  obtain ⟨d, ⟨f, _, hd⟩, h⟩ := h
  injection hd with hd; subst hd
  change X3f.image b _ f s = .ok img at h
  unfold X3f.image at h
  cases hc : f.images.find? (fun i => i.typ = 2 && i.format = 0x12) with
  | none => rw [hc] at h; exact absurd h (fail_ne_ok _ _)
  | some i =>
    rw [hc] at h
    simp only [ok_bind, bind_eq_ok] at h
    obtain ⟨_, _, m, _, h⟩ := h
    split at h
    · exact absurd h (fail_ne_ok _ _)
    · simp only [bind_eq_ok] at h
      obtain ⟨_, _, _, _, h⟩ := h
      cases hi : f.images.find? (fun i => i.typ = 1 || i.typ = 3) with
      | none => rw [hi] at h; exact absurd h (fail_ne_ok _ _)
      | some i =>
        rw [hi] at h
        simp only [ok_bind, bind_eq_ok] at h
        obtain ⟨_, _, h⟩ := h
        split at h
        all_goals
          simp only [bind_eq_ok] at h
          obtain ⟨data, hdata, _⟩ := h
          exact absurd hdata (fail_ne_ok _ _)

/-! ## Files without a header -/

/-- The samples of a file without a header: marked cameras have rows of whole words of 16 bits; the others 10 or 12 bits in words of 16 bits, by the size of the file. -/
inductive NakedPixels (cam : Camera) (contents : Bytes) : (Nat → Nat → Nat) → Prop
  | aligned (hint : cam.findHint (b! "12le_16bitaligned") = true) (even : cam.rawWidth % 2 = 0) (room : cam.rawHeight * ((cam.rawWidth / 2 * 3 + 1) / 2 * 2) ≤ contents.length) :
      NakedPixels cam contents (fun r c => fieldMSB (bytesOf contents) (8 * (r * ((cam.rawWidth / 2 * 3 + 1) / 2 * 2)) + 12 * c) 12)
  | ten (hint : cam.findHint (b! "12le_16bitaligned") = false) (bits : cam.filesize * 8 / cam.rawWidth / cam.rawHeight = 10) (eight : cam.rawWidth % 8 = 0) :
      NakedPixels cam contents (fun r c => fieldMSB (swap16 (bytesOf contents)) (10 * (r * cam.rawWidth + c)) 10)
  | twelve (hint : cam.findHint (b! "12le_16bitaligned") = false) (bits : cam.filesize * 8 / cam.rawWidth / cam.rawHeight = 12) (four : cam.rawWidth * cam.rawHeight % 4 = 0) :
      NakedPixels cam contents (fun r c => fieldMSB (swap16 (bytesOf contents)) (12 * (r * cam.rawWidth + c)) 12)

private theorem naked_opens (s : RawLoader) (env : Platform) (b : Build) {contents : Bytes} (hh : Headerless b contents) {cam : Camera}
    (hcam : Map.get s.naked contents.length = some cam) (img : RawImage) :
    s.decodeSafe env b (.ok contents) = .ok img ↔ Nkd.image b (contents ++ List.replicate 16 0) cam = .ok img := by
  have hg : s.getDecoder b (Buffer.new contents) = s.nakedDecoder contents.length := by
    obtain ⟨hm, ⟨m, hn⟩ | ⟨t, v, hn, hv, hk⟩⟩ := hh
    · rw [getDecoder_eq, hm, hn]
      rfl
    · have := dispatch_complete s b contents t v hm hn hv
      rw [hk] at this
      exact this
  rw [(decode_results s env b contents).1]
  unfold RawLoader.decode
  dsimp only
  rw [hg]
  unfold RawLoader.nakedDecoder
  rw [hcam]
  exact Iff.rfl

/-- **C80**, files without a header, which are known by their size. -/
theorem nkd_file (s : RawLoader) (env : Platform) (b : Build) {contents : Bytes} (hh : Headerless b contents) {cam : Camera}
    (hcam : Map.get s.naked contents.length = some cam) (hsize : cam.filesize = contents.length) (hw : 0 < cam.rawWidth) (hht : 0 < cam.rawHeight)
    {img : Nat → Nat → Nat} (hpix : NakedPixels cam contents img) {blacks : List Nat} (hb : BlacksOf cam cam.rawWidth cam.rawHeight img blacks) :
    s.decodeSafe env b (.ok contents) = .ok (pictureOf cam cam.orientation cam.rawWidth cam.rawHeight [.nan, .nan, .nan, .nan] blacks (raster cam.rawWidth cam.rawHeight img)) := by
  rw [naked_opens s env b hh hcam]
  unfold Nkd.image
  dsimp only
  rw [if_neg (by omega)]
  have hz := bytesOf_zeros contents 16
  have hsz : ∀ k, cam.filesize * 8 / cam.rawWidth / cam.rawHeight = k → cam.rawWidth * cam.rawHeight * k ≤ contents.length * 8 := by
    intro k hk
    rw [← hsize, ← hk, Nat.div_div_eq_div_mul]
    exact Nat.mul_div_le _ _
  have hl : (contents ++ List.replicate 16 0).length = contents.length + 16 := by simp
  cases hpix with
  | aligned hint even room =>
    rw [if_pos hint, decode_12le_16bitaligned_exact _ _ _ hw even (by omega), hz, ok_bind]
    exact raw_image_new b hb _
  | ten hint bits eight =>
    have := hsz _ bits
    rw [if_neg (by rw [hint]; decide), if_pos bits, decode_10le_lsb16_exact _ _ _ hw eight (by omega), hz, ok_bind]
    exact raw_image_new b hb _
  | twelve hint bits four =>
    have := hsz _ bits
    rw [if_neg (by rw [hint]; decide), if_neg (by omega), if_pos bits, decode_12be_msb16_exact _ _ _ four (by omega), hz, ok_bind]
    exact raw_image_new b hb _

/-- **C80**: other sizes of samples are refused, unless the camera is marked. -/
theorem nkd_refused (s : RawLoader) (env : Platform) (b : Build) {contents : Bytes} (hh : Headerless b contents) {cam : Camera}
    (hcam : Map.get s.naked contents.length = some cam) (hint : cam.findHint (b! "12le_16bitaligned") = false)
    (hbits : cam.filesize * 8 / cam.rawWidth / cam.rawHeight ≠ 10 ∧ cam.filesize * 8 / cam.rawWidth / cam.rawHeight ≠ 12) (img : RawImage) :
    s.decodeSafe env b (.ok contents) ≠ .ok img := by
  rw [ne_eq, naked_opens s env b hh hcam]
  unfold Nkd.image
  dsimp only
  split
  · exact crash_ne_ok _
  · rw [if_neg (by rw [hint]; decide), if_neg hbits.1, if_neg hbits.2]
    exact fail_ne_ok _ _

/-! ## Examples -/

section Example

private def mrwBody : Bytes :=
  [77, 77, 0, 42, 0, 0, 0, 8] ++
  [0, 3] ++
  [1, 15, 0, 2, 0, 0, 0, 18, 0, 0, 0, 50] ++
  [1, 16, 0, 2, 0, 0, 0, 9, 0, 0, 0, 68] ++
  [1, 18, 0, 3, 0, 0, 0, 1, 0, 6, 0, 0] ++
  [0, 0, 0, 0] ++
  [77, 105, 110, 111, 108, 116, 97, 32, 67, 111, 46, 44, 32, 76, 116, 100, 46, 0] ++
  [68, 105, 77, 65, 71, 69, 32, 55, 0]

private def mrwDir : Dir := .mk true [.plain ⟨0x10f, 2, [77, 105, 110, 111, 108, 116, 97, 32, 67, 111, 46, 44, 32, 76, 116, 100, 46, 0]⟩, .plain ⟨0x110, 2, [68, 105, 77, 65, 71, 69, 32, 55, 0]⟩, .plain ⟨0x112, 3, [6]⟩]

private theorem mrw_stored : mrwDir.StoredAt 11 mrwBody 8 0 := by
  refine ⟨by decide, by decide +kernel, by decide, by decide +kernel, by decide +kernel, ?_⟩
  intro i it hi
  match i with
  | 0 => injection hi with hi; subst hi; stored_outside 50
  | 1 => injection hi with hi; subst hi; stored_outside 68
  | 2 => injection hi with hi; subst hi; stored_inline
  | i + 3 => cases hi

/-- A directory, two blocks of levels, of which the second counts, the size, and a block nobody reads. -/
private def mrwExample (way : UInt8) : List MrwBlock :=
  [⟨0x545457, mrwBody⟩, ⟨0x574247, [0, 1, 2, 3, 0, 1, 0, 2, 0, 3, 0, 4]⟩, ⟨0x574247, [0, 1, 2, 3, 1, 154, 1, 0, 0, 255, 2, 188, 9]⟩, ⟨0x505244, [30, 31, 32, 33, 34, 35, 36, 37, 0, 2, 0, 4, 1, 2, 3, 4] ++ [way] ++ [5, 6, 7]⟩, ⟨0x524946, [1, 2, 3, 4, 5, 6, 7, 8, 9, 10]⟩]

/-- Packed samples. -/
example (env : Platform) (b : Build) (cam : Camera) (hb : NoBlackAreas cam) (hh : cam.hints = []) :
    (loaderOf (b! "Minolta Co., Ltd.") (b! "DiMAGE 7") [] cam).decodeSafe env b (.ok (mrwContents (mrwExample 12) [1, 2, 3] [200, 11, 78, 145, 212, 23, 90, 157, 224, 35, 102, 169])) =
      .ok (pictureOf cam .rotate90 4 2 [F32.ofNat 410, F32.ofNat 256, F32.ofNat 700, .nan] cam.blacklevels [3200, 2894, 2333, 1047, 1449, 3552, 566, 1705]) := by
  have hm := mrw_file (loaderOf (b! "Minolta Co., Ltd.") (b! "DiMAGE 7") [] cam) env b (blocks := mrwExample 12) (slack := [1, 2, 3]) (picture := [200, 11, 78, 145, 212, 23, 90, 157, 224, 35, 102, 169])
    ⟨by decide, by decide +kernel, by decide +kernel, by decide +kernel⟩ (w := 4) (ht := 2) (packed := true)
    ⟨_, 12, ⟨(mrwExample 12).take 3, (mrwExample 12).drop 4, rfl, rfl, by decide⟩, by decide, by decide, by decide +kernel, by decide +kernel, rfl, rfl⟩
    (d := mrwDir) ⟨rfl, _, 0, ⟨[], (mrwExample 12).drop 1, rfl, rfl, by decide⟩, mrw_stored⟩ (l0 := 410) (l1 := 256) (l2 := 255) (l3 := 700)
    (Or.inr ⟨_, ⟨(mrwExample 12).take 2, (mrwExample 12).drop 3, rfl, rfl, by decide⟩, rfl, by decide +kernel⟩)
    (make := b! "Minolta Co., Ltd.") (model := b! "DiMAGE 7") ⟨⟨by decide, by decide, by decide⟩, true, _, first_here rfl, rfl, 0, 0, [0], Or.inr rfl, rfl⟩
    ⟨⟨by decide, by decide, by decide⟩, true, _, first_here rfl, rfl, 0, 0, [0], Or.inr rfl, rfl⟩
    (o := some 6) (numbers_here (f := ⟨0x112, 3, [6]⟩) rfl (by decide)) rfl (by decide) (by decide) (hb.blacks _ _ _)
  rw [show cam.findHint (b! "swapped_wb") = false by unfold Camera.findHint; rw [hh]; rfl] at hm
  refine hm.trans ?_
  exact congrArg (fun x => Except.ok (pictureOf _ _ _ _ _ _ x)) (by decide +kernel)

/-- Samples in words, and a camera with the levels in another order. -/
example (env : Platform) (b : Build) (cam : Camera) (hb : NoBlackAreas cam) (hh : cam.hints = [b! "swapped_wb"]) :
    (loaderOf (b! "Minolta Co., Ltd.") (b! "DiMAGE 7") [] cam).decodeSafe env b (.ok (mrwContents (mrwExample 16) [1, 2, 3] [200, 11, 78, 145, 212, 23, 90, 157, 224, 35, 102, 169, 236, 47, 114, 181])) =
      .ok (pictureOf cam .rotate90 4 2 [F32.ofNat 255, F32.ofNat 410, F32.ofNat 256, .nan] cam.blacklevels [2059, 3729, 1047, 2717, 35, 1705, 3119, 693]) := by
  have hm := mrw_file (loaderOf (b! "Minolta Co., Ltd.") (b! "DiMAGE 7") [] cam) env b (blocks := mrwExample 16) (slack := [1, 2, 3]) (picture := [200, 11, 78, 145, 212, 23, 90, 157, 224, 35, 102, 169, 236, 47, 114, 181])
    ⟨by decide, by decide +kernel, by decide +kernel, by decide +kernel⟩ (w := 4) (ht := 2) (packed := false)
    ⟨_, 16, ⟨(mrwExample 16).take 3, (mrwExample 16).drop 4, rfl, rfl, by decide⟩, by decide, by decide, by decide +kernel, by decide +kernel, rfl, rfl⟩
    (d := mrwDir) ⟨rfl, _, 0, ⟨[], (mrwExample 16).drop 1, rfl, rfl, by decide⟩, mrw_stored⟩ (l0 := 410) (l1 := 256) (l2 := 255) (l3 := 700)
    (Or.inr ⟨_, ⟨(mrwExample 16).take 2, (mrwExample 16).drop 3, rfl, rfl, by decide⟩, rfl, by decide +kernel⟩)
    (make := b! "Minolta Co., Ltd.") (model := b! "DiMAGE 7") ⟨⟨by decide, by decide, by decide⟩, true, _, first_here rfl, rfl, 0, 0, [0], Or.inr rfl, rfl⟩
    ⟨⟨by decide, by decide, by decide⟩, true, _, first_here rfl, rfl, 0, 0, [0], Or.inr rfl, rfl⟩
    (o := some 6) (numbers_here (f := ⟨0x112, 3, [6]⟩) rfl (by decide)) rfl (by decide) (by decide) (hb.blacks _ _ _)
  rw [show cam.findHint (b! "swapped_wb") = true by unfold Camera.findHint; rw [hh]; rfl] at hm
  refine hm.trans ?_
  exact congrArg (fun x => Except.ok (pictureOf _ _ _ _ _ _ x)) (by decide +kernel)

private def ariExample : Bytes :=
  [65, 82, 82, 73, 0, 0, 0, 0, 168, 2, 0, 0, 0, 0, 0, 0, 0, 0, 0, 0, 4, 0, 0, 0, 2, 0, 0, 0] ++ List.replicate 72 7 ++ [0, 0, 192, 63, 0, 0, 128, 63, 0, 0, 160, 63] ++ List.replicate 556 8 ++
  b! "ALEXA" ++ [0, 200, 201, 202, 203, 204, 205] ++ [100, 167, 234, 45, 112, 179, 246, 57, 124, 191, 2, 69]

/-- Two rows of an ARRI camera; the white balance is 1.5, 1, 1.25. -/
example (env : Platform) (b : Build) (cam : Camera) (hb : NoBlackAreas cam) :
    (loaderOf (b! "ARRI") (b! "ALEXA") [] cam).decodeSafe env b (.ok ariExample) =
      .ok (pictureOf cam cam.orientation 4 2 [F32.ofBits 1069547520, F32.ofBits 1065353216, F32.ofBits 1067450368, .nan] cam.blacklevels [734, 2727, 1603, 2550, 2871, 69, 43, 3964]) := by
  refine (ari_file (loaderOf (b! "ARRI") (b! "ALEXA") [] cam) env b (contents := ariExample) (by decide +kernel) (by decide +kernel) (model := b! "ALEXA")
    ⟨by unfold IsAscii; decide, by decide +kernel⟩ rfl (offset := 680) (w := 4) (ht := 2) (red := 1069547520) (green := 1065353216) (blue := 1067450368) (by decide) (by decide +kernel) (by decide +kernel) (by decide +kernel) (by decide +kernel)
    (by decide +kernel) (by decide +kernel) (by decide) (by decide +kernel) (hb.blacks _ _ _)).trans ?_
  exact congrArg (fun x => Except.ok (pictureOf _ _ _ _ _ _ x)) (by decide +kernel)

/-- A file of a Sigma camera with an empty directory. -/
example (s : RawLoader) (env : Platform) (b : Build) (img : RawImage) :
    s.decodeSafe env b (.ok (b! "FOVb" ++ [0, 0, 2, 0, 0, 0, 0, 0, 0, 0, 0, 0])) ≠ .ok img := x3f_refused s env b _ (by decide +kernel) img

/-- Twelve bytes that are four by two samples of 12 bits, since the camera with this size of files has four by two pixels. -/
example (env : Platform) (b : Build) (cam : Camera) (hb : NoBlackAreas cam) (hh : cam.hints = []) (hw : cam.rawWidth = 4) (hht : cam.rawHeight = 2) (hs : cam.filesize = 12) :
    (⟨[], [(12, cam)]⟩ : RawLoader).decodeSafe env b (.ok [100, 167, 234, 45, 112, 179, 246, 57, 124, 191, 2, 69]) = .ok (pictureOf cam cam.orientation 4 2 [.nan, .nan, .nan, .nan] cam.blacklevels [2678, 1069, 3755, 880, 927, 1727, 1988, 1282]) := by
  have h := nkd_file ⟨[], [(12, cam)]⟩ env b (contents := [100, 167, 234, 45, 112, 179, 246, 57, 124, 191, 2, 69]) ⟨by decide +kernel, Or.inl ⟨_, tiff_sniffing_safe b _ (by decide) (by decide) (by decide)⟩⟩ (cam := cam) rfl
    hs (by omega) (by omega) (.twelve (by unfold Camera.findHint; rw [hh]; rfl) (by rw [hs, hw, hht]) (by rw [hw, hht])) (hb.blacks _ _ _)
  rw [hw, hht] at h
  exact h.trans (congrArg (fun x => Except.ok (pictureOf _ _ _ _ _ _ x)) (by decide +kernel))

/-- Twenty bytes with 10 bits for each of eight by two pixels. -/
example (env : Platform) (b : Build) (cam : Camera) (hb : NoBlackAreas cam) (hh : cam.hints = []) (hw : cam.rawWidth = 8) (hht : cam.rawHeight = 2) (hs : cam.filesize = 20) :
    (⟨[], [(20, cam)]⟩ : RawLoader).decodeSafe env b (.ok [100, 167, 234, 45, 112, 179, 246, 57, 124, 191, 2, 69, 136, 203, 14, 81, 148, 215, 26, 93]) = .ok (pictureOf cam cam.orientation 8 2 [.nan, .nan, .nan, .nan] cam.blacklevels [669, 578, 890, 691, 448, 927, 431, 892, 276, 44, 738, 81, 59, 377, 279, 282]) := by
  have h := nkd_file ⟨[], [(20, cam)]⟩ env b (contents := [100, 167, 234, 45, 112, 179, 246, 57, 124, 191, 2, 69, 136, 203, 14, 81, 148, 215, 26, 93]) ⟨by decide +kernel, Or.inl ⟨_, tiff_sniffing_safe b _ (by decide) (by decide) (by decide)⟩⟩ (cam := cam) rfl
    hs (by omega) (by omega) (.ten (by unfold Camera.findHint; rw [hh]; rfl) (by rw [hs, hw, hht]) (by rw [hw])) (hb.blacks _ _ _)
  rw [hw, hht] at h
  exact h.trans (congrArg (fun x => Except.ok (pictureOf _ _ _ _ _ _ x)) (by decide +kernel))

/-- The same bytes are refused for a camera with four by two pixels: 20 bits are no size of a sample. -/
example (env : Platform) (b : Build) (cam : Camera) (hh : cam.hints = []) (hw : cam.rawWidth = 4) (hht : cam.rawHeight = 2) (hs : cam.filesize = 20) (img : RawImage) :
    (⟨[], [(20, cam)]⟩ : RawLoader).decodeSafe env b (.ok [100, 167, 234, 45, 112, 179, 246, 57, 124, 191, 2, 69, 136, 203, 14, 81, 148, 215, 26, 93]) ≠ .ok img :=
  nkd_refused ⟨[], [(20, cam)]⟩ env b ⟨by decide +kernel, Or.inl ⟨_, tiff_sniffing_safe b _ (by decide) (by decide) (by decide)⟩⟩ (cam := cam) rfl
    (by unfold Camera.findHint; rw [hh]; rfl) (by rw [hs, hw, hht]; decide) img

end Example

end Props

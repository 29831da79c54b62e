import Verif.Spec.CrwFile
import Verif.Lemmas.F32Ops
import Verif.Props.Crw
import Verif.Props.CiffFile
import Verif.Props.Dispatch
import Verif.Props.Black
import Verif.Props.Packed
/-!
# C68: whole files of Canon's first cameras

From the bytes of a CIFF file to the picture the public function returns.
-/

namespace Props
open Rust Spec Model

/-! ## Names -/

theorem lossy_ascii (l rest : Bytes) (h : ∀ c ∈ l, c < 0x80) : fromUtf8Lossy (l ++ rest) = l ++ fromUtf8Lossy rest := by
  unfold fromUtf8Lossy
  induction l with
  | nil => rfl
  | cons a t ih =>
    rw [List.cons_append, lossyFrom]
    unfold utf8Step
    rw [if_pos rfl, if_pos (h a (by simp))]
    dsimp only
    rw [if_pos rfl, ih fun c hc => h c (by simp [hc])]
    rfl

private theorem pieces_text (l rest acc : Bytes) (h : ∀ c ∈ l, c ≠ 0) :
    splitPieces 0 acc (l ++ 0 :: rest) = (acc.reverse ++ l) :: splitPieces 0 [] rest := by
  induction l generalizing acc with
  | nil => rw [List.nil_append, splitPieces, if_pos rfl, List.append_nil]
  | cons a t ih =>
    rw [List.cons_append, splitPieces, if_neg (h a (by simp)), ih _ fun c hc => h c (by simp [hc])]
    simp

private theorem pieces_ne (l acc : Bytes) : splitPieces 0 acc l ≠ [] := by
  induction l generalizing acc with
  | nil => simp [splitPieces]
  | cons a t ih =>
    unfold splitPieces
    split
    · simp
    · exact ih _

/-- The two names are the first two texts of the value. -/
private theorem two_names {make model rest : Bytes} (h1 : IsAscii make) (h2 : IsAscii model) :
    ∃ more, splitTerminator 0 (fromUtf8Lossy (make ++ 0 :: (model ++ 0 :: rest))) = make :: model :: more := by
  have e : fromUtf8Lossy (make ++ 0 :: (model ++ 0 :: rest)) = make ++ 0 :: (model ++ 0 :: fromUtf8Lossy rest) := by
    rw [lossy_ascii make _ fun c hc => (h1 c hc).2, show (0 : UInt8) :: (model ++ 0 :: rest) = [0] ++ (model ++ 0 :: rest) from rfl,
      lossy_ascii [0] _ (by decide), lossy_ascii model _ fun c hc => (h2 c hc).2, show (0 : UInt8) :: rest = [0] ++ rest from rfl,
      lossy_ascii [0] _ (by decide)]
    rfl
  have hp : splitPieces 0 [] (make ++ 0 :: (model ++ 0 :: fromUtf8Lossy rest)) = make :: model :: splitPieces 0 [] (fromUtf8Lossy rest) := by
    rw [pieces_text make _ _ fun c hc => (h1 c hc).1, pieces_text model _ _ fun c hc => (h2 c hc).1]
    rfl
  have hne := pieces_ne (fromUtf8Lossy rest) []
  rw [e]
  unfold splitTerminator
  dsimp only
  rw [hp]
  generalize splitPieces 0 [] (fromUtf8Lossy rest) = l at hne
  split
  · cases l with
    | nil => exact absurd rfl hne
    | cons x xs => exact ⟨(x :: xs).dropLast, rfl⟩
  · exact ⟨l, rfl⟩

/-! ## Values -/

private theorem short_at (values : List Nat) (rest : Bytes) (i : Nat) (hi : i < values.length) (hv : ∀ v ∈ values, v < 65536) :
    number false (bytesAt (values.flatMap (encode false 2) ++ rest) (i * 2) 2) = values[i] := by
  have hl : (values.flatMap (encode false 2)).length = values.length * 2 := flatMap_const_length _ 2 (fun _ => encode_length _ _ _) _
  have e : bytesAt (values.flatMap (encode false 2) ++ rest) (i * 2) 2 = bytesAt (values.flatMap (encode false 2)) (i * 2) 2 := by
    unfold bytesAt
    rw [List.drop_append_of_le_length (by omega), List.take_append_of_le_length (by rw [List.length_drop]; omega)]
  rw [e, flatMap_chunk _ 2 (fun _ => encode_length _ _ _) _ _ hi, number_encode _ _ _ (hv _ (List.getElem_mem _))]

private theorem carries_short {tag : Nat} (ht : ciffType tag = 2) {values : List Nat} {rest : Bytes} {ent : CiffEntry}
    (hc : CarriesCiff tag (values.flatMap (encode false 2) ++ rest) ent) (hv : ∀ v ∈ values, v < 65536) :
    ∀ i (hi : i < values.length), ent.getU32 i = .ok values[i] := by
  intro i hi
  have hl : (values.flatMap (encode false 2)).length = values.length * 2 := flatMap_const_length _ 2 (fun _ => encode_length _ _ _) _
  have h1 := hc.values (by rw [ht]; decide) i (by rw [hc.count, ht, List.length_append, hl]; show i < (values.length * 2 + rest.length) / 2; omega)
  rw [h1, ht]
  exact congrArg Except.ok (short_at values rest i hi hv)

private theorem carries_short_float {tag : Nat} (ht : ciffType tag = 2) {values : List Nat} {rest : Bytes} {ent : CiffEntry}
    (hc : CarriesCiff tag (values.flatMap (encode false 2) ++ rest) ent) (hv : ∀ v ∈ values, v < 65536) :
    ∀ i (hi : i < values.length), ent.getF32 i = .ok (F32.ofNat values[i]) := by
  intro i hi
  unfold CiffEntry.getF32
  rw [carries_short ht hc hv i hi]
  rfl

private theorem carries_forced {tag : Nat} {values : List Nat} {rest : Bytes} {ent : CiffEntry}
    (hc : CarriesCiff tag (values.flatMap (encode false 2) ++ rest) ent) (hv : ∀ v ∈ values, v < 65536) :
    ∀ i (hi : i < values.length), ent.getForceU16 i = .ok values[i] := by
  intro i hi
  have hl : (values.flatMap (encode false 2)).length = values.length * 2 := flatMap_const_length _ 2 (fun _ => encode_length _ _ _) _
  unfold CiffEntry.getForceU16
  rw [hc.data_eq, ← short_at values rest i hi hv]
  exact ru16_number (e := LITTLE_ENDIAN) (by rw [List.length_append, hl]; omega)

/-! ## White balance -/

/-- Where the white balance is found, in this order: the white balance value; the second colour information, in two layouts, unless
the camera has the hint `nocinfo2`; the first colour information of the D30, and of the other cameras, possibly scrambled with a key;
nothing. The numbers before the first one used are any. -/
inductive CrwWb (cam : Camera) (heap : Heap) : List F32 → Prop
  | given (before : List Nat) (r g x bl : Nat) : heap.Shorts 0x10a9 (before ++ [r, g, x, bl]) → before.length = cam.wbOffset →
    CrwWb cam heap [.ofNat r, .ofNat g, .ofNat bl, .nan]
  | second (k : Nat) (before : List Nat) (bl e r g : Nat) : heap.Lacks 0x10a9 → cam.findHint (b! "nocinfo2") = false → 512 < k →
    heap.Shorts 0x102c (k :: before ++ [bl, e, r, g]) → before.length = 59 → CrwWb cam heap [.ofNat r, .ofNat g, .ofNat bl, .ofNat e]
  | secondShort (k : Nat) (before : List Nat) (g1 r bl g2 : Nat) : heap.Lacks 0x10a9 → cam.findHint (b! "nocinfo2") = false → k ≤ 512 →
    heap.Shorts 0x102c (k :: before ++ [g1, r, bl, g2]) → before.length = 49 →
    CrwWb cam heap [.ofNat r, .ofRat (((g1 + g2 : Nat) : ℚ) / (2 : Nat)), .ofNat bl, .nan]
  | first (before : List Nat) (r g x bl : Nat) (rest : Bytes) : heap.Lacks 0x10a9 → cam.findHint (b! "nocinfo2") = true ∨ heap.Lacks 0x102c →
    heap.First 0x32 ((before ++ [r, g, x, bl]).flatMap (encode false 2) ++ rest) → (∀ v ∈ before ++ [r, g, x, bl], v < 65536) →
    before.length = 36 → 80 + rest.length = 768 →
    CrwWb cam heap [(F32.ofNat 1024).div (.ofNat r), (F32.ofNat 1024).div (.ofNat g), (F32.ofNat 1024).div (.ofNat bl), .nan]
  | plain (before : List Nat) (g r bl : Nat) (rest : Bytes) : heap.Lacks 0x10a9 → cam.findHint (b! "nocinfo2") = true ∨ heap.Lacks 0x102c →
    heap.First 0x32 ((before ++ [g, r, bl]).flatMap (encode false 2) ++ rest) → (∀ v ∈ before ++ [g, r, bl], v < 65536) →
    before.length = cam.wbOffset → 2 * cam.wbOffset + 6 + rest.length ≠ 768 → cam.findHint (b! "wb_mangle") = false →
    CrwWb cam heap [.ofNat r, .ofNat g, .ofNat bl, .nan]
  | scrambled (before : List Nat) (g r bl : Nat) (rest : Bytes) : heap.Lacks 0x10a9 → cam.findHint (b! "nocinfo2") = true ∨ heap.Lacks 0x102c →
    heap.First 0x32 ((before ++ [g ^^^ 0x410, r ^^^ 0x45f3, bl ^^^ 0x410]).flatMap (encode false 2) ++ rest) →
    (∀ v ∈ before ++ [g, r, bl], v < 65536) →
    before.length = cam.wbOffset → 2 * cam.wbOffset + 6 + rest.length ≠ 768 → cam.findHint (b! "wb_mangle") = true →
    CrwWb cam heap [.ofNat r, .ofNat g, .ofNat bl, .nan]
  | none : heap.Lacks 0x10a9 → cam.findHint (b! "nocinfo2") = true ∨ heap.Lacks 0x102c → heap.Lacks 0x32 → CrwWb cam heap [.nan, .nan, .nan, .nan]

private theorem flat2 (l : List Nat) : (l.flatMap (encode false 2)).length = l.length * 2 := flatMap_const_length _ 2 (fun _ => encode_length _ _ _) _

private theorem wb_ok {cam : Camera} {heap : Heap} {wb : List F32} (h : CrwWb cam heap wb) {root : CiffIFD}
    (h1 : ∀ tag data, heap.First tag data → ∃ ent, CiffIFD.findEntry tag root = some ent ∧ CarriesCiff tag data ent)
    (h2 : ∀ tag, heap.Lacks tag → CiffIFD.findEntry tag root = none) : Crw.getWb root cam = .ok wb := by
  have second : cam.findHint (b! "nocinfo2") = true ∨ heap.Lacks 0x102c →
      (if cam.findHint (b! "nocinfo2") = true then none else CiffIFD.findEntry 0x102c root) = none := by
    rintro (h | h)
    · rw [if_pos h]
    · rw [h2 _ h, ite_self]
  unfold Crw.getWb CiffTag.ColorInfo1 CiffTag.ColorInfo2 CiffTag.WhiteBalance
  dsimp only
  cases h with
  | given before r g x bl hs hl =>
    obtain ⟨hv, rest, hf⟩ := hs
    obtain ⟨ent, e1, e2⟩ := h1 _ _ hf
    have hg := carries_short_float (by decide) e2 hv
    rw [e1]
    dsimp only
    rw [hg _ (by simp [hl]), ok_bind, hg _ (by simp [hl]), ok_bind, hg _ (by simp [hl]), ok_bind]
    simp [List.getElem_append, hl]
  | second k before bl e r g hn hh hk hs hl =>
    obtain ⟨hv, rest, hf⟩ := hs
    obtain ⟨ent, e1, e2⟩ := h1 _ _ hf
    have hg := carries_short_float (by decide) e2 hv
    have hu := carries_short (by decide) e2 hv
    rw [h2 _ hn, hh, if_neg (by decide), e1]
    dsimp only
    rw [hu 0 (by simp), ok_bind, if_pos (by simpa using hk), hg _ (by simp [hl]), ok_bind, hg _ (by simp [hl]), ok_bind, hg _ (by simp [hl]), ok_bind,
      hg _ (by simp [hl]), ok_bind]
    simp [List.getElem_append, List.getElem_cons, hl]
  | secondShort k before g1 r bl g2 hn hh hk hs hl =>
    obtain ⟨hv, rest, hf⟩ := hs
    obtain ⟨ent, e1, e2⟩ := h1 _ _ hf
    have hg := carries_short_float (by decide) e2 hv
    have hu := carries_short (by decide) e2 hv
    have b1 : g1 < 65536 := hv g1 (by simp)
    have b2 : g2 < 65536 := hv g2 (by simp)
    rw [h2 _ hn, hh, if_neg (by decide), e1]
    dsimp only
    rw [hu 0 (by simp), ok_bind, if_neg (by simpa using hk), hg _ (by simp [hl]), ok_bind, hg _ (by simp [hl]), ok_bind, hg _ (by simp [hl]), ok_bind,
      hg _ (by simp [hl]), ok_bind]
    simp only [List.cons_append, List.getElem_cons, List.getElem_append, hl]
    rw [← F32.div_ofNat (by omega) (by omega) (by omega), ← F32.add_ofNat (by omega)]
    simp
  | first before r g x bl rest hn hs hf hv hl hr =>
    obtain ⟨ent, e1, e2⟩ := h1 _ _ hf
    have hu := carries_forced e2 hv
    have hc : ent.count = 768 := by
      rw [e2.count, List.length_append, flat2]
      simp [hl, ciffType, ciffSize]
      omega
    rw [h2 _ hn, second hs, e1]
    dsimp only
    rw [if_pos hc, hu _ (by simp [hl]), ok_bind, hu _ (by simp [hl]), ok_bind, hu _ (by simp [hl]), ok_bind]
    simp [List.getElem_append, hl]
  | plain before g r bl rest hn hs hf hv hl hr hm =>
    obtain ⟨ent, e1, e2⟩ := h1 _ _ hf
    have hu := carries_forced e2 hv
    have hc : ent.count ≠ 768 := by
      rw [e2.count, List.length_append, flat2]
      simp [hl, ciffType, ciffSize]
      omega
    rw [h2 _ hn, second hs, e1]
    dsimp only
    rw [if_neg hc, hm, if_neg (by decide), hu _ (by simp [hl]), ok_bind, hu _ (by simp [hl]), ok_bind, hu _ (by simp [hl]), ok_bind]
    simp [List.getElem_append, hl]
  | scrambled before g r bl rest hn hs hf hv hl hr hm =>
    obtain ⟨ent, e1, e2⟩ := h1 _ _ hf
    have x16 : ∀ a k : Nat, a < 65536 → k < 65536 → a ^^^ k < 65536 := fun a k ha hk => Nat.xor_lt_two_pow (n := 16) ha hk
    have hv' : ∀ v ∈ before ++ [g ^^^ 0x410, r ^^^ 0x45f3, bl ^^^ 0x410], v < 65536 := by
      intro v hv1
      rcases List.mem_append.mp hv1 with hv1 | hv1
      · exact hv v (by simp [hv1])
      · simp only [List.mem_cons, List.not_mem_nil, or_false] at hv1
        rcases hv1 with rfl | rfl | rfl
        · exact x16 _ _ (hv g (by simp)) (by decide)
        · exact x16 _ _ (hv r (by simp)) (by decide)
        · exact x16 _ _ (hv bl (by simp)) (by decide)
    have hu := carries_forced e2 hv'
    have hc : ent.count ≠ 768 := by
      rw [e2.count, List.length_append, flat2]
      simp [hl, ciffType, ciffSize]
      omega
    rw [h2 _ hn, second hs, e1]
    dsimp only
    rw [if_neg hc, hm, if_pos rfl, hu _ (by simp [hl]), ok_bind, hu _ (by simp [hl]), ok_bind, hu _ (by simp [hl]), ok_bind]
    simp [List.getElem_append, hl, Nat.xor_assoc]
  | none hn hs hf =>
    rw [h2 _ hn, second hs, h2 _ hf]
    rfl

/-! ## Opening -/

private theorem magic_crw {contents : Bytes} {heap : Heap} {make model : Bytes} (h : CiffCamera contents heap make model) : magicKind contents = some .crw := by
  obtain ⟨x, y, t, rfl⟩ : ∃ x y t, contents = x :: y :: t := by
    have := h.file.room
    match contents, this with
    | x :: y :: t, _ => exact ⟨x, y, t, rfl⟩
  have hx : x = 0x49 := (List.cons.inj h.order).1
  subst hx
  unfold magicKind magics
  have hm : hasMagic (0x49 :: y :: t) 6 (b! "HEAPCCDR") = true := by
    unfold hasMagic
    rw [beq_iff_eq]
    exact h.mark
  rw [List.find?_cons, show hasMagic (0x49 :: y :: t) 0 [0, 0x4d, 0x52, 0x4d] = false from by unfold hasMagic; rw [beq_eq_false_iff_ne]; simp,
    List.find?_cons, hm]
  rfl

private theorem ciff_decodes (s : RawLoader) (env : Platform) (b : Build) {contents : Bytes} {heap : Heap} {make model : Bytes}
    (h : CiffCamera contents heap make model) {cam : Camera} (hcam : Map.get s.cameras (make, model, []) = some cam) :
    ∃ root, (∀ tag data, heap.First tag data → ∃ ent, CiffIFD.findEntry tag root = some ent ∧ CarriesCiff tag data ent) ∧
      (∀ tag, heap.Lacks tag → CiffIFD.findEntry tag root = none) ∧
      ∀ img, (do
        let (width, height, image) ←
          if cam.model = b! "Canon PowerShot Pro70" then do
            let src ← sliceFrom (contents ++ List.replicate 16 0) 26
            let image ← decode_10le_lsb16 src 1552 1024
            .ok (1552, 1024, image)
          else do
            let sensorinfo ← root.fetchTag CiffTag.SensorInfo
            let width ← sensorinfo.getU32 1
            let height ← sensorinfo.getU32 2
            let image ← Crw.decodeCompressed b (contents ++ List.replicate 16 0) root cam width height
            .ok (width, height, image)
        let wb ← Crw.getWb root cam
        okImage b cam width height wb image) = Except.ok img → s.decodeSafe env b (.ok contents) = .ok img := by
  obtain ⟨root, r1, r2, r3⟩ := ciff_open_and_look b contents heap h.file
  refine ⟨root, r2, r3, fun img himg => ?_⟩
  rw [(decode_results s env b contents).1 img]
  unfold RawLoader.decode
  dsimp only
  rw [getDecoder_eq, magic_crw h]
  dsimp only
  rw [r1, ok_bind, ok_bind]
  show Crw.image b (contents ++ List.replicate 16 0) root s = _
  obtain ⟨rest, hnames⟩ := h.names
  obtain ⟨ent, e1, e2⟩ := r2 _ _ hnames
  obtain ⟨more, hmore⟩ := two_names (rest := rest) h.make h.model
  unfold Crw.image
  rw [show root.fetchTag CiffTag.MakeModel = .ok ent from by unfold CiffIFD.fetchTag; rw [show CiffIFD.findEntry CiffTag.MakeModel root = _ from e1], ok_bind]
  dsimp only
  unfold CiffEntry.getStrings
  rw [e2.data_eq, hmore, if_neg (by simp), show idx (make :: model :: more) 0 = .ok make from rfl, ok_bind,
    show idx (make :: model :: more) 1 = .ok model from rfl, ok_bind]
  unfold RawLoader.checkSupportedWithEverything
  rw [hcam]
  exact himg

/-! ## Files -/

private theorem wellEnded_only_zeros (n : Nat) : wellEnded (List.replicate n 0) = true := by
  induction n with
  | zero => rfl
  | succ n ih => rw [List.replicate_succ, wellEnded_plain_cons (by decide), ih]

private theorem wellEnded_zeros (n : Nat) : ∀ (k : Nat) (l : Bytes), l.length ≤ k → wellEnded (l ++ List.replicate (n + 1) 0) = true := by
  intro k
  induction k with
  | zero => intro l hl; rw [List.eq_nil_of_length_eq_zero (Nat.le_zero.mp hl)]; exact wellEnded_only_zeros _
  | succ k ih =>
    intro l hl
    cases l with
    | nil => exact wellEnded_only_zeros _
    | cons a r =>
      rw [List.length_cons] at hl
      rw [List.cons_append]
      by_cases ha : a = 0xff
      · subst ha
        cases r with
        | nil => rw [List.nil_append, List.replicate_succ, wellEnded_ff_zero]; exact wellEnded_only_zeros n
        | cons f r =>
          rw [List.length_cons] at hl
          rw [List.cons_append]
          by_cases hf : f = 0
          · subst hf; rw [wellEnded_ff_zero]; exact ih r (by omega)
          · rw [wellEnded.eq_def]; simp [hf]
      · rw [wellEnded_plain_cons ha]; exact ih r (by omega)

/-- The picture in the file, from the position 540 on: coded high bits and, from 26 on, two low bits of each sample, except for cameras
with the hint `nolowbits`. -/
def CrwStored (cam : Camera) (contents : Bytes) (w h K table : Nat) (img : Nat → Nat → Nat) : Prop :=
  (cam.findHint (b! "nolowbits") = false ∧ (∀ r c, r < h → c < w → img r c < 4096) ∧ bytesAt contents 26 (16 * K) = crwLow w (16 * K) img ∧
    540 + 16 * K ≤ contents.length ∧ ∃ tail, contents.drop (540 + 16 * K) = stuff (packBits (encodeCrw table w K fun r c => img r c / 4)) ++ tail) ∨
  (cam.findHint (b! "nolowbits") = true ∧ (∀ r c, r < h → c < w → img r c < 1024) ∧
    540 ≤ contents.length ∧ ∃ tail, contents.drop 540 = stuff (packBits (encodeCrw table w K img)) ++ tail)

/-- The sample in the picture: the stored one, except that 2 is added to small samples of 12 bits in pictures 2672 pixels wide. -/
def crwSample (cam : Camera) (w v : Nat) : Nat := if cam.findHint (b! "nolowbits") = true then v else crwShown w v

/-- **C68**, Canon CRW. -/
theorem crw_file (s : RawLoader) (env : Platform) (b : Build) {contents : Bytes} {heap : Heap} {make model : Bytes}
    (h : CiffCamera contents heap make model) {cam : Camera} (hcam : Map.get s.cameras (make, model, []) = some cam)
    (h70 : cam.model ≠ b! "Canon PowerShot Pro70") {x w ht K table : Nat} (hsize : heap.Shorts 0x1031 [x, w, ht]) (htable : heap.Long 0x1835 table)
    (ht3 : table < 3) (hK : w * ht = 64 * K) {wb : List F32} (hwb : CrwWb cam heap wb) (img : Nat → Nat → Nat) (hdata : CrwStored cam contents w ht K table img)
    {blacks : List Nat} (hb : BlacksOf cam w ht (fun r c => crwSample cam w (img r c)) blacks) :
    s.decodeSafe env b (.ok contents) = .ok (pictureOf cam cam.orientation w ht wb blacks (raster w ht fun r c => crwSample cam w (img r c))) := by
  obtain ⟨root, r1, r2, hd⟩ := ciff_decodes s env b h hcam
  apply hd
  obtain ⟨hv, rest, hf⟩ := hsize
  obtain ⟨es, s1, s2⟩ := r1 _ _ hf
  have hs := carries_short (by decide) s2 hv
  obtain ⟨ht32, rest', hf'⟩ := htable
  obtain ⟨et, t1, t2⟩ := r1 _ _ hf'
  have htab : et.getU32 0 = .ok table := by
    rw [t2.values (by decide) 0 (by rw [t2.count, List.length_append, encode_length]; show 0 < (4 + rest'.length) / 4; omega)]
    congr 1
    show number false (bytesAt (encode false 4 table ++ rest') (0 * 4) 4) = table
    unfold bytesAt
    rw [Nat.zero_mul, List.drop_zero, List.take_append_of_le_length (by rw [encode_length]), List.take_of_length_le (by rw [encode_length]),
      number_encode _ _ _ ht32]
  have htag : root.fetchTag CiffTag.DecoderTable = .ok et := by
    unfold CiffIFD.fetchTag; rw [show CiffIFD.findEntry CiffTag.DecoderTable root = _ from t1]
  have hdec : Crw.decodeCompressed b (contents ++ List.replicate 16 0) root cam w ht = .ok (raster w ht fun r c => crwSample cam w (img r c)) := by
    rcases hdata with ⟨hh, hi, hlow, hl, tail, htail⟩ | ⟨hh, hi, hl, tail, htail⟩
    · rw [crw_roundtrip b _ root cam w ht K table img et (tail ++ List.replicate 16 0) hh htag htab ht3 hK hi (by
        rw [List.drop_append_of_le_length (by omega), List.take_append_of_le_length (by rw [List.length_drop]; omega)]
        exact hlow) (by rw [List.drop_append_of_le_length hl, htail, List.append_assoc]) (wellEnded_zeros 15 _ _ (Nat.le_refl _)) (by simp; omega)]
      congr 1
      apply raster_congr
      intro r c _ _
      unfold crwSample
      rw [hh, if_neg (by decide)]
    · rw [crw_roundtrip_ten b _ root cam w ht K table img et (tail ++ List.replicate 16 0) hh htag htab ht3 hK hi
        (by rw [List.drop_append_of_le_length hl, htail, List.append_assoc]) (wellEnded_zeros 15 _ _ (Nat.le_refl _)) (by simp; omega)]
      congr 1
      apply raster_congr
      intro r c _ _
      unfold crwSample
      rw [hh, if_pos rfl]
  rw [if_neg h70, show root.fetchTag CiffTag.SensorInfo = .ok es from by unfold CiffIFD.fetchTag; rw [show CiffIFD.findEntry CiffTag.SensorInfo root = _ from s1],
    ok_bind, hs 1 (by simp), ok_bind, hs 2 (by simp), ok_bind]
  rw [show Crw.decodeCompressed b (contents ++ List.replicate 16 0) root cam [x, w, ht][1] [x, w, ht][2] = _ from hdec, ok_bind]
  show (Crw.getWb root cam >>= fun wb => okImage b cam w ht wb _) = _
  rw [wb_ok hwb r1 r2, ok_bind]
  exact raw_image_new b hb wb

/-- **C68**, Canon PowerShot Pro70: 1552 by 1024 samples of ten bits, packed in 16-bit words from the position 26 on. -/
theorem pro70_file (s : RawLoader) (env : Platform) (b : Build) {contents : Bytes} {heap : Heap} {make model : Bytes}
    (h : CiffCamera contents heap make model) {cam : Camera} (hcam : Map.get s.cameras (make, model, []) = some cam)
    (h70 : cam.model = b! "Canon PowerShot Pro70") {wb : List F32} (hwb : CrwWb cam heap wb) (hlen : 26 + 1986560 ≤ contents.length)
    {blacks : List Nat} (hb : BlacksOf cam 1552 1024 (fun r c => fieldMSB (swap16 fun i => bytesOf contents (26 + i)) (10 * (r * 1552 + c)) 10) blacks) :
    s.decodeSafe env b (.ok contents) = .ok (pictureOf cam cam.orientation 1552 1024 wb blacks
      (raster 1552 1024 fun r c => fieldMSB (swap16 fun i => bytesOf contents (26 + i)) (10 * (r * 1552 + c)) 10)) := by
  obtain ⟨root, r1, r2, hd⟩ := ciff_decodes s env b h hcam
  apply hd
  have hbytes : bytesOf ((contents ++ List.replicate 16 0).drop 26) = fun i => bytesOf contents (26 + i) := by
    funext i
    unfold bytesOf
    rw [List.getElem?_drop]
    by_cases hi : 26 + i < contents.length
    · rw [List.getElem?_append_left hi]
    · rw [List.getElem?_append_right (by omega), List.getElem?_eq_none (Nat.le_of_not_lt hi), List.getElem?_replicate]
      by_cases h : 26 + i - contents.length < 16
      · rw [if_pos h]; rfl
      · rw [if_neg h]
  rw [if_pos h70, sliceFrom_le (by simp; omega), ok_bind, decode_10le_lsb16_exact _ 1552 1024 (by omega) (by omega) (by simp; omega), ok_bind, ok_bind]
  dsimp only
  rw [wb_ok hwb r1 r2, ok_bind, hbytes]
  exact raw_image_new b hb wb

/-! ## A file -/

section Example

/-- An 8 by 8 picture of 12-bit samples. -/
private def filePicture (r c : Nat) : Nat := (r * 517 + c * c * 64 + if c = 5 then 3 else 0) % 4096

private def fileHead : Bytes :=
  [0x49, 0x49, 26, 0, 0, 0] ++ b! "HEAPCCDR" ++ List.replicate 12 0 ++ [0, 12, 85, 81, 170, 166, 255, 251, 0, 12, 85, 81, 170, 166, 255, 251] ++ List.replicate 514 0

/-- The coded picture, with two pairs of 0xff and 0. -/
private def fileData : Bytes := [
  249, 255, 0, 250, 15, 228, 14, 160, 58, 192, 251, 0, 251, 64, 251, 128, 250, 128, 250, 144, 228, 14, 160, 58, 192, 251,
  1, 251, 64, 251, 127, 232, 7, 161, 30, 64, 234, 3, 172, 15, 176, 31, 180, 15, 233, 126, 224, 46, 18, 228, 14, 160, 58,
  192, 251, 1, 251, 64, 254, 151, 226, 218, 242, 7, 80, 29, 96, 125, 128, 127, 73, 255, 0, 244, 191, 245, 13, 212, 183,
  32, 117, 1, 214, 7, 244, 128, 127, 73, 255, 0, 219, 255, 0, 216, 63, 216, 191, 32, 117, 1, 253, 23, 255, 0, 210, 1, 246,
  129, 246, 255, 0, 247, 17, 247, 49, 200, 31, 208, 255, 0, 253, 23, 255, 0, 96, 63, 104, 31, 111, 255, 0]

private theorem fileData_eq : stuff (packBits (encodeCrw 0 8 1 fun r c => filePicture r c / 4)) = fileData := by decide +kernel

private def fileValues : Bytes :=
  b! "Canon" ++ 0 :: b! "Canon EOS D60" ++ [0] ++                                     -- 687
  [0, 0, 8, 0, 8, 0] ++                                                               -- 707
  [0x90, 1, 0x2c, 1, 0x2d, 1, 0xf4, 1] ++                                             -- 713: 400, 300, 301, 500
  [4, 0] ++ [0x0a, 0x08, 20, 0, 0, 0, 0x95, 2, 0, 0] ++ [0x31, 0x10, 6, 0, 0, 0, 0xa9, 2, 0, 0] ++ [0xa9, 0x10, 8, 0, 0, 0, 0xaf, 2, 0, 0] ++
  [0x35, 0x58, 0, 0, 0, 0, 0, 0, 0, 0] ++ [0xb7, 2, 0, 0]

/-- The low bits, the coded picture, four values and the directory. -/
private def crwExample : Bytes := fileHead ++ (fileData ++ fileValues)

private def crwExampleHeap : Heap := .mk [.value 0x80a false (b! "Canon" ++ 0 :: b! "Canon EOS D60" ++ [0]), .value 0x1031 false [0, 0, 8, 0, 8, 0],
  .value 0x10a9 false [0x90, 1, 0x2c, 1, 0x2d, 1, 0xf4, 1], .value 0x1835 true [0, 0, 0, 0, 0, 0, 0, 0]]

private theorem crwExample_stored : CiffCamera crwExample crwExampleHeap (b! "Canon") (b! "Canon EOS D60") where
  order := by decide +kernel
  mark := by decide +kernel
  names := ⟨[], [], crwExampleHeap, rfl, by decide +kernel, fun q _ hq _ => by simp at hq⟩
  make := by unfold IsAscii; decide
  model := by unfold IsAscii; decide
  file := by
    refine ⟨by decide +kernel, 26, by decide, by decide +kernel, 695, by decide +kernel, by decide +kernel, by decide, by decide, by decide +kernel,
      by decide +kernel, by decide +kernel, ?_⟩
    intro i r hi
    match i with
    | 0 =>
      obtain rfl := Option.some.inj hi
      exact ⟨by decide, by unfold isHeapTag; decide, by decide, by decide +kernel, by decide +kernel, 661, by decide, by decide +kernel, by decide +kernel,
        by decide +kernel⟩
    | 1 =>
      obtain rfl := Option.some.inj hi
      exact ⟨by decide, by unfold isHeapTag; decide, by decide, by decide +kernel, by decide +kernel, 681, by decide, by decide +kernel, by decide +kernel,
        by decide +kernel⟩
    | 2 =>
      obtain rfl := Option.some.inj hi
      exact ⟨by decide, by unfold isHeapTag; decide, by decide, by decide +kernel, by decide +kernel, 687, by decide, by decide +kernel, by decide +kernel,
        by decide +kernel⟩
    | 3 =>
      obtain rfl := Option.some.inj hi
      exact ⟨by decide, by unfold isHeapTag; decide, by decide, by decide +kernel, by decide +kernel⟩
    | i + 4 => cases hi

/-- The file is decoded, with a camera entry that has no masked areas and reads the white balance from the start of its value. -/
example (s : RawLoader) (env : Platform) (b : Build) (cam : Camera) (hcam : Map.get s.cameras (b! "Canon", b! "Canon EOS D60", []) = some cam)
    (hm : cam.model = b! "Canon EOS D60") (hh : cam.findHint (b! "nolowbits") = false) (hb : NoBlackAreas cam) (ho : cam.wbOffset = 0) :
    s.decodeSafe env b (.ok crwExample) = .ok (pictureOf cam cam.orientation 8 8 [.ofNat 400, .ofNat 300, .ofNat 500, .nan] cam.blacklevels [
      0, 64, 256, 576, 1024, 1603, 2304, 3136, 517, 581, 773, 1093, 1541, 2120, 2821, 3653,
      1034, 1098, 1290, 1610, 2058, 2637, 3338, 74, 1551, 1615, 1807, 2127, 2575, 3154, 3855, 591,
      2068, 2132, 2324, 2644, 3092, 3671, 276, 1108, 2585, 2649, 2841, 3161, 3609, 92, 793, 1625,
      3102, 3166, 3358, 3678, 30, 609, 1310, 2142, 3619, 3683, 3875, 99, 547, 1126, 1827, 2659]) := by
  have hlen : fileHead.length = 556 := by decide +kernel
  rw [crw_file s env b crwExample_stored hcam (by rw [hm]; decide) (x := 0) (w := 8) (ht := 8) (K := 1) (table := 0)
    ⟨by decide, [], [], crwExampleHeap, rfl, by decide +kernel, fun q _ hq _ => by simp at hq⟩
    ⟨by decide, [0, 0, 0, 0], [], crwExampleHeap, rfl, by decide +kernel, fun q _ hq _ => by simp at hq⟩ (by decide) rfl
    (.given [] 400 300 301 500 ⟨by decide, [], [], crwExampleHeap, rfl, by decide +kernel, fun q _ hq _ => by simp at hq⟩ ho.symm) filePicture
    (Or.inl ⟨hh, fun r c _ _ => Nat.mod_lt _ (by omega), by decide +kernel, by decide +kernel, fileValues, by rw [crwExample, List.drop_left' hlen, fileData_eq]⟩)
    (hb.blacks _ _ _)]
  congr 2
  unfold crwSample
  rw [hh]
  decide +kernel

end Example

end Props

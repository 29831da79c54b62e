import Verif.Lemmas.WholeFile
import Verif.Lemmas.OpenFile
import Verif.Lemmas.FileExample
import Verif.Props.Packed
import Verif.Props.PackedMore
import Verif.Props.Pef
import Verif.Props.Orf
import Verif.Props.Srw2
import Verif.Props.Rw2
import Verif.Props.Black
/-!
# C68: whole files

From the bytes of a file to the picture the public function returns.
-/

namespace Props
open Rust Spec Model

/-- **C68**, Mamiya: 12 bits, packed, at the strip offset of the first directory with a CFA pattern. -/
theorem mef_file (s : RawLoader) (env : Platform) (b : Build) {contents : Bytes} {big : Bool} {dirs : List Dir} {model : Bytes} {o : Option Nat}
    (h : CameraFile contents big dirs (b! "Mamiya-OP Co.,Ltd.") model o) (h560 : model ≠ b! "DCS560C")
    {cam : Camera} (hcam : Map.get s.cameras (b! "Mamiya-OP Co.,Ltd.", model, []) = some cam)
    {raw : Dir} (hraw : (fileRoot big dirs).FirstWith 0x828e raw) {w ht offset : Nat} {blacks : List Nat}
    (hb : BlacksOf cam w ht (fun r c => fieldMSB (bytesOf contents) (8 * offset + 12 * (r * w + c)) 12) blacks)
    (h1 : raw.Numbers 0x100 [w]) (h2 : raw.Numbers 0x101 [ht]) (h3 : raw.Numbers 0x111 [offset])
    (hw : 0 < w) (he : w % 2 = 0) (hlen : offset + w * ht * 12 / 8 ≤ contents.length) :
    s.decodeSafe env b (.ok contents) = .ok (pictureOf cam (orientationOf o) w ht [.nan, .nan, .nan, .nan] blacks
      (raster w ht fun r c => fieldMSB (bytesOf contents) (8 * offset + 12 * (r * w + c)) 12)) := by
  obtain ⟨root, hh, hc, hd⟩ := camera_decodes s env b h (k := .mef) (by decide) h560
  obtain ⟨ifd, f1, f2⟩ := fetch_dir hh (tag := 0x828e) (by decide) hraw
  apply hd
  intro d hk ht'
  cases d <;> cases hk
  injection ht' with ht'; subst ht'
  show Mef.image b (contents ++ List.replicate 16 0) _ s = _
  unfold Mef.image RawLoader.checkSupported
  rw [hc [] cam hcam, ok_bind, show TiffIFD.fetchIfd _ Tag.CFAPattern = _ from f1, ok_bind,
    show fetchUsize ifd Tag.ImageWidth = _ from fetch_number f2 (by decide) h1, ok_bind,
    show fetchUsize ifd Tag.ImageLength = _ from fetch_number f2 (by decide) h2, ok_bind,
    show fetchUsize ifd Tag.StripOffsets = _ from fetch_number f2 (by decide) h3, ok_bind,
    sliceFrom_le (by simp; omega), ok_bind, decode_12be_exact _ w ht hw he (by simp; omega), ok_bind,
    raster_congr (q := fun r c => fieldMSB (bytesOf contents) (8 * offset + 12 * (r * w + c)) 12) (fun r c _ _ => field_at contents 16 offset _ 12)]
  exact ok_image b o hb _

/-! ## Pentax -/

/-- The table for the codes is the one in the maker note, or the default one if there is none. -/
def PefTableOf (big : Bool) (root : Dir) (t : TableSpec) : Prop :=
  (root.Lacks 0x220 ∧ t = pefDefault) ∨
  ∃ big' f d unused tail, root.First 0x220 big' f ∧ f.bytes big' = pefTable big d unused t ++ tail ∧ d < 65536 ∧ (d + 12) % 16 = t.vals.length ∧
    unused.length = 12 ∧ PefTable t

/-- **C68**, Pentax, compressed: `h` rows of `w` pairs of columns, coded at the strip offset, with anything behind. -/
theorem pef_file (s : RawLoader) (env : Platform) (b : Build) {contents : Bytes} {big : Bool} {dirs : List Dir} {make model : Bytes} {o : Option Nat}
    (h : CameraFile contents big dirs make model o) (hmake : make ∈ [b! "PENTAX Corporation", b! "RICOH IMAGING COMPANY, LTD.", b! "PENTAX"])
    (h560 : model ≠ b! "DCS560C") {cam : Camera} (hcam : Map.get s.cameras (make, model, []) = some cam)
    {raw : Dir} (hraw : (fileRoot big dirs).FirstWith 0x111 raw) {w ht offset : Nat}
    (h1 : raw.Numbers 0x100 [2 * w]) (h2 : raw.Numbers 0x101 [ht]) (h3 : raw.Numbers 0x111 [offset]) (h4 : raw.Numbers 0x103 [65535])
    {r0 g0 g1 b0 : Nat} (hwb : (fileRoot big dirs).Numbers 0x201 [r0, g0, g1, b0]) (hblack : (fileRoot big dirs).Lacks 0x200)
    {t : TableSpec} (htab : PefTableOf big (fileRoot big dirs) t) (hw : 0 < w) (img : Nat → Nat → Nat → Nat)
    {blacks : List Nat} (hb : BlacksOf cam (2 * w) ht (fun r c => img r (c / 2) (c % 2)) blacks)
    (himg : ∀ r p k, r < ht → p < w → k < 2 → img r p k < 65536)
    (hres : ∀ r p k, r < ht → p < w → k < 2 → -32768 ≤ upResidual (fun _ _ => 0) img r p k ∧ upResidual (fun _ _ => 0) img r p k ≤ 32767 ∧
      category (upResidual (fun _ _ => 0) img r p k) ∈ t.vals)
    (tail : Bytes) (ho : offset ≤ contents.length) (hdata : contents.drop offset = packBits (encodeUp (fun _ => t) (fun _ _ => 0) w ht img) ++ tail) :
    s.decodeSafe env b (.ok contents) = .ok (pictureOf cam (orientationOf o) (2 * w) ht [F32.ofNat r0, F32.ofNat g0, F32.ofNat b0, .nan] cam.blacklevels
      (raster (2 * w) ht fun r c => img r (c / 2) (c % 2))) := by
  obtain ⟨root, hh, hc, hd⟩ := camera_decodes s env b h (k := .pef) (by
    simp only [List.mem_cons, List.not_mem_nil, or_false] at hmake
    rcases hmake with rfl | rfl | rfl <;> decide) h560
  obtain ⟨ifd, f1, f2⟩ := fetch_dir hh (tag := 0x111) (by decide) hraw
  obtain ⟨wb, w1, _, _, w2⟩ := find_numbers hh (tag := 0x201) (by decide) hwb
  apply hd
  intro d hk ht'
  cases d <;> cases hk
  injection ht' with ht'; subst ht'
  show Pef.image b (contents ++ List.replicate 16 0) _ s = _
  unfold Pef.image RawLoader.checkSupported
  rw [hc [] cam hcam, ok_bind, show TiffIFD.fetchIfd _ Tag.StripOffsets = _ from f1, ok_bind,
    show fetchUsize ifd Tag.ImageWidth = _ from fetch_number f2 (by decide) h1, ok_bind,
    show fetchUsize ifd Tag.ImageLength = _ from fetch_number f2 (by decide) h2, ok_bind,
    show fetchUsize ifd Tag.StripOffsets = _ from fetch_number f2 (by decide) h3, ok_bind,
    sliceFrom_le (by simp; omega), ok_bind,
    show fetchUsize ifd Tag.Compression = _ from fetch_number f2 (by decide) h4, ok_bind,
    if_neg (by decide), if_neg (by decide), if_pos rfl, List.drop_append_of_le_length ho, hdata, List.append_assoc,
    pef_round_trip b _ t _ img w ht hw himg hres (tail ++ List.replicate 16 0) (by
      have hl : (encodeUp (fun _ => t) (fun _ _ => 0) w ht img).length ≤ 8 * (packBits (encodeUp (fun _ => t) (fun _ _ => 0) w ht img)).length := by
        unfold packBits; rw [List.length_map, List.length_range]; omega
      rw [List.length_append, List.length_append, List.length_replicate]
      omega), ok_bind]
  · unfold Pef.getBlacklevels
    rw [show TiffIFD.findEntry Tag.PefBlackLevels _ = none from find_lacks hh hblack]
    dsimp only
    rw [ok_bind]
    unfold Pef.getWb TiffIFD.fetchTag
    rw [show TiffIFD.findEntry Tag.PefWB _ = some wb from w1]
    simp only [ok_bind]
    rw [w2 0 (by simp), ok_bind, w2 1 (by simp), ok_bind, w2 3 (by simp), ok_bind, ok_bind]
    unfold okImageWithBlacklevels
    rw [image_new b o hb]
    rfl
  · rcases htab with ⟨hl, rfl⟩ | ⟨big', f, d, unused, tl, hf, hbytes, hd1, hd2, hd3, hd4⟩
    · exact Or.inl ⟨find_lacks hh hl, rfl⟩
    · obtain ⟨ent, e1, e2⟩ := find_first hh (tag := 0x220) (by decide) hf
      refine Or.inr ⟨ent, d, unused, tl, e1, ?_, hd1, hd2, hd3, hd4⟩
      cases hh with
      | mk _ _ order _ _ _ _ => rw [e2.data, hbytes, order]; rfl

/-! ## Olympus -/

/-- **C68**, Olympus, compressed: the strip is smaller than uncompressed data would be. -/
theorem orf_file (s : RawLoader) (env : Platform) (b : Build) {contents : Bytes} {big : Bool} {dirs : List Dir} {make model : Bytes} {o : Option Nat}
    (h : CameraFile contents big dirs make model o) (hmake : make ∈ [b! "OLYMPUS IMAGING CORP.", b! "OLYMPUS CORPORATION", b! "OLYMPUS OPTICAL CO.,LTD"])
    (h560 : model ≠ b! "DCS560C") {cam : Camera} (hcam : Map.get s.cameras (make, model, []) = some cam)
    {raw : Dir} (hraw : (fileRoot big dirs).FirstWith 0x111 raw) {w ht offset size : Nat}
    (h1 : raw.Numbers 0x100 [2 * w]) (h2 : raw.Numbers 0x101 [ht]) (h3 : raw.Numbers 0x111 [offset]) (h4 : raw.Numbers 0x117 [size])
    (hsize : size < 2 * w * ht / 10 * 16 ∧ size < 2 * w * ht * 12 / 8)
    {red blue : Nat} (hred : (fileRoot big dirs).Numbers 0x1017 [red]) (hblue : (fileRoot big dirs).Numbers 0x1018 [blue])
    (img : Nat → Nat → Nat) (himg : ∀ r c, r < ht → c < 2 * w → img r c ≤ 46340) {blacks : List Nat} (hb : BlacksOf cam (2 * w) ht img blacks) (header tail : Bytes) (hhd : header.length = 7)
    (ho : offset ≤ contents.length) (hdata : contents.drop offset = header ++ packBits (encodeOrf w ht img) ++ tail) :
    s.decodeSafe env b (.ok contents) = .ok (pictureOf cam (orientationOf o) (2 * w) ht [F32.ofNat red, F32.ofNat 256, F32.ofNat blue, .nan] blacks
      (raster (2 * w) ht img)) := by
  obtain ⟨root, hh, hc, hd⟩ := camera_decodes s env b h (k := .orf) (by
    simp only [List.mem_cons, List.not_mem_nil, or_false] at hmake
    rcases hmake with rfl | rfl | rfl <;> decide) h560
  obtain ⟨ifd, f1, f2⟩ := fetch_dir hh (tag := 0x111) (by decide) hraw
  obtain ⟨er, r1, _, r2, _⟩ := find_numbers hh (tag := 0x1017) (by decide) hred
  obtain ⟨eb, b1, _, b2, _⟩ := find_numbers hh (tag := 0x1018) (by decide) hblue
  obtain ⟨ec, c1, c2, c3, _⟩ := find_numbers f2 (tag := 0x117) (by decide) h4
  apply hd
  intro d hk ht'
  cases d <;> cases hk
  injection ht' with ht'; subst ht'
  show Orf.image b (contents ++ List.replicate 16 0) _ s = _
  unfold Orf.image RawLoader.checkSupported
  rw [hc [] cam hcam, ok_bind, show TiffIFD.fetchIfd _ Tag.StripOffsets = _ from f1, ok_bind,
    show fetchUsize ifd Tag.ImageWidth = _ from fetch_number f2 (by decide) h1, ok_bind,
    show fetchUsize ifd Tag.ImageLength = _ from fetch_number f2 (by decide) h2, ok_bind,
    show fetchUsize ifd Tag.StripOffsets = _ from fetch_number f2 (by decide) h3, ok_bind,
    show TiffIFD.fetchTag ifd Tag.StripByteCounts = .ok ec from by unfold TiffIFD.fetchTag; rw [show TiffIFD.findEntry Tag.StripByteCounts ifd = _ from c1], ok_bind, c2]
  have hsum : forRange 0 [size].length (fun i size => do
      let v ← ec.getU32 i
      .ok (size + v)) 0 = .ok size := by
    rw [show [size].length = 0 + 1 from rfl, forRange_cons _ (by omega), c3 0 (by simp), ok_bind, ok_bind, forRange_nil (by omega)]
    simp
  rw [hsum, ok_bind, sliceFrom_le (by simp; omega), ok_bind, if_neg (by omega), if_neg (by omega), if_neg (by omega),
    List.drop_append_of_le_length ho, hdata, List.append_assoc _ tail, orf_even b w ht img himg header _ hhd (by simp), ok_bind]
  unfold Orf.getWb
  rw [show TiffIFD.findEntry Tag.OlympusRedMul _ = some er from r1, show TiffIFD.findEntry Tag.OlympusBlueMul _ = some eb from b1]
  dsimp only
  rw [r2 0 (by simp), ok_bind, b2 0 (by simp), ok_bind, ok_bind]
  exact ok_image b o hb _

/-! ## Panasonic -/

private theorem no_dirs {d : Dir} {tag : Nat} {ifd : TiffIFD} (hh : Holds d ifd) (hl : d.Lacks tag) : TiffIFD.findIfdsWithTag tag ifd = [] := by
  rw [List.eq_nil_iff_forall_not_mem]
  intro x hx
  obtain ⟨hx1, e, hx2⟩ := (find_ifds_all_and_only _ _ _).mp hx
  rw [(find_entry_none tag _).mp (find_lacks hh hl) x hx1] at hx2
  cases hx2

private theorem bytes_drop (l : List UInt8) (a n m : Nat) : bytesAt (l.drop a) n m = bytesAt l (a + n) m := by
  unfold bytesAt
  rw [List.drop_drop]

private theorem group_lt {g : PanaGroup} (hf : g.Fits) : g.number < 256 ^ 16 := by
  have hfit : ∀ f ∈ g.before 14, f.2 < 2 ^ f.1 := by
    intro f hm
    unfold PanaGroup.before at hm
    obtain ⟨i, _, hi⟩ := List.mem_flatMap.mp hm
    exact PanaGroup.fields_fit hf i f hi
  have := packFields_lt hfit
  rw [PanaGroup.width_128] at this
  exact this

/-- The mode in the database, from the proportions. -/
def panaMode (w h : Nat) : Bytes :=
  if w * 100 / h < 125 then b! "1:1" else if w * 100 / h < 145 then b! "4:3" else if w * 100 / h < 165 then b! "3:2" else b! "16:9"

/-- **C68**, Panasonic, files with one strip: groups of 14 pixels in 16 bytes from the strip offset on. What follows the data has to be short, as the length
of the rest of the file tells compressed data from packed data. -/
theorem rw2_file (s : RawLoader) (env : Platform) (b : Build) {contents : Bytes} {big : Bool} {dirs : List Dir} {make model : Bytes} {o : Option Nat}
    (h : CameraFile contents big dirs make model o) (hmake : make ∈ [b! "Panasonic", b! "LEICA"]) (h560 : model ≠ b! "DCS560C")
    {q ht offset : Nat} {cam : Camera} (hcam : Map.get s.cameras (make, model, panaMode (14 * q) ht) = some cam)
    (hno : (fileRoot big dirs).Lacks 0x118) {raw : Dir} (hraw : (fileRoot big dirs).FirstWith 0x111 raw)
    (h1 : raw.Numbers 2 [14 * q]) (h2 : raw.Numbers 3 [ht]) (h3 : raw.Numbers 0x111 [offset])
    {red blue : Nat} (hred : (fileRoot big dirs).Numbers 0x11 [red]) (hblue : (fileRoot big dirs).Numbers 0x12 [blue])
    (hq : 0 < q) (hht : 0 < ht) (gs : Nat → PanaGroup) (hf : ∀ k, k < q * ht → (gs k).Fits)
    {blacks : List Nat} (hb : BlacksOf cam (14 * q) ht (fun r c => (gs (q * r + c / 14)).sample (c % 14)) blacks)
    (hn : ∀ k, k < q * ht → bytesAt contents (offset + 16 * k) 16 = encodeLE 16 (gs k).number)
    (hlen : contents.length + 16 < offset + 21 * (q * ht)) :
    s.decodeSafe env b (.ok contents) = .ok (pictureOf cam (orientationOf o) (14 * q) ht [F32.ofNat red, F32.ofNat 256, F32.ofNat blue, .nan] blacks
      (raster (14 * q) ht fun r c => (gs (q * r + c / 14)).sample (c % 14))) := by
  obtain ⟨root, hh, hc, hd⟩ := camera_decodes s env b h (k := .rw2) (by
    simp only [List.mem_cons, List.not_mem_nil, or_false] at hmake
    rcases hmake with rfl | rfl <;> decide) h560
  obtain ⟨ifd, f1, f2⟩ := fetch_dir hh (tag := 0x111) (by decide) hraw
  obtain ⟨er, r1, _, r2, _⟩ := find_numbers hh (tag := 0x11) (by decide) hred
  obtain ⟨eb, b1, _, b2, _⟩ := find_numbers hh (tag := 0x12) (by decide) hblue
  have hpos : 0 < q * ht := Nat.mul_pos hq hht
  have hin : ∀ k, k < q * ht → offset + 16 * k + 16 ≤ contents.length := fun k hk => bytesAt_known (hn k hk) (encodeLE_length _ _) (by decide)
  have hlast := hin (q * ht - 1) (by omega)
  apply hd
  intro d hk ht'
  cases d <;> cases hk
  injection ht' with ht'; subst ht'
  show Rw2.image b (contents ++ List.replicate 16 0) _ s = _
  unfold Rw2.image Rw2.pixels
  rw [show TiffIFD.findIfdsWithTag Tag.PanaOffsets _ = [] from no_dirs hh hno]
  dsimp only
  rw [show TiffIFD.fetchIfd _ Tag.StripOffsets = _ from f1, ok_bind,
    show fetchUsize ifd Tag.PanaWidth = _ from fetch_number f2 (by decide) h1, ok_bind,
    show fetchUsize ifd Tag.PanaLength = _ from fetch_number f2 (by decide) h2, ok_bind,
    show fetchUsize ifd Tag.StripOffsets = _ from fetch_number f2 (by decide) h3, ok_bind,
    sliceFrom_le (by simp; omega), ok_bind]
  have hmul : 14 * q * ht = 14 * (q * ht) := Nat.mul_assoc _ _ _
  rw [if_neg (by rw [hmul]; simp; omega), if_neg (by rw [hmul]; simp; omega)]
  rw [pana_unsplit b _ q ht gs hq (by simp; omega) hf (by
    intro k hk
    rw [bytes_drop, bytesAt_append (hin k hk), hn k hk]
    exact numberLE_encodeLE _ _ (group_lt (hf k hk)))]
  simp only [ok_bind]
  have hsup := hc _ cam hcam
  unfold panaMode at hsup
  rw [if_neg (by omega), hsup, ok_bind]
  unfold Rw2.getWb TiffIFD.hasEntry
  rw [show TiffIFD.findEntry Tag.PanaWBsR _ = some er from r1, show TiffIFD.findEntry Tag.PanaWBsB _ = some eb from b1]
  simp only [Option.isSome_some, Bool.and_self, if_true]
  unfold fetchUsize TiffIFD.fetchTag
  rw [show TiffIFD.findEntry Tag.PanaWBsR _ = some er from r1, show TiffIFD.findEntry Tag.PanaWBsB _ = some eb from b1]
  simp only [ok_bind]
  rw [r2 0 (by simp), ok_bind, b2 0 (by simp), ok_bind, ok_bind]
  exact ok_image b o hb _

/-! ## Examples -/

section Example

private def mefFile : Bytes :=
  [77, 77, 0, 42, 0, 0, 0, 8] ++
  [0, 7] ++
  [1, 0, 0, 3, 0, 0, 0, 1, 0, 2, 0, 0] ++
  [1, 1, 0, 3, 0, 0, 0, 1, 0, 2, 0, 0] ++
  [1, 15, 0, 2, 0, 0, 0, 20, 0, 0, 0, 98] ++
  [1, 16, 0, 2, 0, 0, 0, 3, 90, 68, 0, 0] ++
  [1, 17, 0, 4, 0, 0, 0, 1, 0, 0, 0, 118] ++
  [1, 18, 0, 3, 0, 0, 0, 1, 0, 6, 0, 0] ++
  [130, 142, 0, 1, 0, 0, 0, 4, 0, 1, 1, 2] ++
  [0, 0, 0, 0] ++
  [77, 97, 109, 105, 121, 97, 45, 79, 80, 32, 67, 111, 46, 44, 76, 116, 100, 46, 32, 0] ++
  [0x12, 0x34, 0x56, 0x78, 0x9a, 0xbc]

private def mefDir : Dir := .mk true [.plain ⟨0x100, 3, [2]⟩, .plain ⟨0x101, 3, [2]⟩, .plain ⟨0x10f, 2, [77, 97, 109, 105, 121, 97, 45, 79, 80, 32, 67, 111, 46, 44, 76, 116, 100, 46, 32, 0]⟩, .plain ⟨0x110, 2, [90, 68, 0]⟩, .plain ⟨0x111, 4, [118]⟩, .plain ⟨0x112, 3, [6]⟩, .plain ⟨0x828e, 1, [0, 1, 1, 2]⟩]

private theorem mef_stored : TiffFile 11 true mefFile [mefDir] := by
  refine ⟨by decide +kernel, by decide +kernel, 8, by decide, by decide +kernel, rfl, ?_⟩
  refine ⟨by decide, by decide +kernel, by decide, by decide +kernel, by decide +kernel, ?_⟩
  intro i it hi
  match i with
  | 0 => injection hi with hi; subst hi; stored_inline
  | 1 => injection hi with hi; subst hi; stored_inline
  | 2 => injection hi with hi; subst hi; stored_outside 98
  | 3 => injection hi with hi; subst hi; stored_inline
  | 4 => injection hi with hi; subst hi; stored_inline
  | 5 => injection hi with hi; subst hi; stored_inline
  | 6 => injection hi with hi; subst hi; stored_inline
  | i + 7 => cases hi


private theorem mef_camera : CameraFile mefFile true [mefDir] (b! "Mamiya-OP Co.,Ltd.") (b! "ZD") (some 6) where
  tiff := mef_stored
  few := by decide
  notCiff := by decide +kernel
  notDng := lacks_one rfl rfl
  make := ⟨⟨by decide, by decide, by decide⟩, true, _, first_one rfl, rfl, 0, 1, [0], Or.inr rfl, rfl⟩
  model := ⟨⟨by decide, by decide, by decide⟩, true, _, first_one rfl, rfl, 0, 0, [0], Or.inr rfl, rfl⟩
  orientation := numbers_one (f := ⟨0x112, 3, [6]⟩) rfl (by decide)

/-- A file of Mamiya with two rows and two columns, upright after a quarter turn. -/
example (env : Platform) (b : Build) (cam : Camera) (hb : NoBlackAreas cam) :
    (loaderOf (b! "Mamiya-OP Co.,Ltd.") (b! "ZD") [] cam).decodeSafe env b (.ok mefFile) =
    .ok (pictureOf cam .rotate90 2 2 [.nan, .nan, .nan, .nan] cam.blacklevels [0x123, 0x456, 0x789, 0xabc]) :=
  mef_file _ env b mef_camera (by decide) rfl (hb := hb.blacks _ _ _) (first_with (f := ⟨0x828e, 1, [0, 1, 1, 2]⟩) rfl)
    (numbers_here (f := ⟨0x100, 3, [2]⟩) rfl (by decide)) (numbers_here (f := ⟨0x101, 3, [2]⟩) rfl (by decide))
    (numbers_here (f := ⟨0x111, 4, [118]⟩) rfl (by decide)) (by decide) (by decide) (by decide +kernel)

private def pefPicture (r p k : Nat) : Nat := 100 * r + 7 * p * p + 30 * k

private def pefFile : Bytes :=
  [77, 77, 0, 42, 0, 0, 0, 8] ++
  [0, 7] ++
  [1, 0, 0, 3, 0, 0, 0, 1, 0, 4, 0, 0] ++
  [1, 1, 0, 3, 0, 0, 0, 1, 0, 3, 0, 0] ++
  [1, 3, 0, 3, 0, 0, 0, 1, 255, 255, 0, 0] ++
  [1, 15, 0, 2, 0, 0, 0, 7, 0, 0, 0, 98] ++
  [1, 16, 0, 2, 0, 0, 0, 7, 0, 0, 0, 105] ++
  [1, 17, 0, 4, 0, 0, 0, 1, 0, 0, 0, 120] ++
  [2, 1, 0, 3, 0, 0, 0, 4, 0, 0, 0, 112] ++
  [0, 0, 0, 0] ++
  [80, 69, 78, 84, 65, 88, 0] ++
  [42, 105, 115, 116, 32, 68, 0] ++
  [32, 0, 31, 64, 31, 64, 46, 224] ++
  packBits (encodeUp (fun _ => pefDefault) (fun _ _ => 0) 2 3 pefPicture)

private def pefDir : Dir := .mk true [.plain ⟨0x100, 3, [4]⟩, .plain ⟨0x101, 3, [3]⟩, .plain ⟨0x103, 3, [65535]⟩, .plain ⟨0x10f, 2, [80, 69, 78, 84, 65, 88, 0]⟩, .plain ⟨0x110, 2, [42, 105, 115, 116, 32, 68, 0]⟩, .plain ⟨0x111, 4, [120]⟩, .plain ⟨0x201, 3, [8192, 8000, 8000, 12000]⟩]

private theorem pef_stored : TiffFile 11 true pefFile [pefDir] := by
  refine ⟨by decide +kernel, by decide +kernel, 8, by decide, by decide +kernel, rfl, ?_⟩
  refine ⟨by decide, by decide +kernel, by decide, by decide +kernel, by decide +kernel, ?_⟩
  intro i it hi
  match i with
  | 0 => injection hi with hi; subst hi; stored_inline
  | 1 => injection hi with hi; subst hi; stored_inline
  | 2 => injection hi with hi; subst hi; stored_inline
  | 3 => injection hi with hi; subst hi; stored_outside 98
  | 4 => injection hi with hi; subst hi; stored_outside 105
  | 5 => injection hi with hi; subst hi; stored_inline
  | 6 => injection hi with hi; subst hi; stored_outside 112
  | i + 7 => cases hi


private theorem pef_camera : CameraFile pefFile true [pefDir] (b! "PENTAX") (b! "*ist D") none where
  tiff := pef_stored
  few := by decide
  notCiff := by decide +kernel
  notDng := lacks_one rfl rfl
  make := ⟨⟨by decide, by decide, by decide⟩, true, _, first_one rfl, rfl, 0, 0, [0], Or.inr rfl, rfl⟩
  model := ⟨⟨by decide, by decide, by decide⟩, true, _, first_one rfl, rfl, 0, 0, [0], Or.inr rfl, rfl⟩
  orientation := lacks_one rfl rfl

/-- A file of Pentax with three rows and four columns, compressed, without a table. -/
example (env : Platform) (b : Build) (cam : Camera) (hb : NoBlackAreas cam) :
    (loaderOf (b! "PENTAX") (b! "*ist D") [] cam).decodeSafe env b (.ok pefFile) =
    .ok (pictureOf cam .unknown 4 3 [F32.ofNat 8192, F32.ofNat 8000, F32.ofNat 12000, .nan] cam.blacklevels
      [0, 30, 7, 37, 100, 130, 107, 137, 200, 230, 207, 237]) :=
  pef_file _ env b pef_camera (by decide) (by decide) rfl (hb := hb.blacks _ _ _) (first_with (f := ⟨0x111, 4, [120]⟩) rfl)
    (w := 2) (numbers_here (f := ⟨0x100, 3, [4]⟩) rfl (by decide)) (numbers_here (f := ⟨0x101, 3, [3]⟩) rfl (by decide))
    (numbers_here (f := ⟨0x111, 4, [120]⟩) rfl (by decide)) (numbers_here (f := ⟨0x103, 3, [65535]⟩) rfl (by decide))
    (numbers_one (f := ⟨0x201, 3, [8192, 8000, 8000, 12000]⟩) rfl (by decide)) (lacks_one rfl rfl) (Or.inl ⟨lacks_one rfl rfl, rfl⟩) (by decide) pefPicture
    (fun r p k hr hp hk => (show ∀ r, r < 3 → ∀ p, p < 2 → ∀ k, k < 2 → pefPicture r p k < 65536 by decide) r hr p hp k hk)
    (fun r p k hr hp hk => (show ∀ r, r < 3 → ∀ p, p < 2 → ∀ k, k < 2 → -32768 ≤ upResidual (fun _ _ => 0) pefPicture r p k ∧
      upResidual (fun _ _ => 0) pefPicture r p k ≤ 32767 ∧ category (upResidual (fun _ _ => 0) pefPicture r p k) ∈ pefDefault.vals by decide +kernel)
      r hr p hp k hk) [] (by decide +kernel) (by decide +kernel)

private def orfPicture (r c : Nat) : Nat := 40 * r + 3 * c

private def orfFile : Bytes :=
  [73, 73, 42, 0, 8, 0, 0, 0] ++
  [8, 0] ++
  [0, 1, 3, 0, 1, 0, 0, 0, 12, 0, 0, 0] ++
  [1, 1, 3, 0, 1, 0, 0, 0, 2, 0, 0, 0] ++
  [15, 1, 2, 0, 20, 0, 0, 0, 110, 0, 0, 0] ++
  [16, 1, 2, 0, 6, 0, 0, 0, 130, 0, 0, 0] ++
  [17, 1, 4, 0, 1, 0, 0, 0, 136, 0, 0, 0] ++
  [23, 1, 4, 0, 1, 0, 0, 0, 31, 0, 0, 0] ++
  [23, 16, 3, 0, 1, 0, 0, 0, 144, 1, 0, 0] ++
  [24, 16, 3, 0, 1, 0, 0, 0, 44, 1, 0, 0] ++
  [0, 0, 0, 0] ++
  [79, 76, 89, 77, 80, 85, 83, 32, 67, 79, 82, 80, 79, 82, 65, 84, 73, 79, 78, 0] ++
  [69, 45, 77, 49, 48, 0] ++
  [0, 0, 0, 0, 0, 0, 0] ++ packBits (encodeOrf 6 2 orfPicture)

private def orfDir : Dir := .mk false [.plain ⟨0x100, 3, [12]⟩, .plain ⟨0x101, 3, [2]⟩, .plain ⟨0x10f, 2, [79, 76, 89, 77, 80, 85, 83, 32, 67, 79, 82, 80, 79, 82, 65, 84, 73, 79, 78, 0]⟩, .plain ⟨0x110, 2, [69, 45, 77, 49, 48, 0]⟩, .plain ⟨0x111, 4, [136]⟩, .plain ⟨0x117, 4, [31]⟩, .plain ⟨0x1017, 3, [400]⟩, .plain ⟨0x1018, 3, [300]⟩]

private theorem orf_stored : TiffFile 11 false orfFile [orfDir] := by
  refine ⟨by decide +kernel, by decide +kernel, 8, by decide, by decide +kernel, rfl, ?_⟩
  refine ⟨by decide, by decide +kernel, by decide, by decide +kernel, by decide +kernel, ?_⟩
  intro i it hi
  match i with
  | 0 => injection hi with hi; subst hi; stored_inline
  | 1 => injection hi with hi; subst hi; stored_inline
  | 2 => injection hi with hi; subst hi; stored_outside 110
  | 3 => injection hi with hi; subst hi; stored_outside 130
  | 4 => injection hi with hi; subst hi; stored_inline
  | 5 => injection hi with hi; subst hi; stored_inline
  | 6 => injection hi with hi; subst hi; stored_inline
  | 7 => injection hi with hi; subst hi; stored_inline
  | i + 8 => cases hi


private theorem orf_camera : CameraFile orfFile false [orfDir] (b! "OLYMPUS CORPORATION") (b! "E-M10") none where
  tiff := orf_stored
  few := by decide
  notCiff := by decide +kernel
  notDng := lacks_one rfl rfl
  make := ⟨⟨by decide, by decide, by decide⟩, false, _, first_one rfl, rfl, 0, 0, [0], Or.inr rfl, rfl⟩
  model := ⟨⟨by decide, by decide, by decide⟩, false, _, first_one rfl, rfl, 0, 0, [0], Or.inr rfl, rfl⟩
  orientation := lacks_one rfl rfl
/-- A file of Olympus with two rows of twelve columns, compressed. -/
example (env : Platform) (b : Build) (cam : Camera) (hb : NoBlackAreas cam) :
    (loaderOf (b! "OLYMPUS CORPORATION") (b! "E-M10") [] cam).decodeSafe env b (.ok orfFile) =
    .ok (pictureOf cam .unknown 12 2 [F32.ofNat 400, F32.ofNat 256, F32.ofNat 300, .nan] cam.blacklevels
      [0, 3, 6, 9, 12, 15, 18, 21, 24, 27, 30, 33, 40, 43, 46, 49, 52, 55, 58, 61, 64, 67, 70, 73]) :=
  orf_file _ env b orf_camera (by decide) (by decide) rfl (hb := hb.blacks _ _ _) (first_with (f := ⟨0x111, 4, [136]⟩) rfl)
    (w := 6) (numbers_here (f := ⟨0x100, 3, [12]⟩) rfl (by decide)) (numbers_here (f := ⟨0x101, 3, [2]⟩) rfl (by decide))
    (numbers_here (f := ⟨0x111, 4, [136]⟩) rfl (by decide)) (numbers_here (f := ⟨0x117, 4, [31]⟩) rfl (by decide)) (by decide)
    (numbers_one (f := ⟨0x1017, 3, [400]⟩) rfl (by decide)) (numbers_one (f := ⟨0x1018, 3, [300]⟩) rfl (by decide)) orfPicture
    (fun r c hr hc => by unfold orfPicture; omega) [0, 0, 0, 0, 0, 0, 0] [] rfl (by decide +kernel) (by decide +kernel)


private def rw2Group (k : Nat) : PanaGroup := ⟨fun i => if i < 14 then 100 + 10 * k + i else 0, fun _ => 3, fun _ => 1⟩

private def rw2File : Bytes :=
  [73, 73, 42, 0, 8, 0, 0, 0] ++
  [7, 0] ++
  [2, 0, 3, 0, 1, 0, 0, 0, 28, 0, 0, 0] ++
  [3, 0, 3, 0, 1, 0, 0, 0, 2, 0, 0, 0] ++
  [17, 0, 3, 0, 1, 0, 0, 0, 244, 1, 0, 0] ++
  [18, 0, 3, 0, 1, 0, 0, 0, 144, 1, 0, 0] ++
  [15, 1, 2, 0, 10, 0, 0, 0, 98, 0, 0, 0] ++
  [16, 1, 2, 0, 8, 0, 0, 0, 108, 0, 0, 0] ++
  [17, 1, 4, 0, 1, 0, 0, 0, 116, 0, 0, 0] ++
  [0, 0, 0, 0] ++
  [80, 97, 110, 97, 115, 111, 110, 105, 99, 0] ++
  [68, 77, 67, 45, 70, 90, 56, 0] ++
  (List.range 4).flatMap fun k => encodeLE 16 (rw2Group k).number

private def rw2Dir : Dir := .mk false [.plain ⟨0x2, 3, [28]⟩, .plain ⟨0x3, 3, [2]⟩, .plain ⟨0x11, 3, [500]⟩, .plain ⟨0x12, 3, [400]⟩, .plain ⟨0x10f, 2, [80, 97, 110, 97, 115, 111, 110, 105, 99, 0]⟩, .plain ⟨0x110, 2, [68, 77, 67, 45, 70, 90, 56, 0]⟩, .plain ⟨0x111, 4, [116]⟩]

private theorem rw2_stored : TiffFile 11 false rw2File [rw2Dir] := by
  refine ⟨by decide +kernel, by decide +kernel, 8, by decide, by decide +kernel, rfl, ?_⟩
  refine ⟨by decide, by decide +kernel, by decide, by decide +kernel, by decide +kernel, ?_⟩
  intro i it hi
  match i with
  | 0 => injection hi with hi; subst hi; stored_inline
  | 1 => injection hi with hi; subst hi; stored_inline
  | 2 => injection hi with hi; subst hi; stored_inline
  | 3 => injection hi with hi; subst hi; stored_inline
  | 4 => injection hi with hi; subst hi; stored_outside 98
  | 5 => injection hi with hi; subst hi; stored_outside 108
  | 6 => injection hi with hi; subst hi; stored_inline
  | i + 7 => cases hi


private theorem rw2_camera : CameraFile rw2File false [rw2Dir] (b! "Panasonic") (b! "DMC-FZ8") none where
  tiff := rw2_stored
  few := by decide
  notCiff := by decide +kernel
  notDng := lacks_one rfl rfl
  make := ⟨⟨by decide, by decide, by decide⟩, false, _, first_one rfl, rfl, 0, 0, [0], Or.inr rfl, rfl⟩
  model := ⟨⟨by decide, by decide, by decide⟩, false, _, first_one rfl, rfl, 0, 0, [0], Or.inr rfl, rfl⟩
  orientation := lacks_one rfl rfl

/-- A file of Panasonic with two rows of two groups. -/
example (env : Platform) (b : Build) (cam : Camera) (hb : NoBlackAreas cam) :
    (loaderOf (b! "Panasonic") (b! "DMC-FZ8") (b! "16:9") cam).decodeSafe env b (.ok rw2File) =
    .ok (pictureOf cam .unknown 28 2 [F32.ofNat 500, F32.ofNat 256, F32.ofNat 400, .nan] cam.blacklevels
      (raster 28 2 fun r c => (rw2Group (2 * r + c / 14)).sample (c % 14))) :=
  rw2_file _ env b rw2_camera (by decide) (by decide) (q := 2) rfl (hb := hb.blacks _ _ _) (lacks_one rfl rfl) (first_with (f := ⟨0x111, 4, [116]⟩) rfl)
    (numbers_here (f := ⟨2, 3, [28]⟩) rfl (by decide)) (numbers_here (f := ⟨3, 3, [2]⟩) rfl (by decide))
    (numbers_here (f := ⟨0x111, 4, [116]⟩) rfl (by decide)) (numbers_one (f := ⟨0x11, 3, [500]⟩) rfl (by decide))
    (numbers_one (f := ⟨0x12, 3, [400]⟩) rfl (by decide)) (by decide) (by decide) rw2Group
    (fun k hk => ⟨fun i => by dsimp only [rw2Group]; split <;> omega, fun _ => by dsimp only [rw2Group]; decide, fun _ => by dsimp only [rw2Group]; decide⟩) (by decide +kernel) (by decide +kernel)

example : (List.range 14).map (rw2Group 0).sample =
    [1603, 1619, 1551, 1569, 1503, 1523, 1459, 1481, 1419, 1443, 1383, 1409, 1351, 1379] := by decide +kernel

end Example


end Props

import Verif.Spec.SamsungFile
import Verif.Lemmas.Positions
import Verif.Lemmas.OpenFile
import Verif.Lemmas.FileExample
import Verif.Props.Packed
import Verif.Props.Srw1
import Verif.Props.Srw2
import Verif.Props.Srw3
/-!
# C83: whole files of Samsung

From the bytes of a file to the picture the public function returns.
-/

namespace Props
open Rust Spec Model

/-! ## White balance -/

private theorem first_tag {d : Dir} {tag : Nat} {big : Bool} {f : Field} (h : d.First tag big f) : f.tag = tag := by
  obtain ⟨p, d', _, hget, _⟩ := h
  obtain ⟨f', h1, h2⟩ := Option.map_eq_some_iff.mp hget
  obtain rfl : f' = f := (Prod.ext_iff.mp h2).2
  unfold Dir.field at h1
  have := List.find?_some h1
  simpa using this

private theorem four_bytes {big : Bool} {tag : Nat} {vals : List Nat} (hl : vals.length = 4) (hf : ∀ v ∈ vals, v < 4294967296) (i : Nat) (hi : i < vals.length) :
    number big (bytesAt ((Spec.Field.mk tag 4 vals).bytes big) (i * 4) 4) = vals[i] := by
  unfold Field.bytes
  rw [show tiffSize 4 = 4 from rfl, flatMap_chunk _ _ (fun _ => encode_length _ _ _) _ _ hi, number_encode _ _ _ (hf _ (List.getElem_mem _))]

private theorem samsung_read {contents : Bytes} {tag : Nat} {big : Bool} {vals : List Nat} {f : Field} {ent : TiffEntry} (hl : vals.length = 4)
    (hfit : ∀ v ∈ vals, v < 4294967296) (hc : Carries big f ent) (htag : f.tag = tag) (htyp : f.typ = 4)
    (hr : SamsungFour contents tag big vals ent.parentOffset f ent.doffset) :
    ∃ e, ent.copyOffsetFromParent (contents ++ List.replicate 16 0) = .ok e ∧ ∀ i (hi : i < vals.length), e.getU32 i = .ok vals[i] := by
  have hb := hr htag
  have hlen : ((Spec.Field.mk tag 4 vals).bytes big).length = 16 := by
    rw [Field.bytes_length]; show vals.length * 4 = 16; rw [hl]
  have hroom := bytesAt_known hb hlen (by decide)
  unfold TiffEntry.copyOffsetFromParent
  rw [sliceFrom_le (by simp; omega), ok_bind]
  refine ⟨_, rfl, fun i hi => ?_⟩
  unfold TiffEntry.getU32 TiffEntry.copyWithNewData TiffEntry.getForceU32
  dsimp only
  rw [hc.typ, htyp, if_neg (by decide), if_neg (by decide), if_pos (Or.inl rfl), ru32_number (by simp; omega), hc.order]
  refine congrArg Except.ok ?_
  rw [← four_bytes (big := big) (tag := tag) hl hfit i hi, ← hb]
  congr 1
  unfold bytesAt
  rw [List.drop_append_of_le_length (by omega), List.drop_append_of_le_length (by simp; omega), List.take_append_of_le_length (by simp; omega),
    List.drop_take, List.take_take, Nat.min_eq_left (by omega)]

/-- The white balance: the levels without the black levels. -/
theorem samsung_white {contents : Bytes} {big : Bool} {dirs : List Dir} {l0 l1 l2 l3 k0 k1 k2 k3 : Nat} {big1 big2 : Bool} {f1 f2 : Field} {root : TiffIFD}
    (hfit : ∀ v ∈ [l0, l1, l2, l3] ++ [k0, k1, k2, k3], v < 4294967296)
    (h1 : (fileRoot big dirs).First 0xa021 big1 f1) (ht1 : f1.typ = 4) (hc1 : f1.values.length = 4)
    (h2 : (fileRoot big dirs).First 0xa028 big2 f2) (ht2 : f2.typ = 4) (hc2 : f2.values.length = 4)
    (hh : HoldsWith (fun pos f place => SamsungFour contents 0xa021 big1 [l0, l1, l2, l3] pos f place ∧ SamsungFour contents 0xa028 big2 [k0, k1, k2, k3] pos f place) 0
      (fileRoot big dirs) root) :
    Srw.getWb (contents ++ List.replicate 16 0) root =
      .ok [(F32.ofNat l0).sub (F32.ofNat k0), (F32.ofNat l1).sub (F32.ofNat k1), (F32.ofNat l3).sub (F32.ofNat k3), .nan] := by
  obtain ⟨e1, a1, a2, a3⟩ := find_first_with hh (tag := 0xa021) (by decide) h1
  obtain ⟨e2, b1, b2, b3⟩ := find_first_with hh (tag := 0xa028) (by decide) h2
  obtain ⟨n1, c1, c2⟩ := samsung_read rfl (fun v hv => hfit v (List.mem_append_left _ hv)) a2 (first_tag h1) ht1 a3.1
  obtain ⟨n2, d1, d2⟩ := samsung_read rfl (fun v hv => hfit v (List.mem_append_right _ hv)) b2 (first_tag h2) ht2 b3.2
  unfold Srw.getWb TiffIFD.fetchTag
  rw [show TiffIFD.findEntry Tag.SrwRGGBLevels root = some e1 from a1, show TiffIFD.findEntry Tag.SrwRGGBBlacks root = some e2 from b1]
  dsimp only
  rw [ok_bind, ok_bind, if_neg (by rw [a2.count, b2.count, hc1, hc2]; decide), c1, ok_bind, d1, ok_bind]
  rw [c2 0 (by simp), d2 0 (by simp), c2 1 (by simp), d2 1 (by simp), c2 3 (by simp), d2 3 (by simp)]
  rfl

/-! ## The samples -/

private theorem drop_pad {contents l tail : Bytes} {o : Nat} (ho : o ≤ contents.length) (h : contents.drop o = l ++ tail) :
    (contents ++ List.replicate 16 0).drop o = l ++ (tail ++ List.replicate 16 0) := by
  rw [List.drop_append_of_le_length ho, h, List.append_assoc]

/-- The samples are read in each of the ways. -/
theorem samsung_pixels (b : Build) {contents : Bytes} {cam : Camera} {raw : Dir} {ifd : TiffIFD} (hh : Holds raw ifd) {offset w h compression bits : Nat}
    {img : Nat → Nat → Nat} (hw : 0 < w) (ho : offset ≤ contents.length)
    (hd : SamsungData contents (cam.findHint (b! "little_endian")) raw offset w h compression bits img) :
    Srw.pixels b (contents ++ List.replicate 16 0) cam ifd ((contents ++ List.replicate 16 0).drop offset) w h compression bits = .ok (raster w h img) := by
  unfold Srw.pixels
  cases hd with
  | words12 room =>
    rw [if_pos rfl, if_pos rfl, decode_12le_unpacked_exact _ w h hw (by simp; omega)]
    refine congrArg Except.ok (raster_congr fun r c _ _ => ?_)
    rw [bytes_from_offset, bytes_from_offset]
  | words14 _ which room =>
    have hpix : decode_14le_unpacked ((contents ++ List.replicate 16 0).drop offset) w h = .ok (raster w h fun r c =>
        (bytesOf contents (offset + 2 * (r * w + c)) + 256 * bytesOf contents (offset + (2 * (r * w + c) + 1))) % 16384) := by
      rw [decode_14le_unpacked_exact _ w h hw (by simp; omega)]
      refine congrArg Except.ok (raster_congr fun r c _ _ => ?_)
      rw [bytes_from_offset, bytes_from_offset]
    rcases which with rfl | ⟨rfl, hl⟩
    · rw [if_pos rfl, if_neg (by decide), if_pos rfl]
      exact hpix
    · rw [if_neg (by decide), if_pos rfl, show TiffIFD.findEntry Tag.SrwSensorAreas ifd = none from find_lacks hh hl]
      dsimp only
      rw [if_neg (by decide), if_pos rfl]
      exact hpix
  | little lacks order even room =>
    rw [if_neg (by decide), if_pos rfl, show TiffIFD.findEntry Tag.SrwSensorAreas ifd = none from find_lacks hh lacks]
    dsimp only
    rw [if_pos rfl, if_pos order, decode_12le_exact _ w h hw even (by simp; omega)]
    exact congrArg Except.ok (raster_congr fun r c _ _ => congrArg (fun g => fieldLSB g _ _) (funext fun i => bytes_from_offset contents offset i))
  | big lacks order even room =>
    rw [if_neg (by decide), if_pos rfl, show TiffIFD.findEntry Tag.SrwSensorAreas ifd = none from find_lacks hh lacks]
    dsimp only
    rw [if_pos rfl, if_neg (by rw [order]; decide), decode_12be_exact _ w h hw even (by simp; omega)]
    exact congrArg Except.ok (raster_congr fun r c _ _ => congrArg (fun g => fieldMSB g _ _) (funext fun i => bytes_from_offset contents offset i))
  | first _ _ junk ch pad tail tail' place t area inside wide even lines fits legal aligned small data table =>
    obtain ⟨e, e1, _, e2, _⟩ := find_numbers hh (tag := 0xa010) (by decide) area
    rw [if_neg (by decide), if_pos rfl, show TiffIFD.findEntry Tag.SrwSensorAreas ifd = some e from e1]
    dsimp only
    rw [e2 0 (by simp), ok_bind, List.getElem_cons_zero, sliceFrom_le (by simp; omega), ok_bind, drop_pad ho data, drop_pad inside table]
    exact srw1_file b w h img junk ch pad _ _ wide even lines fits legal aligned small
  | second _ _ tail fits data =>
    rw [if_neg (by decide), if_neg (by decide), if_pos rfl, drop_pad ho data]
    exact srw2_file b w h img fits _ (by simp)
  | third _ _ hd a b' c diff ch tail wide deep start fits ha hb hc habc legal small data =>
    rw [if_neg (by decide), if_neg (by decide), if_neg (by decide), if_pos rfl, drop_pad ho data]
    exact srw3_roundtrip b hd a b' c w h img diff ch _ wide deep.1 deep.2 start fits ha hb hc habc legal small

/-! ## The file -/

/-- **C83**: every way to store the samples. -/
theorem srw_whole_file (s : RawLoader) (env : Platform) (b : Build) {contents : Bytes} {big : Bool} {dirs : List Dir} {model : Bytes} {o : Option Nat}
    (h : CameraFile contents big dirs (b! "SAMSUNG") model o) (h560 : model ≠ b! "DCS560C")
    {cam : Camera} (hcam : Map.get s.cameras (b! "SAMSUNG", model, []) = some cam)
    {raw : Dir} (hraw : (fileRoot big dirs).FirstWith 0x111 raw) {w ht offset compression bits : Nat} {t1 t2 t3 t4 t5 : List Nat}
    (h1 : raw.Numbers 0x100 (w :: t1)) (h2 : raw.Numbers 0x101 (ht :: t2)) (h3 : raw.Numbers 0x111 (offset :: t3)) (h4 : raw.Numbers 0x103 (compression :: t4))
    (h5 : raw.Numbers 0x102 (bits :: t5)) (hw : 0 < w) (ho : offset ≤ contents.length) {img : Nat → Nat → Nat}
    (hd : SamsungData contents (cam.findHint (b! "little_endian")) raw offset w ht compression bits img)
    {l0 l1 l2 l3 k0 k1 k2 k3 : Nat} (hwb : SamsungLevels contents big dirs [l0, l1, l2, l3] [k0, k1, k2, k3])
    {blacks : List Nat} (hb : BlacksOf cam w ht img blacks) :
    s.decodeSafe env b (.ok contents) = .ok (pictureOf cam (orientationOf o) w ht
      [(F32.ofNat l0).sub (F32.ofNat k0), (F32.ofNat l1).sub (F32.ofNat k1), (F32.ofNat l3).sub (F32.ofNat k3), .nan] blacks (raster w ht img)) := by
  obtain ⟨_, _, hfit, big1, f1, big2, f2, g1, g2, g3, g4, g5, g6, g7⟩ := hwb
  obtain ⟨root, hnew, hh⟩ := tiff_read_with b g7 h.few
  obtain ⟨dec, d1, d2, d3, d4⟩ := tree_opens s b (camera_magic h) hnew hh.holds h.notDng h.make h.model h.orientation (fun _ _ => rfl) (k := .srw) (by decide) h560
  obtain ⟨ifd, f1', f2'⟩ := fetch_dir hh.holds (tag := 0x111) (by decide) hraw
  have himage : Srw.image b (contents ++ List.replicate 16 0) root s = .ok (pictureOf cam (orientationOf o) w ht
      [(F32.ofNat l0).sub (F32.ofNat k0), (F32.ofNat l1).sub (F32.ofNat k1), (F32.ofNat l3).sub (F32.ofNat k3), .nan] blacks (raster w ht img)) := by
    unfold Srw.image RawLoader.checkSupported
    rw [d4 [] cam hcam, ok_bind, show TiffIFD.fetchIfd _ Tag.StripOffsets = _ from f1', ok_bind,
      show fetchUsize ifd Tag.ImageWidth = _ from fetch_number f2' (by decide) h1, ok_bind,
      show fetchUsize ifd Tag.ImageLength = _ from fetch_number f2' (by decide) h2, ok_bind,
      show fetchUsize ifd Tag.StripOffsets = _ from fetch_number f2' (by decide) h3, ok_bind,
      show fetchUsize ifd Tag.Compression = _ from fetch_number f2' (by decide) h4, ok_bind,
      show fetchUsize ifd Tag.BitsPerSample = _ from fetch_number f2' (by decide) h5, ok_bind,
      sliceFrom_le (by simp; omega), ok_bind, samsung_pixels b (cam := turned cam o) f2' hw ho (by rw [turned_hint]; exact hd), ok_bind,
      samsung_white hfit g1 g2 g3 g4 g5 g6 hh, ok_bind]
    exact ok_image b o hb _
  rw [(decode_results s env b contents).1]
  unfold RawLoader.decode
  dsimp only
  rw [d1, ok_bind]
  cases dec <;> cases d2
  injection d3 with d3; subst d3
  exact himage

/-! ## Examples -/

section Examples

private def packedFile : Bytes :=
  [77, 77, 0, 42, 0, 0, 0, 8] ++
  [0, 9] ++
  [1, 0, 0, 3, 0, 0, 0, 1, 0, 4, 0, 0] ++
  [1, 1, 0, 3, 0, 0, 0, 1, 0, 2, 0, 0] ++
  [1, 2, 0, 3, 0, 0, 0, 1, 0, 12, 0, 0] ++
  [1, 3, 0, 3, 0, 0, 0, 1, 128, 2, 0, 0] ++
  [1, 15, 0, 2, 0, 0, 0, 8, 0, 0, 0, 122] ++
  [1, 16, 0, 2, 0, 0, 0, 5, 0, 0, 0, 130] ++
  [1, 17, 0, 4, 0, 0, 0, 1, 0, 0, 0, 197] ++
  [1, 18, 0, 3, 0, 0, 0, 1, 0, 3, 0, 0] ++
  [146, 124, 0, 7, 0, 0, 0, 62, 0, 0, 0, 135] ++
  [0, 0, 0, 0] ++
  [83, 65, 77, 83, 85, 78, 71, 0] ++
  [78, 88, 49, 48, 0] ++
  [0, 2, 160, 33, 0, 4, 0, 0, 0, 4, 0, 0, 0, 30, 160, 40, 0, 4, 0, 0, 0, 4, 0, 0, 0, 46, 0, 0, 0, 0, 0, 0, 19, 136, 0, 0, 16, 0, 0, 0, 16, 1, 0, 0, 27, 88, 0, 0, 0, 64, 0, 0, 0, 65, 0, 0, 0, 66, 0, 0, 0, 67] ++
  [62, 116, 12, 71, 181, 52, 99, 119, 132, 145, 186, 252]

private def packedNote : Dir := .mk true [.plain ⟨0xa021, 4, [131072, 16908291, 1, 786432]⟩, .plain ⟨0xa028, 4, [16973827, 1, 2147614720, 17760258]⟩]

private def packedMain : Dir := .mk true [.plain ⟨0x100, 3, [4]⟩, .plain ⟨0x101, 3, [2]⟩, .plain ⟨0x102, 3, [12]⟩, .plain ⟨0x103, 3, [32770]⟩, .plain ⟨0x10f, 2, [83, 65, 77, 83, 85, 78, 71, 0]⟩, .plain ⟨0x110, 2, [78, 88, 49, 48, 0]⟩, .plain ⟨0x111, 4, [197]⟩, .plain ⟨0x112, 3, [3]⟩, .note packedNote]

private theorem packed_note : packedNote.StoredWith (fun pos f place => SamsungFour packedFile 0xa021 true [5000, 4096, 4097, 7000] pos f place ∧ SamsungFour packedFile 0xa028 true [64, 65, 66, 67] pos f place) 10 packedFile 135 0 := by
  refine ⟨by decide, by decide +kernel, by decide, by decide +kernel, by decide +kernel, ?_⟩
  intro i it hi
  match i with
  | 0 => injection hi with hi; subst hi; exact ⟨⟨⟨by decide, by decide, by decide +kernel, by decide +kernel, by decide +kernel, by decide +kernel, by decide +kernel, by decide +kernel, fun h => absurd h (by decide +kernel), fun _ => ⟨30, by decide, by decide +kernel, by decide +kernel⟩⟩, by decide, by decide⟩, fun _ => by decide +kernel, fun h => absurd h (by decide)⟩
  | 1 => injection hi with hi; subst hi; exact ⟨⟨⟨by decide, by decide, by decide +kernel, by decide +kernel, by decide +kernel, by decide +kernel, by decide +kernel, by decide +kernel, fun h => absurd h (by decide +kernel), fun _ => ⟨46, by decide, by decide +kernel, by decide +kernel⟩⟩, by decide, by decide⟩, fun h => absurd h (by decide), fun _ => by decide +kernel⟩
  | i + 2 => cases hi

private theorem packed_stored : TiffFileWith (fun pos f place => SamsungFour packedFile 0xa021 true [5000, 4096, 4097, 7000] pos f place ∧ SamsungFour packedFile 0xa028 true [64, 65, 66, 67] pos f place) 11 true packedFile [packedMain] := by
  refine ⟨by decide +kernel, by decide +kernel, 8, by decide, by decide +kernel, rfl, ?_⟩
  refine ⟨by decide, by decide +kernel, by decide, by decide +kernel, by decide +kernel, ?_⟩
  intro i it hi
  match i with
  | 0 => injection hi with hi; subst hi; exact ⟨⟨⟨by decide, by decide, by decide, by decide, by decide +kernel, by decide +kernel, by decide +kernel, by decide +kernel, fun _ => by decide +kernel, fun h => absurd h (by decide +kernel)⟩, by decide, by decide⟩, ⟨fun h => absurd h (by decide), fun h => absurd h (by decide)⟩⟩
  | 1 => injection hi with hi; subst hi; exact ⟨⟨⟨by decide, by decide, by decide, by decide, by decide +kernel, by decide +kernel, by decide +kernel, by decide +kernel, fun _ => by decide +kernel, fun h => absurd h (by decide +kernel)⟩, by decide, by decide⟩, ⟨fun h => absurd h (by decide), fun h => absurd h (by decide)⟩⟩
  | 2 => injection hi with hi; subst hi; exact ⟨⟨⟨by decide, by decide, by decide, by decide, by decide +kernel, by decide +kernel, by decide +kernel, by decide +kernel, fun _ => by decide +kernel, fun h => absurd h (by decide +kernel)⟩, by decide, by decide⟩, ⟨fun h => absurd h (by decide), fun h => absurd h (by decide)⟩⟩
  | 3 => injection hi with hi; subst hi; exact ⟨⟨⟨by decide, by decide, by decide, by decide, by decide +kernel, by decide +kernel, by decide +kernel, by decide +kernel, fun _ => by decide +kernel, fun h => absurd h (by decide +kernel)⟩, by decide, by decide⟩, ⟨fun h => absurd h (by decide), fun h => absurd h (by decide)⟩⟩
  | 4 => injection hi with hi; subst hi; exact ⟨⟨⟨by decide, by decide, by decide +kernel, by decide +kernel, by decide +kernel, by decide +kernel, by decide +kernel, by decide +kernel, fun h => absurd h (by decide +kernel), fun _ => ⟨122, by decide, by decide +kernel, by decide +kernel⟩⟩, by decide, by decide⟩, ⟨fun h => absurd h (by decide), fun h => absurd h (by decide)⟩⟩
  | 5 => injection hi with hi; subst hi; exact ⟨⟨⟨by decide, by decide, by decide +kernel, by decide +kernel, by decide +kernel, by decide +kernel, by decide +kernel, by decide +kernel, fun h => absurd h (by decide +kernel), fun _ => ⟨130, by decide, by decide +kernel, by decide +kernel⟩⟩, by decide, by decide⟩, ⟨fun h => absurd h (by decide), fun h => absurd h (by decide)⟩⟩
  | 6 => injection hi with hi; subst hi; exact ⟨⟨⟨by decide, by decide, by decide, by decide, by decide +kernel, by decide +kernel, by decide +kernel, by decide +kernel, fun _ => by decide +kernel, fun h => absurd h (by decide +kernel)⟩, by decide, by decide⟩, ⟨fun h => absurd h (by decide), fun h => absurd h (by decide)⟩⟩
  | 7 => injection hi with hi; subst hi; exact ⟨⟨⟨by decide, by decide, by decide, by decide, by decide +kernel, by decide +kernel, by decide +kernel, by decide +kernel, fun _ => by decide +kernel, fun h => absurd h (by decide +kernel)⟩, by decide, by decide⟩, ⟨fun h => absurd h (by decide), fun h => absurd h (by decide)⟩⟩
  | 8 => injection hi with hi; subst hi; exact ⟨⟨0x927c, 7, [0, 2, 160, 33, 0, 4, 0, 0, 0, 4, 0, 0, 0, 30, 160, 40, 0, 4, 0, 0, 0, 4, 0, 0, 0, 46, 0, 0, 0, 0, 0, 0, 19, 136, 0, 0, 16, 0, 0, 0, 16, 1, 0, 0, 27, 88, 0, 0, 0, 64, 0, 0, 0, 65, 0, 0, 0, 66, 0, 0, 0, 67]⟩, rfl, by decide +kernel, ⟨by decide, by decide, by decide +kernel, by decide +kernel, by decide +kernel, by decide +kernel, by decide +kernel, by decide +kernel, fun h => absurd h (by decide +kernel), fun _ => ⟨135, by decide, by decide +kernel, by decide +kernel⟩⟩,
      135, packedFile, 135, by decide +kernel, by decide, by decide +kernel, .headed [] 0 (by decide) (by decide +kernel), 0, packed_note⟩
  | i + 9 => cases hi

private theorem packed_lacks {tag : Nat} (h1 : packedMain.field tag = none) (h2 : packedNote.field tag = none) : (fileRoot true [packedMain]).Lacks tag :=
  lacks_two (sub := packedNote) rfl rfl h1 h2

private theorem packed_camera : CameraFile packedFile true [packedMain] (b! "SAMSUNG") (b! "NX10") (some 3) where
  tiff := tiff_with packed_stored
  few := by decide
  notCiff := by decide +kernel
  notDng := packed_lacks rfl rfl
  make := ⟨⟨by decide, by decide, by decide⟩, true, _, first_main rfl, rfl, 0, 0, [0], Or.inr rfl, rfl⟩
  model := ⟨⟨by decide, by decide, by decide⟩, true, _, first_main rfl, rfl, 0, 0, [0], Or.inr rfl, rfl⟩
  orientation := ⟨true, _, first_main (f := ⟨0x112, 3, [3]⟩) rfl, by decide, rfl⟩

private theorem packed_levels : SamsungLevels packedFile true [packedMain] [5000, 4096, 4097, 7000] [64, 65, 66, 67] := by
  refine ⟨rfl, rfl, by decide, true, ⟨0xa021, 4, [131072, 16908291, 1, 786432]⟩, true, ⟨0xa028, 4, [16973827, 1, 2147614720, 17760258]⟩, ?_, rfl, rfl, ?_, rfl, rfl, packed_stored⟩
  · exact firstIn_child (pre := []) (c := packedMain) rfl rfl (by simp) (firstIn_child (pre := []) (c := packedNote) rfl rfl (by simp) (first_here (d := packedNote) rfl))
  · exact firstIn_child (pre := []) (c := packedMain) rfl rfl (by simp) (firstIn_child (pre := []) (c := packedNote) rfl rfl (by simp) (first_here (d := packedNote) rfl))

/-- Twelve bits. -/
example (env : Platform) (b : Build) (cam : Camera) (hb : NoBlackAreas cam) (hh : cam.hints = []) :
    (loaderOf (b! "SAMSUNG") (b! "NX10") [] cam).decodeSafe env b (.ok packedFile) =
      .ok (pictureOf cam .rotate180 4 2 [(F32.ofNat 5000).sub (F32.ofNat 64), (F32.ofNat 4096).sub (F32.ofNat 65),
        (F32.ofNat 7000).sub (F32.ofNat 67), .nan] cam.blacklevels [999, 1036, 1147, 1332, 1591, 1924, 2331, 2812]) := by
  refine (srw_whole_file (loaderOf (b! "SAMSUNG") (b! "NX10") [] cam) env b packed_camera (by decide) rfl
    (firstIn_child (pre := []) (c := packedMain) rfl rfl (by simp) (firstIn_root rfl))
    (numbers_here (f := ⟨0x100, 3, [4]⟩) rfl (by decide)) (numbers_here (f := ⟨0x101, 3, [2]⟩) rfl (by decide))
    (numbers_here (f := ⟨0x111, 4, [197]⟩) rfl (by decide)) (numbers_here (f := ⟨0x103, 3, [32770]⟩) rfl (by decide))
    (numbers_here (f := ⟨0x102, 3, [12]⟩) rfl (by decide)) (by decide) (by decide +kernel)
    (.big (fun d hd => packed_lacks rfl rfl d (below_child (List.mem_singleton.mpr rfl) hd)) (by unfold Camera.findHint; rw [hh]; rfl) (by decide) (by decide +kernel))
    packed_levels (hb.blacks _ _ _)).trans ?_
  exact congrArg (fun x => Except.ok (pictureOf _ _ _ _ _ _ x)) (by decide +kernel)

private def secondImage (r c : Nat) : Nat := r * 70 + c * c * 9 + 300

private def secondFile : Bytes :=
  [73, 73, 42, 0, 8, 0, 0, 0] ++
  [8, 0] ++
  [0, 1, 3, 0, 1, 0, 0, 0, 4, 0, 0, 0] ++
  [1, 1, 3, 0, 1, 0, 0, 0, 3, 0, 0, 0] ++
  [2, 1, 3, 0, 1, 0, 0, 0, 12, 0, 0, 0] ++
  [3, 1, 3, 0, 1, 0, 0, 0, 4, 128, 0, 0] ++
  [15, 1, 2, 0, 8, 0, 0, 0, 110, 0, 0, 0] ++
  [16, 1, 2, 0, 6, 0, 0, 0, 118, 0, 0, 0] ++
  [17, 1, 4, 0, 1, 0, 0, 0, 186, 0, 0, 0] ++
  [124, 146, 7, 0, 62, 0, 0, 0, 124, 0, 0, 0] ++
  [0, 0, 0, 0] ++
  [83, 65, 77, 83, 85, 78, 71, 0] ++
  [78, 88, 51, 48, 48, 0] ++
  [2, 0, 33, 160, 4, 0, 4, 0, 0, 0, 30, 0, 0, 0, 40, 160, 4, 0, 4, 0, 0, 0, 46, 0, 0, 0, 0, 0, 0, 0, 184, 11, 0, 0, 0, 8, 0, 0, 0, 8, 0, 0, 104, 16, 0, 0, 0, 0, 0, 0, 10, 0, 0, 0, 20, 0, 0, 0, 30, 0, 0, 0] ++
  packBits (encodeSrw2 4 3 secondImage)

private def secondNote : Dir := .mk false [.plain ⟨0xa021, 4, [3, 196866, 1, 12]⟩, .plain ⟨0xa028, 4, [196867, 1, 32772, 131343]⟩]

private def secondMain : Dir := .mk false [.plain ⟨0x100, 3, [4]⟩, .plain ⟨0x101, 3, [3]⟩, .plain ⟨0x102, 3, [12]⟩, .plain ⟨0x103, 3, [32772]⟩, .plain ⟨0x10f, 2, [83, 65, 77, 83, 85, 78, 71, 0]⟩, .plain ⟨0x110, 2, [78, 88, 51, 48, 48, 0]⟩, .plain ⟨0x111, 4, [186]⟩, .note secondNote]

private theorem second_note : secondNote.StoredWith (fun pos f place => SamsungFour secondFile 0xa021 false [3000, 2048, 2048, 4200] pos f place ∧ SamsungFour secondFile 0xa028 false [0, 10, 20, 30] pos f place) 10 secondFile 124 0 := by
  refine ⟨by decide, by decide +kernel, by decide, by decide +kernel, by decide +kernel, ?_⟩
  intro i it hi
  match i with
  | 0 => injection hi with hi; subst hi; exact ⟨⟨⟨by decide, by decide, by decide +kernel, by decide +kernel, by decide +kernel, by decide +kernel, by decide +kernel, by decide +kernel, fun h => absurd h (by decide +kernel), fun _ => ⟨30, by decide, by decide +kernel, by decide +kernel⟩⟩, by decide, by decide⟩, fun _ => by decide +kernel, fun h => absurd h (by decide)⟩
  | 1 => injection hi with hi; subst hi; exact ⟨⟨⟨by decide, by decide, by decide +kernel, by decide +kernel, by decide +kernel, by decide +kernel, by decide +kernel, by decide +kernel, fun h => absurd h (by decide +kernel), fun _ => ⟨46, by decide, by decide +kernel, by decide +kernel⟩⟩, by decide, by decide⟩, fun h => absurd h (by decide), fun _ => by decide +kernel⟩
  | i + 2 => cases hi

private theorem second_stored : TiffFileWith (fun pos f place => SamsungFour secondFile 0xa021 false [3000, 2048, 2048, 4200] pos f place ∧ SamsungFour secondFile 0xa028 false [0, 10, 20, 30] pos f place) 11 false secondFile [secondMain] := by
  refine ⟨by decide +kernel, by decide +kernel, 8, by decide, by decide +kernel, rfl, ?_⟩
  refine ⟨by decide, by decide +kernel, by decide, by decide +kernel, by decide +kernel, ?_⟩
  intro i it hi
  match i with
  | 0 => injection hi with hi; subst hi; exact ⟨⟨⟨by decide, by decide, by decide, by decide, by decide +kernel, by decide +kernel, by decide +kernel, by decide +kernel, fun _ => by decide +kernel, fun h => absurd h (by decide +kernel)⟩, by decide, by decide⟩, ⟨fun h => absurd h (by decide), fun h => absurd h (by decide)⟩⟩
  | 1 => injection hi with hi; subst hi; exact ⟨⟨⟨by decide, by decide, by decide, by decide, by decide +kernel, by decide +kernel, by decide +kernel, by decide +kernel, fun _ => by decide +kernel, fun h => absurd h (by decide +kernel)⟩, by decide, by decide⟩, ⟨fun h => absurd h (by decide), fun h => absurd h (by decide)⟩⟩
  | 2 => injection hi with hi; subst hi; exact ⟨⟨⟨by decide, by decide, by decide, by decide, by decide +kernel, by decide +kernel, by decide +kernel, by decide +kernel, fun _ => by decide +kernel, fun h => absurd h (by decide +kernel)⟩, by decide, by decide⟩, ⟨fun h => absurd h (by decide), fun h => absurd h (by decide)⟩⟩
  | 3 => injection hi with hi; subst hi; exact ⟨⟨⟨by decide, by decide, by decide, by decide, by decide +kernel, by decide +kernel, by decide +kernel, by decide +kernel, fun _ => by decide +kernel, fun h => absurd h (by decide +kernel)⟩, by decide, by decide⟩, ⟨fun h => absurd h (by decide), fun h => absurd h (by decide)⟩⟩
  | 4 => injection hi with hi; subst hi; exact ⟨⟨⟨by decide, by decide, by decide +kernel, by decide +kernel, by decide +kernel, by decide +kernel, by decide +kernel, by decide +kernel, fun h => absurd h (by decide +kernel), fun _ => ⟨110, by decide, by decide +kernel, by decide +kernel⟩⟩, by decide, by decide⟩, ⟨fun h => absurd h (by decide), fun h => absurd h (by decide)⟩⟩
  | 5 => injection hi with hi; subst hi; exact ⟨⟨⟨by decide, by decide, by decide +kernel, by decide +kernel, by decide +kernel, by decide +kernel, by decide +kernel, by decide +kernel, fun h => absurd h (by decide +kernel), fun _ => ⟨118, by decide, by decide +kernel, by decide +kernel⟩⟩, by decide, by decide⟩, ⟨fun h => absurd h (by decide), fun h => absurd h (by decide)⟩⟩
  | 6 => injection hi with hi; subst hi; exact ⟨⟨⟨by decide, by decide, by decide, by decide, by decide +kernel, by decide +kernel, by decide +kernel, by decide +kernel, fun _ => by decide +kernel, fun h => absurd h (by decide +kernel)⟩, by decide, by decide⟩, ⟨fun h => absurd h (by decide), fun h => absurd h (by decide)⟩⟩
  | 7 => injection hi with hi; subst hi; exact ⟨⟨0x927c, 7, [2, 0, 33, 160, 4, 0, 4, 0, 0, 0, 30, 0, 0, 0, 40, 160, 4, 0, 4, 0, 0, 0, 46, 0, 0, 0, 0, 0, 0, 0, 184, 11, 0, 0, 0, 8, 0, 0, 0, 8, 0, 0, 104, 16, 0, 0, 0, 0, 0, 0, 10, 0, 0, 0, 20, 0, 0, 0, 30, 0, 0, 0]⟩, rfl, by decide +kernel, ⟨by decide, by decide, by decide +kernel, by decide +kernel, by decide +kernel, by decide +kernel, by decide +kernel, by decide +kernel, fun h => absurd h (by decide +kernel), fun _ => ⟨124, by decide, by decide +kernel, by decide +kernel⟩⟩,
      124, secondFile, 124, by decide +kernel, by decide, by decide +kernel, .headed [] 0 (by decide) (by decide +kernel), 0, second_note⟩
  | i + 8 => cases hi

private theorem second_lacks {tag : Nat} (h1 : secondMain.field tag = none) (h2 : secondNote.field tag = none) : (fileRoot false [secondMain]).Lacks tag :=
  lacks_two (sub := secondNote) rfl rfl h1 h2

private theorem second_camera : CameraFile secondFile false [secondMain] (b! "SAMSUNG") (b! "NX300") none where
  tiff := tiff_with second_stored
  few := by decide
  notCiff := by decide +kernel
  notDng := second_lacks rfl rfl
  make := ⟨⟨by decide, by decide, by decide⟩, false, _, first_main rfl, rfl, 0, 0, [0], Or.inr rfl, rfl⟩
  model := ⟨⟨by decide, by decide, by decide⟩, false, _, first_main rfl, rfl, 0, 0, [0], Or.inr rfl, rfl⟩
  orientation := second_lacks rfl rfl

private theorem second_levels : SamsungLevels secondFile false [secondMain] [3000, 2048, 2048, 4200] [0, 10, 20, 30] := by
  refine ⟨rfl, rfl, by decide, false, ⟨0xa021, 4, [3, 196866, 1, 12]⟩, false, ⟨0xa028, 4, [196867, 1, 32772, 131343]⟩, ?_, rfl, rfl, ?_, rfl, rfl, second_stored⟩
  · exact firstIn_child (pre := []) (c := secondMain) rfl rfl (by simp) (firstIn_child (pre := []) (c := secondNote) rfl rfl (by simp) (first_here (d := secondNote) rfl))
  · exact firstIn_child (pre := []) (c := secondMain) rfl rfl (by simp) (firstIn_child (pre := []) (c := secondNote) rfl rfl (by simp) (first_here (d := secondNote) rfl))

/-- The second compression. -/
example (env : Platform) (b : Build) (cam : Camera) (hb : NoBlackAreas cam) (hh : cam.hints = []) :
    (loaderOf (b! "SAMSUNG") (b! "NX300") [] cam).decodeSafe env b (.ok secondFile) =
      .ok (pictureOf cam .unknown 4 3 [(F32.ofNat 3000).sub (F32.ofNat 0), (F32.ofNat 2048).sub (F32.ofNat 10),
        (F32.ofNat 4200).sub (F32.ofNat 30), .nan] cam.blacklevels [300, 309, 336, 381, 370, 379, 406, 451, 440, 449, 476, 521]) := by
  refine (srw_whole_file (loaderOf (b! "SAMSUNG") (b! "NX300") [] cam) env b second_camera (by decide) rfl
    (firstIn_child (pre := []) (c := secondMain) rfl rfl (by simp) (firstIn_root rfl))
    (numbers_here (f := ⟨0x100, 3, [4]⟩) rfl (by decide)) (numbers_here (f := ⟨0x101, 3, [3]⟩) rfl (by decide))
    (numbers_here (f := ⟨0x111, 4, [186]⟩) rfl (by decide)) (numbers_here (f := ⟨0x103, 3, [32772]⟩) rfl (by decide))
    (numbers_here (f := ⟨0x102, 3, [12]⟩) rfl (by decide)) (by decide) (by decide +kernel)
    (.second 12 secondImage [] (fun r c hr hc => by unfold secondImage; have : c * c ≤ 15 * 15 := Nat.mul_le_mul (by omega) (by omega); omega) (by decide +kernel))
    second_levels (hb.blacks _ _ _)).trans ?_
  exact congrArg (fun x => Except.ok (pictureOf _ _ _ _ _ _ x)) (by decide +kernel)

private def firstPad (r : Nat) : Bytes := List.replicate (4 - (packBits (srw1Line 16 (srw1Stored secondImage) (fun _ _ => 0) (fun _ => srw1Plain) r)).length % 4) 0

private def firstBytes : Bytes := encodeSrw1 16 2 secondImage (fun _ _ => 0) (fun _ _ => srw1Plain) firstPad

private def firstTable : Bytes := srw1Table 16 2 secondImage (fun _ _ => 0) (fun _ _ => srw1Plain) firstPad

private def firstFile : Bytes :=
  [73, 73, 42, 0, 8, 0, 0, 0] ++
  [9, 0] ++
  [0, 1, 3, 0, 1, 0, 0, 0, 16, 0, 0, 0] ++
  [1, 1, 3, 0, 1, 0, 0, 0, 2, 0, 0, 0] ++
  [2, 1, 3, 0, 1, 0, 0, 0, 12, 0, 0, 0] ++
  [3, 1, 3, 0, 1, 0, 0, 0, 2, 128, 0, 0] ++
  [15, 1, 2, 0, 8, 0, 0, 0, 122, 0, 0, 0] ++
  [16, 1, 2, 0, 7, 0, 0, 0, 130, 0, 0, 0] ++
  [17, 1, 4, 0, 1, 0, 0, 0, 207, 0, 0, 0] ++
  [124, 146, 7, 0, 62, 0, 0, 0, 137, 0, 0, 0] ++
  [16, 160, 4, 0, 1, 0, 0, 0, 199, 0, 0, 0] ++
  [0, 0, 0, 0] ++
  [83, 65, 77, 83, 85, 78, 71, 0] ++
  [78, 88, 51, 48, 48, 77, 0] ++
  [2, 0, 33, 160, 4, 0, 4, 0, 0, 0, 30, 0, 0, 0, 40, 160, 4, 0, 4, 0, 0, 0, 46, 0, 0, 0, 0, 0, 0, 0, 184, 11, 0, 0, 0, 8, 0, 0, 0, 8, 0, 0, 104, 16, 0, 0, 0, 0, 0, 0, 10, 0, 0, 0, 20, 0, 0, 0, 30, 0, 0, 0] ++
  (firstTable ++ firstBytes)

private def firstNote : Dir := .mk false [.plain ⟨0xa021, 4, [2, 196866, 1, 12]⟩, .plain ⟨0xa028, 4, [196867, 1, 32770, 131343]⟩]

private def firstMain : Dir := .mk false [.plain ⟨0x100, 3, [16]⟩, .plain ⟨0x101, 3, [2]⟩, .plain ⟨0x102, 3, [12]⟩, .plain ⟨0x103, 3, [32770]⟩, .plain ⟨0x10f, 2, [83, 65, 77, 83, 85, 78, 71, 0]⟩, .plain ⟨0x110, 2, [78, 88, 51, 48, 48, 77, 0]⟩, .plain ⟨0x111, 4, [207]⟩, .note firstNote, .plain ⟨0xa010, 4, [199]⟩]

private theorem first_note : firstNote.StoredWith (fun pos f place => SamsungFour firstFile 0xa021 false [3000, 2048, 2048, 4200] pos f place ∧ SamsungFour firstFile 0xa028 false [0, 10, 20, 30] pos f place) 10 firstFile 137 0 := by
  refine ⟨by decide, by decide +kernel, by decide, by decide +kernel, by decide +kernel, ?_⟩
  intro i it hi
  match i with
  | 0 => injection hi with hi; subst hi; exact ⟨⟨⟨by decide, by decide, by decide +kernel, by decide +kernel, by decide +kernel, by decide +kernel, by decide +kernel, by decide +kernel, fun h => absurd h (by decide +kernel), fun _ => ⟨30, by decide, by decide +kernel, by decide +kernel⟩⟩, by decide, by decide⟩, fun _ => by decide +kernel, fun h => absurd h (by decide)⟩
  | 1 => injection hi with hi; subst hi; exact ⟨⟨⟨by decide, by decide, by decide +kernel, by decide +kernel, by decide +kernel, by decide +kernel, by decide +kernel, by decide +kernel, fun h => absurd h (by decide +kernel), fun _ => ⟨46, by decide, by decide +kernel, by decide +kernel⟩⟩, by decide, by decide⟩, fun h => absurd h (by decide), fun _ => by decide +kernel⟩
  | i + 2 => cases hi

private theorem first_stored : TiffFileWith (fun pos f place => SamsungFour firstFile 0xa021 false [3000, 2048, 2048, 4200] pos f place ∧ SamsungFour firstFile 0xa028 false [0, 10, 20, 30] pos f place) 11 false firstFile [firstMain] := by
  refine ⟨by decide +kernel, by decide +kernel, 8, by decide, by decide +kernel, rfl, ?_⟩
  refine ⟨by decide, by decide +kernel, by decide, by decide +kernel, by decide +kernel, ?_⟩
  intro i it hi
  match i with
  | 0 => injection hi with hi; subst hi; exact ⟨⟨⟨by decide, by decide, by decide, by decide, by decide +kernel, by decide +kernel, by decide +kernel, by decide +kernel, fun _ => by decide +kernel, fun h => absurd h (by decide +kernel)⟩, by decide, by decide⟩, ⟨fun h => absurd h (by decide), fun h => absurd h (by decide)⟩⟩
  | 1 => injection hi with hi; subst hi; exact ⟨⟨⟨by decide, by decide, by decide, by decide, by decide +kernel, by decide +kernel, by decide +kernel, by decide +kernel, fun _ => by decide +kernel, fun h => absurd h (by decide +kernel)⟩, by decide, by decide⟩, ⟨fun h => absurd h (by decide), fun h => absurd h (by decide)⟩⟩
  | 2 => injection hi with hi; subst hi; exact ⟨⟨⟨by decide, by decide, by decide, by decide, by decide +kernel, by decide +kernel, by decide +kernel, by decide +kernel, fun _ => by decide +kernel, fun h => absurd h (by decide +kernel)⟩, by decide, by decide⟩, ⟨fun h => absurd h (by decide), fun h => absurd h (by decide)⟩⟩
  | 3 => injection hi with hi; subst hi; exact ⟨⟨⟨by decide, by decide, by decide, by decide, by decide +kernel, by decide +kernel, by decide +kernel, by decide +kernel, fun _ => by decide +kernel, fun h => absurd h (by decide +kernel)⟩, by decide, by decide⟩, ⟨fun h => absurd h (by decide), fun h => absurd h (by decide)⟩⟩
  | 4 => injection hi with hi; subst hi; exact ⟨⟨⟨by decide, by decide, by decide +kernel, by decide +kernel, by decide +kernel, by decide +kernel, by decide +kernel, by decide +kernel, fun h => absurd h (by decide +kernel), fun _ => ⟨122, by decide, by decide +kernel, by decide +kernel⟩⟩, by decide, by decide⟩, ⟨fun h => absurd h (by decide), fun h => absurd h (by decide)⟩⟩
  | 5 => injection hi with hi; subst hi; exact ⟨⟨⟨by decide, by decide, by decide +kernel, by decide +kernel, by decide +kernel, by decide +kernel, by decide +kernel, by decide +kernel, fun h => absurd h (by decide +kernel), fun _ => ⟨130, by decide, by decide +kernel, by decide +kernel⟩⟩, by decide, by decide⟩, ⟨fun h => absurd h (by decide), fun h => absurd h (by decide)⟩⟩
  | 6 => injection hi with hi; subst hi; exact ⟨⟨⟨by decide, by decide, by decide, by decide, by decide +kernel, by decide +kernel, by decide +kernel, by decide +kernel, fun _ => by decide +kernel, fun h => absurd h (by decide +kernel)⟩, by decide, by decide⟩, ⟨fun h => absurd h (by decide), fun h => absurd h (by decide)⟩⟩
  | 7 => injection hi with hi; subst hi; exact ⟨⟨0x927c, 7, [2, 0, 33, 160, 4, 0, 4, 0, 0, 0, 30, 0, 0, 0, 40, 160, 4, 0, 4, 0, 0, 0, 46, 0, 0, 0, 0, 0, 0, 0, 184, 11, 0, 0, 0, 8, 0, 0, 0, 8, 0, 0, 104, 16, 0, 0, 0, 0, 0, 0, 10, 0, 0, 0, 20, 0, 0, 0, 30, 0, 0, 0]⟩, rfl, by decide +kernel, ⟨by decide, by decide, by decide +kernel, by decide +kernel, by decide +kernel, by decide +kernel, by decide +kernel, by decide +kernel, fun h => absurd h (by decide +kernel), fun _ => ⟨137, by decide, by decide +kernel, by decide +kernel⟩⟩,
      137, firstFile, 137, by decide +kernel, by decide, by decide +kernel, .headed [] 0 (by decide) (by decide +kernel), 0, first_note⟩
  | 8 => injection hi with hi; subst hi; exact ⟨⟨⟨by decide, by decide, by decide, by decide, by decide +kernel, by decide +kernel, by decide +kernel, by decide +kernel, fun _ => by decide +kernel, fun h => absurd h (by decide +kernel)⟩, by decide, by decide⟩, ⟨fun h => absurd h (by decide), fun h => absurd h (by decide)⟩⟩
  | i + 9 => cases hi

private theorem first_lacks {tag : Nat} (h1 : firstMain.field tag = none) (h2 : firstNote.field tag = none) : (fileRoot false [firstMain]).Lacks tag :=
  lacks_two (sub := firstNote) rfl rfl h1 h2

private theorem first_camera : CameraFile firstFile false [firstMain] (b! "SAMSUNG") (b! "NX300M") none where
  tiff := tiff_with first_stored
  few := by decide
  notCiff := by decide +kernel
  notDng := first_lacks rfl rfl
  make := ⟨⟨by decide, by decide, by decide⟩, false, _, first_main rfl, rfl, 0, 0, [0], Or.inr rfl, rfl⟩
  model := ⟨⟨by decide, by decide, by decide⟩, false, _, first_main rfl, rfl, 0, 0, [0], Or.inr rfl, rfl⟩
  orientation := first_lacks rfl rfl

private theorem first_levels : SamsungLevels firstFile false [firstMain] [3000, 2048, 2048, 4200] [0, 10, 20, 30] := by
  refine ⟨rfl, rfl, by decide, false, ⟨0xa021, 4, [2, 196866, 1, 12]⟩, false, ⟨0xa028, 4, [196867, 1, 32770, 131343]⟩, ?_, rfl, rfl, ?_, rfl, rfl, first_stored⟩
  · exact firstIn_child (pre := []) (c := firstMain) rfl rfl (by simp) (firstIn_child (pre := []) (c := firstNote) rfl rfl (by simp) (first_here (d := firstNote) rfl))
  · exact firstIn_child (pre := []) (c := firstMain) rfl rfl (by simp) (firstIn_child (pre := []) (c := firstNote) rfl rfl (by simp) (first_here (d := firstNote) rfl))

/-- The first compression, with a table of the lines. -/
example (env : Platform) (b : Build) (cam : Camera) (hb : NoBlackAreas cam) (hh : cam.hints = []) :
    (loaderOf (b! "SAMSUNG") (b! "NX300M") [] cam).decodeSafe env b (.ok firstFile) =
      .ok (pictureOf cam .unknown 16 2 [(F32.ofNat 3000).sub (F32.ofNat 0), (F32.ofNat 2048).sub (F32.ofNat 10),
        (F32.ofNat 4200).sub (F32.ofNat 30), .nan] cam.blacklevels [300, 309, 336, 381, 444, 525, 624, 741, 876, 1029, 1200, 1389, 1596, 1821, 2064, 2325, 370, 379, 406, 451, 514, 595, 694, 811, 946, 1099, 1270, 1459, 1666, 1891, 2134, 2395]) := by
  refine (srw_whole_file (loaderOf (b! "SAMSUNG") (b! "NX300M") [] cam) env b first_camera (by decide) rfl
    (firstIn_child (pre := []) (c := firstMain) rfl rfl (by simp) (firstIn_root rfl))
    (numbers_here (f := ⟨0x100, 3, [16]⟩) rfl (by decide)) (numbers_here (f := ⟨0x101, 3, [2]⟩) rfl (by decide))
    (numbers_here (f := ⟨0x111, 4, [207]⟩) rfl (by decide)) (numbers_here (f := ⟨0x103, 3, [32770]⟩) rfl (by decide))
    (numbers_here (f := ⟨0x102, 3, [12]⟩) rfl (by decide)) (by decide) (by decide +kernel)
    (.first 12 secondImage (fun _ _ => 0) (fun _ _ => srw1Plain) firstPad [] firstBytes 199 [] (numbers_here (f := ⟨0xa010, 4, [199]⟩) rfl (by decide)) (by decide +kernel) (by decide) (by decide) (by decide)
      (fun r c hr hc => by unfold secondImage; have : c * c ≤ 15 * 15 := Nat.mul_le_mul (by omega) (by omega); omega) (by decide +kernel) (by decide +kernel) (by decide +kernel) (by decide +kernel) (by decide +kernel))
    first_levels (hb.blacks _ _ _)).trans ?_
  exact congrArg (fun x => Except.ok (pictureOf _ _ _ _ _ _ x)) (by decide +kernel)

end Examples

end Props

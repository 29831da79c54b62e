import Verif.Spec.SonyFile
import Verif.Props.Sony
import Verif.Props.Arw1
import Verif.Props.Arw2
import Verif.Props.Packed
import Verif.Lemmas.LjpegFile
import Verif.Lemmas.OpenFile
import Verif.Lemmas.FileExample
/-!
# C76: whole files of Sony

From the bytes of a file, with its encrypted white balance, to the picture the public function returns.
-/

namespace Props
open Rust Spec Model Model.Ljpeg

/-! ## The white balance -/

private theorem part_pad {base : Nat} {big : Bool} {buf pad : Bytes} {pos : Nat} {f : Field} (h : f.StoredFrom base big buf pos) :
    f.StoredFrom base big (buf ++ pad) pos where
  tag_lt := h.tag_lt
  typ_ok := h.typ_ok
  count_lt := h.count_lt
  fits := h.fits
  tag := bytesAt_pad h.tag (encode_length _ _ _)
  typ := bytesAt_pad h.typ (encode_length _ _ _)
  count := bytesAt_pad h.count (encode_length _ _ _)
  room := by have := h.room; rw [List.length_append]; omega
  inline := fun hl => bytesAt_pad (h.inline hl) rfl
  outside := fun hl => by
    obtain ⟨o, h1, h2, h3⟩ := h.outside hl
    exact ⟨o, h1, bytesAt_pad h2 (encode_length _ _ _), bytesAt_pad h3 rfl⟩

private theorem plain_pad {base : Nat} {big : Bool} {buf : Bytes} {pos : Nat} {fields : List Field} (pad : Bytes) (h : PlainDirAt base big buf pos fields) :
    PlainDirAt base big (buf ++ pad) pos fields where
  few := h.few
  room := by have := h.room; rw [List.length_append]; omega
  count := bytesAt_pad h.count (encode_length _ _ _)
  stored := fun i f hf => by
    obtain ⟨h1, h2, h3⟩ := h.stored i f hf
    exact ⟨part_pad h1, h2, h3⟩

/-- An encrypted block is decrypted, with some bytes behind it. -/
private theorem decrypts {contents block : Bytes} {pos key : Nat} (h : EncryptedAt contents pos key block) (h0 : 0 < block.length) :
    ∃ more, Arw.sonyDecrypt (contents ++ List.replicate 16 0) pos block.length key = .ok (block ++ more) := by
  have hin : pos + block.length ≤ contents.length := by
    have := h (block.length - 1) _ (List.getElem?_eq_getElem (by omega))
    have := (List.getElem?_eq_some_iff.mp this).1
    omega
  refine ⟨(decrypted (contents ++ List.replicate 16 0) pos (4 * (block.length / 4 + 1)) key).drop block.length, ?_⟩
  rw [sony_decrypt_stream, if_pos (by simp; omega)]
  have hl : (decrypted (contents ++ List.replicate 16 0) pos (4 * (block.length / 4 + 1)) key).length = 4 * (block.length / 4 + 1) := by simp [decrypted]
  have : block = (decrypted (contents ++ List.replicate 16 0) pos (4 * (block.length / 4 + 1)) key).take block.length := by
    apply List.ext_getElem?
    intro i
    by_cases hi : i < block.length
    · rw [List.getElem?_take, if_pos hi, List.getElem?_eq_getElem hi]
      unfold decrypted
      rw [List.getElem?_map, List.getElem?_range (by omega), Option.map_some, List.getD_eq_getElem?_getD, List.getElem?_append_left (by omega),
        h i _ (List.getElem?_eq_getElem hi), Option.getD_some, UInt8.xor_assoc, UInt8.xor_self, UInt8.xor_zero]
    · rw [List.getElem?_eq_none (by omega), List.getElem?_eq_none (by rw [List.length_take]; omega)]
  generalize decrypted (contents ++ List.replicate 16 0) pos (4 * (block.length / 4 + 1)) key = dec at this
  refine congrArg Except.ok ?_
  exact (List.take_append_drop block.length dec).symm.trans (congrArg (· ++ dec.drop block.length) this.symm)

private theorem find_levels {d : Dir} {ifd : TiffIFD} (hh : Holds d ifd) {tag : Nat} (hk : tag ∈ knownTags) {values : List Nat} (h : d.Levels tag values) :
    ∃ ent, TiffIFD.findEntry tag ifd = some ent ∧ ∀ i (hi : i < values.length), ent.getU32 i = .ok values[i] := by
  obtain ⟨big, f, h1, h2, rfl⟩ := h
  obtain ⟨ent, e1, e2⟩ := find_first hh hk h1
  refine ⟨ent, e1, fun i hi => e2.values ?_ i hi⟩
  rcases h2 with h2 | ⟨h2, _⟩ <;> rw [h2] <;> decide

/-- The white balance is found and decrypted. -/
theorem sony_white (b : Build) {contents : Bytes} {root : Dir} {tree : TiffIFD} (hh : Holds root tree) {red green blue : Nat} (h : SonyWhite contents root red green blue) :
    Arw.getWb b (contents ++ List.replicate 16 0) tree = .ok [F32.ofNat red, F32.ofNat green, F32.ofNat blue, .nan] := by
  obtain ⟨big, f, rest, area, d, next, pos, length, key, block, fields, hf, hfb, harea, hbig, hd, hpos, hlength, hkey, hlen, henc, hdir, hlev⟩ := h.stored
  obtain ⟨ent, e1, e2⟩ := find_first hh (tag := 0xc634) (by decide) hf
  obtain ⟨priv, p1, p2⟩ := tiff_dir_roundtrip b (contents ++ List.replicate 16 0) area 0 d next (dir_pad _ _ _ _ _ _ hd)
  obtain ⟨more, m1⟩ := decrypts henc (by have := hdir.room; omega)
  obtain ⟨dec, d1, d2⟩ := tiff_part_roundtrip b pos (block ++ more) 0 0 false fields (plain_pad more hdir)
  rw [hbig] at p1
  unfold Arw.getWb TiffIFD.fetchTag
  rw [show TiffIFD.findEntry Tag.DNGPrivateArea tree = some ent from e1]
  dsimp only
  have hforce : ent.getForceU32 0 = .ok area := by
    unfold TiffEntry.getForceU32
    have h8 : ent.data = encode big 4 area ++ rest := e2.data.trans hfb
    rw [ru32_number (by rw [h8, List.length_append, encode_length]; omega), e2.order, h8]
    have : bytesAt (encode big 4 area ++ rest) (0 * 4) 4 = encode big 4 area := by
      unfold bytesAt
      rw [Nat.zero_mul, List.drop_zero, List.take_append_of_le_length (by rw [encode_length]), List.take_of_length_le (by rw [encode_length])]
    rw [this, number_encode _ _ _ (by omega)]
  rw [ok_bind, hforce, ok_bind, show TiffIFD.parse b (contents ++ List.replicate 16 0) area 0 0 LITTLE_ENDIAN = .ok priv from p1, ok_bind,
    show fetchUsize priv Tag.SonyOffset = _ from fetch_number p2 (by decide) hpos, ok_bind,
    show fetchUsize priv Tag.SonyLength = _ from fetch_number p2 (by decide) hlength, ok_bind,
    show fetchUsize priv Tag.SonyKey = _ from fetch_number p2 (by decide) hkey, ok_bind, ← hlen, m1, ok_bind,
    show TiffIFD.parse b (block ++ more) 0 pos 0 LITTLE_ENDIAN = .ok dec from d1]
  show (match dec.findEntry Tag.SonyGRBG with | some levels => _ | none => _) = _
  rcases hlev with ⟨g2, hlev⟩ | ⟨hlack, g2, hlev⟩
  · obtain ⟨levels, l1, l2⟩ := find_levels d2 (tag := 0x7303) (by decide) hlev
    rw [show TiffIFD.findEntry Tag.SonyGRBG dec = some levels from l1]
    dsimp only
    rw [l2 1 (by simp), ok_bind, l2 0 (by simp), ok_bind, l2 2 (by simp), ok_bind]
    rfl
  · obtain ⟨levels, l1, l2⟩ := find_levels d2 (tag := 0x7313) (by decide) hlev
    rw [show TiffIFD.findEntry Tag.SonyGRBG dec = none from find_lacks d2 hlack]
    dsimp only
    rw [show TiffIFD.findEntry Tag.SonyRGGB dec = some levels from l1]
    dsimp only
    rw [l2 0 (by simp), ok_bind, l2 1 (by simp), ok_bind, l2 3 (by simp), ok_bind]
    rfl

/-! ## The picture -/

/-- The number of bits of a sample: what the camera database says, or the field of the file. -/
def SonyBits (cam : Camera) (raw : Dir) (bits : Nat) : Prop := (cam.bps = bits ∧ bits ≠ 0) ∨ (cam.bps = 0 ∧ raw.Numbers 0x102 [bits])

private theorem turned_same (cam : Camera) (o : Option Nat) : (turned cam o).bps = cam.bps ∧ (turned cam o).model = cam.model := by
  unfold turned; cases o <;> exact ⟨rfl, rfl⟩

private theorem dirs_of {root ifd : TiffIFD} {tag : Nat} (h : root.fetchIfd tag = .ok ifd) : ∃ t, TiffIFD.findIfdsWithTag tag root = ifd :: t := by
  unfold TiffIFD.fetchIfd TiffIFD.findFirstIfd at h
  dsimp only at h
  generalize hl : TiffIFD.findIfdsWithTag tag root = l at h
  cases l with
  | nil => cases h
  | cons a t => injection h with h; exact ⟨t, by rw [← h]⟩

private theorem no_dirs_with {d : Dir} {tag : Nat} {ifd : TiffIFD} (hh : Holds d ifd) (hl : d.Lacks tag) : TiffIFD.findIfdsWithTag tag ifd = [] := by
  rw [List.eq_nil_iff_forall_not_mem]
  intro x hx
  obtain ⟨hx1, e, hx2⟩ := (find_ifds_all_and_only _ _ _).mp hx
  rw [(find_entry_none tag _).mp (find_lacks hh hl) x hx1] at hx2
  cases hx2

/-- All but the pixels. -/
private theorem arw_opens (s : RawLoader) (env : Platform) (b : Build) {contents : Bytes} {big : Bool} {dirs : List Dir} {model : Bytes} {o : Option Nat}
    (h : CameraFile contents big dirs (b! "SONY") model o) (h560 : model ≠ b! "DCS560C") {cam : Camera} (hcam : Map.get s.cameras (b! "SONY", model, []) = some cam)
    {raw : Dir} (hraw : (fileRoot big dirs).FirstWith 0x111 raw) {w ht offset count compression bits : Nat}
    (h1 : raw.Numbers 0x100 [w]) (h2 : raw.Numbers 0x101 [ht]) (h3 : raw.Numbers 0x111 [offset]) (h4 : raw.Numbers 0x117 [count])
    (h5 : raw.Numbers 0x103 [compression]) (hbits : SonyBits cam raw bits) {red green blue : Nat} (hwb : SonyWhite contents (fileRoot big dirs) red green blue)
    (ho : offset ≤ contents.length) :
    ∃ ifd, Holds raw ifd ∧ ∀ (ht' : Nat) (img : Nat → Nat → Nat) (blacks : List Nat),
      Arw.pixels b ifd (turned cam o) (contents.drop offset ++ List.replicate 16 0) w ht count compression bits = .ok (ht', raster w ht' img) →
      BlacksOf cam w ht' img blacks →
      s.decodeSafe env b (.ok contents) = .ok (pictureOf cam (orientationOf o) w ht' [F32.ofNat red, F32.ofNat green, F32.ofNat blue, .nan] blacks (raster w ht' img)) := by
  obtain ⟨root, hh, hc, hd⟩ := camera_decodes s env b h (k := .arw) (by decide) h560
  obtain ⟨ifd, f1, f2⟩ := fetch_dir hh (tag := 0x111) (by decide) hraw
  obtain ⟨t, hlist⟩ := dirs_of f1
  refine ⟨ifd, f2, fun ht' img blacks hpix hb => ?_⟩
  have rest : (do
      let src ← sliceFrom (contents ++ List.replicate 16 0) offset
      let (height, image) ← Arw.pixels b ifd (turned cam o) src w ht count compression bits
      let wb ← Arw.getWb b (contents ++ List.replicate 16 0) root
      okImage b (turned cam o) w height wb image) = .ok (pictureOf cam (orientationOf o) w ht' [F32.ofNat red, F32.ofNat green, F32.ofNat blue, .nan] blacks (raster w ht' img)) := by
    rw [sliceFrom_le (by simp; omega), ok_bind, List.drop_append_of_le_length ho, hpix, ok_bind]
    dsimp only
    rw [sony_white b hh hwb, ok_bind]
    exact ok_image b o hb _
  apply hd
  intro d hk ht''
  cases d <;> cases hk
  injection ht'' with ht''; subst ht''
  show Arw.image b (contents ++ List.replicate 16 0) _ s = _
  unfold Arw.image RawLoader.checkSupported
  rw [hc [] cam hcam, ok_bind, show TiffIFD.findIfdsWithTag Tag.StripOffsets _ = _ from hlist]
  dsimp only
  rw [show fetchUsize ifd Tag.ImageWidth = _ from fetch_number f2 (by decide) h1, ok_bind,
    show fetchUsize ifd Tag.ImageLength = _ from fetch_number f2 (by decide) h2, ok_bind,
    show fetchUsize ifd Tag.StripOffsets = _ from fetch_number f2 (by decide) h3, ok_bind,
    show fetchUsize ifd Tag.StripByteCounts = _ from fetch_number f2 (by decide) h4, ok_bind,
    show fetchUsize ifd Tag.Compression = _ from fetch_number f2 (by decide) h5, ok_bind]
  rcases hbits with ⟨hb1, hb2⟩ | ⟨hb1, hb2⟩
  · rw [if_pos (by rw [(turned_same cam o).1]; omega), (turned_same cam o).1, hb1, ok_bind]
    exact rest
  · rw [if_neg (by rw [(turned_same cam o).1]; omega), show fetchUsize ifd Tag.BitsPerSample = _ from fetch_number f2 (by decide) hb2, ok_bind]
    exact rest

private theorem bytes_from (contents : Bytes) (offset i : Nat) : bytesOf (contents.drop offset ++ List.replicate 16 0) i = bytesOf contents (offset + i) := by
  rw [bytesOf_zeros]
  unfold bytesOf
  rw [List.getElem?_drop]

private theorem field_from (contents : Bytes) (offset s k : Nat) :
    fieldLSB (bytesOf (contents.drop offset ++ List.replicate 16 0)) s k = fieldLSB (bytesOf contents) (8 * offset + s) k := by
  induction k with
  | zero => rfl
  | succ k ih =>
    unfold fieldLSB
    rw [ih]
    unfold bitLSB
    rw [bytes_from, show (8 * offset + s + k) / 8 = offset + (s + k) / 8 by omega, show (8 * offset + s + k) % 8 = (s + k) % 8 by omega]

private theorem arw1_bits (w h : Nat) (img : Nat → Nat → Nat) : ∀ v ∈ encodeArw1 w h img, v ≤ 1 := by
  intro v hv
  unfold encodeArw1 at hv
  obtain ⟨k, _, hv⟩ := List.mem_flatMap.mp hv
  unfold arw1Code at hv
  rcases List.mem_append.mp hv with hv | hv
  · generalize category _ = n at hv
    match n with
    | 0 | 1 | 2 | 3 => simp [arw1Prefix] at hv; omega
    | n + 4 =>
      simp only [arw1Prefix, List.mem_append, List.mem_cons, List.mem_replicate, List.not_mem_nil, or_false] at hv
      omega
  · exact bitsOf_le _ _ v hv

/-- What the directories say: the first directory with a strip has the size of the picture, the position and the length of the strip, and the compression. -/
structure SonyStrip (root : Dir) (cam : Camera) (raw : Dir) (w ht offset count compression bits : Nat) : Prop where
  first : root.FirstWith 0x111 raw
  width : raw.Numbers 0x100 [w]
  height : raw.Numbers 0x101 [ht]
  position : raw.Numbers 0x111 [offset]
  length : raw.Numbers 0x117 [count]
  compression : raw.Numbers 0x103 [compression]
  bits : SonyBits cam raw bits

/-- **C76**, 16-bit words. -/
theorem arw_words_file (s : RawLoader) (env : Platform) (b : Build) {contents : Bytes} {big : Bool} {dirs : List Dir} {model : Bytes} {o : Option Nat}
    (h : CameraFile contents big dirs (b! "SONY") model o) (h560 : model ≠ b! "DCS560C") {cam : Camera} (hcam : Map.get s.cameras (b! "SONY", model, []) = some cam)
    (hr1 : cam.model ≠ b! "DSC-R1") {raw : Dir} {w ht offset count bits : Nat} (hs : SonyStrip (fileRoot big dirs) cam raw w ht offset count 1 bits)
    {red green blue : Nat} (hwb : SonyWhite contents (fileRoot big dirs) red green blue) (hw : 0 < w) (hlen : offset + 2 * (w * ht) ≤ contents.length)
    {blacks : List Nat} (hb : BlacksOf cam w ht (fun r c => bytesOf contents (offset + 2 * (r * w + c)) + 256 * bytesOf contents (offset + 2 * (r * w + c) + 1)) blacks) :
    s.decodeSafe env b (.ok contents) = .ok (pictureOf cam (orientationOf o) w ht [F32.ofNat red, F32.ofNat green, F32.ofNat blue, .nan] blacks
      (raster w ht fun r c => bytesOf contents (offset + 2 * (r * w + c)) + 256 * bytesOf contents (offset + 2 * (r * w + c) + 1))) := by
  obtain ⟨ifd, _, hd⟩ := arw_opens s env b h h560 hcam hs.first hs.width hs.height hs.position hs.length hs.compression hs.bits hwb (by omega)
  refine hd _ _ _ ?_ hb
  unfold Arw.pixels
  rw [if_pos rfl, if_neg (by rw [(turned_same cam o).2]; exact hr1), decode_16le_exact _ w ht hw (by simp; omega), ok_bind]
  refine congrArg (fun x => Except.ok (ht, x)) (raster_congr fun r c hr hc => ?_)
  rw [bytes_from, bytes_from, Nat.add_assoc offset]

/-- **C76**, packed 12-bit samples, the low bits first. -/
theorem arw_packed_file (s : RawLoader) (env : Platform) (b : Build) {contents : Bytes} {big : Bool} {dirs : List Dir} {model : Bytes} {o : Option Nat}
    (h : CameraFile contents big dirs (b! "SONY") model o) (h560 : model ≠ b! "DCS560C") {cam : Camera} (hcam : Map.get s.cameras (b! "SONY", model, []) = some cam)
    {raw : Dir} {w ht offset count : Nat} (hs : SonyStrip (fileRoot big dirs) cam raw w ht offset count 32767 12) (hcount : w * ht * 12 = count * 8)
    {red green blue : Nat} (hwb : SonyWhite contents (fileRoot big dirs) red green blue) (hw : 0 < w) (he : w % 2 = 0) (hlen : offset + count ≤ contents.length)
    {blacks : List Nat} (hb : BlacksOf cam w ht (fun r c => fieldLSB (bytesOf contents) (8 * offset + 12 * (r * w + c)) 12) blacks) :
    s.decodeSafe env b (.ok contents) = .ok (pictureOf cam (orientationOf o) w ht [F32.ofNat red, F32.ofNat green, F32.ofNat blue, .nan] blacks
      (raster w ht fun r c => fieldLSB (bytesOf contents) (8 * offset + 12 * (r * w + c)) 12)) := by
  obtain ⟨ifd, _, hd⟩ := arw_opens s env b h h560 hcam hs.first hs.width hs.height hs.position hs.length hs.compression hs.bits hwb (by omega)
  refine hd _ _ _ ?_ hb
  unfold Arw.pixels
  rw [if_neg (by decide), if_pos rfl, if_neg (fun hn => hn hcount), if_neg (by decide), if_pos rfl, decode_12le_exact _ w ht hw he (by simp; omega), ok_bind]
  exact congrArg (fun x => Except.ok (ht, x)) (raster_congr fun r c _ _ => field_from contents offset _ _)

/-- **C76**, the first compression. The strip is not as long as uncompressed data would be, and the picture has eight rows more than the directory says. -/
theorem arw_first_file (s : RawLoader) (env : Platform) (b : Build) {contents : Bytes} {big : Bool} {dirs : List Dir} {model : Bytes} {o : Option Nat}
    (h : CameraFile contents big dirs (b! "SONY") model o) (h560 : model ≠ b! "DCS560C") {cam : Camera} (hcam : Map.get s.cameras (b! "SONY", model, []) = some cam)
    {raw : Dir} {w ht offset count bits : Nat} (hs : SonyStrip (fileRoot big dirs) cam raw w ht offset count 32767 bits) (hcount : w * ht * bits ≠ count * 8)
    {red green blue : Nat} (hwb : SonyWhite contents (fileRoot big dirs) red green blue) (he : ht % 2 = 0) (img : Nat → Nat → Nat) (himg : ∀ r c, img r c < 65536)
    {blacks : List Nat} (hb : BlacksOf cam w (ht + 8) img blacks) (tail : Bytes) (ho : offset ≤ contents.length)
    (hdata : contents.drop offset = packBits (encodeArw1 w (ht + 8) img) ++ tail) :
    s.decodeSafe env b (.ok contents) = .ok (pictureOf cam (orientationOf o) w (ht + 8) [F32.ofNat red, F32.ofNat green, F32.ofNat blue, .nan] blacks
      (raster w (ht + 8) img)) := by
  obtain ⟨ifd, _, hd⟩ := arw_opens s env b h h560 hcam hs.first hs.width hs.height hs.position hs.length hs.compression hs.bits hwb ho
  refine hd _ _ _ ?_ hb
  unfold Arw.pixels
  rw [if_neg (by decide), if_pos rfl, if_pos hcount, hdata, List.append_assoc]
  rw [arw1_round_trip_partial b _ w (ht + 8) img (by omega) (by omega) himg (follows_packed (arw1_bits _ _ _) _).1 (by
    have hl : (encodeArw1 w (ht + 8) img).length ≤ 8 * (packBits (encodeArw1 w (ht + 8) img)).length := by
      unfold packBits; rw [List.length_map, List.length_range]; omega
    rw [List.length_append, List.length_append, List.length_replicate]
    omega), ok_bind]

/-- **C76**, the second compression, with the curve from the file. -/
theorem arw_second_file (s : RawLoader) (env : Platform) (b : Build) {contents : Bytes} {big : Bool} {dirs : List Dir} {model : Bytes} {o : Option Nat}
    (h : CameraFile contents big dirs (b! "SONY") model o) (h560 : model ≠ b! "DCS560C") {cam : Camera} (hcam : Map.get s.cameras (b! "SONY", model, []) = some cam)
    {raw : Dir} {w ht offset count : Nat} (hs : SonyStrip (fileRoot big dirs) cam raw w ht offset count 32767 8) (hcount : w * ht = count)
    {red green blue : Nat} (hwb : SonyWhite contents (fileRoot big dirs) red green blue) {k0 k1 k2 k3 : Nat} (hcurve : raw.Numbers 0x7010 [k0, k1, k2, k3])
    (hk0 : 8 ≤ k0 / 4) (hk1 : k0 / 4 ≤ k1 / 4) (hk2 : k1 / 4 ≤ k2 / 4) (hk3 : k2 / 4 ≤ k3 / 4) (hk4 : k3 / 4 < 4096)
    (hw : 0 < w) (hw32 : w % 32 = 0) (pix hi lo : Nat → Nat → Nat) (hok : ∀ r k, r < ht → k < w / 16 → (arw2GroupOf pix hi lo r k).Ok) (tail : Bytes)
    (ho : offset ≤ contents.length) (hdata : contents.drop offset = arw2File w ht pix hi lo ++ tail) :
    ∃ out, (∀ r c, r < ht → c < w → ∃ v, v ≤ pix r c ∧ pix r c < v + (arw2GroupOf pix hi lo r (c / 32 * 2 + c % 2)).step ∧
        sonyCurve (k0 / 4) (k1 / 4) (k2 / 4) (k3 / 4) (2 * v) ≤ out r c + 8 ∧ out r c ≤ sonyCurve (k0 / 4) (k1 / 4) (k2 / 4) (k3 / 4) (2 * v) + 8) ∧
      ∀ blacks, BlacksOf cam w ht out blacks →
        s.decodeSafe env b (.ok contents) = .ok (pictureOf cam (orientationOf o) w ht [F32.ofNat red, F32.ofNat green, F32.ofNat blue, .nan] blacks (raster w ht out)) := by
  obtain ⟨ifd, hifd, hd⟩ := arw_opens s env b h h560 hcam hs.first hs.width hs.height hs.position hs.length hs.compression hs.bits hwb ho
  obtain ⟨e, e1, _, e2, _⟩ := find_numbers hifd (tag := 0x7010) (by decide) hcurve
  obtain ⟨out, h1, h2⟩ := arw2_file b ifd e (fun i => [k0, k1, k2, k3].getD i 0) (by
    unfold TiffIFD.fetchTag
    rw [show TiffIFD.findEntry Tag.SonyCurve ifd = some e from e1]) (by
    intro i hi
    match i with
    | 0 => exact e2 0 (by simp)
    | 1 => exact e2 1 (by simp)
    | 2 => exact e2 2 (by simp)
    | 3 => exact e2 3 (by simp)) hk0 hk1 hk2 hk3 hk4 w ht hw hw32 pix hi lo hok (tail ++ List.replicate 16 0)
  refine ⟨out, h2, fun blacks hb => hd _ _ _ ?_ hb⟩
  unfold Arw.pixels
  rw [if_neg (by decide), if_pos rfl, if_neg (fun hn => hn (by rw [hcount])), if_pos rfl, hdata, List.append_assoc]
  cases hc : Arw.getCurve b ifd with
  | error x => rw [hc] at h1; cases h1
  | ok tbl =>
    rw [hc, ok_bind] at h1
    rw [ok_bind, h1, ok_bind]

/-- **C76**, the words of the DSC-R1, of which the lower fourteen bits count. -/
theorem arw_r1_file (s : RawLoader) (env : Platform) (b : Build) {contents : Bytes} {big : Bool} {dirs : List Dir} {model : Bytes} {o : Option Nat}
    (h : CameraFile contents big dirs (b! "SONY") model o) (h560 : model ≠ b! "DCS560C") {cam : Camera} (hcam : Map.get s.cameras (b! "SONY", model, []) = some cam)
    (hr1 : cam.model = b! "DSC-R1") {raw : Dir} {w ht offset count bits : Nat} (hs : SonyStrip (fileRoot big dirs) cam raw w ht offset count 1 bits)
    {red green blue : Nat} (hwb : SonyWhite contents (fileRoot big dirs) red green blue) (hw : 0 < w) (hlen : offset + 2 * (w * ht) ≤ contents.length)
    {blacks : List Nat} (hb : BlacksOf cam w ht (fun r c => (256 * bytesOf contents (offset + 2 * (r * w + c)) + bytesOf contents (offset + 2 * (r * w + c) + 1)) % 16384) blacks) :
    s.decodeSafe env b (.ok contents) = .ok (pictureOf cam (orientationOf o) w ht [F32.ofNat red, F32.ofNat green, F32.ofNat blue, .nan] blacks
      (raster w ht fun r c => (256 * bytesOf contents (offset + 2 * (r * w + c)) + bytesOf contents (offset + 2 * (r * w + c) + 1)) % 16384)) := by
  obtain ⟨ifd, _, hd⟩ := arw_opens s env b h h560 hcam hs.first hs.width hs.height hs.position hs.length hs.compression hs.bits hwb (by omega)
  refine hd _ _ _ ?_ hb
  unfold Arw.pixels
  rw [if_pos rfl, if_pos (by rw [(turned_same cam o).2]; exact hr1), decode_14be_unpacked_exact _ w ht hw (by simp; omega), ok_bind]
  refine congrArg (fun x => Except.ok (ht, x)) (raster_congr fun r c hr hc => ?_)
  rw [bytes_from, bytes_from, Nat.add_assoc offset]

/-! ## The oldest cameras -/

private theorem word_known {buf : Bytes} {pos v : Nat} (hv : v < 4294967296) (h : bytesAt buf pos 4 = encode true 4 v) (pad : Bytes) : BEu32 (buf ++ pad) pos = .ok v := by
  have := bytesAt_known h (encode_length _ _ _) (by omega)
  have hr := ru32_number (e := BIG_ENDIAN) (buf := buf ++ pad) (pos := pos) (by rw [List.length_append]; omega)
  rw [show BIG_ENDIAN.big = true from rfl, bytesAt_pad h (encode_length _ _ _), number_encode _ _ _ (by omega)] at hr
  exact hr

private theorem word_known_le {buf : Bytes} {pos v : Nat} (hv : v < 4294967296) (h : bytesAt buf pos 4 = encode false 4 v) (pad : Bytes) : LEu32 (buf ++ pad) pos = .ok v := by
  have := bytesAt_known h (encode_length _ _ _) (by omega)
  have hr := ru32_number (e := LITTLE_ENDIAN) (buf := buf ++ pad) (pos := pos) (by rw [List.length_append]; omega)
  rw [show LITTLE_ENDIAN.big = false from rfl, bytesAt_pad h (encode_length _ _ _), number_encode _ _ _ (by omega)] at hr
  exact hr

private theorem two_bytes {data more : Bytes} {pos v : Nat} (hv : v < 65536) (h : bytesAt data pos 2 = encode true 2 v) :
    256 * bytesOf (data ++ more) pos + bytesOf (data ++ more) (pos + 1) = v := by
  have hin := bytesAt_known h (encode_length _ _ _) (by omega)
  unfold bytesOf
  rw [List.getElem?_append_left (by omega), List.getElem?_append_left (by omega)]
  have e0 : data[pos]? = (bytesAt data pos 2)[0]? := by unfold bytesAt; rw [List.getElem?_take, if_pos (by omega), List.getElem?_drop, Nat.add_zero]
  have e1 : data[pos + 1]? = (bytesAt data pos 2)[1]? := by unfold bytesAt; rw [List.getElem?_take, if_pos (by omega), List.getElem?_drop]
  rw [e0, e1, h]
  show 256 * (UInt8.ofNat (v / 256)).toNat + (UInt8.ofNat v).toNat = v
  simp
  omega

/-- **C76**, the oldest cameras, whose files have no strips: the whole picture is encrypted. -/
theorem srf_file (s : RawLoader) (env : Platform) (b : Build) {contents : Bytes} {big : Bool} {dirs : List Dir} {model : Bytes} {o : Option Nat}
    (h : CameraFile contents big dirs (b! "SONY") model o) (h560 : model ≠ b! "DCS560C") {cam : Camera} (hcam : Map.get s.cameras (b! "SONY", model, []) = some cam)
    (h100 : cam.model ≠ b! "DSLR-A100") (hno : (fileRoot big dirs).Lacks 0x111) {raw : Dir} (hraw : (fileRoot big dirs).FirstWith 0x100 raw) {w ht : Nat}
    (h1 : raw.Numbers 0x100 [w]) (h2 : raw.Numbers 0x101 [ht]) (hw : 0 < w) (hht : 0 < ht) {img : Nat → Nat → Nat} (hp : SrfPicture contents w ht img)
    {blacks : List Nat} (hb : BlacksOf cam w ht img blacks) :
    s.decodeSafe env b (.ok contents) = .ok (pictureOf cam (orientationOf o) w ht [.nan, .nan, .nan, .nan] blacks (raster w ht img)) := by
  obtain ⟨n, key1, key2, head, data, hn, hk1, hkey1, hhead, hehead, hk2, hkey2, hdata, hedata, himg⟩ := hp.stored
  obtain ⟨root, hh, hc, hd⟩ := camera_decodes s env b h (k := .arw) (by decide) h560
  obtain ⟨ifd, f1, f2⟩ := fetch_dir hh (tag := 0x100) (by decide) hraw
  obtain ⟨t, hlist⟩ := dirs_of f1
  have hnone := no_dirs_with hh hno
  have hwh : 0 < w * ht := Nat.mul_pos hw hht
  obtain ⟨more1, m1⟩ := decrypts hehead (by omega)
  obtain ⟨more2, m2⟩ := decrypts hedata (by omega)
  have hbyte : byteAt (contents ++ List.replicate 16 0) 200896 = .ok n.toNat := by
    have := (List.getElem?_eq_some_iff.mp hn).1
    rw [byteAt_lt (by rw [List.length_append]; omega), bytesOf_zeros]
    unfold bytesOf
    rw [hn]
  suffices himage : Arw.image b (contents ++ List.replicate 16 0) root s = .ok (pictureOf cam (orientationOf o) w ht [.nan, .nan, .nan, .nan] blacks (raster w ht img)) by
    clear hbyte hn hkey1 hehead hedata m1 m2
    apply hd
    intro d hk ht''
    cases d <;> cases hk
    injection ht'' with ht''; subst ht''
    exact himage
  unfold Arw.image RawLoader.checkSupported
  rw [hc [] cam hcam, ok_bind, show TiffIFD.findIfdsWithTag Tag.StripOffsets _ = _ from hnone]
  dsimp only
  rw [if_neg (by rw [(turned_same cam o).2]; exact h100)]
  unfold Arw.imageSrf
  rw [show TiffIFD.findIfdsWithTag Tag.ImageWidth _ = _ from hlist]
  dsimp only
  rw [show fetchUsize ifd Tag.ImageWidth = _ from fetch_number f2 (by decide) h1, ok_bind,
    show fetchUsize ifd Tag.ImageLength = _ from fetch_number f2 (by decide) h2, ok_bind, hbyte, ok_bind,
    Nat.mul_comm n.toNat 4, word_known hk1 hkey1, ok_bind]
  rw [hhead] at m1
  rw [m1, ok_bind, word_known_le hk2 hkey2, ok_bind]
  rw [hdata, Nat.mul_comm 2 (w * ht)] at m2
  rw [m2, ok_bind, decode_16be_exact _ w ht hw (by rw [List.length_append]; omega), ok_bind,
    raster_congr (q := img) (fun r c hr hc => two_bytes (himg r c hr hc).1 (himg r c hr hc).2)]
  exact ok_image b o hb _

/-! ## Examples -/

section Example

private theorem encrypted_of {contents block more : Bytes} {pos key : Nat} (h : Arw.sonyDecrypt contents pos block.length key = .ok (block ++ more)) :
    EncryptedAt contents pos key block := by
  rw [sony_decrypt_stream] at h
  split at h
  · next hin =>
    injection h with h
    intro i x hx
    have hi := (List.getElem?_eq_some_iff.mp hx).1
    have h1 : (decrypted contents pos (4 * (block.length / 4 + 1)) key)[i]? = some x := by rw [h, List.getElem?_append_left hi, hx]
    unfold decrypted at h1
    rw [List.getElem?_map, List.getElem?_range (by omega), Option.map_some, List.getD_eq_getElem?_getD, List.getElem?_eq_getElem (by omega), Option.getD_some] at h1
    injection h1 with h1
    rw [List.getElem?_eq_getElem (by omega), ← h1, UInt8.xor_assoc, UInt8.xor_self, UInt8.xor_zero]
  · cases h

private theorem lacks_here {d : Dir} {tag : Nat} (hs : d.subdirs = []) (hf : d.field tag = none) : d.Lacks tag := by
  intro d' ⟨p, hp⟩
  match p with
  | [] => obtain rfl : d = d' := Option.some.inj hp; exact hf
  | k :: q => unfold atPath at hp; rw [hs] at hp; cases hp

private def packedFile : Bytes :=
  [73, 73, 42, 0, 8, 0, 0, 0] ++
  [9, 0] ++
  [0, 1, 3, 0, 1, 0, 0, 0, 4, 0, 0, 0] ++
  [1, 1, 3, 0, 1, 0, 0, 0, 2, 0, 0, 0] ++
  [2, 1, 3, 0, 1, 0, 0, 0, 12, 0, 0, 0] ++
  [3, 1, 3, 0, 1, 0, 0, 0, 255, 127, 0, 0] ++
  [15, 1, 2, 0, 5, 0, 0, 0, 122, 0, 0, 0] ++
  [16, 1, 2, 0, 10, 0, 0, 0, 127, 0, 0, 0] ++
  [17, 1, 4, 0, 1, 0, 0, 0, 137, 0, 0, 0] ++
  [23, 1, 4, 0, 1, 0, 0, 0, 12, 0, 0, 0] ++
  [52, 198, 1, 0, 4, 0, 0, 0, 149, 0, 0, 0] ++
  [0, 0, 0, 0] ++
  [83, 79, 78, 89, 0] ++
  [68, 83, 76, 82, 45, 65, 57, 48, 48, 0] ++
  [5, 160, 2, 153, 32, 21, 85, 34, 58, 57, 165, 113] ++
  [3, 0, 0, 114, 4, 0, 1, 0, 0, 0, 191, 0, 0, 0, 1, 114, 4, 0, 1, 0, 0, 0, 38, 0, 0, 0, 33, 114, 4, 0, 1, 0, 0, 0, 120, 86, 52, 18, 0, 0, 0, 0] ++
  [22, 197, 233, 203, 161, 50, 221, 125, 145, 57, 142, 78, 160, 242, 203, 220, 8, 248, 197, 234, 5, 128, 244, 165, 53, 130, 145, 73, 74, 229, 194, 21, 36, 246, 221, 71, 158, 202] ++
  [101, 110, 100, 33]

private def packedDir : Dir := .mk false [.plain ⟨0x100, 3, [4]⟩, .plain ⟨0x101, 3, [2]⟩, .plain ⟨0x102, 3, [12]⟩, .plain ⟨0x103, 3, [32767]⟩, .plain ⟨0x10f, 2, [83, 79, 78, 89, 0]⟩, .plain ⟨0x110, 2, [68, 83, 76, 82, 45, 65, 57, 48, 48, 0]⟩, .plain ⟨0x111, 4, [137]⟩, .plain ⟨0x117, 4, [12]⟩, .plain ⟨0xc634, 1, [149, 0, 0, 0]⟩]

private theorem packed_stored : TiffFile 11 false packedFile [packedDir] := by
  refine ⟨by decide +kernel, by decide +kernel, 8, by decide, by decide +kernel, rfl, ?_⟩
  refine ⟨by decide, by decide +kernel, by decide, by decide +kernel, by decide +kernel, ?_⟩
  intro i it hi
  match i with
  | 0 => injection hi with hi; subst hi; stored_inline
  | 1 => injection hi with hi; subst hi; stored_inline
  | 2 => injection hi with hi; subst hi; stored_inline
  | 3 => injection hi with hi; subst hi; stored_inline
  | 4 => injection hi with hi; subst hi; stored_outside 122
  | 5 => injection hi with hi; subst hi; stored_outside 127
  | 6 => injection hi with hi; subst hi; stored_inline
  | 7 => injection hi with hi; subst hi; stored_inline
  | 8 => injection hi with hi; subst hi; stored_inline
  | i + 9 => cases hi

private theorem packed_camera : CameraFile packedFile false [packedDir] (b! "SONY") (b! "DSLR-A900") none where
  tiff := packed_stored
  few := by decide
  notCiff := by decide +kernel
  notDng := lacks_one rfl rfl
  make := ⟨⟨by decide, by decide, by decide⟩, false, _, first_one rfl, rfl, 0, 0, [0], Or.inr rfl, rfl⟩
  model := ⟨⟨by decide, by decide, by decide⟩, false, _, first_one rfl, rfl, 0, 0, [0], Or.inr rfl, rfl⟩
  orientation := lacks_one rfl rfl

private def packedBlock : Bytes := [2, 0, 0, 112, 3, 0, 1, 0, 0, 0, 7, 0, 0, 0, 3, 115, 3, 0, 4, 0, 0, 0, 221, 0, 0, 0, 0, 0, 0, 0, 0, 1, 88, 2, 124, 1, 0, 1]

private theorem packed_white : SonyWhite packedFile (fileRoot false [packedDir]) 600 256 380 := by
  refine ⟨false, _, [], 149, .mk false [.plain ⟨0x7200, 4, [191]⟩, .plain ⟨0x7201, 4, [38]⟩, .plain ⟨0x7221, 4, [305419896]⟩], 0, 191, 38, 305419896, packedBlock,
    [⟨0x7000, 3, [7]⟩, ⟨0x7303, 3, [256, 600, 380, 256]⟩], first_one rfl, by decide +kernel, by decide, rfl, ?_, numbers_here (f := ⟨0x7200, 4, [191]⟩) rfl (by decide),
    numbers_here (f := ⟨0x7201, 4, [38]⟩) rfl (by decide), numbers_here (f := ⟨0x7221, 4, [305419896]⟩) rfl (by decide), by decide +kernel,
    encrypted_of (more := [178, 12]) (by decide +kernel), ?_, ?_⟩
  · refine ⟨by decide, by decide +kernel, by decide, by decide +kernel, by decide +kernel, ?_⟩
    intro i it hi
    match i with
    | 0 => injection hi with hi; subst hi; stored_inline
    | 1 => injection hi with hi; subst hi; stored_inline
    | 2 => injection hi with hi; subst hi; stored_inline
    | i + 3 => cases hi
  · refine ⟨by decide, by decide +kernel, by decide +kernel, ?_⟩
    intro i it hi
    match i with
    | 0 => injection hi with hi; subst hi; stored_inline
    | 1 => injection hi with hi; subst hi; stored_outside 30
    | i + 2 => cases hi
  · exact Or.inl ⟨_, _, _, ⟨[], _, rfl, rfl, fun q _ hq _ => by cases q <;> simp at hq⟩, Or.inl rfl, rfl⟩

private theorem packed_strip (cam : Camera) (hb : cam.bps = 0) : SonyStrip (fileRoot false [packedDir]) cam packedDir 4 2 137 12 32767 12 where
  first := first_with (f := ⟨0x111, 4, [137]⟩) rfl
  width := numbers_here (f := ⟨0x100, 3, [4]⟩) rfl (by decide)
  height := numbers_here (f := ⟨0x101, 3, [2]⟩) rfl (by decide)
  position := numbers_here (f := ⟨0x111, 4, [137]⟩) rfl (by decide)
  length := numbers_here (f := ⟨0x117, 4, [12]⟩) rfl (by decide)
  compression := numbers_here (f := ⟨0x103, 3, [32767]⟩) rfl (by decide)
  bits := Or.inr ⟨hb, numbers_here (f := ⟨0x102, 3, [12]⟩) rfl (by decide)⟩

/-- Twelve bits, packed; the levels stored as green, red, blue, green. -/
example (env : Platform) (b : Build) (cam : Camera) (hb : NoBlackAreas cam) (h0 : cam.bps = 0) :
    (loaderOf (b! "SONY") (b! "DSLR-A900") [] cam).decodeSafe env b (.ok packedFile) =
    .ok (pictureOf cam .unknown 4 2 [F32.ofNat 600, F32.ofNat 256, F32.ofNat 380, .nan] cam.blacklevels [5, 42, 153, 338, 597, 930, 1337, 1818]) := by
  have := arw_packed_file (loaderOf (b! "SONY") (b! "DSLR-A900") [] cam) env b packed_camera (by decide) rfl (packed_strip cam h0) (by decide) packed_white (by decide) (by decide)
    (by decide +kernel) (hb.blacks _ _ _)
  rw [show raster 4 2 (fun r c => fieldLSB (bytesOf packedFile) (8 * 137 + 12 * (r * 4 + c)) 12) = [5, 42, 153, 338, 597, 930, 1337, 1818] by decide +kernel] at this
  exact this

private def wordsFile : Bytes :=
  [77, 77, 0, 42, 0, 0, 0, 8] ++
  [0, 9] ++
  [1, 0, 0, 3, 0, 0, 0, 1, 0, 3, 0, 0] ++
  [1, 1, 0, 3, 0, 0, 0, 1, 0, 2, 0, 0] ++
  [1, 2, 0, 3, 0, 0, 0, 1, 0, 14, 0, 0] ++
  [1, 3, 0, 3, 0, 0, 0, 1, 0, 1, 0, 0] ++
  [1, 15, 0, 2, 0, 0, 0, 5, 0, 0, 0, 122] ++
  [1, 16, 0, 2, 0, 0, 0, 9, 0, 0, 0, 127] ++
  [1, 17, 0, 4, 0, 0, 0, 1, 0, 0, 0, 136] ++
  [1, 23, 0, 4, 0, 0, 0, 1, 0, 0, 0, 12] ++
  [198, 52, 0, 1, 0, 0, 0, 4, 0, 0, 0, 148] ++
  [0, 0, 0, 0] ++
  [83, 79, 78, 89, 0] ++
  [73, 76, 67, 69, 45, 55, 77, 51, 0] ++
  [5, 0, 121, 14, 213, 57, 25, 2, 69, 39, 89, 41] ++
  [3, 0, 0, 114, 4, 0, 1, 0, 0, 0, 190, 0, 0, 0, 1, 114, 4, 0, 1, 0, 0, 0, 38, 0, 0, 0, 33, 114, 4, 0, 1, 0, 0, 0, 99, 0, 0, 0, 0, 0, 0, 0] ++
  [88, 253, 188, 155, 58, 82, 130, 223, 66, 151, 7, 85, 234, 106, 86, 3, 56, 213, 125, 125, 166, 113, 81, 94, 228, 132, 242, 80, 152, 55, 164, 85, 168, 167, 23, 94, 216, 138] ++
  [101, 110, 100, 33]

private def wordsDir : Dir := .mk true [.plain ⟨0x100, 3, [3]⟩, .plain ⟨0x101, 3, [2]⟩, .plain ⟨0x102, 3, [14]⟩, .plain ⟨0x103, 3, [1]⟩, .plain ⟨0x10f, 2, [83, 79, 78, 89, 0]⟩, .plain ⟨0x110, 2, [73, 76, 67, 69, 45, 55, 77, 51, 0]⟩, .plain ⟨0x111, 4, [136]⟩, .plain ⟨0x117, 4, [12]⟩, .plain ⟨0xc634, 1, [0, 0, 0, 148]⟩]

private theorem words_stored : TiffFile 11 true wordsFile [wordsDir] := by
  refine ⟨by decide +kernel, by decide +kernel, 8, by decide, by decide +kernel, rfl, ?_⟩
  refine ⟨by decide, by decide +kernel, by decide, by decide +kernel, by decide +kernel, ?_⟩
  intro i it hi
  match i with
  | 0 => injection hi with hi; subst hi; stored_inline
  | 1 => injection hi with hi; subst hi; stored_inline
  | 2 => injection hi with hi; subst hi; stored_inline
  | 3 => injection hi with hi; subst hi; stored_inline
  | 4 => injection hi with hi; subst hi; stored_outside 122
  | 5 => injection hi with hi; subst hi; stored_outside 127
  | 6 => injection hi with hi; subst hi; stored_inline
  | 7 => injection hi with hi; subst hi; stored_inline
  | 8 => injection hi with hi; subst hi; stored_inline
  | i + 9 => cases hi

private theorem words_camera : CameraFile wordsFile true [wordsDir] (b! "SONY") (b! "ILCE-7M3") none where
  tiff := words_stored
  few := by decide
  notCiff := by decide +kernel
  notDng := lacks_one rfl rfl
  make := ⟨⟨by decide, by decide, by decide⟩, true, _, first_one rfl, rfl, 0, 0, [0], Or.inr rfl, rfl⟩
  model := ⟨⟨by decide, by decide, by decide⟩, true, _, first_one rfl, rfl, 0, 0, [0], Or.inr rfl, rfl⟩
  orientation := lacks_one rfl rfl

private def wordsBlock : Bytes := [2, 0, 0, 112, 3, 0, 1, 0, 0, 0, 7, 0, 0, 0, 19, 115, 8, 0, 4, 0, 0, 0, 220, 0, 0, 0, 0, 0, 0, 0, 52, 8, 0, 4, 1, 4, 164, 6]

private theorem words_white : SonyWhite wordsFile (fileRoot true [wordsDir]) 2100 1024 1700 := by
  refine ⟨true, _, [], 148, .mk false [.plain ⟨0x7200, 4, [190]⟩, .plain ⟨0x7201, 4, [38]⟩, .plain ⟨0x7221, 4, [99]⟩], 0, 190, 38, 99, wordsBlock,
    [⟨0x7000, 3, [7]⟩, ⟨0x7313, 8, [2100, 1024, 1025, 1700]⟩], first_one rfl, by decide +kernel, by decide, rfl, ?_, numbers_here (f := ⟨0x7200, 4, [190]⟩) rfl (by decide),
    numbers_here (f := ⟨0x7201, 4, [38]⟩) rfl (by decide), numbers_here (f := ⟨0x7221, 4, [99]⟩) rfl (by decide), by decide +kernel,
    encrypted_of (more := [95, 104]) (by decide +kernel), ?_, ?_⟩
  · refine ⟨by decide, by decide +kernel, by decide, by decide +kernel, by decide +kernel, ?_⟩
    intro i it hi
    match i with
    | 0 => injection hi with hi; subst hi; stored_inline
    | 1 => injection hi with hi; subst hi; stored_inline
    | 2 => injection hi with hi; subst hi; stored_inline
    | i + 3 => cases hi
  · refine ⟨by decide, by decide +kernel, by decide +kernel, ?_⟩
    intro i it hi
    match i with
    | 0 => injection hi with hi; subst hi; stored_inline
    | 1 => injection hi with hi; subst hi; stored_outside 30
    | i + 2 => cases hi
  · exact Or.inr ⟨lacks_here rfl rfl, ⟨_, _, _, ⟨[], _, rfl, rfl, fun q _ hq _ => by cases q <;> simp at hq⟩, Or.inr ⟨rfl, by decide⟩, rfl⟩⟩

private theorem words_strip (cam : Camera) (hb : cam.bps = 0) : SonyStrip (fileRoot true [wordsDir]) cam wordsDir 3 2 136 12 1 14 where
  first := first_with (f := ⟨0x111, 4, [136]⟩) rfl
  width := numbers_here (f := ⟨0x100, 3, [3]⟩) rfl (by decide)
  height := numbers_here (f := ⟨0x101, 3, [2]⟩) rfl (by decide)
  position := numbers_here (f := ⟨0x111, 4, [136]⟩) rfl (by decide)
  length := numbers_here (f := ⟨0x117, 4, [12]⟩) rfl (by decide)
  compression := numbers_here (f := ⟨0x103, 3, [1]⟩) rfl (by decide)
  bits := Or.inr ⟨hb, numbers_here (f := ⟨0x102, 3, [14]⟩) rfl (by decide)⟩

/-- Words in a big endian file; the levels stored as red, green, green, blue. -/
example (env : Platform) (b : Build) (cam : Camera) (hb : NoBlackAreas cam) (h0 : cam.bps = 0) (hm : cam.model = b! "ILCE-7M3") :
    (loaderOf (b! "SONY") (b! "ILCE-7M3") [] cam).decodeSafe env b (.ok wordsFile) =
    .ok (pictureOf cam .unknown 3 2 [F32.ofNat 2100, F32.ofNat 1024, F32.ofNat 1700, .nan] cam.blacklevels [5, 3705, 14805, 537, 10053, 10585]) := by
  have := arw_words_file (loaderOf (b! "SONY") (b! "ILCE-7M3") [] cam) env b words_camera (by decide) rfl (by rw [hm]; decide) (words_strip cam h0) words_white (by decide)
    (by decide +kernel) (hb.blacks _ _ _)
  rw [show raster 3 2 (fun r c => bytesOf wordsFile (136 + 2 * (r * 3 + c)) + 256 * bytesOf wordsFile (136 + 2 * (r * 3 + c) + 1)) = [5, 3705, 14805, 537, 10053, 10585] by decide +kernel] at this
  exact this

private def secondFile : Bytes :=
  [73, 73, 42, 0, 8, 0, 0, 0] ++
  [10, 0] ++
  [0, 1, 3, 0, 1, 0, 0, 0, 32, 0, 0, 0] ++
  [1, 1, 3, 0, 1, 0, 0, 0, 1, 0, 0, 0] ++
  [2, 1, 3, 0, 1, 0, 0, 0, 8, 0, 0, 0] ++
  [3, 1, 3, 0, 1, 0, 0, 0, 255, 127, 0, 0] ++
  [15, 1, 2, 0, 5, 0, 0, 0, 134, 0, 0, 0] ++
  [16, 1, 2, 0, 8, 0, 0, 0, 139, 0, 0, 0] ++
  [17, 1, 4, 0, 1, 0, 0, 0, 155, 0, 0, 0] ++
  [23, 1, 4, 0, 1, 0, 0, 0, 32, 0, 0, 0] ++
  [16, 112, 3, 0, 4, 0, 0, 0, 147, 0, 0, 0] ++
  [52, 198, 1, 0, 4, 0, 0, 0, 187, 0, 0, 0] ++
  [0, 0, 0, 0] ++
  [83, 79, 78, 89, 0] ++
  [73, 76, 67, 69, 45, 55, 82, 0] ++
  [64, 31, 160, 40, 100, 50, 20, 55] ++
  [209, 28, 192, 67, 65, 241, 160, 100, 60, 163, 148, 107, 134, 235, 9, 143, 250, 100, 193, 67, 65, 241, 160, 100, 60, 163, 148, 107, 134, 235, 9, 143] ++
  [3, 0, 0, 114, 4, 0, 1, 0, 0, 0, 229, 0, 0, 0, 1, 114, 4, 0, 1, 0, 0, 0, 38, 0, 0, 0, 33, 114, 4, 0, 1, 0, 0, 0, 239, 190, 173, 222, 0, 0, 0, 0] ++
  [135, 66, 241, 94, 222, 94, 135, 102, 51, 140, 146, 231, 164, 110, 35, 98, 110, 156, 205, 146, 242, 97, 111, 239, 188, 32, 184, 234, 172, 30, 141, 247, 163, 124, 227, 244, 24, 249] ++
  [101, 110, 100, 33]

private def secondDir : Dir := .mk false [.plain ⟨0x100, 3, [32]⟩, .plain ⟨0x101, 3, [1]⟩, .plain ⟨0x102, 3, [8]⟩, .plain ⟨0x103, 3, [32767]⟩, .plain ⟨0x10f, 2, [83, 79, 78, 89, 0]⟩, .plain ⟨0x110, 2, [73, 76, 67, 69, 45, 55, 82, 0]⟩, .plain ⟨0x111, 4, [155]⟩, .plain ⟨0x117, 4, [32]⟩, .plain ⟨0x7010, 3, [8000, 10400, 12900, 14100]⟩, .plain ⟨0xc634, 1, [187, 0, 0, 0]⟩]

private theorem second_stored : TiffFile 11 false secondFile [secondDir] := by
  refine ⟨by decide +kernel, by decide +kernel, 8, by decide, by decide +kernel, rfl, ?_⟩
  refine ⟨by decide, by decide +kernel, by decide, by decide +kernel, by decide +kernel, ?_⟩
  intro i it hi
  match i with
  | 0 => injection hi with hi; subst hi; stored_inline
  | 1 => injection hi with hi; subst hi; stored_inline
  | 2 => injection hi with hi; subst hi; stored_inline
  | 3 => injection hi with hi; subst hi; stored_inline
  | 4 => injection hi with hi; subst hi; stored_outside 134
  | 5 => injection hi with hi; subst hi; stored_outside 139
  | 6 => injection hi with hi; subst hi; stored_inline
  | 7 => injection hi with hi; subst hi; stored_inline
  | 8 => injection hi with hi; subst hi; stored_outside 147
  | 9 => injection hi with hi; subst hi; stored_inline
  | i + 10 => cases hi

private theorem second_camera : CameraFile secondFile false [secondDir] (b! "SONY") (b! "ILCE-7R") none where
  tiff := second_stored
  few := by decide
  notCiff := by decide +kernel
  notDng := lacks_one rfl rfl
  make := ⟨⟨by decide, by decide, by decide⟩, false, _, first_one rfl, rfl, 0, 0, [0], Or.inr rfl, rfl⟩
  model := ⟨⟨by decide, by decide, by decide⟩, false, _, first_one rfl, rfl, 0, 0, [0], Or.inr rfl, rfl⟩
  orientation := lacks_one rfl rfl

private def secondBlock : Bytes := [2, 0, 0, 112, 3, 0, 1, 0, 0, 0, 7, 0, 0, 0, 19, 115, 3, 0, 4, 0, 0, 0, 3, 1, 0, 0, 0, 0, 0, 0, 52, 8, 0, 4, 1, 4, 164, 6]

private theorem second_white : SonyWhite secondFile (fileRoot false [secondDir]) 2100 1024 1700 := by
  refine ⟨false, _, [], 187, .mk false [.plain ⟨0x7200, 4, [229]⟩, .plain ⟨0x7201, 4, [38]⟩, .plain ⟨0x7221, 4, [3735928559]⟩], 0, 229, 38, 3735928559, secondBlock,
    [⟨0x7000, 3, [7]⟩, ⟨0x7313, 3, [2100, 1024, 1025, 1700]⟩], first_one rfl, by decide +kernel, by decide, rfl, ?_, numbers_here (f := ⟨0x7200, 4, [229]⟩) rfl (by decide),
    numbers_here (f := ⟨0x7201, 4, [38]⟩) rfl (by decide), numbers_here (f := ⟨0x7221, 4, [3735928559]⟩) rfl (by decide), by decide +kernel,
    encrypted_of (more := [207, 76]) (by decide +kernel), ?_, ?_⟩
  · refine ⟨by decide, by decide +kernel, by decide, by decide +kernel, by decide +kernel, ?_⟩
    intro i it hi
    match i with
    | 0 => injection hi with hi; subst hi; stored_inline
    | 1 => injection hi with hi; subst hi; stored_inline
    | 2 => injection hi with hi; subst hi; stored_inline
    | i + 3 => cases hi
  · refine ⟨by decide, by decide +kernel, by decide +kernel, ?_⟩
    intro i it hi
    match i with
    | 0 => injection hi with hi; subst hi; stored_inline
    | 1 => injection hi with hi; subst hi; stored_outside 30
    | i + 2 => cases hi
  · exact Or.inr ⟨lacks_here rfl rfl, ⟨_, _, _, ⟨[], _, rfl, rfl, fun q _ hq _ => by cases q <;> simp at hq⟩, Or.inl rfl, rfl⟩⟩

private theorem second_strip (cam : Camera) (hb : cam.bps = 0) : SonyStrip (fileRoot false [secondDir]) cam secondDir 32 1 155 32 32767 8 where
  first := first_with (f := ⟨0x111, 4, [155]⟩) rfl
  width := numbers_here (f := ⟨0x100, 3, [32]⟩) rfl (by decide)
  height := numbers_here (f := ⟨0x101, 3, [1]⟩) rfl (by decide)
  position := numbers_here (f := ⟨0x111, 4, [155]⟩) rfl (by decide)
  length := numbers_here (f := ⟨0x117, 4, [32]⟩) rfl (by decide)
  compression := numbers_here (f := ⟨0x103, 3, [32767]⟩) rfl (by decide)
  bits := Or.inr ⟨hb, numbers_here (f := ⟨0x102, 3, [8]⟩) rfl (by decide)⟩

/-- The second compression. -/
example (env : Platform) (b : Build) (cam : Camera) (hb : NoBlackAreas cam) (h0 : cam.bps = 0) :
    ∃ out, (∀ c, c < 32 → ∃ v, v ≤ 41 * c + 3 ∧ 41 * c + 3 < v + 16 ∧ sonyCurve 2000 2600 3225 3525 (2 * v) ≤ out 0 c + 8 ∧ out 0 c ≤ sonyCurve 2000 2600 3225 3525 (2 * v) + 8) ∧
      (loaderOf (b! "SONY") (b! "ILCE-7R") [] cam).decodeSafe env b (.ok secondFile) =
        .ok (pictureOf cam .unknown 32 1 [F32.ofNat 2100, F32.ofNat 1024, F32.ofNat 1700, .nan] cam.blacklevels (raster 32 1 out)) := by
  obtain ⟨out, h1, h2⟩ := arw_second_file (loaderOf (b! "SONY") (b! "ILCE-7R") [] cam) env b second_camera (by decide) rfl (second_strip cam h0) (by decide) second_white
    (numbers_here (f := ⟨0x7010, 3, [8000, 10400, 12900, 14100]⟩) rfl (by decide)) (by decide) (by decide) (by decide) (by decide) (by decide) (by decide) (by decide)
    (fun _ c => 41 * c + 3) (fun _ _ => 15) (fun _ _ => 0) (by
      intro r k hr hk
      have hk : k < 2 := hk
      refine ⟨by show 15 < 16; omega, by show 0 < 16; omega, by show 15 ≠ 0; omega, ?_, ?_, ?_⟩
      · show 41 * (k / 2 * 32 + k % 2 + 15 * 2) + 3 < 2048; omega
      · intro i hi; show 41 * (k / 2 * 32 + k % 2 + i * 2) + 3 ≤ 41 * (k / 2 * 32 + k % 2 + 15 * 2) + 3; omega
      · intro i hi; show 41 * (k / 2 * 32 + k % 2 + 0 * 2) + 3 ≤ 41 * (k / 2 * 32 + k % 2 + i * 2) + 3; omega)
    (secondFile.drop 187) (by decide +kernel) (by decide +kernel)
  refine ⟨out, fun c hc => ?_, h2 _ (hb.blacks _ _ _)⟩
  obtain ⟨v, v1, v2, v3⟩ := h1 0 c (by decide) hc
  refine ⟨v, v1, Nat.lt_of_lt_of_le v2 (Nat.add_le_add_left ?_ v), v3⟩
  exact (by decide +kernel : ∀ k, k < 2 → (arw2GroupOf (fun _ c => 41 * c + 3) (fun _ _ => 15) (fun _ _ => 0) 0 k).step ≤ 16) _ (by omega)

private def firstFile : Bytes :=
  [73, 73, 42, 0, 8, 0, 0, 0] ++
  [9, 0] ++
  [0, 1, 3, 0, 1, 0, 0, 0, 2, 0, 0, 0] ++
  [1, 1, 3, 0, 1, 0, 0, 0, 2, 0, 0, 0] ++
  [2, 1, 3, 0, 1, 0, 0, 0, 12, 0, 0, 0] ++
  [3, 1, 3, 0, 1, 0, 0, 0, 255, 127, 0, 0] ++
  [15, 1, 2, 0, 5, 0, 0, 0, 122, 0, 0, 0] ++
  [16, 1, 2, 0, 10, 0, 0, 0, 127, 0, 0, 0] ++
  [17, 1, 4, 0, 1, 0, 0, 0, 137, 0, 0, 0] ++
  [23, 1, 4, 0, 1, 0, 0, 0, 21, 0, 0, 0] ++
  [52, 198, 1, 0, 4, 0, 0, 0, 158, 0, 0, 0] ++
  [0, 0, 0, 0] ++
  [83, 79, 78, 89, 0] ++
  [68, 83, 76, 82, 45, 65, 55, 48, 48, 0] ++
  [1, 150, 30, 60, 120, 240, 78, 60, 120, 241, 224, 20, 161, 227, 199, 143, 4, 227, 199, 143, 30] ++
  [3, 0, 0, 114, 4, 0, 1, 0, 0, 0, 200, 0, 0, 0, 1, 114, 4, 0, 1, 0, 0, 0, 38, 0, 0, 0, 33, 114, 4, 0, 1, 0, 0, 0, 77, 0, 0, 0, 0, 0, 0, 0] ++
  [207, 144, 244, 27, 251, 213, 8, 219, 155, 128, 246, 239, 238, 58, 127, 83, 175, 32, 15, 8, 45, 222, 13, 246, 111, 65, 245, 207, 135, 201, 47, 172, 222, 193, 129, 142, 84, 46] ++
  [101, 110, 100, 33]

private def firstDir : Dir := .mk false [.plain ⟨0x100, 3, [2]⟩, .plain ⟨0x101, 3, [2]⟩, .plain ⟨0x102, 3, [12]⟩, .plain ⟨0x103, 3, [32767]⟩, .plain ⟨0x10f, 2, [83, 79, 78, 89, 0]⟩, .plain ⟨0x110, 2, [68, 83, 76, 82, 45, 65, 55, 48, 48, 0]⟩, .plain ⟨0x111, 4, [137]⟩, .plain ⟨0x117, 4, [21]⟩, .plain ⟨0xc634, 1, [158, 0, 0, 0]⟩]

private theorem first_stored : TiffFile 11 false firstFile [firstDir] := by
  refine ⟨by decide +kernel, by decide +kernel, 8, by decide, by decide +kernel, rfl, ?_⟩
  refine ⟨by decide, by decide +kernel, by decide, by decide +kernel, by decide +kernel, ?_⟩
  intro i it hi
  match i with
  | 0 => injection hi with hi; subst hi; stored_inline
  | 1 => injection hi with hi; subst hi; stored_inline
  | 2 => injection hi with hi; subst hi; stored_inline
  | 3 => injection hi with hi; subst hi; stored_inline
  | 4 => injection hi with hi; subst hi; stored_outside 122
  | 5 => injection hi with hi; subst hi; stored_outside 127
  | 6 => injection hi with hi; subst hi; stored_inline
  | 7 => injection hi with hi; subst hi; stored_inline
  | 8 => injection hi with hi; subst hi; stored_inline
  | i + 9 => cases hi

private theorem first_camera : CameraFile firstFile false [firstDir] (b! "SONY") (b! "DSLR-A700") none where
  tiff := first_stored
  few := by decide
  notCiff := by decide +kernel
  notDng := lacks_one rfl rfl
  make := ⟨⟨by decide, by decide, by decide⟩, false, _, first_one rfl, rfl, 0, 0, [0], Or.inr rfl, rfl⟩
  model := ⟨⟨by decide, by decide, by decide⟩, false, _, first_one rfl, rfl, 0, 0, [0], Or.inr rfl, rfl⟩
  orientation := lacks_one rfl rfl

private def firstBlock : Bytes := [2, 0, 0, 112, 3, 0, 1, 0, 0, 0, 7, 0, 0, 0, 3, 115, 3, 0, 4, 0, 0, 0, 230, 0, 0, 0, 0, 0, 0, 0, 0, 1, 88, 2, 124, 1, 0, 1]

private theorem first_white : SonyWhite firstFile (fileRoot false [firstDir]) 600 256 380 := by
  refine ⟨false, _, [], 158, .mk false [.plain ⟨0x7200, 4, [200]⟩, .plain ⟨0x7201, 4, [38]⟩, .plain ⟨0x7221, 4, [77]⟩], 0, 200, 38, 77, firstBlock,
    [⟨0x7000, 3, [7]⟩, ⟨0x7303, 3, [256, 600, 380, 256]⟩], first_one rfl, by decide +kernel, by decide, rfl, ?_, numbers_here (f := ⟨0x7200, 4, [200]⟩) rfl (by decide),
    numbers_here (f := ⟨0x7201, 4, [38]⟩) rfl (by decide), numbers_here (f := ⟨0x7221, 4, [77]⟩) rfl (by decide), by decide +kernel,
    encrypted_of (more := [237, 217]) (by decide +kernel), ?_, ?_⟩
  · refine ⟨by decide, by decide +kernel, by decide, by decide +kernel, by decide +kernel, ?_⟩
    intro i it hi
    match i with
    | 0 => injection hi with hi; subst hi; stored_inline
    | 1 => injection hi with hi; subst hi; stored_inline
    | 2 => injection hi with hi; subst hi; stored_inline
    | i + 3 => cases hi
  · refine ⟨by decide, by decide +kernel, by decide +kernel, ?_⟩
    intro i it hi
    match i with
    | 0 => injection hi with hi; subst hi; stored_inline
    | 1 => injection hi with hi; subst hi; stored_outside 30
    | i + 2 => cases hi
  · exact Or.inl ⟨_, _, _, ⟨[], _, rfl, rfl, fun q _ hq _ => by cases q <;> simp at hq⟩, Or.inl rfl, rfl⟩

private theorem first_strip (cam : Camera) (hb : cam.bps = 0) : SonyStrip (fileRoot false [firstDir]) cam firstDir 2 2 137 21 32767 12 where
  first := first_with (f := ⟨0x111, 4, [137]⟩) rfl
  width := numbers_here (f := ⟨0x100, 3, [2]⟩) rfl (by decide)
  height := numbers_here (f := ⟨0x101, 3, [2]⟩) rfl (by decide)
  position := numbers_here (f := ⟨0x111, 4, [137]⟩) rfl (by decide)
  length := numbers_here (f := ⟨0x117, 4, [21]⟩) rfl (by decide)
  compression := numbers_here (f := ⟨0x103, 3, [32767]⟩) rfl (by decide)
  bits := Or.inr ⟨hb, numbers_here (f := ⟨0x102, 3, [12]⟩) rfl (by decide)⟩

/-- The first compression: the directory says two rows, the picture has ten. -/
example (env : Platform) (b : Build) (cam : Camera) (hb : NoBlackAreas cam) (h0 : cam.bps = 0) :
    (loaderOf (b! "SONY") (b! "DSLR-A700") [] cam).decodeSafe env b (.ok firstFile) =
    .ok (pictureOf cam .unknown 2 10 [F32.ofNat 600, F32.ofNat 256, F32.ofNat 380, .nan] cam.blacklevels (raster 2 10 fun r c => (7 * r + 300 * c) % 65536)) :=
  arw_first_file (loaderOf (b! "SONY") (b! "DSLR-A700") [] cam) env b first_camera (by decide) rfl (first_strip cam h0) (by decide) first_white (by decide)
    (fun r c => (7 * r + 300 * c) % 65536) (fun r c => Nat.mod_lt _ (by decide)) (hb.blacks _ _ _) (firstFile.drop 158) (by decide +kernel) (by decide +kernel)

private def r1File : Bytes :=
  [73, 73, 42, 0, 8, 0, 0, 0] ++
  [9, 0] ++
  [0, 1, 3, 0, 1, 0, 0, 0, 3, 0, 0, 0] ++
  [1, 1, 3, 0, 1, 0, 0, 0, 2, 0, 0, 0] ++
  [2, 1, 3, 0, 1, 0, 0, 0, 14, 0, 0, 0] ++
  [3, 1, 3, 0, 1, 0, 0, 0, 1, 0, 0, 0] ++
  [15, 1, 2, 0, 5, 0, 0, 0, 122, 0, 0, 0] ++
  [16, 1, 2, 0, 7, 0, 0, 0, 127, 0, 0, 0] ++
  [17, 1, 4, 0, 1, 0, 0, 0, 134, 0, 0, 0] ++
  [23, 1, 4, 0, 1, 0, 0, 0, 12, 0, 0, 0] ++
  [52, 198, 1, 0, 4, 0, 0, 0, 146, 0, 0, 0] ++
  [0, 0, 0, 0] ++
  [83, 79, 78, 89, 0] ++
  [68, 83, 67, 45, 82, 49, 0] ++
  [0, 5, 142, 121, 57, 213, 130, 25, 39, 69, 169, 89] ++
  [3, 0, 0, 114, 4, 0, 1, 0, 0, 0, 188, 0, 0, 0, 1, 114, 4, 0, 1, 0, 0, 0, 38, 0, 0, 0, 33, 114, 4, 0, 1, 0, 0, 0, 5, 0, 0, 0, 0, 0, 0, 0] ++
  [183, 233, 242, 119, 247, 183, 158, 83, 138, 19, 114, 131, 132, 58, 104, 63, 124, 245, 11, 8, 225, 27, 50, 63, 235, 204, 245, 22, 202, 67, 6, 230, 112, 113, 136, 61, 86, 176] ++
  [101, 110, 100, 33]

private def r1Dir : Dir := .mk false [.plain ⟨0x100, 3, [3]⟩, .plain ⟨0x101, 3, [2]⟩, .plain ⟨0x102, 3, [14]⟩, .plain ⟨0x103, 3, [1]⟩, .plain ⟨0x10f, 2, [83, 79, 78, 89, 0]⟩, .plain ⟨0x110, 2, [68, 83, 67, 45, 82, 49, 0]⟩, .plain ⟨0x111, 4, [134]⟩, .plain ⟨0x117, 4, [12]⟩, .plain ⟨0xc634, 1, [146, 0, 0, 0]⟩]

private theorem r1_stored : TiffFile 11 false r1File [r1Dir] := by
  refine ⟨by decide +kernel, by decide +kernel, 8, by decide, by decide +kernel, rfl, ?_⟩
  refine ⟨by decide, by decide +kernel, by decide, by decide +kernel, by decide +kernel, ?_⟩
  intro i it hi
  match i with
  | 0 => injection hi with hi; subst hi; stored_inline
  | 1 => injection hi with hi; subst hi; stored_inline
  | 2 => injection hi with hi; subst hi; stored_inline
  | 3 => injection hi with hi; subst hi; stored_inline
  | 4 => injection hi with hi; subst hi; stored_outside 122
  | 5 => injection hi with hi; subst hi; stored_outside 127
  | 6 => injection hi with hi; subst hi; stored_inline
  | 7 => injection hi with hi; subst hi; stored_inline
  | 8 => injection hi with hi; subst hi; stored_inline
  | i + 9 => cases hi

private theorem r1_camera : CameraFile r1File false [r1Dir] (b! "SONY") (b! "DSC-R1") none where
  tiff := r1_stored
  few := by decide
  notCiff := by decide +kernel
  notDng := lacks_one rfl rfl
  make := ⟨⟨by decide, by decide, by decide⟩, false, _, first_one rfl, rfl, 0, 0, [0], Or.inr rfl, rfl⟩
  model := ⟨⟨by decide, by decide, by decide⟩, false, _, first_one rfl, rfl, 0, 0, [0], Or.inr rfl, rfl⟩
  orientation := lacks_one rfl rfl

private def r1Block : Bytes := [2, 0, 0, 112, 3, 0, 1, 0, 0, 0, 7, 0, 0, 0, 3, 115, 3, 0, 4, 0, 0, 0, 218, 0, 0, 0, 0, 0, 0, 0, 0, 1, 88, 2, 124, 1, 0, 1]

private theorem r1_white : SonyWhite r1File (fileRoot false [r1Dir]) 600 256 380 := by
  refine ⟨false, _, [], 146, .mk false [.plain ⟨0x7200, 4, [188]⟩, .plain ⟨0x7201, 4, [38]⟩, .plain ⟨0x7221, 4, [5]⟩], 0, 188, 38, 5, r1Block,
    [⟨0x7000, 3, [7]⟩, ⟨0x7303, 3, [256, 600, 380, 256]⟩], first_one rfl, by decide +kernel, by decide, rfl, ?_, numbers_here (f := ⟨0x7200, 4, [188]⟩) rfl (by decide),
    numbers_here (f := ⟨0x7201, 4, [38]⟩) rfl (by decide), numbers_here (f := ⟨0x7221, 4, [5]⟩) rfl (by decide), by decide +kernel,
    encrypted_of (more := [184, 223]) (by decide +kernel), ?_, ?_⟩
  · refine ⟨by decide, by decide +kernel, by decide, by decide +kernel, by decide +kernel, ?_⟩
    intro i it hi
    match i with
    | 0 => injection hi with hi; subst hi; stored_inline
    | 1 => injection hi with hi; subst hi; stored_inline
    | 2 => injection hi with hi; subst hi; stored_inline
    | i + 3 => cases hi
  · refine ⟨by decide, by decide +kernel, by decide +kernel, ?_⟩
    intro i it hi
    match i with
    | 0 => injection hi with hi; subst hi; stored_inline
    | 1 => injection hi with hi; subst hi; stored_outside 30
    | i + 2 => cases hi
  · exact Or.inl ⟨_, _, _, ⟨[], _, rfl, rfl, fun q _ hq _ => by cases q <;> simp at hq⟩, Or.inl rfl, rfl⟩

private theorem r1_strip (cam : Camera) (hb : cam.bps = 0) : SonyStrip (fileRoot false [r1Dir]) cam r1Dir 3 2 134 12 1 14 where
  first := first_with (f := ⟨0x111, 4, [134]⟩) rfl
  width := numbers_here (f := ⟨0x100, 3, [3]⟩) rfl (by decide)
  height := numbers_here (f := ⟨0x101, 3, [2]⟩) rfl (by decide)
  position := numbers_here (f := ⟨0x111, 4, [134]⟩) rfl (by decide)
  length := numbers_here (f := ⟨0x117, 4, [12]⟩) rfl (by decide)
  compression := numbers_here (f := ⟨0x103, 3, [1]⟩) rfl (by decide)
  bits := Or.inr ⟨hb, numbers_here (f := ⟨0x102, 3, [14]⟩) rfl (by decide)⟩

/-- The DSC-R1. -/
example (env : Platform) (b : Build) (cam : Camera) (hb : NoBlackAreas cam) (h0 : cam.bps = 0) (hm : cam.model = b! "DSC-R1") :
    (loaderOf (b! "SONY") (b! "DSC-R1") [] cam).decodeSafe env b (.ok r1File) =
    .ok (pictureOf cam .unknown 3 2 [F32.ofNat 600, F32.ofNat 256, F32.ofNat 380, .nan] cam.blacklevels [5, 3705, 14805, 537, 10053, 10585]) := by
  have := arw_r1_file (loaderOf (b! "SONY") (b! "DSC-R1") [] cam) env b r1_camera (by decide) rfl hm (r1_strip cam h0) r1_white (by decide)
    (by decide +kernel) (hb.blacks _ _ _)
  rw [show raster 3 2 (fun r c => (256 * bytesOf r1File (134 + 2 * (r * 3 + c)) + bytesOf r1File (134 + 2 * (r * 3 + c) + 1)) % 16384) = [5, 3705, 14805, 537, 10053, 10585] by decide +kernel] at this
  exact this

private def srfFile : Bytes :=
  [73, 73, 42, 0, 8, 0, 0, 0] ++
  [4, 0] ++
  [0, 1, 3, 0, 1, 0, 0, 0, 3, 0, 0, 0] ++
  [1, 1, 3, 0, 1, 0, 0, 0, 2, 0, 0, 0] ++
  [15, 1, 2, 0, 5, 0, 0, 0, 62, 0, 0, 0] ++
  [16, 1, 2, 0, 9, 0, 0, 0, 67, 0, 0, 0] ++
  [0, 0, 0, 0] ++
  [83, 79, 78, 89, 0] ++
  [68, 83, 67, 45, 70, 56, 50, 56, 0] ++
  []

private def srfDir : Dir := .mk false [.plain ⟨0x100, 3, [3]⟩, .plain ⟨0x101, 3, [2]⟩, .plain ⟨0x10f, 2, [83, 79, 78, 89, 0]⟩, .plain ⟨0x110, 2, [68, 83, 67, 45, 70, 56, 50, 56, 0]⟩]

private theorem srf_stored : TiffFile 11 false srfFile [srfDir] := by
  refine ⟨by decide +kernel, by decide +kernel, 8, by decide, by decide +kernel, rfl, ?_⟩
  refine ⟨by decide, by decide +kernel, by decide, by decide +kernel, by decide +kernel, ?_⟩
  intro i it hi
  match i with
  | 0 => injection hi with hi; subst hi; stored_inline
  | 1 => injection hi with hi; subst hi; stored_inline
  | 2 => injection hi with hi; subst hi; stored_outside 62
  | 3 => injection hi with hi; subst hi; stored_outside 67
  | i + 4 => cases hi

private theorem srf_camera : CameraFile srfFile false [srfDir] (b! "SONY") (b! "DSC-F828") none where
  tiff := srf_stored
  few := by decide
  notCiff := by decide +kernel
  notDng := lacks_one rfl rfl
  make := ⟨⟨by decide, by decide, by decide⟩, false, _, first_one rfl, rfl, 0, 0, [0], Or.inr rfl, rfl⟩
  model := ⟨⟨by decide, by decide, by decide⟩, false, _, first_one rfl, rfl, 0, 0, [0], Or.inr rfl, rfl⟩
  orientation := lacks_one rfl rfl

private def srfHead : Bytes := [0, 1, 2, 3, 4, 5, 6, 7, 8, 9, 10, 11, 12, 13, 14, 15, 16, 17, 18, 19, 20, 21, 52, 18, 254, 202, 0, 1, 2, 3, 4, 5, 6, 7, 8, 9, 10, 11, 12, 13]
private def srfData : Bytes := [0, 5, 14, 121, 57, 213, 130, 25, 231, 69, 105, 89]

private def srfWhole : Bytes := srfFile ++ (List.replicate 164524 0 ++ ([118, 103, 122, 85, 228, 39, 32, 72, 133, 227, 24, 230, 178, 202, 227, 126, 231, 9, 199, 101, 169, 222, 162, 110, 11, 47, 143, 55, 4, 27, 242, 31, 3, 253, 188, 136, 125, 173, 204, 192, 224, 62, 119, 110] ++ (List.replicate 36252 0 ++ ([3] ++ (List.replicate 11 0 ++ ([1, 2, 3, 4] ++
  (List.replicate 661232 0 ++ [68, 246, 1, 179, 7, 102, 54, 126, 100, 112, 220, 78, 46, 5, 104, 71])))))))

private theorem encrypted_skip {pre l block : Bytes} {n p pos key : Nat} (hn : pre.length = n) (hp : n + p = pos) (h : EncryptedAt l p key block) :
    EncryptedAt (pre ++ l) pos key block := by
  intro i x hx
  rw [List.getElem?_append_right (by omega), show pos + i - pre.length = p + i by omega]
  exact h i x hx

private theorem bytes_skip {pre l : Bytes} {n p pos k : Nat} {v : Bytes} (hn : pre.length = n) (hp : n + p = pos) (h : bytesAt l p k = v) : bytesAt (pre ++ l) pos k = v := by
  unfold bytesAt at *
  rw [List.drop_append, List.drop_of_length_le (by omega), List.nil_append, show pos - pre.length = p by omega]
  exact h

private theorem byte_skip {pre l : Bytes} {n p pos : Nat} {v : UInt8} (hn : pre.length = n) (hp : n + p = pos) (h : l[p]? = some v) : (pre ++ l)[pos]? = some v := by
  rw [List.getElem?_append_right (by omega), show pos - pre.length = p by omega]
  exact h

private theorem srf_picture : SrfPicture srfWhole 3 2 (fun r c => [5, 3705, 14805, 33305, 59205, 26969].getD (r * 3 + c) 0) := by
  have hs : srfFile.length = 76 := by decide +kernel
  refine ⟨3, 16909060, 3405648436, srfHead, srfData, ?_, by decide, ?_, by decide, ?_, by decide, by decide +kernel, by decide, ?_, ?_⟩
  · refine byte_skip hs (p := 200820) (by omega) ?_
    refine byte_skip (List.length_replicate ..) (p := 36296) (by omega) ?_
    refine byte_skip (n := 44) (by decide) (p := 36252) (by omega) ?_
    exact byte_skip (List.length_replicate ..) (p := 0) (by omega) rfl
  · rw [show 200896 + 4 * (UInt8.toNat 3) = 200908 from rfl]
    refine bytes_skip hs (p := 200832) (by omega) ?_
    refine bytes_skip (List.length_replicate ..) (p := 36308) (by omega) ?_
    refine bytes_skip (n := 44) (by decide) (p := 36264) (by omega) ?_
    refine bytes_skip (List.length_replicate ..) (p := 12) (by omega) ?_
    refine bytes_skip (n := 1) (by decide) (p := 11) (by omega) ?_
    refine bytes_skip (List.length_replicate ..) (p := 0) (by omega) ?_
    exact bytesAt_pad (by decide +kernel) (by decide)
  · refine encrypted_skip hs (p := 164524) (by omega) ?_
    refine encrypted_skip (List.length_replicate ..) (p := 0) (by omega) ?_
    intro i x hx
    have := encrypted_of (contents := [118, 103, 122, 85, 228, 39, 32, 72, 133, 227, 24, 230, 178, 202, 227, 126, 231, 9, 199, 101, 169, 222, 162, 110, 11, 47, 143, 55, 4, 27, 242, 31, 3, 253, 188, 136, 125, 173, 204, 192, 224, 62, 119, 110]) (more := [0, 0, 0, 0]) (block := srfHead) (pos := 0) (key := 16909060) (by decide +kernel) i x hx
    rw [List.getElem?_append_left (List.getElem?_eq_some_iff.mp this).1]
    exact this
  · refine encrypted_skip hs (p := 862068) (by omega) ?_
    refine encrypted_skip (List.length_replicate ..) (p := 697544) (by omega) ?_
    refine encrypted_skip (n := 44) (by decide) (p := 697500) (by omega) ?_
    refine encrypted_skip (List.length_replicate ..) (p := 661248) (by omega) ?_
    refine encrypted_skip (n := 1) (by decide) (p := 661247) (by omega) ?_
    refine encrypted_skip (List.length_replicate ..) (p := 661236) (by omega) ?_
    refine encrypted_skip (n := 4) (by decide) (p := 661232) (by omega) ?_
    refine encrypted_skip (List.length_replicate ..) (p := 0) (by omega) ?_
    exact encrypted_of (more := [0, 0, 0, 0]) (block := srfData) (by decide +kernel)
  · intro r c hr hc
    exact (by decide +kernel : ∀ r, r < 2 → ∀ c, c < 3 → [5, 3705, 14805, 33305, 59205, 26969].getD (r * 3 + c) 0 < 65536 ∧ bytesAt srfData (2 * (r * 3 + c)) 2 = encode true 2 ([5, 3705, 14805, 33305, 59205, 26969].getD (r * 3 + c) 0)) r hr c hc

private theorem srf_camera_whole : CameraFile srfWhole false [srfDir] (b! "SONY") (b! "DSC-F828") none where
  tiff := tiff_pad _ srf_camera.tiff
  few := srf_camera.few
  notCiff := by
    unfold srfWhole
    rw [bytesAt_append (by decide +kernel)]
    exact srf_camera.notCiff
  notDng := srf_camera.notDng
  make := srf_camera.make
  model := srf_camera.model
  orientation := srf_camera.orientation

/-- A file of one of the oldest cameras. -/
example (env : Platform) (b : Build) (cam : Camera) (hb : NoBlackAreas cam) (hm : cam.model = b! "DSC-F828") :
    (loaderOf (b! "SONY") (b! "DSC-F828") [] cam).decodeSafe env b (.ok srfWhole) =
    .ok (pictureOf cam .unknown 3 2 [.nan, .nan, .nan, .nan] cam.blacklevels [5, 3705, 14805, 33305, 59205, 26969]) := by
  have := srf_file (loaderOf (b! "SONY") (b! "DSC-F828") [] cam) env b srf_camera_whole (by decide) rfl (by rw [hm]; decide) (lacks_one rfl rfl) (first_with (f := ⟨0x100, 3, [3]⟩) rfl)
    (numbers_here (f := ⟨0x100, 3, [3]⟩) rfl (by decide)) (numbers_here (f := ⟨0x101, 3, [2]⟩) rfl (by decide)) (by decide) (by decide) srf_picture (hb.blacks _ _ _)
  rw [show raster 3 2 (fun r c => [5, 3705, 14805, 33305, 59205, 26969].getD (r * 3 + c) 0) = [5, 3705, 14805, 33305, 59205, 26969] by decide +kernel] at this
  exact this

end Example

end Props

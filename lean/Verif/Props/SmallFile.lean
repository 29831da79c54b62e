import Verif.Lemmas.OpenFile
import Verif.Lemmas.Listed
import Verif.Lemmas.Reals
import Verif.Lemmas.FileExample
import Verif.Props.Packed
import Verif.Props.PackedMore
import Verif.Props.Dither
import Verif.Props.Hasselblad
/-!
# C79: whole files of Epson, Kodak, Nikon Coolpix and Hasselblad cameras

From the bytes of a file to the picture the public function returns.
-/

namespace Props
open Rust Spec Model Model.Ljpeg

/-! ## Epson -/

/-- The levels of red and blue: two numbers, the high byte first, in the field with 256 values. -/
def EpsonLevels (root : Dir) (red blue : Nat) : Prop :=
  ∃ big f, root.First 0xe80 big f ∧ f.values.length = 256 ∧ red < 65536 ∧ blue < 65536 ∧
    bytesAt (f.bytes big) 48 2 = encode true 2 red ∧ bytesAt (f.bytes big) 50 2 = encode true 2 blue

/-- **C79**, Epson: 12 bits, packed, with a byte after every ten samples that does not count. -/
theorem erf_file (s : RawLoader) (env : Platform) (b : Build) {contents : Bytes} {big : Bool} {dirs : List Dir} {model : Bytes} {o : Option Nat}
    (h : CameraFile contents big dirs (b! "SEIKO EPSON CORP.") model o) (h560 : model ≠ b! "DCS560C")
    {cam : Camera} (hcam : Map.get s.cameras (b! "SEIKO EPSON CORP.", model, []) = some cam)
    {raw : Dir} (hraw : (fileRoot big dirs).FirstWith 0x828e raw) {w ht offset : Nat} {t1 t2 t3 : List Nat}
    (h1 : raw.Numbers 0x100 (w :: t1)) (h2 : raw.Numbers 0x101 (ht :: t2)) (h3 : raw.Numbers 0x111 (offset :: t3))
    {red blue : Nat} (hwb : EpsonLevels (fileRoot big dirs) red blue) (hw : 0 < w) (he : w % 2 = 0)
    (hlen : offset + ht * (w / 2 * 3 + (w + 2) / 10) ≤ contents.length) {blacks : List Nat}
    (hb : BlacksOf cam w ht (fun r c => fieldMSB (bytesOf contents) (8 * offset + (8 * (r * (w / 2 * 3 + (w + 2) / 10) + 16 * (c / 10)) + 12 * (c % 10))) 12) blacks) :
    s.decodeSafe env b (.ok contents) = .ok (pictureOf cam (orientationOf o) w ht
      [(((F32.ofNat red).mul (F32.ofNat 508)).mul (F32.ofRat (1078 / 1000))).div (F32.ofNat 65536), F32.ofNat 1,
       (((F32.ofNat blue).mul (F32.ofNat 382)).mul (F32.ofRat (1173 / 1000))).div (F32.ofNat 65536), .nan] blacks
      (raster w ht fun r c => fieldMSB (bytesOf contents) (8 * offset + (8 * (r * (w / 2 * 3 + (w + 2) / 10) + 16 * (c / 10)) + 12 * (c % 10))) 12)) := by
  obtain ⟨root, hh, hc, hd⟩ := camera_decodes s env b h (k := .erf) (by decide) h560
  obtain ⟨ifd, f1, f2⟩ := fetch_dir hh (tag := 0x828e) (by decide) hraw
  obtain ⟨big', f, g1, g2, g3, g4, g5, g6⟩ := hwb
  obtain ⟨ent, e1, e2⟩ := find_first hh (tag := 0xe80) (by decide) g1
  have himage : Erf.image b (contents ++ List.replicate 16 0) root s = .ok (pictureOf cam (orientationOf o) w ht
      [(((F32.ofNat red).mul (F32.ofNat 508)).mul (F32.ofRat (1078 / 1000))).div (F32.ofNat 65536), F32.ofNat 1,
       (((F32.ofNat blue).mul (F32.ofNat 382)).mul (F32.ofRat (1173 / 1000))).div (F32.ofNat 65536), .nan] blacks
      (raster w ht fun r c => fieldMSB (bytesOf contents) (8 * offset + (8 * (r * (w / 2 * 3 + (w + 2) / 10) + 16 * (c / 10)) + 12 * (c % 10))) 12)) := by
    unfold Erf.image RawLoader.checkSupported
    rw [hc [] cam hcam, ok_bind, show TiffIFD.fetchIfd _ Tag.CFAPattern = _ from f1, ok_bind,
      show fetchUsize ifd Tag.ImageWidth = _ from fetch_number f2 (by decide) h1, ok_bind,
      show fetchUsize ifd Tag.ImageLength = _ from fetch_number f2 (by decide) h2, ok_bind,
      show fetchUsize ifd Tag.StripOffsets = _ from fetch_number f2 (by decide) h3, ok_bind,
      sliceFrom_le (by simp; omega), ok_bind, decode_12be_wcontrol_exact _ w ht hw he (by simp; omega), ok_bind,
      raster_congr (q := fun r c => fieldMSB (bytesOf contents) (8 * offset + (8 * (r * (w / 2 * 3 + (w + 2) / 10) + 16 * (c / 10)) + 12 * (c % 10))) 12)
        (fun r c _ _ => field_at contents 16 offset _ 12)]
    unfold Erf.getWb TiffIFD.fetchTag
    rw [show TiffIFD.findEntry Tag.EpsonWB root = some ent from e1]
    simp only [ok_bind]
    rw [if_neg (by rw [e2.count]; exact fun hn => hn g2), e2.data, be16_known g3 g5, ok_bind, be16_known g4 g6, ok_bind, ok_bind]
    exact ok_image b o hb _
  apply hd
  intro d hk ht'
  cases d <;> cases hk
  injection ht' with ht'; subst ht'
  exact himage

/-! ## Kodak EasyShare -/

/-- The white balance: three numbers or, if there are none, two in a block of one of two sizes, in units of 1/256. -/
def KodakBalance (root : Dir) (wb : List F32) : Prop :=
  (∃ red green blue, Dir.Reals root 0xfa2a [red, green, blue] ∧ wb = [red, green, blue, .nan]) ∨
  root.Lacks 0xfa2a ∧ ∃ big f red blue, root.First 0xf00 big f ∧ (f.values.length = 734 ∨ f.values.length = 1502) ∧ red < 65536 ∧ blue < 65536 ∧
    bytesAt (f.bytes big) 148 2 = encode true 2 red ∧ bytesAt (f.bytes big) 150 2 = encode true 2 blue ∧
    wb = [(F32.ofNat red).div (F32.ofNat 256), F32.ofNat 1, (F32.ofNat blue).div (F32.ofNat 256), .nan]

private theorem kdc_wb {root : Dir} {tree : TiffIFD} (hh : Holds root tree) {wb : List F32} (h : KodakBalance root wb) : Kdc.getWb tree = .ok wb := by
  unfold Kdc.getWb
  rcases h with ⟨red, green, blue, hr, rfl⟩ | ⟨hl, big, f, red, blue, g1, g2, g3, g4, g5, g6, rfl⟩
  · obtain ⟨ent, e1, e2, e3⟩ := find_reals hh (tag := 0xfa2a) (by decide) hr
    rw [show TiffIFD.findEntry Tag.KdcWB tree = some ent from e1]
    dsimp only
    rw [if_neg (by rw [e2]; exact fun hn => hn rfl), e3 0 (by simp), ok_bind, e3 1 (by simp), ok_bind, e3 2 (by simp)]
    rfl
  · obtain ⟨ent, e1, e2⟩ := find_first hh (tag := 0xf00) (by decide) g1
    rw [show TiffIFD.findEntry Tag.KdcWB tree = none from find_lacks hh hl]
    unfold TiffIFD.fetchTag
    rw [show TiffIFD.findEntry Tag.KodakWB tree = some ent from e1]
    simp only [ok_bind]
    rw [if_neg (by rw [e2.count]; omega), e2.data, be16_known g3 g5, ok_bind, be16_known g4 g6, ok_bind]

/-- The position of the picture: the sum of two of the stored numbers or, for cameras marked so, one of two places. -/
def kodakPosition (marked : Bool) (sum : Nat) : Nat := if marked then (if sum < 0x15000 then 0x15000 else 0x17000) else sum

/-- **C79**, Kodak EasyShare: 12 bits, packed. The picture is larger than stated by 80 columns and 70 rows. -/
theorem kdc_file (s : RawLoader) (env : Platform) (b : Build) {contents : Bytes} {big : Bool} {dirs : List Dir} {model : Bytes} {o : Option Nat}
    (h : CameraFile contents big dirs (b! "EASTMAN KODAK COMPANY") model o) (h560 : model ≠ b! "DCS560C")
    {cam : Camera} (hcam : Map.get s.cameras (b! "EASTMAN KODAK COMPANY", model, []) = some cam) {w ht : Nat} {t1 t2 l : List Nat}
    (h1 : (fileRoot big dirs).Numbers 0xfd00 (w :: t1)) (h2 : (fileRoot big dirs).Numbers 0xfd01 (ht :: t2)) (h3 : (fileRoot big dirs).Numbers 0xfd04 l) (hl : 13 ≤ l.length)
    {offset : Nat} (ho : offset = kodakPosition (cam.findHint (b! "easyshare_offset_hack")) (l[4] + l[12]))
    {wb : List F32} (hwb : KodakBalance (fileRoot big dirs) wb) (he : w % 2 = 0)
    (hlen : offset + (w + 80) * (ht + 70) * 12 / 8 ≤ contents.length) {blacks : List Nat}
    (hb : BlacksOf cam (w + 80) (ht + 70) (fun r c => fieldMSB (bytesOf contents) (8 * offset + 12 * (r * (w + 80) + c)) 12) blacks) :
    s.decodeSafe env b (.ok contents) = .ok (pictureOf cam (orientationOf o) (w + 80) (ht + 70) wb blacks
      (raster (w + 80) (ht + 70) fun r c => fieldMSB (bytesOf contents) (8 * offset + 12 * (r * (w + 80) + c)) 12)) := by
  obtain ⟨root, hh, hc, hd⟩ := camera_decodes s env b h (k := .kdc) (by decide) h560
  obtain ⟨ent, e1, e2, e3, _⟩ := find_numbers hh (tag := 0xfd04) (by decide) h3
  have himage : Kdc.image b (contents ++ List.replicate 16 0) root s = .ok (pictureOf cam (orientationOf o) (w + 80) (ht + 70) wb blacks
      (raster (w + 80) (ht + 70) fun r c => fieldMSB (bytesOf contents) (8 * offset + 12 * (r * (w + 80) + c)) 12)) := by
    unfold Kdc.image RawLoader.checkSupported
    rw [hc [] cam hcam, ok_bind, show fetchUsize root Tag.KdcWidth = _ from fetch_number hh (by decide) h1, ok_bind]
    rw [show fetchUsize root Tag.KdcLength = _ from fetch_number hh (by decide) h2, ok_bind]
    unfold TiffIFD.fetchTag
    rw [show TiffIFD.findEntry Tag.KdcOffset root = some ent from e1]
    simp only [ok_bind]
    rw [if_neg (by rw [e2]; omega), e3 4 (by omega), ok_bind, e3 12 (by omega), ok_bind, turned_hint]
    have hoff : (if cam.findHint (b! "easyshare_offset_hack") = true then (if l[4] + l[12] < 0x15000 then 0x15000 else 0x17000) else l[4] + l[12]) = offset := ho.symm
    rw [hoff, sliceFrom_le (by simp; omega), ok_bind, decode_12be_exact _ (w + 80) (ht + 70) (by omega) (by omega) (by simp; omega), ok_bind,
      raster_congr (q := fun r c => fieldMSB (bytesOf contents) (8 * offset + 12 * (r * (w + 80) + c)) 12) (fun r c _ _ => field_at contents 16 offset _ 12), kdc_wb hh hwb, ok_bind]
    exact ok_image b o hb _
  apply hd
  intro d hk ht'
  cases d <;> cases hk
  injection ht' with ht'; subst ht'
  exact himage

/-! ## Kodak DCS -/

/-- **C79**, Kodak DCS: bytes, looked up in a table of 256 entries and dithered. The picture is the first one wider than 1000. -/
theorem dcs_file (s : RawLoader) (env : Platform) (b : Build) {contents : Bytes} {big : Bool} {dirs : List Dir} {model : Bytes} {o : Option Nat}
    (h : CameraFile contents big dirs (b! "KODAK") model o) (h560 : model ≠ b! "DCS560C")
    {cam : Camera} (hcam : Map.get s.cameras (b! "KODAK", model, []) = some cam)
    {raw : Dir} {w ht offset : Nat} {t2 t3 table rest : List Nat} (hraw : WideDir (fileRoot big dirs) 0x111 raw w)
    (h2 : raw.Numbers 0x101 (ht :: t2)) (h3 : raw.Numbers 0x111 (offset :: t3)) (curve : (fileRoot big dirs).Numbers 0x123 (table ++ rest)) (full : table.length = 256)
    (small : ∀ v ∈ table, v < 65536) (smooth : ∀ i, i < table.length → gentle table i) (hlen : offset + w * ht ≤ contents.length)
    {img : Nat → Nat → Nat} (himg : ∀ r c, img r c = dithered (table[bytesOf contents (offset + (r * w + c))]?.getD 0)
      (above table (bytesOf contents (offset + (r * w + c))) - below table (bytesOf contents (offset + (r * w + c))))
      (mwcAfter (bytesOf contents (offset + (r * w + 3)) * 16777216 + bytesOf contents (offset + (r * w + 2)) * 65536 +
        bytesOf contents (offset + (r * w + 1)) * 256 + bytesOf contents (offset + r * w)) c))
    {blacks : List Nat} (hb : BlacksOf cam w ht img blacks) :
    s.decodeSafe env b (.ok contents) = .ok (pictureOf cam (orientationOf o) w ht [.nan, .nan, .nan, .nan] blacks (raster w ht img)) := by
  obtain ⟨root, hh, hc, hd⟩ := camera_decodes s env b h (k := .dcs) (by decide) h560
  obtain ⟨ifd, f1, f2⟩ := wide_found hh (by decide) hraw
  obtain ⟨t1, h1⟩ := hraw.width
  obtain ⟨ent, e1, _, e3, _⟩ := find_numbers hh (tag := 0x123) (by decide) curve
  have hexact := decode_8bit_wtable_exact b table full smooth ((contents ++ List.replicate 16 0).drop offset) w ht (by have := hraw.wide; omega) (by simp; omega) (by
    intro h0
    rw [Nat.sub_mul, Nat.one_mul, Nat.mul_comm ht]
    have : w ≤ w * ht := Nat.le_mul_of_pos_right _ h0
    simp
    omega)
  have himage : Dcs.image b (contents ++ List.replicate 16 0) root s = .ok (pictureOf cam (orientationOf o) w ht [.nan, .nan, .nan, .nan] blacks (raster w ht img)) := by
    unfold Dcs.image RawLoader.checkSupported
    rw [hc [] cam hcam, ok_bind, show wideIfd (root.findIfdsWithTag Tag.StripOffsets) = _ from f1, ok_bind,
      show fetchUsize ifd Tag.ImageWidth = _ from fetch_number f2 (by decide) h1, ok_bind,
      show fetchUsize ifd Tag.ImageLength = _ from fetch_number f2 (by decide) h2, ok_bind,
      show fetchUsize ifd Tag.StripOffsets = _ from fetch_number f2 (by decide) h3, ok_bind,
      sliceFrom_le (by simp; omega), ok_bind]
    unfold TiffIFD.fetchTag
    rw [show TiffIFD.findEntry Tag.GrayResponse root = some ent from e1]
    simp only [ok_bind]
    unfold Dcs.table
    rw [table_read full small e3, ok_bind]
    have hpix : ∀ {α : Type} (k : List Nat → M α), (do
        let tbl ← LookupTable.new b table
        let data ← decode_8bit_wtable b ((contents ++ List.replicate 16 0).drop offset) tbl w ht
        k data) = k (raster w ht img) := by
      intro α k
      have : (do
        let tbl ← LookupTable.new b table
        let data ← decode_8bit_wtable b ((contents ++ List.replicate 16 0).drop offset) tbl w ht
        k data) = ((do
        let tbl ← LookupTable.new b table
        decode_8bit_wtable b ((contents ++ List.replicate 16 0).drop offset) tbl w ht) >>= k) := by
        cases LookupTable.new b table <;> rfl
      rw [this, hexact, ok_bind]
      congr 1
      refine raster_congr fun r c _ _ => ?_
      simp only [bytes_from_offset]
      exact (himg r c).symm
    rw [hpix]
    exact ok_image b o hb _
  apply hd
  intro d hk ht'
  cases d <;> cases hk
  injection ht' with ht'; subst ht'
  exact himage

private theorem findM_none {α : Type} {f : α → M Bool} : ∀ l : List α, (∀ x ∈ l, f x = .ok false) → findM f l = .ok none
  | [], _ => rfl
  | x :: l, h => by
    unfold findM
    rw [h x List.mem_cons_self, ok_bind, if_neg (by decide)]
    exact findM_none l fun y hy => h y (List.mem_cons_of_mem _ hy)

/-- A file without a wide picture is refused: a preview is never taken for the picture. -/
theorem dcs_preview_refused (s : RawLoader) (env : Platform) (b : Build) {contents : Bytes} {big : Bool} {dirs : List Dir} {model : Bytes} {o : Option Nat}
    (h : CameraFile contents big dirs (b! "KODAK") model o) (h560 : model ≠ b! "DCS560C")
    (hnone : ∀ d, Below Dir.subdirs (fileRoot big dirs) d → (d.field 0x111).isSome = true → ∃ v t, d.Numbers 0x100 (v :: t) ∧ v ≤ 1000) (img : RawImage) :
    s.decodeSafe env b (.ok contents) ≠ .ok img := by
  obtain ⟨root, hh, d, hk, ht, hd⟩ := camera_decodes_iff s env b h (k := .dcs) (by decide) h560
  rw [ne_eq, hd]
  cases d <;> cases hk
  injection ht with ht; subst ht
  rename_i root
  intro hi
  change Dcs.image b _ root s = .ok img at hi
  unfold Dcs.image at hi
  simp only [bind_eq_ok] at hi
  obtain ⟨_, _, raw, hraw, _⟩ := hi
  unfold wideIfd at hraw
  rw [findM_none _ fun x hx => by
    rw [TiffIFD.findIfds_mem] at hx
    obtain ⟨⟨p, hp⟩, hk⟩ := hx
    obtain ⟨d, hd, hhd⟩ := (holds_path hh p).2 x hp
    obtain ⟨v, t, hv, hle⟩ := hnone d ⟨p, hd⟩ ((present_iff hhd (by decide)).mp hk)
    obtain ⟨ent, e1, _, e2, _⟩ := find_numbers hhd (tag := 0x100) (by decide) hv
    rw [show TiffIFD.findEntry Tag.ImageWidth x = some ent from e1]
    dsimp only
    rw [e2 0 (by simp), ok_bind]
    exact congrArg Except.ok (decide_eq_false (by simp only [List.getElem_cons_zero]; omega))] at hraw
  cases hraw

/-! ## Nikon Coolpix -/

/-- The levels in the block of the maker: in blocks starting with NRW four numbers of four bytes, the low byte first, of which the greens are added and the others multiplied by four; in
other blocks two numbers of two bytes, the high byte first, in units of 1/256. -/
def CoolpixLevels (data : Bytes) (wb : List F32) : Prop :=
  (bytesAt data 0 3 = b! "NRW" ∧ ∃ red green1 green2 blue pos, pos = (if bytesAt data 4 4 = b! "0100" then 1556 else 56) ∧
    red < 2 ^ 30 ∧ green1 + green2 < 2 ^ 32 ∧ blue < 2 ^ 30 ∧
    bytesAt data pos 4 = encode false 4 red ∧ bytesAt data (pos + 4) 4 = encode false 4 green1 ∧ bytesAt data (pos + 8) 4 = encode false 4 green2 ∧
    bytesAt data (pos + 12) 4 = encode false 4 blue ∧ wb = [F32.ofNat (4 * red), F32.ofNat (green1 + green2), F32.ofNat (4 * blue), .nan]) ∨
  (bytesAt data 0 3 ≠ b! "NRW" ∧ ∃ red blue, red < 65536 ∧ blue < 65536 ∧ bytesAt data 1248 2 = encode true 2 red ∧ bytesAt data 1250 2 = encode true 2 blue ∧
    wb = [F32.ofNat red, F32.ofNat 256, F32.ofNat blue, .nan])

/-- The white balance: none for cameras marked so; else two numbers or, if there are none, the levels in the block. -/
def CoolpixBalance (cam : Camera) (root : Dir) (wb : List F32) : Prop :=
  cam.findHint (b! "nowb") = true ∧ wb = [.nan, .nan, .nan, .nan] ∨
  cam.findHint (b! "nowb") = false ∧ ((∃ red blue t, Dir.Reals root 0xc (red :: blue :: t) ∧ wb = [red, F32.ofNat 1, blue, .nan]) ∨
    root.Lacks 0xc ∧ ∃ big f, root.First 0x14 big f ∧ CoolpixLevels (f.bytes big) wb)

private theorem slice_of {data : Bytes} {lo hi : Nat} (h1 : lo ≤ hi) (h2 : hi ≤ data.length) : slice data lo hi = .ok (bytesAt data lo (hi - lo)) := by
  rw [slice_le h1 h2]
  unfold bytesAt
  rw [List.drop_take]

private theorem nrw_wb (b : Build) {cam : Camera} (o : Option Nat) {root : Dir} {tree : TiffIFD} (hh : Holds root tree) {wb : List F32} (h : CoolpixBalance cam root wb) :
    Nrw.getWb b tree (turned cam o) = .ok wb := by
  unfold Nrw.getWb
  rw [turned_hint]
  rcases h with ⟨hn, rfl⟩ | ⟨hn, ⟨red, blue, t, hr, rfl⟩ | ⟨hl, big, f, hf, hlev⟩⟩
  · rw [if_pos hn]
    rfl
  · obtain ⟨ent, e1, _, e3⟩ := find_reals hh (tag := 0xc) (by decide) hr
    rw [if_neg (by rw [hn]; decide), show TiffIFD.findEntry Tag.NefWB0 tree = some ent from e1]
    dsimp only
    rw [e3 0 (by simp), ok_bind, e3 1 (by simp), ok_bind]
    rfl
  · obtain ⟨ent, e1, e2⟩ := find_first hh (tag := 0x14) (by decide) hf
    rw [if_neg (by rw [hn]; decide), show TiffIFD.findEntry Tag.NefWB0 tree = none from find_lacks hh hl]
    dsimp only
    rw [show TiffIFD.findEntry Tag.NrwWB tree = some ent from e1]
    dsimp only
    rw [e2.data]
    generalize f.bytes big = data at hlev
    rcases hlev with ⟨hm, red, green1, green2, blue, pos, hp, g1, g2, g3, g4, g5, g6, g7, rfl⟩ | ⟨hm, red, blue, g1, g2, g3, g4, rfl⟩
    · have hin := bytesAt_known g7 (encode_length _ _ _) (by omega)
      have h8 : 8 ≤ data.length := by omega
      rw [slice_of (by omega) (by omega), ok_bind, if_pos hm, slice_of (by omega) h8, ok_bind]
      rw [show (if bytesAt data 4 (8 - 4) = b! "0100" then 1556 else 56) = pos from hp.symm, le32_known (by omega) g4, ok_bind, le32_known (by omega) g5, ok_bind, le32_known (by omega) g6, ok_bind,
        addU_ok (by omega), ok_bind, le32_known (by omega) g7, ok_bind, Nat.shiftLeft_eq, Nat.shiftLeft_eq, Nat.mod_eq_of_lt (by omega), Nat.mod_eq_of_lt (by omega), Nat.mul_comm red,
        Nat.mul_comm blue]
    · have hin := bytesAt_known g4 (encode_length _ _ _) (by omega)
      rw [slice_of (by omega) (by omega), ok_bind, if_neg hm, be16_known g1 g3, ok_bind, be16_known g2 g4, ok_bind]

/-- How the samples are stored, all packed in 12 bits: in two fields, with the bytes of 32-bit words turned round, or plainly, as the camera is marked. -/
inductive CoolpixPixels (cam : Camera) (contents : Bytes) (offset w h : Nat) : (Nat → Nat → Nat) → Prop
  | split (hint : cam.findHint (b! "coolpixsplit") = true) (even : w % 2 = 0) (room : offset + h * (w / 2 * 3) ≤ contents.length) :
      CoolpixPixels cam contents offset w h (fun r c =>
        fieldMSB (bytesOf contents) (8 * offset + (8 * (if r % 2 = 0 then 0 else (h + 1) / 2 * (w / 2 * 3)) + 12 * (r / 2 * w + c))) 12)
  | swapped (hint : cam.findHint (b! "coolpixsplit") = false ∧ cam.findHint (b! "msb32") = true) (eight : w * h % 8 = 0) (room : offset + w * h * 12 / 8 ≤ contents.length) :
      CoolpixPixels cam contents offset w h (fun r c => fieldMSB (swap32 fun i => bytesOf contents (offset + i)) (12 * (r * w + c)) 12)
  | plain (hint : cam.findHint (b! "coolpixsplit") = false ∧ cam.findHint (b! "msb32") = false) (even : w % 2 = 0) (room : offset + w * h * 12 / 8 ≤ contents.length) :
      CoolpixPixels cam contents offset w h (fun r c => fieldMSB (bytesOf contents) (8 * offset + 12 * (r * w + c)) 12)

/-- **C79**, Nikon Coolpix. -/
theorem nrw_file (s : RawLoader) (env : Platform) (b : Build) {contents : Bytes} {big : Bool} {dirs : List Dir} {model : Bytes} {o : Option Nat}
    (h : CameraFile contents big dirs (b! "NIKON") model o) (h560 : model ≠ b! "DCS560C")
    {cam : Camera} (hcam : Map.get s.cameras (b! "NIKON", model, []) = some cam)
    {raw : Dir} {w ht offset : Nat} {t2 t3 : List Nat} (hraw : WideDir (fileRoot big dirs) 0x828e raw w)
    (h2 : raw.Numbers 0x101 (ht :: t2)) (h3 : raw.Numbers 0x111 (offset :: t3)) {wb : List F32} (hwb : CoolpixBalance cam (fileRoot big dirs) wb)
    {img : Nat → Nat → Nat} (hpix : CoolpixPixels cam contents offset w ht img) {blacks : List Nat} (hb : BlacksOf cam w ht img blacks) :
    s.decodeSafe env b (.ok contents) = .ok (pictureOf cam (orientationOf o) w ht wb blacks (raster w ht img)) := by
  obtain ⟨root, hh, hc, hd⟩ := camera_decodes s env b h (k := .nrw) (by decide) h560
  obtain ⟨ifd, f1, f2⟩ := wide_found hh (by decide) hraw
  obtain ⟨t1, h1⟩ := hraw.width
  have hw : 0 < w := by have := hraw.wide; omega
  have hbytes : bytesOf ((contents ++ List.replicate 16 0).drop offset) = fun i => bytesOf contents (offset + i) := funext fun i => bytes_from_offset contents offset i
  have himage : Nrw.image b (contents ++ List.replicate 16 0) root s = .ok (pictureOf cam (orientationOf o) w ht wb blacks (raster w ht img)) := by
    have hroom : offset ≤ contents.length := by cases hpix <;> omega
    unfold Nrw.image RawLoader.checkSupported
    rw [hc [] cam hcam, ok_bind, show wideIfd (root.findIfdsWithTag Tag.CFAPattern) = _ from f1, ok_bind,
      show fetchUsize ifd Tag.ImageWidth = _ from fetch_number f2 (by decide) h1, ok_bind,
      show fetchUsize ifd Tag.ImageLength = _ from fetch_number f2 (by decide) h2, ok_bind,
      show fetchUsize ifd Tag.StripOffsets = _ from fetch_number f2 (by decide) h3, ok_bind,
      sliceFrom_le (by simp; omega), ok_bind, turned_hint, turned_hint]
    cases hpix with
    | split hint even room =>
      rw [if_pos hint, decode_12be_interlaced_unaligned_exact _ w ht hw even (by simp; omega), ok_bind]
      dsimp only
      rw [nrw_wb b o hh hwb, ok_bind,
        raster_congr (q := _) (fun r c _ _ => field_at contents 16 offset _ 12)]
      exact ok_image b o hb _
    | swapped hint eight room =>
      rw [if_neg (by rw [hint.1]; decide), if_pos hint.2, decode_12be_msb32_exact _ w ht eight (by simp; omega), ok_bind]
      dsimp only
      rw [nrw_wb b o hh hwb, ok_bind, hbytes]
      exact ok_image b o hb _
    | plain hint even room =>
      rw [if_neg (by rw [hint.1]; decide), if_neg (by rw [hint.2]; decide), decode_12be_exact _ w ht hw even (by simp; omega), ok_bind]
      dsimp only
      rw [nrw_wb b o hh hwb, ok_bind,
        raster_congr (q := _) (fun r c _ _ => field_at contents 16 offset _ 12)]
      exact ok_image b o hb _
  apply hd
  intro d hk ht'
  cases d <;> cases hk
  injection ht' with ht'; subst ht'
  exact himage

/-! ## Hasselblad -/

/-- The bytes begin with a picture of `h` rows of `w` pairs of samples in Hasselblad's variant of lossless JPEG. -/
def BeginsWithHasselblad (w h : Nat) (img : Nat → Nat → Nat → Nat) (bytes : Bytes) : Prop :=
  ∃ (precision pt fh fw n : Nat) (id sub : Nat → Nat) (tab : Nat → TableSpec) (pad tail : Bytes),
    (12 ≤ precision ∧ precision ≤ 16) ∧ (pt < precision ∧ pt < 16) ∧ (fh < 65536 ∧ fw ≠ 0 ∧ fw < 65536) ∧ (1 ≤ n ∧ n ≤ 4) ∧
    ((∀ i, i < n → id i < 256) ∧ ∀ i j, i < n → j < n → id i = id j → i = j) ∧ ((∀ i, i < n → sub i < 256) ∧ sub 0 / 16 ≠ 2) ∧
    (∀ i, i < n → UsableTable (tab i) precision true) ∧ (∀ r p k, img r p k < 65536) ∧ (0 < w ∧ w < 65535) ∧
    (∀ r p k, r < h → p < w → k < 2 → category (pairResidual img r p k) ∈ (tab 0).vals) ∧
    (1 ≤ pad.length ∧ ((packBits (encodePairs (tab 0) w h img)).length + pad.length) % 4 = 0) ∧
    bytes = encodeHasselblad precision pt fh fw n id sub tab w h img pad ++ tail

/-- **C79**, Hasselblad. The directory is the first with a white level; the white balance is the reciprocal of the colour of white. -/
theorem tfr_file (s : RawLoader) (env : Platform) (b : Build) {contents : Bytes} {big : Bool} {dirs : List Dir} {model : Bytes} {o : Option Nat}
    (h : CameraFile contents big dirs (b! "Hasselblad") model o) (h560 : model ≠ b! "DCS560C")
    {cam : Camera} (hcam : Map.get s.cameras (b! "Hasselblad", model, []) = some cam)
    {raw : Dir} (hraw : (fileRoot big dirs).FirstWith 0xc61d raw) {w ht offset : Nat} {t1 t2 t3 : List Nat}
    (h1 : raw.Numbers 0x100 (2 * w :: t1)) (h2 : raw.Numbers 0x101 (ht :: t2)) (h3 : raw.Numbers 0x111 (offset :: t3))
    {red green blue : F32} {t4 : List F32} (hwb : Dir.Reals (fileRoot big dirs) 0xc628 (red :: green :: blue :: t4))
    {img : Nat → Nat → Nat → Nat} (hoff : offset ≤ contents.length) (hdata : BeginsWithHasselblad w ht img (contents.drop offset)) {blacks : List Nat}
    (hb : BlacksOf cam (2 * w) ht (fun r c => img r (c / 2) (c % 2)) blacks) :
    s.decodeSafe env b (.ok contents) = .ok (pictureOf cam (orientationOf o) (2 * w) ht
      [(F32.ofNat 1).div red, (F32.ofNat 1).div green, (F32.ofNat 1).div blue, .nan] blacks (raster (2 * w) ht fun r c => img r (c / 2) (c % 2))) := by
  obtain ⟨root, hh, hc, hd⟩ := camera_decodes s env b h (k := .tfr) (by decide) h560
  obtain ⟨ifd, f1, f2⟩ := fetch_dir hh (tag := 0xc61d) (by decide) hraw
  obtain ⟨ent, e1, _, e3⟩ := find_reals hh (tag := 0xc628) (by decide) hwb
  obtain ⟨precision, pt, fh, fw, n, id, sub, tab, pad, tail, g1, g2, g3, g4, g5, g6, g7, g8, g9, g10, g11, g12⟩ := hdata
  obtain ⟨d, d1, d2⟩ := hasselblad_round_trip b true precision pt fh fw n id sub tab w ht img pad (tail ++ List.replicate 16 0) g1.1 g1.2 g2.1 g2.2 g3.1 g3.2.1 g3.2.2 g4.1 g4.2 g5.1 g5.2
    g6.1 g6.2 g7 g8 g9.1 g9.2 g10 g11.1 g11.2 0 (2 * w) ht
  have himage : Tfr.image b (contents ++ List.replicate 16 0) root s = .ok (pictureOf cam (orientationOf o) (2 * w) ht
      [(F32.ofNat 1).div red, (F32.ofNat 1).div green, (F32.ofNat 1).div blue, .nan] blacks (raster (2 * w) ht fun r c => img r (c / 2) (c % 2))) := by
    unfold Tfr.image RawLoader.checkSupported
    rw [hc [] cam hcam, ok_bind, show TiffIFD.fetchIfd _ Tag.WhiteLevel = _ from f1, ok_bind,
      show fetchUsize ifd Tag.ImageWidth = _ from fetch_number f2 (by decide) h1, ok_bind,
      show fetchUsize ifd Tag.ImageLength = _ from fetch_number f2 (by decide) h2, ok_bind,
      show fetchUsize ifd Tag.StripOffsets = _ from fetch_number f2 (by decide) h3, ok_bind,
      sliceFrom_le (by simp; omega), ok_bind, List.drop_append_of_le_length hoff, g12, List.append_assoc]
    unfold Tfr.decodeCompressed
    dsimp only
    rw [d1, ok_bind, d2, ok_bind]
    unfold Tfr.getWb TiffIFD.fetchTag
    rw [show TiffIFD.findEntry Tag.AsShotNeutral root = some ent from e1]
    simp only [ok_bind]
    rw [e3 0 (by simp), ok_bind, e3 1 (by simp), ok_bind, e3 2 (by simp), ok_bind, ok_bind]
    exact ok_image b o hb _
  apply hd
  intro d hk ht'
  cases d <;> cases hk
  injection ht' with ht'; subst ht'
  exact himage

/-! ## Examples -/

section Example

/-- A field with many values is stored at a place. -/
local macro "stored_many" n:num : tactic => `(tactic| exact ⟨⟨by decide, by decide, by decide +kernel, by decide +kernel, by decide +kernel, by decide +kernel, by decide +kernel, by decide +kernel,
  fun h => absurd h (by decide +kernel), fun _ => ⟨$n, by decide, by decide +kernel, by decide +kernel⟩⟩, by decide, by decide⟩)

private theorem wide_one {big : Bool} {items : List Item} {tag w : Nat} {f : Field} (hf : (Dir.mk big items).field tag = some f)
    {t : List Nat} (hw : (Dir.mk big items).Numbers 0x100 (w :: t)) (h : 1000 < w) : WideDir (fileRoot big [.mk big items]) tag (.mk big items) w := by
  refine ⟨by rw [hf]; rfl, ⟨t, hw⟩, h, [0], rfl, ?_⟩
  intro q d hq hd hs
  match q with
  | [] => obtain rfl : fileRoot big [.mk big items] = d := Option.some.inj hd; cases hs
  | 0 :: q => simp [List.cons_lt_cons_iff] at hq
  | (k + 1) :: q => simp [List.cons_lt_cons_iff] at hq

private def erfFile : Bytes :=
  [77, 77, 0, 42, 0, 0, 0, 8] ++
  [0, 8] ++
  [1, 0, 0, 3, 0, 0, 0, 1, 0, 12, 0, 0] ++
  [1, 1, 0, 3, 0, 0, 0, 1, 0, 2, 0, 0] ++
  [1, 15, 0, 2, 0, 0, 0, 18, 0, 0, 0, 110] ++
  [1, 16, 0, 2, 0, 0, 0, 5, 0, 0, 0, 128] ++
  [1, 17, 0, 4, 0, 0, 0, 1, 0, 0, 1, 133] ++
  [1, 18, 0, 3, 0, 0, 0, 1, 0, 6, 0, 0] ++
  [14, 128, 0, 7, 0, 0, 1, 0, 0, 0, 0, 133] ++
  [130, 142, 0, 1, 0, 0, 0, 4, 0, 1, 1, 2] ++
  [0, 0, 0, 0] ++
  [83, 69, 73, 75, 79, 32, 69, 80, 83, 79, 78, 32, 67, 79, 82, 80, 46, 0] ++
  [82, 45, 68, 49, 0] ++
  [0, 7, 14, 21, 28, 35, 42, 49, 56, 63, 70, 77, 84, 91, 98, 105, 112, 119, 126, 133, 140, 147, 154, 161, 168, 175, 182, 189, 196, 203, 210, 217, 224, 231, 238, 245, 252, 3, 10, 17, 24, 31, 38, 45, 52, 59, 66, 73, 1, 44, 2, 88, 108, 115, 122, 129, 136, 143, 150, 157, 164, 171, 178, 185, 192, 199, 206, 213, 220, 227, 234, 241, 248, 255, 6, 13, 20, 27, 34, 41, 48, 55, 62, 69, 76, 83, 90, 97, 104, 111, 118, 125, 132, 139, 146, 153, 160, 167, 174, 181, 188, 195, 202, 209, 216, 223, 230, 237, 244, 251, 2, 9, 16, 23, 30, 37, 44, 51, 58, 65, 72, 79, 86, 93, 100, 107, 114, 121, 128, 135, 142, 149, 156, 163, 170, 177, 184, 191, 198, 205, 212, 219, 226, 233, 240, 247, 254, 5, 12, 19, 26, 33, 40, 47, 54, 61, 68, 75, 82, 89, 96, 103, 110, 117, 124, 131, 138, 145, 152, 159, 166, 173, 180, 187, 194, 201, 208, 215, 222, 229, 236, 243, 250, 1, 8, 15, 22, 29, 36, 43, 50, 57, 64, 71, 78, 85, 92, 99, 106, 113, 120, 127, 134, 141, 148, 155, 162, 169, 176, 183, 190, 197, 204, 211, 218, 225, 232, 239, 246, 253, 4, 11, 18, 25, 32, 39, 46, 53, 60, 67, 74, 81, 88, 95, 102, 109, 116, 123, 130, 137, 144, 151, 158, 165, 172, 179, 186, 193, 200, 207, 214, 221, 228, 235, 242, 249] ++
  [11, 48, 85, 122, 159, 196, 233, 14, 51, 88, 125, 162, 199, 236, 17, 54, 91, 128, 165, 202, 239, 20, 57, 94, 131, 168, 205, 242, 23, 60, 97, 134, 171, 208, 245, 26, 63, 100]

private def erfDir : Dir := .mk true [.plain ⟨0x100, 3, [12]⟩, .plain ⟨0x101, 3, [2]⟩, .plain ⟨0x10f, 2, [83, 69, 73, 75, 79, 32, 69, 80, 83, 79, 78, 32, 67, 79, 82, 80, 46, 0]⟩, .plain ⟨0x110, 2, [82, 45, 68, 49, 0]⟩, .plain ⟨0x111, 4, [389]⟩, .plain ⟨0x112, 3, [6]⟩, .plain ⟨0xe80, 7, [0, 7, 14, 21, 28, 35, 42, 49, 56, 63, 70, 77, 84, 91, 98, 105, 112, 119, 126, 133, 140, 147, 154, 161, 168, 175, 182, 189, 196, 203, 210, 217, 224, 231, 238, 245, 252, 3, 10, 17, 24, 31, 38, 45, 52, 59, 66, 73, 1, 44, 2, 88, 108, 115, 122, 129, 136, 143, 150, 157, 164, 171, 178, 185, 192, 199, 206, 213, 220, 227, 234, 241, 248, 255, 6, 13, 20, 27, 34, 41, 48, 55, 62, 69, 76, 83, 90, 97, 104, 111, 118, 125, 132, 139, 146, 153, 160, 167, 174, 181, 188, 195, 202, 209, 216, 223, 230, 237, 244, 251, 2, 9, 16, 23, 30, 37, 44, 51, 58, 65, 72, 79, 86, 93, 100, 107, 114, 121, 128, 135, 142, 149, 156, 163, 170, 177, 184, 191, 198, 205, 212, 219, 226, 233, 240, 247, 254, 5, 12, 19, 26, 33, 40, 47, 54, 61, 68, 75, 82, 89, 96, 103, 110, 117, 124, 131, 138, 145, 152, 159, 166, 173, 180, 187, 194, 201, 208, 215, 222, 229, 236, 243, 250, 1, 8, 15, 22, 29, 36, 43, 50, 57, 64, 71, 78, 85, 92, 99, 106, 113, 120, 127, 134, 141, 148, 155, 162, 169, 176, 183, 190, 197, 204, 211, 218, 225, 232, 239, 246, 253, 4, 11, 18, 25, 32, 39, 46, 53, 60, 67, 74, 81, 88, 95, 102, 109, 116, 123, 130, 137, 144, 151, 158, 165, 172, 179, 186, 193, 200, 207, 214, 221, 228, 235, 242, 249]⟩, .plain ⟨0x828e, 1, [0, 1, 1, 2]⟩]

private theorem erf_stored : TiffFile 11 true erfFile [erfDir] := by
  refine ⟨by decide +kernel, by decide +kernel, 8, by decide, by decide +kernel, rfl, ?_⟩
  refine ⟨by decide, by decide +kernel, by decide, by decide +kernel, by decide +kernel, ?_⟩
  intro i it hi
  match i with
  | 0 => injection hi with hi; subst hi; stored_inline
  | 1 => injection hi with hi; subst hi; stored_inline
  | 2 => injection hi with hi; subst hi; stored_outside 110
  | 3 => injection hi with hi; subst hi; stored_outside 128
  | 4 => injection hi with hi; subst hi; stored_inline
  | 5 => injection hi with hi; subst hi; stored_inline
  | 6 => injection hi with hi; subst hi; stored_many 133
  | 7 => injection hi with hi; subst hi; stored_inline
  | i + 8 => cases hi

private theorem erf_camera : CameraFile erfFile true [erfDir] (b! "SEIKO EPSON CORP.") (b! "R-D1") (some 6) where
  tiff := erf_stored
  few := by decide
  notCiff := by decide +kernel
  notDng := lacks_one rfl rfl
  make := ⟨⟨by decide, by decide, by decide⟩, true, _, first_one rfl, rfl, 0, 0, [0], Or.inr rfl, rfl⟩
  model := ⟨⟨by decide, by decide, by decide⟩, true, _, first_one rfl, rfl, 0, 0, [0], Or.inr rfl, rfl⟩
  orientation := numbers_one (f := ⟨0x112, 3, [6]⟩) rfl (by decide)

/-- An Epson picture of two rows; the byte after the tenth sample of a row does not count. -/
example (env : Platform) (b : Build) (cam : Camera) (hb : NoBlackAreas cam) :
    (loaderOf (b! "SEIKO EPSON CORP.") (b! "R-D1") [] cam).decodeSafe env b (.ok erfFile) = .ok (pictureOf cam .rotate90 12 2
      [(((F32.ofNat 300).mul (F32.ofNat 508)).mul (F32.ofRat (1078 / 1000))).div (F32.ofNat 65536), F32.ofNat 1,
       (((F32.ofNat 600).mul (F32.ofNat 382)).mul (F32.ofRat (1173 / 1000))).div (F32.ofNat 65536), .nan] cam.blacklevels [179, 85, 1961, 4036, 3728, 3635, 1415, 3490, 3198, 3089, 1464, 165, 3246, 3860, 917, 3715, 2700, 3570, 371, 3169, 2154, 3024, 419, 3940]) := by
  refine (erf_file (loaderOf (b! "SEIKO EPSON CORP.") (b! "R-D1") [] cam) env b erf_camera (by decide) rfl (first_with (f := ⟨0x828e, 1, [0, 1, 1, 2]⟩) rfl)
    (numbers_here (f := ⟨0x100, 3, [12]⟩) rfl (by decide)) (numbers_here (f := ⟨0x101, 3, [2]⟩) rfl (by decide)) (numbers_here (f := ⟨0x111, 4, [389]⟩) rfl (by decide))
    (red := 300) (blue := 600) ⟨true, _, first_one rfl, by decide +kernel, by decide, by decide, by decide +kernel, by decide +kernel⟩
    (by decide) (by decide) (by decide +kernel) (hb.blacks _ _ _)).trans ?_
  exact congrArg (fun x => Except.ok (pictureOf _ _ _ _ _ _ x)) (by decide +kernel)

private def kdcFile : Bytes :=
  [77, 77, 0, 42, 0, 0, 0, 8] ++
  [0, 6] ++
  [1, 15, 0, 2, 0, 0, 0, 22, 0, 0, 0, 86] ++
  [1, 16, 0, 2, 0, 0, 0, 5, 0, 0, 0, 108] ++
  [250, 42, 0, 5, 0, 0, 0, 3, 0, 0, 0, 113] ++
  [253, 0, 0, 4, 0, 0, 0, 1, 0, 0, 0, 2] ++
  [253, 1, 0, 4, 0, 0, 0, 1, 0, 0, 0, 1] ++
  [253, 4, 0, 4, 0, 0, 0, 13, 0, 0, 0, 137] ++
  [0, 0, 0, 0] ++
  [69, 65, 83, 84, 77, 65, 78, 32, 75, 79, 68, 65, 75, 32, 67, 79, 77, 80, 65, 78, 89, 0] ++
  [80, 56, 56, 48, 0] ++
  [0, 0, 0, 3, 0, 0, 0, 2, 0, 0, 0, 1, 0, 0, 0, 1, 0, 0, 0, 7, 0, 0, 0, 4] ++
  [0, 0, 0, 9, 0, 0, 0, 9, 0, 0, 0, 9, 0, 0, 0, 9, 0, 0, 0, 89, 0, 0, 0, 9, 0, 0, 0, 9, 0, 0, 0, 9, 0, 0, 0, 9, 0, 0, 0, 9, 0, 0, 0, 9, 0, 0, 0, 9, 0, 0, 0, 100] ++
  [5, 96, 187, 22, 113, 204, 39, 130, 221, 56, 147, 238, 73, 164, 255, 90, 181, 16, 107, 198, 33, 124, 215, 50, 141, 232, 67, 158, 249, 84]

private def kdcDir : Dir := .mk true [.plain ⟨0x10f, 2, [69, 65, 83, 84, 77, 65, 78, 32, 75, 79, 68, 65, 75, 32, 67, 79, 77, 80, 65, 78, 89, 0]⟩, .plain ⟨0x110, 2, [80, 56, 56, 48, 0]⟩, .plain ⟨0xfa2a, 5, [12884901890, 4294967297, 30064771076]⟩, .plain ⟨0xfd00, 4, [2]⟩, .plain ⟨0xfd01, 4, [1]⟩, .plain ⟨0xfd04, 4, [9, 9, 9, 9, 89, 9, 9, 9, 9, 9, 9, 9, 100]⟩]

private theorem kdc_stored : TiffFile 11 true kdcFile [kdcDir] := by
  refine ⟨by decide +kernel, by decide +kernel, 8, by decide, by decide +kernel, rfl, ?_⟩
  refine ⟨by decide, by decide +kernel, by decide, by decide +kernel, by decide +kernel, ?_⟩
  intro i it hi
  match i with
  | 0 => injection hi with hi; subst hi; stored_outside 86
  | 1 => injection hi with hi; subst hi; stored_outside 108
  | 2 => injection hi with hi; subst hi; stored_outside 113
  | 3 => injection hi with hi; subst hi; stored_inline
  | 4 => injection hi with hi; subst hi; stored_inline
  | 5 => injection hi with hi; subst hi; stored_outside 137
  | i + 6 => cases hi

private theorem kdc_camera : CameraFile kdcFile true [kdcDir] (b! "EASTMAN KODAK COMPANY") (b! "P880") none where
  tiff := kdc_stored
  few := by decide
  notCiff := by decide +kernel
  notDng := lacks_one rfl rfl
  make := ⟨⟨by decide, by decide, by decide⟩, true, _, first_one rfl, rfl, 0, 0, [0], Or.inr rfl, rfl⟩
  model := ⟨⟨by decide, by decide, by decide⟩, true, _, first_one rfl, rfl, 0, 0, [0], Or.inr rfl, rfl⟩
  orientation := lacks_one rfl rfl

private def kdcWhole : Bytes := kdcFile ++ List.replicate 8703 90

private theorem kdc_camera_whole : CameraFile kdcWhole true [kdcDir] (b! "EASTMAN KODAK COMPANY") (b! "P880") none where
  tiff := tiff_pad _ kdc_camera.tiff
  few := kdc_camera.few
  notCiff := by
    unfold kdcWhole
    rw [bytesAt_append (by decide +kernel)]
    exact kdc_camera.notCiff
  notDng := kdc_camera.notDng
  make := kdc_camera.make
  model := kdc_camera.model
  orientation := kdc_camera.orientation

/-- A file of an EasyShare that states 2 columns and 1 row, and has 82 and 71. The first samples and the first of the second row are shown. -/
example (env : Platform) (b : Build) (cam : Camera) (hb : NoBlackAreas cam) (hh : cam.hints = []) :
    ∃ img : Nat → Nat → Nat, (List.range 8).map (img 0) = [86, 187, 359, 460, 632, 733, 905, 1006] ∧ img 1 0 = 0x5a5 ∧
    (loaderOf (b! "EASTMAN KODAK COMPANY") (b! "P880") [] cam).decodeSafe env b (.ok kdcWhole) =
      .ok (pictureOf cam .unknown 82 71 [(F32.ofNat 3).div (F32.ofNat 2), (F32.ofNat 1).div (F32.ofNat 1), (F32.ofNat 7).div (F32.ofNat 4), .nan] cam.blacklevels (raster 82 71 img)) :=
  ⟨_, by decide +kernel, by decide +kernel, kdc_file (loaderOf (b! "EASTMAN KODAK COMPANY") (b! "P880") [] cam) env b kdc_camera_whole (by decide) rfl
    (numbers_one (f := ⟨0xfd00, 4, [2]⟩) rfl (by decide)) (numbers_one (f := ⟨0xfd01, 4, [1]⟩) rfl (by decide))
    (numbers_one (f := ⟨0xfd04, 4, [9, 9, 9, 9, 89, 9, 9, 9, 9, 9, 9, 9, 100]⟩) rfl (by decide)) (by decide)
    (offset := 189) (by unfold Camera.findHint; rw [hh]; rfl)
    (Or.inl ⟨_, _, _, ⟨true, _, first_one rfl, Or.inr ⟨[(3, 2), (1, 1), (7, 4)], by decide, by decide +kernel, Or.inl ⟨rfl, rfl⟩⟩⟩, rfl⟩)
    (by decide) (by decide +kernel) (hb.blacks _ _ _)⟩

private def dcsFile : Bytes :=
  [77, 77, 0, 42, 0, 0, 0, 8] ++
  [0, 6] ++
  [1, 0, 0, 3, 0, 0, 0, 1, 3, 233, 0, 0] ++
  [1, 1, 0, 3, 0, 0, 0, 1, 0, 1, 0, 0] ++
  [1, 15, 0, 2, 0, 0, 0, 6, 0, 0, 0, 86] ++
  [1, 16, 0, 2, 0, 0, 0, 7, 0, 0, 0, 92] ++
  [1, 17, 0, 4, 0, 0, 0, 1, 0, 0, 2, 99] ++
  [1, 35, 0, 3, 0, 0, 1, 0, 0, 0, 0, 99] ++
  [0, 0, 0, 0] ++
  [75, 79, 68, 65, 75, 0] ++
  [68, 67, 83, 52, 50, 48, 0] ++
  [0, 0, 0, 12, 0, 24, 0, 36, 0, 48, 0, 60, 0, 72, 0, 84, 0, 96, 0, 108, 0, 120, 0, 132, 0, 144, 0, 156, 0, 168, 0, 180, 0, 192, 0, 204, 0, 216, 0, 228, 0, 240, 0, 252, 1, 8, 1, 20, 1, 32, 1, 44, 1, 56, 1, 68, 1, 80, 1, 92, 1, 104, 1, 116, 1, 128, 1, 140, 1, 152, 1, 164, 1, 176, 1, 188, 1, 200, 1, 212, 1, 224, 1, 236, 1, 248, 2, 4, 2, 16, 2, 28, 2, 40, 2, 52, 2, 64, 2, 76, 2, 88, 2, 100, 2, 112, 2, 124, 2, 136, 2, 148, 2, 160, 2, 172, 2, 184, 2, 196, 2, 208, 2, 220, 2, 232, 2, 244, 3, 0, 3, 12, 3, 24, 3, 36, 3, 48, 3, 60, 3, 72, 3, 84, 3, 96, 3, 108, 3, 120, 3, 132, 3, 144, 3, 156, 3, 168, 3, 180, 3, 192, 3, 204, 3, 216, 3, 228, 3, 240, 3, 252, 4, 8, 4, 20, 4, 32, 4, 44, 4, 56, 4, 68, 4, 80, 4, 92, 4, 104, 4, 116, 4, 128, 4, 140, 4, 152, 4, 164, 4, 176, 4, 188, 4, 200, 4, 212, 4, 224, 4, 236, 4, 248, 5, 4, 5, 16, 5, 28, 5, 40, 5, 52, 5, 64, 5, 76, 5, 88, 5, 100, 5, 112, 5, 124, 5, 136, 5, 148, 5, 160, 5, 172, 5, 184, 5, 196, 5, 208, 5, 220, 5, 232, 5, 244, 6, 0, 6, 12, 6, 24, 6, 36, 6, 48, 6, 60, 6, 72, 6, 84, 6, 96, 6, 108, 6, 120, 6, 132, 6, 144, 6, 156, 6, 168, 6, 180, 6, 192, 6, 204, 6, 216, 6, 228, 6, 240, 6, 252, 7, 8, 7, 20, 7, 32, 7, 44, 7, 56, 7, 68, 7, 80, 7, 92, 7, 104, 7, 116, 7, 128, 7, 140, 7, 152, 7, 164, 7, 176, 7, 188, 7, 200, 7, 212, 7, 224, 7, 236, 7, 248, 8, 4, 8, 16, 8, 28, 8, 40, 8, 52, 8, 64, 8, 76, 8, 88, 8, 100, 8, 112, 8, 124, 8, 136, 8, 148, 8, 160, 8, 172, 8, 184, 8, 196, 8, 208, 8, 220, 8, 232, 8, 244, 9, 0, 9, 12, 9, 24, 9, 36, 9, 48, 9, 60, 9, 72, 9, 84, 9, 96, 9, 108, 9, 120, 9, 132, 9, 144, 9, 156, 9, 168, 9, 180, 9, 192, 9, 204, 9, 216, 9, 228, 9, 240, 9, 252, 10, 8, 10, 20, 10, 32, 10, 44, 10, 56, 10, 68, 10, 80, 10, 92, 10, 104, 10, 116, 10, 128, 10, 140, 10, 152, 10, 164, 10, 176, 10, 188, 10, 200, 10, 212, 10, 224, 10, 236, 10, 248, 11, 4, 11, 16, 11, 28, 11, 40, 11, 52, 11, 64, 11, 76, 11, 88, 11, 100, 11, 112, 11, 124, 11, 136, 11, 148, 11, 160, 11, 172, 11, 184, 11, 196, 11, 208, 11, 220, 11, 232, 11, 244] ++
  [17, 70, 123, 176, 229, 26, 79, 132, 185, 238, 35, 88, 141, 194, 247, 44] ++ List.replicate 985 77

private def dcsDir : Dir := .mk true [.plain ⟨0x100, 3, [1001]⟩, .plain ⟨0x101, 3, [1]⟩, .plain ⟨0x10f, 2, [75, 79, 68, 65, 75, 0]⟩, .plain ⟨0x110, 2, [68, 67, 83, 52, 50, 48, 0]⟩, .plain ⟨0x111, 4, [611]⟩, .plain ⟨0x123, 3, (List.range 256).map (12 * ·)⟩]

private theorem dcs_stored : TiffFile 11 true dcsFile [dcsDir] := by
  refine ⟨by decide +kernel, by decide +kernel, 8, by decide, by decide +kernel, rfl, ?_⟩
  refine ⟨by decide, by decide +kernel, by decide, by decide +kernel, by decide +kernel, ?_⟩
  intro i it hi
  match i with
  | 0 => injection hi with hi; subst hi; stored_inline
  | 1 => injection hi with hi; subst hi; stored_inline
  | 2 => injection hi with hi; subst hi; stored_outside 86
  | 3 => injection hi with hi; subst hi; stored_outside 92
  | 4 => injection hi with hi; subst hi; stored_inline
  | 5 => injection hi with hi; subst hi; stored_many 99
  | i + 6 => cases hi

private theorem dcs_camera : CameraFile dcsFile true [dcsDir] (b! "KODAK") (b! "DCS420") none where
  tiff := dcs_stored
  few := by decide
  notCiff := by decide +kernel
  notDng := lacks_one rfl rfl
  make := ⟨⟨by decide, by decide, by decide⟩, true, _, first_one rfl, rfl, 0, 0, [0], Or.inr rfl, rfl⟩
  model := ⟨⟨by decide, by decide, by decide⟩, true, _, first_one rfl, rfl, 0, 0, [0], Or.inr rfl, rfl⟩
  orientation := lacks_one rfl rfl

/-- One row of a DCS; its samples are within a quarter of the local rise of the table of what the table has for the byte. -/
example (env : Platform) (b : Build) (cam : Camera) (hb : NoBlackAreas cam) :
    ∃ img : Nat → Nat → Nat, (List.range 6).map (img 0) = [207, 838, 1477, 2108, 2745, 311] ∧
    (loaderOf (b! "KODAK") (b! "DCS420") [] cam).decodeSafe env b (.ok dcsFile) =
      .ok (pictureOf cam .unknown 1001 1 [.nan, .nan, .nan, .nan] cam.blacklevels (raster 1001 1 img)) :=
  ⟨_, by decide +kernel, dcs_file (loaderOf (b! "KODAK") (b! "DCS420") [] cam) env b dcs_camera (by decide) rfl
    (wide_one (f := ⟨0x111, 4, [611]⟩) rfl (numbers_here (f := ⟨0x100, 3, [1001]⟩) rfl (by decide)) (by decide))
    (numbers_here (f := ⟨0x101, 3, [1]⟩) rfl (by decide)) (numbers_here (f := ⟨0x111, 4, [611]⟩) rfl (by decide))
    (table := (List.range 256).map (12 * ·)) (rest := [])
    (by rw [List.append_nil]; exact numbers_one (f := ⟨0x123, 3, (List.range 256).map (12 * ·)⟩) rfl (by decide)) (by decide +kernel) (by decide +kernel)
    (show ∀ i, i < ((List.range 256).map (12 * ·)).length → gentle ((List.range 256).map (12 * ·)) i by unfold gentle; decide +kernel) (by decide +kernel)
    (fun _ _ => rfl) (hb.blacks _ _ _)⟩

private def nrwFile : Bytes :=
  [73, 73, 42, 0, 8, 0, 0, 0] ++
  [7, 0] ++
  [20, 0, 7, 0, 72, 0, 0, 0, 98, 0, 0, 0] ++
  [0, 1, 3, 0, 1, 0, 0, 0, 234, 3, 0, 0] ++
  [1, 1, 3, 0, 1, 0, 0, 0, 1, 0, 0, 0] ++
  [15, 1, 2, 0, 6, 0, 0, 0, 170, 0, 0, 0] ++
  [16, 1, 2, 0, 6, 0, 0, 0, 176, 0, 0, 0] ++
  [17, 1, 4, 0, 1, 0, 0, 0, 182, 0, 0, 0] ++
  [142, 130, 1, 0, 4, 0, 0, 0, 0, 1, 1, 2] ++
  [0, 0, 0, 0] ++
  [78, 82, 87, 0, 48, 50, 48, 48, 0, 0, 0, 0, 0, 0, 0, 0, 0, 0, 0, 0, 0, 0, 0, 0, 0, 0, 0, 0, 0, 0, 0, 0, 0, 0, 0, 0, 0, 0, 0, 0, 0, 0, 0, 0, 0, 0, 0, 0, 0, 0, 0, 0, 0, 0, 0, 0, 144, 1, 0, 0, 250, 0, 0, 0, 6, 1, 0, 0, 188, 2, 0, 0] ++
  [78, 73, 75, 79, 78, 0] ++
  [69, 56, 56, 48, 48, 0] ++
  [3, 32, 61, 90, 119, 148, 177, 206, 235, 8, 37, 66, 95, 124, 153, 182, 211, 240] ++ List.replicate 1485 90

private def nrwDir : Dir := .mk false [.plain ⟨0x14, 7, [78, 82, 87, 0, 48, 50, 48, 48, 0, 0, 0, 0, 0, 0, 0, 0, 0, 0, 0, 0, 0, 0, 0, 0, 0, 0, 0, 0, 0, 0, 0, 0, 0, 0, 0, 0, 0, 0, 0, 0, 0, 0, 0, 0, 0, 0, 0, 0, 0, 0, 0, 0, 0, 0, 0, 0, 144, 1, 0, 0, 250, 0, 0, 0, 6, 1, 0, 0, 188, 2, 0, 0]⟩, .plain ⟨0x100, 3, [1002]⟩, .plain ⟨0x101, 3, [1]⟩, .plain ⟨0x10f, 2, [78, 73, 75, 79, 78, 0]⟩, .plain ⟨0x110, 2, [69, 56, 56, 48, 48, 0]⟩, .plain ⟨0x111, 4, [182]⟩, .plain ⟨0x828e, 1, [0, 1, 1, 2]⟩]

private theorem nrw_stored : TiffFile 11 false nrwFile [nrwDir] := by
  refine ⟨by decide +kernel, by decide +kernel, 8, by decide, by decide +kernel, rfl, ?_⟩
  refine ⟨by decide, by decide +kernel, by decide, by decide +kernel, by decide +kernel, ?_⟩
  intro i it hi
  match i with
  | 0 => injection hi with hi; subst hi; stored_outside 98
  | 1 => injection hi with hi; subst hi; stored_inline
  | 2 => injection hi with hi; subst hi; stored_inline
  | 3 => injection hi with hi; subst hi; stored_outside 170
  | 4 => injection hi with hi; subst hi; stored_outside 176
  | 5 => injection hi with hi; subst hi; stored_inline
  | 6 => injection hi with hi; subst hi; stored_inline
  | i + 7 => cases hi

private theorem nrw_camera : CameraFile nrwFile false [nrwDir] (b! "NIKON") (b! "E8800") none where
  tiff := nrw_stored
  few := by decide
  notCiff := by decide +kernel
  notDng := lacks_one rfl rfl
  make := ⟨⟨by decide, by decide, by decide⟩, false, _, first_one rfl, rfl, 0, 0, [0], Or.inr rfl, rfl⟩
  model := ⟨⟨by decide, by decide, by decide⟩, false, _, first_one rfl, rfl, 0, 0, [0], Or.inr rfl, rfl⟩
  orientation := lacks_one rfl rfl

/-- One row of a Coolpix, of which the first twelve samples are shown. -/
example (env : Platform) (b : Build) (cam : Camera) (hb : NoBlackAreas cam) (hh : cam.hints = []) :
    ∃ img : Nat → Nat → Nat, (List.range 12).map (img 0) = [50, 61, 1447, 1940, 2844, 3819, 130, 1346, 1527, 3225, 2925, 1008] ∧
    (loaderOf (b! "NIKON") (b! "E8800") [] cam).decodeSafe env b (.ok nrwFile) =
      .ok (pictureOf cam .unknown 1002 1 [F32.ofNat 1600, F32.ofNat 512, F32.ofNat 2800, .nan] cam.blacklevels (raster 1002 1 img)) :=
  ⟨_, by decide +kernel, nrw_file (loaderOf (b! "NIKON") (b! "E8800") [] cam) env b nrw_camera (by decide) rfl
    (wide_one (f := ⟨0x828e, 1, [0, 1, 1, 2]⟩) rfl (numbers_here (f := ⟨0x100, 3, [1002]⟩) rfl (by decide)) (by decide))
    (numbers_here (f := ⟨0x101, 3, [1]⟩) rfl (by decide)) (numbers_here (f := ⟨0x111, 4, [182]⟩) rfl (by decide))
    (Or.inr ⟨by unfold Camera.findHint; rw [hh]; rfl, Or.inr ⟨lacks_one rfl rfl, false, _, first_one rfl,
      Or.inl ⟨by decide +kernel, 400, 250, 262, 700, 56, by decide +kernel, by decide, by decide, by decide, by decide +kernel, by decide +kernel, by decide +kernel, by decide +kernel, rfl⟩⟩⟩)
    (.plain ⟨by unfold Camera.findHint; rw [hh]; rfl, by unfold Camera.findHint; rw [hh]; rfl⟩ (by decide) (by decide +kernel)) (hb.blacks _ _ _)⟩

private def tfrPairs (r p k : Nat) : Nat := (32700 + 11 * r + 30 * p + 100 * k) % 65536

private theorem tfr_table : UsableTable tableK3 16 true :=
  ⟨⟨rfl, by decide⟩, ⟨by decide, by decide⟩, by decide, ⟨by decide, by decide, by decide⟩, Or.inr (Or.inl (by decide)), by decide, by decide⟩

private def tfrFile : Bytes :=
  [77, 77, 0, 42, 0, 0, 0, 8] ++
  [0, 7] ++
  [1, 0, 0, 3, 0, 0, 0, 1, 0, 2, 0, 0] ++
  [1, 1, 0, 3, 0, 0, 0, 1, 0, 2, 0, 0] ++
  [1, 15, 0, 2, 0, 0, 0, 11, 0, 0, 0, 98] ++
  [1, 16, 0, 2, 0, 0, 0, 4, 72, 51, 68, 0] ++
  [1, 17, 0, 4, 0, 0, 0, 1, 0, 0, 0, 133] ++
  [198, 29, 0, 3, 0, 0, 0, 1, 255, 255, 0, 0] ++
  [198, 40, 0, 5, 0, 0, 0, 3, 0, 0, 0, 109] ++
  [0, 0, 0, 0] ++
  [72, 97, 115, 115, 101, 108, 98, 108, 97, 100, 0] ++
  [0, 0, 0, 1, 0, 0, 0, 2, 0, 0, 0, 1, 0, 0, 0, 1, 0, 0, 0, 2, 0, 0, 0, 3] ++
  (encodeHasselblad 16 0 2 2 1 id (fun _ => 0x11) (fun _ => tableK3) 1 2 tfrPairs [1, 2, 3, 4, 5, 6] ++ [9])

private def tfrDir : Dir := .mk true [.plain ⟨0x100, 3, [2]⟩, .plain ⟨0x101, 3, [2]⟩, .plain ⟨0x10f, 2, [72, 97, 115, 115, 101, 108, 98, 108, 97, 100, 0]⟩, .plain ⟨0x110, 2, [72, 51, 68, 0]⟩, .plain ⟨0x111, 4, [133]⟩, .plain ⟨0xc61d, 3, [65535]⟩, .plain ⟨0xc628, 5, [4294967298, 4294967297, 8589934595]⟩]

private theorem tfr_stored : TiffFile 11 true tfrFile [tfrDir] := by
  refine ⟨by decide +kernel, by decide +kernel, 8, by decide, by decide +kernel, rfl, ?_⟩
  refine ⟨by decide, by decide +kernel, by decide, by decide +kernel, by decide +kernel, ?_⟩
  intro i it hi
  match i with
  | 0 => injection hi with hi; subst hi; stored_inline
  | 1 => injection hi with hi; subst hi; stored_inline
  | 2 => injection hi with hi; subst hi; stored_outside 98
  | 3 => injection hi with hi; subst hi; stored_inline
  | 4 => injection hi with hi; subst hi; stored_inline
  | 5 => injection hi with hi; subst hi; stored_inline
  | 6 => injection hi with hi; subst hi; stored_outside 109
  | i + 7 => cases hi

private theorem tfr_camera : CameraFile tfrFile true [tfrDir] (b! "Hasselblad") (b! "H3D") none where
  tiff := tfr_stored
  few := by decide
  notCiff := by decide +kernel
  notDng := lacks_one rfl rfl
  make := ⟨⟨by decide, by decide, by decide⟩, true, _, first_one rfl, rfl, 0, 0, [0], Or.inr rfl, rfl⟩
  model := ⟨⟨by decide, by decide, by decide⟩, true, _, first_one rfl, rfl, 0, 0, [0], Or.inr rfl, rfl⟩
  orientation := lacks_one rfl rfl

/-- Two rows of one pair. -/
example (env : Platform) (b : Build) (cam : Camera) (hb : NoBlackAreas cam) :
    (loaderOf (b! "Hasselblad") (b! "H3D") [] cam).decodeSafe env b (.ok tfrFile) =
      .ok (pictureOf cam .unknown 2 2 [(F32.ofNat 1).div ((F32.ofNat 1).div (F32.ofNat 2)), (F32.ofNat 1).div ((F32.ofNat 1).div (F32.ofNat 1)),
        (F32.ofNat 1).div ((F32.ofNat 2).div (F32.ofNat 3)), .nan] cam.blacklevels [32700, 32800, 32711, 32811]) :=
  tfr_file (loaderOf (b! "Hasselblad") (b! "H3D") [] cam) env b tfr_camera (by decide) rfl (first_with (f := ⟨0xc61d, 3, [65535]⟩) rfl) (w := 1)
    (numbers_here (f := ⟨0x100, 3, [2]⟩) rfl (by decide)) (numbers_here (f := ⟨0x101, 3, [2]⟩) rfl (by decide)) (numbers_here (f := ⟨0x111, 4, [133]⟩) rfl (by decide))
    ⟨true, _, first_one rfl, Or.inr ⟨[(1, 2), (1, 1), (2, 3)], by decide, by decide +kernel, Or.inl ⟨rfl, rfl⟩⟩⟩ (img := tfrPairs) (by decide +kernel)
    ⟨16, 0, 2, 2, 1, id, fun _ => 0x11, fun _ => tableK3, [1, 2, 3, 4, 5, 6], [9], by decide, by decide, by decide, by decide,
      ⟨fun i hi => by simp only [id]; omega, fun i j _ _ h => h⟩, ⟨fun _ _ => show 17 < 256 by decide, by decide⟩, fun _ _ => tfr_table, fun r p k => Nat.mod_lt _ (by decide), by decide,
      fun r p k hr hp hk => (show ∀ r, r < 2 → ∀ p, p < 1 → ∀ k, k < 2 → category (pairResidual tfrPairs r p k) ∈ tableK3.vals by decide +kernel) r hr p hp k hk,
      by decide +kernel, by decide +kernel⟩ (hb.blacks _ _ _)

end Example

end Props

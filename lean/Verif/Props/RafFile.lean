import Verif.Lemmas.FujiOpen
import Verif.Lemmas.FileExample
import Verif.Props.Packed
import Verif.Props.PackedMore
import Verif.Props.Rotate
/-!
# C82: whole files of Fuji

From the bytes of a file, with its header and its two sets of directories, to the picture the public function returns.
-/

namespace Props
open Rust Spec Model

/-! ## The samples -/

/-- The samples are unpacked. -/
theorem raf_pixels {tiff : TiffIFD} {cam : Camera} {src : Bytes} {bits w h : Nat} {big : Bool} {p : FujiPacking}
    (hp : fujiPacking (cam.findHint (b! "double_width")) (cam.findHint (b! "jpeg32")) bits big = some p) (horder : tiff.endian.big = big)
    (hpos : 0 < w) (hsuits : p.Suits w h) (hroom : p.room w h ≤ src.length) :
    Raf.pixels tiff cam src bits w h = .ok (raster w h fun r c => p.sample (bytesOf src) w r c) := by
  unfold fujiPacking at hp
  unfold Raf.pixels
  by_cases c1 : cam.findHint (b! "double_width") = true
  · rw [if_pos c1] at hp
    injection hp with hp; subst hp
    rw [if_pos c1, decode_16le_skiplines_exact src w h hpos hroom]
    congr 2
    funext r c
    unfold FujiPacking.sample
    rw [show 2 * r * w = 2 * w * r by ring]
  · rw [if_neg c1] at hp ⊢
    by_cases c2 : cam.findHint (b! "jpeg32") = true
    · rw [if_pos c2] at hp
      injection hp with hp; subst hp
      rw [if_pos c2]
      exact decode_12be_msb32_exact src w h hsuits hroom
    · rw [if_neg c2] at hp ⊢
      have hcomm : ∀ n, n * w * h = w * h * n := fun n => by ring
      by_cases c3 : bits = 12
      · rw [if_pos c3] at hp
        injection hp with hp; subst hp
        subst c3
        unfold FujiPacking.room at hroom
        dsimp only at hroom
        rw [if_neg (by rw [hcomm]; omega), if_pos rfl]
        exact decode_12le_exact src w h hpos hsuits hroom
      · rw [if_neg c3] at hp
        by_cases c4 : bits = 14
        · rw [if_pos c4] at hp
          injection hp with hp; subst hp
          subst c4
          unfold FujiPacking.room at hroom
          dsimp only at hroom
          rw [if_neg (by rw [hcomm]; omega), if_neg c3, if_pos rfl]
          exact decode_14le_unpacked_exact src w h hpos hroom
        · rw [if_neg c4] at hp
          by_cases c5 : bits = 16
          · rw [if_pos c5] at hp
            injection hp with hp; subst hp
            subst c5
            unfold FujiPacking.room at hroom
            dsimp only at hroom
            rw [if_neg (by rw [hcomm]; omega), if_neg c3, if_neg c4, if_pos rfl]
            unfold Endian.little
            rw [horder]
            cases big
            · exact decode_16le_exact src w h hpos hroom
            · exact decode_16be_exact src w h hpos hroom
          · rw [if_neg c5] at hp; cases hp

/-! ## The directories -/

/-- The white balance is the stored levels. -/
private theorem raf_levels {tree : Dir} {root root' : TiffIFD} (hh : Holds tree root') (hsame : ∀ tag, tag ≠ 0xf007 → TiffIFD.findEntry tag root = TiffIFD.findEntry tag root')
    {r g bl : Nat} (h : FujiLevels tree r g bl) : Raf.getWb root = .ok [.ofNat r, .ofNat g, .ofNat bl, .nan] := by
  unfold Raf.getWb TiffIFD.fetchTag
  rw [show TiffIFD.findEntry Tag.RafWBGRB root = TiffIFD.findEntry 0xf00e root' from hsame _ (by decide),
    show TiffIFD.findEntry Tag.RafOldWB root = TiffIFD.findEntry 0x2ff0 root' from hsame _ (by decide)]
  rcases h with ⟨t, h⟩ | ⟨h0, x, t, h⟩
  · obtain ⟨ent, e1, _, _, e2⟩ := find_numbers hh (by decide) h
    rw [e1]
    dsimp only
    rw [e2 1 (by simp), ok_bind, e2 0 (by simp), ok_bind, e2 2 (by simp), ok_bind]
    rfl
  · obtain ⟨ent, e1, _, _, e2⟩ := find_numbers hh (by decide) h
    rw [find_lacks hh h0, e1]
    dsimp only
    rw [ok_bind, e2 1 (by simp), ok_bind, e2 0 (by simp), ok_bind, e2 3 (by simp), ok_bind]
    rfl

/-- What the directory about the raw picture gives. -/
private structure RawRead (w h bits place : Nat) (root : TiffIFD) : Prop where
  read : ∃ raw o, root.fetchIfd Tag.RafOffsets = .ok raw ∧ Raf.dimensions raw = .ok (w, h) ∧ fetchUsize raw Tag.RafOffsets = .ok o ∧
    o + raw.startOffset = place ∧
    ((∃ e, raw.findEntry Tag.RafBitsPerSample = some e ∧ e.getU32 0 = .ok bits) ∨ (raw.findEntry Tag.RafBitsPerSample = none ∧ bits = 16))

private theorem raf_dimensions {d : Dir} {raw raw' : TiffIFD} (hh : Holds d raw') (hsame : ∀ tag, tag ≠ 0xf007 → TiffIFD.findEntry tag raw = TiffIFD.findEntry tag raw')
    {w h : Nat} (hs : FujiSize d w h) : Raf.dimensions raw = .ok (w, h) := by
  unfold Raf.dimensions fetchUsize TiffIFD.fetchTag TiffIFD.hasEntry
  rw [show TiffIFD.findEntry Tag.RafImageWidth raw = TiffIFD.findEntry 0xf001 raw' from hsame _ (by decide),
    show TiffIFD.findEntry Tag.RafImageLength raw = TiffIFD.findEntry 0xf002 raw' from hsame _ (by decide),
    show TiffIFD.findEntry Tag.ImageWidth raw = TiffIFD.findEntry 0x100 raw' from hsame _ (by decide)]
  rcases hs with ⟨t, t', h1, h2⟩ | ⟨h0, t, h1⟩
  · obtain ⟨e1, a1, _, a2, _⟩ := find_numbers hh (by decide) h1
    obtain ⟨e2, b1, _, b2, _⟩ := find_numbers hh (by decide) h2
    rw [a1, if_pos Option.isSome_some, b1]
    simp only [ok_bind]
    rw [a2 0 (by simp), ok_bind, b2 0 (by simp), ok_bind]
    rfl
  · obtain ⟨e1, a1, _, a2, _⟩ := find_numbers hh (by decide) h1
    rw [find_lacks hh h0, if_neg (by simp), a1]
    simp only [ok_bind]
    rw [a2 1 (by simp), ok_bind, a2 0 (by simp), ok_bind]
    rfl

private theorem raf_bits {d : Dir} {raw raw' : TiffIFD} (hh : Holds d raw') (hsame : ∀ tag, tag ≠ 0xf007 → TiffIFD.findEntry tag raw = TiffIFD.findEntry tag raw')
    {bits : Nat} (hb : FujiBits d bits) :
    (∃ e, raw.findEntry Tag.RafBitsPerSample = some e ∧ e.getU32 0 = .ok bits) ∨ (raw.findEntry Tag.RafBitsPerSample = none ∧ bits = 16) := by
  rw [show TiffIFD.findEntry Tag.RafBitsPerSample raw = TiffIFD.findEntry 0xf003 raw' from hsame _ (by decide)]
  rcases hb with ⟨t, h⟩ | ⟨h, rfl⟩
  · obtain ⟨e, a1, _, a2, _⟩ := find_numbers hh (by decide) h
    exact Or.inl ⟨e, a1, a2 0 (by simp)⟩
  · exact Or.inr ⟨find_lacks hh h, rfl⟩

private theorem raf_raw {big : Bool} {dirs : List Dir} {second : FujiSecond} {table : List (Nat × Bytes)} {root : TiffIFD}
    (ho : FujiOpened big dirs second table root) {raw : Dir} {place : Nat} (hsmall : second.offset < 4294967296) (hraw : FujiRaw big dirs second table raw place) {w h bits : Nat}
    (hs : FujiSize raw w h) (hb : FujiBits raw bits) : RawRead w h bits place root := by
  refine ⟨?_⟩
  cases second with
  | part o big' dirs' =>
    obtain ⟨hnone, start, v, t, hfirst, hv, rfl⟩ := hraw
    obtain ⟨hent, r1, r2, t3, hsub, hh1, hh2⟩ := ho.parts
    obtain ⟨ifd, f1, f2⟩ := fetch_dir_with hh2 (tag := 0xf007) (by decide) hfirst
    have hfind : root.findFirstIfd 0xf007 = some ifd := by
      rw [find_first_ifd_first] at f1 ⊢
      refine firstIn_child (pre := [r1]) (c := r2) (post := [t3]) ?_ (by rw [hsub]; rfl) ?_ f1
      · rw [hent]; rfl
      · intro c hc
        rw [List.mem_singleton] at hc
        subst hc
        intro d' hd'
        dsimp only
        rw [(find_entry_none 0xf007 c).mp (find_lacks hh1 hnone) d' hd']
        rfl
    have hst : ifd.startOffset = start := by cases f2 with | mk _ _ _ _ from_ _ _ _ _ => exact from_
    refine ⟨ifd, v, ?_, raf_dimensions f2.holds (fun _ _ => rfl) hs, fetch_number f2.holds (by decide) hv, by rw [hst, Nat.add_comm], raf_bits f2.holds (fun _ _ => rfl) hb⟩
    unfold TiffIFD.fetchIfd
    rw [show root.findFirstIfd Tag.RafOffsets = some ifd from hfind]
  | data o =>
    obtain ⟨rfl, rfl⟩ := hraw
    obtain ⟨entries, subs, n, so, e⟩ := root
    have hent : entries = [(0xf007, ⟨0xf007, 4, 1, 0, 100, encode true 4 place, BIG_ENDIAN⟩)] := ho.parts
    have hst : so = 0 := ho.from_
    subst hent hst
    have hcar : Carries true ⟨0xf007, 4, [place]⟩ ⟨0xf007, 4, 1, 0, 100, encode true 4 place, BIG_ENDIAN⟩ :=
      carries_made rfl rfl rfl (by unfold Field.bytes; rw [List.flatMap_singleton]; rfl) rfl (by
        intro v hv
        rw [List.mem_singleton] at hv
        subst hv
        exact hsmall)
    refine ⟨_, place, rfl, raf_dimensions ho.holds (fun tag ht => fuji_lookup ho ht) hs, ?_, rfl, raf_bits ho.holds (fun tag ht => fuji_lookup ho ht) hb⟩
    unfold fetchUsize TiffIFD.fetchTag TiffIFD.findEntry
    exact hcar.values (show 4 ∈ [1, 3, 4, 8, 9, 13] by decide) 0 (Nat.zero_lt_one)

/-! ## The picture -/

/-- What is common to the ways a picture is stored: where it is, its size and its samples. -/
structure RafPicture (contents : Bytes) (big : Bool) (dirs : List Dir) (second : FujiSecond) (table : List (Nat × Bytes)) (cam : Camera)
    (w h : Nat) (sample : Nat → Nat → Nat) (red green blue : Nat) : Prop where
  found : ∃ raw place bits p, FujiRaw big dirs second table raw place ∧ FujiSize raw w h ∧ FujiBits raw bits ∧
    fujiPacking (cam.findHint (b! "double_width")) (cam.findHint (b! "jpeg32")) bits big = some p ∧ p.Suits w h ∧
    place + p.room w h ≤ contents.length ∧ ∀ r c, r < h → c < w → sample r c = p.sample (fun i => bytesOf contents (place + i)) w r c
  wide : 0 < w
  levels : FujiLevels (fujiTree big dirs second table) red green blue

private theorem raf_opens (s : RawLoader) (b : Build) {contents : Bytes} {big : Bool} {dirs : List Dir} {second : FujiSecond} {table : List (Nat × Bytes)}
    {model : Bytes} {o : Option Nat} (h : FujiCamera contents big dirs second table model o) (h560 : model ≠ b! "DCS560C")
    {cam : Camera} (hcam : Map.get s.cameras (b! "FUJIFILM", model, []) = some cam) {w ht red green blue : Nat} {sample : Nat → Nat → Nat}
    (hp : RafPicture contents big dirs second table cam w ht sample red green blue) :
    ∃ root, s.getDecoder b (Buffer.new contents) = .ok (.raf root) ∧ Raf.image b (contents ++ List.replicate 16 0) root s =
      if cam.findHint (b! "fuji_rotation") ∨ cam.findHint (b! "fuji_rotation_alt") then do
        let (width, height, data) ← Raf.rotateImage b (raster w ht sample) (turned cam o) w ht
        .ok { pictureOf cam (orientationOf o) width height [.ofNat red, .ofNat green, .ofNat blue, .nan] cam.blacklevels data with crops := [0, 0, 0, 0] }
      else okImage b (turned cam o) w ht [.ofNat red, .ofNat green, .ofNat blue, .nan] (raster w ht sample) := by
  obtain ⟨root, r1, r2⟩ := fuji_opens b h.file
  obtain ⟨dec, d1, d2, d3, d4⟩ := tree_opens s b (root' := .mk [] root.subifds 0 0 root.endian) (fuji_magic h.file.name) r1 r2.holds h.notDng h.make h.model h.orientation
    (fun tag ht => fuji_lookup r2 (by rintro rfl; revert ht; decide)) (k := .raf) (by decide) h560
  obtain ⟨raw, place, bits, p, h1, h2, h3, h4, h5, h6, h7⟩ := hp.found
  obtain ⟨raw', v, f1, f2, f3, f4, f5⟩ := (raf_raw r2 h.file.small h1 h2 h3).read
  refine ⟨root, ?_, ?_⟩
  · rw [d1]
    cases dec <;> cases d2
    injection d3 with d3; subst d3
    rfl
  · unfold Raf.image RawLoader.checkSupported
    rw [d4 [] cam hcam, ok_bind, f1, ok_bind, f2, ok_bind]
    dsimp only
    have hpix := raf_pixels (tiff := root) (cam := turned cam o) (src := (contents ++ List.replicate 16 0).drop place) (w := w) (h := ht)
      (by rw [turned_hint, turned_hint]; exact h4) r2.order hp.wide h5 (by simp; omega)
    rw [raster_congr (q := sample) (fun r c hr hc => by
      rw [h7 r c hr hc]
      exact congrArg (fun f => p.sample f w r c) (funext fun i => bytes_from_offset contents place i))] at hpix
    have hlev := raf_levels r2.holds (fun tag ht => fuji_lookup r2 ht) hp.levels
    rw [f3, ok_bind, f4, sliceFrom_le (by simp; omega)]
    rcases f5 with ⟨e, f5, f6⟩ | ⟨f5, rfl⟩
    · rw [f5]
      dsimp only
      rw [f6, ok_bind, ok_bind, hpix, ok_bind, hlev, turned_hint, turned_hint]
      rfl
    · rw [f5]
      dsimp only
      rw [ok_bind, ok_bind, hpix, ok_bind, hlev, turned_hint, turned_hint]
      rfl

/-- **C82**: files of cameras whose sensor is not turned. -/
theorem raf_file (s : RawLoader) (env : Platform) (b : Build) {contents : Bytes} {big : Bool} {dirs : List Dir} {second : FujiSecond} {table : List (Nat × Bytes)}
    {model : Bytes} {o : Option Nat} (h : FujiCamera contents big dirs second table model o) (h560 : model ≠ b! "DCS560C")
    {cam : Camera} (hcam : Map.get s.cameras (b! "FUJIFILM", model, []) = some cam)
    (hplain : cam.findHint (b! "fuji_rotation") = false) (halt : cam.findHint (b! "fuji_rotation_alt") = false)
    {w ht red green blue : Nat} {sample : Nat → Nat → Nat} (hp : RafPicture contents big dirs second table cam w ht sample red green blue)
    {blacks : List Nat} (hb : BlacksOf cam w ht sample blacks) :
    s.decodeSafe env b (.ok contents) =
      .ok (pictureOf cam (orientationOf o) w ht [.ofNat red, .ofNat green, .ofNat blue, .nan] blacks (raster w ht sample)) := by
  obtain ⟨root, h1, h2⟩ := raf_opens s b h h560 hcam hp
  rw [hplain, halt, if_neg (by decide), ok_image b o hb] at h2
  rw [(decode_results s env b contents).1]
  unfold RawLoader.decode
  dsimp only
  rw [h1, ok_bind]
  exact h2

/-- **C82**: files of cameras whose sensor is turned by 45 degrees. The picture without its borders is turned back, in the way of the
camera; it has no borders of its own. With an odd number of lines or columns, where the turned picture has no room for the last
one, decoding gives an error. -/
theorem raf_rotated_file (s : RawLoader) (env : Platform) (b : Build) {contents : Bytes} {big : Bool} {dirs : List Dir} {second : FujiSecond} {table : List (Nat × Bytes)}
    {model : Bytes} {o : Option Nat} (h : FujiCamera contents big dirs second table model o) (h560 : model ≠ b! "DCS560C")
    {cam : Camera} (hcam : Map.get s.cameras (b! "FUJIFILM", model, []) = some cam) (hplain : cam.findHint (b! "fuji_rotation") = true)
    (halt : cam.findHint (b! "fuji_rotation_alt") = false)
    {w ht red green blue : Nat} {sample : Nat → Nat → Nat} (hp : RafPicture contents big dirs second table cam w ht sample red green blue)
    {x y c1 c2 cw ch : Nat} (hcrop : cam.crops = [y, c1, c2, x]) (hw : cw + c1 + x = w) (hh : ch + c2 + y = ht) (hcw : 0 < cw) (hch : 0 < ch)
    (hfit : (cw + ch / 2) * (cw + ch / 2) < 2 ^ 64) :
    (ch % 2 = 0 → ∃ out, Rotated fujiPlain (raster w ht sample) x y w cw ch (cw + ch / 2, cw + ch / 2 - 1, out) ∧ s.decodeSafe env b (.ok contents) =
      .ok { pictureOf cam (orientationOf o) (cw + ch / 2) (cw + ch / 2 - 1) [.ofNat red, .ofNat green, .ofNat blue, .nan] cam.blacklevels out with crops := [0, 0, 0, 0] }) ∧
    (ch % 2 = 1 → ∃ m, s.decodeSafe env b (.ok contents) = fail m) := by
  obtain ⟨root, h1, h2⟩ := raf_opens s b h h560 hcam hp
  rw [hplain, if_pos (Or.inl rfl)] at h2
  obtain ⟨r1, r2⟩ := fuji_rotation_plain_partial b (raster w ht sample) (turned cam o) x y c1 c2 w ht cw ch hcrop hw hh (raster_length _ _ _) hcw hch hfit
    (by rw [turned_hint]; exact halt)
  constructor
  · intro he
    obtain ⟨out, e1, e2⟩ := r1 he
    refine ⟨out, e2, ?_⟩
    rw [e1, ok_bind] at h2
    rw [(decode_results s env b contents).1]
    unfold RawLoader.decode
    dsimp only
    rw [h1, ok_bind]
    exact h2
  · intro ho
    refine (decode_results s env b contents).2.2.1 ?_
    unfold RawLoader.decode
    dsimp only
    rw [h1, ok_bind]
    rw [r2 ho] at h2
    exact h2

/-- **C82**: the other way to turn the picture back. -/
theorem raf_rotated_alt_file (s : RawLoader) (env : Platform) (b : Build) {contents : Bytes} {big : Bool} {dirs : List Dir} {second : FujiSecond}
    {table : List (Nat × Bytes)} {model : Bytes} {o : Option Nat} (h : FujiCamera contents big dirs second table model o) (h560 : model ≠ b! "DCS560C")
    {cam : Camera} (hcam : Map.get s.cameras (b! "FUJIFILM", model, []) = some cam) (halt : cam.findHint (b! "fuji_rotation_alt") = true)
    {w ht red green blue : Nat} {sample : Nat → Nat → Nat} (hp : RafPicture contents big dirs second table cam w ht sample red green blue)
    {x y c1 c2 cw ch : Nat} (hcrop : cam.crops = [y, c1, c2, x]) (hw : cw + c1 + x = w) (hh : ch + c2 + y = ht) (hcw : 0 < cw) (hch : 0 < ch)
    (hfit : (ch + cw / 2) * (ch + cw / 2) < 2 ^ 64) :
    (cw % 2 = 0 → ∃ out, Rotated fujiAlt (raster w ht sample) x y w cw ch (ch + cw / 2, ch + cw / 2 - 1, out) ∧ s.decodeSafe env b (.ok contents) =
      .ok { pictureOf cam (orientationOf o) (ch + cw / 2) (ch + cw / 2 - 1) [.ofNat red, .ofNat green, .ofNat blue, .nan] cam.blacklevels out with crops := [0, 0, 0, 0] }) ∧
    (cw % 2 = 1 → ∃ m, s.decodeSafe env b (.ok contents) = fail m) := by
  obtain ⟨root, h1, h2⟩ := raf_opens s b h h560 hcam hp
  rw [halt, if_pos (Or.inr rfl)] at h2
  obtain ⟨r1, r2⟩ := fuji_rotation_alt_partial b (raster w ht sample) (turned cam o) x y c1 c2 w ht cw ch hcrop hw hh (raster_length _ _ _) hcw hch hfit
    (by rw [turned_hint]; exact halt)
  constructor
  · intro he
    obtain ⟨out, e1, e2⟩ := r1 he
    refine ⟨out, e2, ?_⟩
    rw [e1, ok_bind] at h2
    rw [(decode_results s env b contents).1]
    unfold RawLoader.decode
    dsimp only
    rw [h1, ok_bind]
    exact h2
  · intro ho
    refine (decode_results s env b contents).2.2.1 ?_
    unfold RawLoader.decode
    dsimp only
    rw [h1, ok_bind]
    rw [r2 ho] at h2
    exact h2

/-! ## Examples -/

section Examples

private instance instDecidableFujiTable (contents : Bytes) : (pos : Nat) → (t : List (Nat × Bytes)) → Decidable (FujiTableAt contents pos t)
  | _, [] => inferInstanceAs (Decidable True)
  | pos, (tag, bytes) :: rest =>
    have := instDecidableFujiTable contents (pos + 4 + bytes.length) rest
    inferInstanceAs (Decidable (_ ∧ _ ∧ _ ∧ _ ∧ _ ∧ FujiTableAt contents (pos + 4 + bytes.length) rest))

/-- A file with directories about the raw picture, one level down. -/
private def modernFile : Bytes :=
  [70, 85, 74, 73, 70, 73, 76, 77, 0, 0, 0, 0, 0, 0, 0, 0, 0, 0, 0, 0, 0, 0, 0, 0, 0, 0, 0, 0, 0, 0, 0, 0, 0, 0, 0, 0, 0, 0, 0, 0, 0, 0, 0, 0, 0, 0, 0, 0, 0, 0, 0, 0, 0, 0, 0, 0, 0, 0, 0, 0, 0, 0, 0, 0, 0, 0, 0, 0, 0, 0, 0, 0, 0, 0, 0, 0, 0, 0, 0, 0, 0, 0, 0, 0, 0, 0, 0, 108, 0, 0, 0, 0, 0, 0, 0, 184, 0, 0, 0, 0, 0, 0, 0, 195, 0, 0, 0, 0] ++
  [0, 0, 0, 0, 0, 0, 0, 0, 0, 0, 0, 0] ++
  [73, 73, 42, 0, 8, 0, 0, 0] ++
  [3, 0] ++
  [15, 1, 2, 0, 9, 0, 0, 0, 50, 0, 0, 0] ++
  [16, 1, 2, 0, 5, 0, 0, 0, 59, 0, 0, 0] ++
  [18, 1, 3, 0, 1, 0, 0, 0, 6, 0, 0, 0] ++
  [0, 0, 0, 0] ++
  [70, 85, 74, 73, 70, 73, 76, 77, 0] ++
  [88, 45, 84, 49, 0] ++
  [0, 0, 0, 1] ++
  [146, 0, 0, 3, 1, 2, 3] ++
  [73, 73, 42, 0, 8, 0, 0, 0] ++
  [1, 0] ++
  [0, 240, 13, 0, 1, 0, 0, 0, 26, 0, 0, 0] ++
  [0, 0, 0, 0] ++
  [5, 0] ++
  [1, 240, 4, 0, 1, 0, 0, 0, 4, 0, 0, 0] ++
  [2, 240, 4, 0, 1, 0, 0, 0, 2, 0, 0, 0] ++
  [3, 240, 4, 0, 1, 0, 0, 0, 14, 0, 0, 0] ++
  [7, 240, 4, 0, 1, 0, 0, 0, 104, 0, 0, 0] ++
  [14, 240, 4, 0, 3, 0, 0, 0, 92, 0, 0, 0] ++
  [0, 0, 0, 0] ++
  [46, 1, 0, 0, 68, 2, 0, 0, 184, 1, 0, 0] ++
  [231, 3, 12, 68, 123, 132, 52, 197, 55, 6, 132, 71, 27, 137, 252, 202]

private def modernShot : Dir := .mk false [.plain ⟨0x10f, 2, [70, 85, 74, 73, 70, 73, 76, 77, 0]⟩, .plain ⟨0x110, 2, [88, 45, 84, 49, 0]⟩, .plain ⟨0x112, 3, [6]⟩]

private def modernRaw : Dir := .mk false [.plain ⟨0xf001, 4, [4]⟩, .plain ⟨0xf002, 4, [2]⟩, .plain ⟨0xf003, 4, [14]⟩, .plain ⟨0xf007, 4, [104]⟩, .plain ⟨0xf00e, 4, [302, 580, 440]⟩]

private def modernMain : Dir := .mk false [.pointer 0xf000 [modernRaw]]

private def modernTable : List (Nat × Bytes) := [(0x9200, [1, 2, 3])]

private theorem modern_first : TiffFile 11 false (modernFile.drop 120) [modernShot] := by
  refine ⟨by decide +kernel, by decide +kernel, 8, by decide, by decide +kernel, rfl, ?_⟩
  refine ⟨by decide, by decide +kernel, by decide, by decide +kernel, by decide +kernel, ?_⟩
  intro i it hi
  match i with
  | 0 => injection hi with hi; subst hi; stored_outside 50
  | 1 => injection hi with hi; subst hi; stored_outside 59
  | 2 => injection hi with hi; subst hi; stored_inline
  | i + 3 => cases hi

private theorem modern_raw : modernRaw.StoredAt 10 (modernFile.drop 195) 26 0 := by
  refine ⟨by decide, by decide +kernel, by decide, by decide +kernel, by decide +kernel, ?_⟩
  intro i it hi
  match i with
  | 0 => injection hi with hi; subst hi; stored_inline
  | 1 => injection hi with hi; subst hi; stored_inline
  | 2 => injection hi with hi; subst hi; stored_inline
  | 3 => injection hi with hi; subst hi; stored_inline
  | 4 => injection hi with hi; subst hi; stored_outside 92
  | i + 5 => cases hi

private theorem modern_second : TiffFile 11 false (modernFile.drop 195) [modernMain] := by
  refine ⟨by decide +kernel, by decide +kernel, 8, by decide, by decide +kernel, rfl, ?_⟩
  refine ⟨by decide, by decide +kernel, by decide, by decide +kernel, by decide +kernel, ?_⟩
  intro i it hi
  match i with
  | 0 =>
    injection hi with hi; subst hi
    refine ⟨by decide, 13, [26], by decide, rfl, ⟨by decide, by decide, by decide, by decide, by decide +kernel, by decide +kernel, by decide +kernel, by decide +kernel,
      fun _ => by decide +kernel, fun h => absurd h (by decide +kernel)⟩, ?_⟩
    intro k o d ho hd
    match k with
    | 0 => injection ho with ho; injection hd with hd; subst ho hd; exact ⟨rfl, 0, modern_raw⟩
    | k + 1 => cases ho
  | i + 1 => cases hi

private theorem modern_table : FujiTableIn modernFile 184 modernTable where
  few := by decide
  number := by decide +kernel
  records := by decide +kernel
  size := by decide
  levels := by decide

private theorem modern_file : FujiFile modernFile false [modernShot] (.part 195 false [modernMain]) modernTable where
  name := by decide +kernel
  first := ⟨108, by decide, by decide +kernel, by decide +kernel, modern_first⟩
  few := by decide
  table := ⟨184, by decide, by decide +kernel, modern_table⟩
  small := by decide
  place := by decide +kernel
  second := ⟨by decide +kernel, by decide, modern_second⟩

private def modernTree : Dir := fujiTree false [modernShot] (.part 195 false [modernMain]) modernTable

private theorem modern_lacks {tag : Nat} (h1 : modernShot.field tag = none) (h2 : modernRaw.field tag = none) : modernTree.Lacks tag := by
  refine noneIn_of rfl fun c hc => ?_
  rw [show modernTree.subdirs = [fileRoot false [modernShot], fileRoot false [modernMain], fujiTable modernTable] from rfl] at hc
  simp only [List.mem_cons, List.not_mem_nil, or_false] at hc
  rcases hc with rfl | rfl | rfl
  · exact lacks_one rfl h1
  · exact lacks_two (sub := modernRaw) rfl rfl rfl h2
  · exact lacks_leaf rfl rfl

private theorem modern_shot {tag : Nat} {f : Field} (h : modernShot.field tag = some f) : modernTree.First tag false f :=
  firstIn_child (pre := []) (c := fileRoot false [modernShot]) rfl rfl (by simp) (first_one h)

private theorem modern_camera : FujiCamera modernFile false [modernShot] (.part 195 false [modernMain]) modernTable (b! "X-T1") (some 6) where
  file := modern_file
  notDng := modern_lacks rfl rfl
  make := ⟨⟨by decide, by decide, by decide⟩, false, _, modern_shot rfl, rfl, 0, 0, [0], Or.inr rfl, rfl⟩
  model := ⟨⟨by decide, by decide, by decide⟩, false, _, modern_shot rfl, rfl, 0, 0, [0], Or.inr rfl, rfl⟩
  orientation := ⟨false, _, modern_shot (f := ⟨0x112, 3, [6]⟩) rfl, by decide, rfl⟩

private theorem modern_levels : FujiLevels modernTree 580 302 440 :=
  Or.inl ⟨[], false, ⟨0xf00e, 4, [302, 580, 440]⟩, firstIn_child (pre := [fileRoot false [modernShot]]) (c := fileRoot false [modernMain]) rfl rfl
    (by
      intro c hc
      rw [List.mem_singleton] at hc
      subst hc
      exact fun d hd => by
        have := lacks_one (big := false) (tag := 0xf00e) rfl rfl d hd
        dsimp only at this ⊢
        rw [this]; rfl)
    (firstIn_child (pre := []) (c := modernMain) rfl rfl (by simp) (firstIn_child (pre := []) (c := modernRaw) rfl rfl (by simp) (first_here (d := modernRaw) rfl))),
    by decide, rfl⟩

private theorem modern_place : FujiRaw false [modernShot] (.part 195 false [modernMain]) modernTable modernRaw 299 :=
  ⟨lacks_one rfl rfl, 195, 104, [], firstIn_child (pre := []) (c := (195, modernMain)) rfl rfl (by simp)
    (firstIn_child (pre := []) (c := (195, modernRaw)) rfl rfl (by simp) (firstIn_root rfl)),
    numbers_here (f := ⟨0xf007, 4, [104]⟩) rfl (by decide), rfl⟩

/-- Samples of fourteen bits; the two bits above them are not used. -/
example (env : Platform) (b : Build) (cam : Camera) (hb : NoBlackAreas cam) (hh : cam.hints = []) :
    (loaderOf (b! "FUJIFILM") (b! "X-T1") [] cam).decodeSafe env b (.ok modernFile) =
      .ok (pictureOf cam .rotate90 4 2 [F32.ofNat 580, F32.ofNat 302, F32.ofNat 440, .nan] cam.blacklevels [999, 1036, 1147, 1332, 1591, 1924, 2331, 2812]) := by
  have hint : ∀ h, cam.findHint h = false := fun h => by unfold Camera.findHint; rw [hh]; rfl
  refine (raf_file (loaderOf (b! "FUJIFILM") (b! "X-T1") [] cam) env b modern_camera (by decide) rfl (hint _) (hint _) (w := 4) (ht := 2)
    ⟨⟨modernRaw, 299, 14, .fourteen, modern_place, Or.inl ⟨[], [], numbers_here (f := ⟨0xf001, 4, [4]⟩) rfl (by decide), numbers_here (f := ⟨0xf002, 4, [2]⟩) rfl (by decide)⟩,
      Or.inl ⟨[], numbers_here (f := ⟨0xf003, 4, [14]⟩) rfl (by decide)⟩, by rw [hint, hint]; rfl, trivial, by decide +kernel, fun r c _ _ => rfl⟩,
      by decide, modern_levels⟩ (hb.blacks _ _ _)).trans ?_
  exact congrArg (fun x => Except.ok (pictureOf _ _ _ _ _ _ x)) (by decide +kernel)

/-- A file with the raw data itself at the position, and the size in the table. -/
private def olderFile : Bytes :=
  [70, 85, 74, 73, 70, 73, 76, 77, 0, 0, 0, 0, 0, 0, 0, 0, 0, 0, 0, 0, 0, 0, 0, 0, 0, 0, 0, 0, 0, 0, 0, 0, 0, 0, 0, 0, 0, 0, 0, 0, 0, 0, 0, 0, 0, 0, 0, 0, 0, 0, 0, 0, 0, 0, 0, 0, 0, 0, 0, 0, 0, 0, 0, 0, 0, 0, 0, 0, 0, 0, 0, 0, 0, 0, 0, 0, 0, 0, 0, 0, 0, 0, 0, 0, 0, 0, 0, 108, 0, 0, 0, 0, 0, 0, 0, 173, 0, 0, 0, 0, 0, 0, 0, 203, 0, 0, 0, 0] ++
  [0, 0, 0, 0, 0, 0, 0, 0, 0, 0, 0, 0] ++
  [77, 77, 0, 42, 0, 0, 0, 8] ++
  [0, 2] ++
  [1, 15, 0, 2, 0, 0, 0, 9, 0, 0, 0, 38] ++
  [1, 16, 0, 2, 0, 0, 0, 6, 0, 0, 0, 47] ++
  [0, 0, 0, 0] ++
  [70, 85, 74, 73, 70, 73, 76, 77, 0] ++
  [83, 50, 80, 114, 111, 0] ++
  [0, 0, 0, 3] ++
  [16, 0, 0, 2, 1, 2] ++
  [1, 0, 0, 4, 0, 3, 0, 3] ++
  [47, 240, 0, 8, 1, 46, 2, 68, 1, 45, 1, 184] ++
  [3, 231, 18, 91, 61, 183, 133, 251, 235, 39, 109, 59, 12, 55, 200, 27, 160, 231]

private def olderShot : Dir := .mk true [.plain ⟨0x10f, 2, [70, 85, 74, 73, 70, 73, 76, 77, 0]⟩, .plain ⟨0x110, 2, [83, 50, 80, 114, 111, 0]⟩]

private def olderTable : List (Nat × Bytes) := [(0x1000, [1, 2]), (0x100, [0, 3, 0, 3]), (0x2ff0, [1, 46, 2, 68, 1, 45, 1, 184])]

private theorem older_first : TiffFile 11 true (olderFile.drop 120) [olderShot] := by
  refine ⟨by decide +kernel, by decide +kernel, 8, by decide, by decide +kernel, rfl, ?_⟩
  refine ⟨by decide, by decide +kernel, by decide, by decide +kernel, by decide +kernel, ?_⟩
  intro i it hi
  match i with
  | 0 => injection hi with hi; subst hi; stored_outside 38
  | 1 => injection hi with hi; subst hi; stored_outside 47
  | i + 2 => cases hi

private theorem older_table : FujiTableIn olderFile 173 olderTable where
  few := by decide
  number := by decide +kernel
  records := by decide +kernel
  size := by decide
  levels := by decide

private theorem older_file : FujiFile olderFile true [olderShot] (.data 203) olderTable where
  name := by decide +kernel
  first := ⟨108, by decide, by decide +kernel, by decide +kernel, older_first⟩
  few := by decide
  table := ⟨173, by decide, by decide +kernel, older_table⟩
  small := by decide
  place := by decide +kernel
  second := ⟨by decide +kernel, by decide +kernel⟩

private def olderTree : Dir := fujiTree true [olderShot] (.data 203) olderTable

private theorem older_lacks {tag : Nat} (h1 : olderShot.field tag = none) (h2 : (fujiTable olderTable).field tag = none) : olderTree.Lacks tag := by
  refine noneIn_of rfl fun c hc => ?_
  rw [show olderTree.subdirs = [fileRoot true [olderShot], fujiTable olderTable] from rfl] at hc
  simp only [List.mem_cons, List.not_mem_nil, or_false] at hc
  rcases hc with rfl | rfl
  · exact lacks_one rfl h1
  · exact lacks_leaf rfl h2

private theorem older_shot {tag : Nat} {f : Field} (h : olderShot.field tag = some f) : olderTree.First tag true f :=
  firstIn_child (pre := []) (c := fileRoot true [olderShot]) rfl rfl (by simp) (first_one h)

private theorem older_table_number {tag : Nat} {f : Field} (h0 : olderShot.field tag = none) (h : (fujiTable olderTable).field tag = some f) (ht : f.typ ∈ [1, 3, 4]) :
    olderTree.Numbers tag f.values :=
  ⟨true, f, firstIn_child (pre := [fileRoot true [olderShot]]) (c := fujiTable olderTable) (post := []) rfl rfl
    (by
      intro c hc
      rw [List.mem_singleton] at hc
      subst hc
      exact fun d hd => by
        have := lacks_one (big := true) (tag := tag) rfl h0 d hd
        dsimp only at this ⊢
        rw [this]; rfl)
    (first_here h), ht, rfl⟩

private theorem older_camera : FujiCamera olderFile true [olderShot] (.data 203) olderTable (b! "S2Pro") none where
  file := older_file
  notDng := older_lacks rfl rfl
  make := ⟨⟨by decide, by decide, by decide⟩, true, _, older_shot rfl, rfl, 0, 0, [0], Or.inr rfl, rfl⟩
  model := ⟨⟨by decide, by decide, by decide⟩, true, _, older_shot rfl, rfl, 0, 0, [0], Or.inr rfl, rfl⟩
  orientation := older_lacks rfl rfl

private theorem older_picture (cam : Camera) (h1 : cam.findHint (b! "double_width") = false) (h2 : cam.findHint (b! "jpeg32") = false) :
    RafPicture olderFile true [olderShot] (.data 203) olderTable cam 3 3
      (fun r c => 256 * bytesOf olderFile (203 + 2 * (r * 3 + c)) + bytesOf olderFile (203 + (2 * (r * 3 + c) + 1))) 580 302 440 where
  found := ⟨olderTree, 203, 16, .sixteen true, ⟨rfl, rfl⟩,
    Or.inr ⟨older_lacks rfl rfl, [], older_table_number (f := ⟨0x100, 3, [3, 3]⟩) rfl rfl (by decide)⟩, Or.inr ⟨older_lacks rfl rfl, rfl⟩,
    by rw [h1, h2]; rfl, trivial, by decide +kernel, fun r c _ _ => rfl⟩
  wide := by decide
  levels := Or.inr ⟨older_lacks rfl rfl, 301, [], older_table_number (f := ⟨0x2ff0, 3, [302, 580, 301, 440]⟩) rfl rfl (by decide)⟩

/-- Sixteen bits in the byte order of the directories. -/
example (env : Platform) (b : Build) (cam : Camera) (hb : NoBlackAreas cam) (hh : cam.hints = []) :
    (loaderOf (b! "FUJIFILM") (b! "S2Pro") [] cam).decodeSafe env b (.ok olderFile) =
      .ok (pictureOf cam .unknown 3 3 [F32.ofNat 580, F32.ofNat 302, F32.ofNat 440, .nan] cam.blacklevels [999, 4699, 15799, 34299, 60199, 27963, 3127, 51227, 41191]) := by
  have hint : ∀ h, cam.findHint h = false := fun h => by unfold Camera.findHint; rw [hh]; rfl
  refine (raf_file (loaderOf (b! "FUJIFILM") (b! "S2Pro") [] cam) env b older_camera (by decide) rfl (hint _) (hint _) (older_picture cam (hint _) (hint _)) (hb.blacks _ _ _)).trans ?_
  exact congrArg (fun x => Except.ok (pictureOf _ _ _ _ _ _ x)) (by decide +kernel)

/-- The same file for cameras whose sensor is turned: without the first line and the last column, and in the other way as it is,
which has an odd number of columns. -/
example (env : Platform) (b : Build) (cam : Camera) (hc : cam.crops = [1, 1, 0, 0]) (hh : cam.hints = [b! "fuji_rotation"]) :
    ∃ out, Rotated fujiPlain [999, 4699, 15799, 34299, 60199, 27963, 3127, 51227, 41191] 0 1 3 2 2 (3, 2, out) ∧
      (loaderOf (b! "FUJIFILM") (b! "S2Pro") [] cam).decodeSafe env b (.ok olderFile) =
        .ok { pictureOf cam .unknown 3 2 [F32.ofNat 580, F32.ofNat 302, F32.ofNat 440, .nan] cam.blacklevels out with crops := [0, 0, 0, 0] } := by
  have := (raf_rotated_file (loaderOf (b! "FUJIFILM") (b! "S2Pro") [] cam) env b older_camera (by decide) rfl (by unfold Camera.findHint; rw [hh]; decide)
    (by unfold Camera.findHint; rw [hh]; decide)
    (older_picture cam (by unfold Camera.findHint; rw [hh]; decide) (by unfold Camera.findHint; rw [hh]; decide)) (cw := 2) (ch := 2) hc rfl rfl (by decide) (by decide) (by decide)).1 rfl
  rw [show (raster 3 3 fun r c => 256 * bytesOf olderFile (203 + 2 * (r * 3 + c)) + bytesOf olderFile (203 + (2 * (r * 3 + c) + 1))) = [999, 4699, 15799, 34299, 60199, 27963, 3127, 51227, 41191] by decide +kernel] at this
  exact this

example (env : Platform) (b : Build) (cam : Camera) (hc : cam.crops = [0, 0, 0, 0]) (hh : cam.hints = [b! "fuji_rotation_alt"]) :
    ∃ m, (loaderOf (b! "FUJIFILM") (b! "S2Pro") [] cam).decodeSafe env b (.ok olderFile) = fail m :=
  (raf_rotated_alt_file (loaderOf (b! "FUJIFILM") (b! "S2Pro") [] cam) env b older_camera (by decide) rfl (by unfold Camera.findHint; rw [hh]; decide)
    (older_picture cam (by unfold Camera.findHint; rw [hh]; decide) (by unfold Camera.findHint; rw [hh]; decide)) (cw := 3) (ch := 3) hc rfl rfl (by decide) (by decide) (by decide)).2 rfl

end Examples

end Props

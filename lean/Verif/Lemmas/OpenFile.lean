import Verif.Lemmas.WholeFile
import Verif.Props.Black
/-!
# Opening a file, and returning the picture
-/

namespace Props
open Rust Spec Model

/-- The orientation of a file. -/
def orientationOf : Option Nat → Orientation
  | none => .unknown
  | some o => Orientation.fromU16 (o % 65536)

theorem image_new (b : Build) {cam : Camera} (o : Option Nat) {w h : Nat} {img : Nat → Nat → Nat} {blacks : List Nat} (hb : BlacksOf cam w h img blacks) (wb : List F32) :
    RawImage.new b (turned cam o) w h wb (raster w h img) = .ok (pictureOf cam (orientationOf o) w h wb blacks (raster w h img)) := by
  rw [raw_image_new b (cam := turned cam o) hb wb]
  unfold pictureOf orientationOf turned
  cases o <;> rfl

theorem ok_image (b : Build) {cam : Camera} (o : Option Nat) {w h : Nat} {img : Nat → Nat → Nat} {blacks : List Nat} (hb : BlacksOf cam w h img blacks) (wb : List F32) :
    okImage b (turned cam o) w h wb (raster w h img) = .ok (pictureOf cam (orientationOf o) w h wb blacks (raster w h img)) := image_new b o hb wb

/-- Opening, the choice of the decoder and the camera, together. -/
theorem camera_decodes (s : RawLoader) (env : Platform) (b : Build) {contents : Bytes} {big : Bool} {dirs : List Dir} {make model : Bytes}
    {o : Option Nat} (h : CameraFile contents big dirs make model o) {k : Kind} (hk : makers.lookup make = some k) (h560 : model ≠ b! "DCS560C") :
    ∃ root, Holds (fileRoot big dirs) root ∧
      (∀ mode cam, Map.get s.cameras (make, model, mode) = some cam → s.checkSupportedWithMode root mode = .ok (turned cam o)) ∧
      ∀ img, (∀ d : Decoder, d.kind = k → d.tree = some root → d.image env b (contents ++ List.replicate 16 0) s = .ok img) →
        s.decodeSafe env b (.ok contents) = .ok img := by
  obtain ⟨root, d, h1, h2, h3, h4, h5⟩ := camera_opens s b h hk h560
  refine ⟨root, h4, h5, fun img himg => ?_⟩
  rw [(decode_results s env b contents).1 img]
  unfold RawLoader.decode
  dsimp only
  rw [h1, ok_bind]
  exact himg d h2 h3

/-- The same, for files that are refused. -/
theorem camera_decodes_iff (s : RawLoader) (env : Platform) (b : Build) {contents : Bytes} {big : Bool} {dirs : List Dir} {make model : Bytes}
    {o : Option Nat} (h : CameraFile contents big dirs make model o) {k : Kind} (hk : makers.lookup make = some k) (h560 : model ≠ b! "DCS560C") :
    ∃ root, Holds (fileRoot big dirs) root ∧
      ∃ d : Decoder, d.kind = k ∧ d.tree = some root ∧ ∀ img, s.decodeSafe env b (.ok contents) = .ok img ↔ d.image env b (contents ++ List.replicate 16 0) s = .ok img := by
  obtain ⟨root, d, h1, h2, h3, h4, _⟩ := camera_opens s b h hk h560
  refine ⟨root, h4, d, h2, h3, fun img => ?_⟩
  rw [(decode_results s env b contents).1 img]
  unfold RawLoader.decode
  dsimp only
  rw [h1, ok_bind]
  rfl

theorem turned_hint (cam : Camera) (o : Option Nat) (hint : Bytes) : (turned cam o).findHint hint = cam.findHint hint := by
  unfold turned; cases o <;> rfl

/-- Two bytes, the high one first. -/
theorem be16_known {data : Bytes} {pos v : Nat} (hv : v < 65536) (h : bytesAt data pos 2 = encode true 2 v) : BEu16 data pos = .ok v := by
  have := bytesAt_known h (encode_length _ _ _) (by omega)
  have hr := ru16_number (e := BIG_ENDIAN) (buf := data) (pos := pos) this
  rw [show BIG_ENDIAN.big = true from rfl, h, number_encode _ _ _ (by omega)] at hr
  exact hr

/-- Four bytes, the low one first. -/
theorem le32_known {data : Bytes} {pos v : Nat} (hv : v < 4294967296) (h : bytesAt data pos 4 = encode false 4 v) : LEu32 data pos = .ok v := by
  have := bytesAt_known h (encode_length _ _ _) (by omega)
  have hr := ru32_number (e := LITTLE_ENDIAN) (buf := data) (pos := pos) this
  rw [show LITTLE_ENDIAN.big = false from rfl, h, number_encode _ _ _ (by omega)] at hr
  exact hr

/-- Four bytes, the high one first. -/
theorem be32_known {data : Bytes} {pos v : Nat} (hv : v < 4294967296) (h : bytesAt data pos 4 = encode true 4 v) : BEu32 data pos = .ok v := by
  have := bytesAt_known h (encode_length _ _ _) (by omega)
  have hr := ru32_number (e := BIG_ENDIAN) (buf := data) (pos := pos) this
  rw [show BIG_ENDIAN.big = true from rfl, h, number_encode _ _ _ (by omega)] at hr
  exact hr

/-- A table of 256 entries from a field. -/
theorem table_read {ent : TiffEntry} {table rest : List Nat} (full : table.length = 256) (small : ∀ v ∈ table, v < 65536)
    (h : ∀ i (hi : i < (table ++ rest).length), ent.getU32 i = .ok (table ++ rest)[i]) :
    (List.range 256).mapM (fun i => do
      let v ← ent.getU32 i
      (.ok (v % 65536) : M Nat)) = .ok table := by
  rw [mapM_ok _ (fun i => (table[i]?).getD 0) _ (fun i hi => by
    rw [List.mem_range] at hi
    have hi' : i < table.length := by omega
    rw [h i (by rw [List.length_append]; omega), ok_bind, List.getElem_append_left hi', List.getElem?_eq_getElem hi', Nat.mod_eq_of_lt (small _ (List.getElem_mem _))]
    rfl)]
  congr 1
  apply List.ext_getElem (by simp [full])
  intro i h1 h2
  rw [List.getElem_map, List.getElem_range, List.getElem?_eq_getElem h2]
  rfl

theorem bytesOf_zeros (contents : Bytes) (n : Nat) : bytesOf (contents ++ List.replicate n 0) = bytesOf contents := by
  funext i
  unfold bytesOf
  by_cases hi : i < contents.length
  · rw [List.getElem?_append_left hi]
  · rw [List.getElem?_append_right (by omega), List.getElem?_eq_none (Nat.le_of_not_lt hi), List.getElem?_replicate]
    by_cases h : i - contents.length < n
    · rw [if_pos h]; rfl
    · rw [if_neg h]

theorem bytes_from_offset (contents : Bytes) (offset i : Nat) : bytesOf ((contents ++ List.replicate 16 0).drop offset) i = bytesOf contents (offset + i) := by
  rw [← bytesOf_zeros contents 16]
  unfold bytesOf
  rw [List.getElem?_drop]

theorem field_at (contents : Bytes) (n offset s k : Nat) :
    fieldMSB (bytesOf ((contents ++ List.replicate n 0).drop offset)) s k = fieldMSB (bytesOf contents) (8 * offset + s) k := by
  have : ∀ i, bytesOf ((contents ++ List.replicate n 0).drop offset) i = bytesOf contents (offset + i) := by
    intro i
    rw [← bytesOf_zeros contents n]
    unfold bytesOf
    rw [List.getElem?_drop]
  induction k with
  | zero => rfl
  | succ k ih =>
    unfold fieldMSB
    rw [ih]
    congr 1
    unfold bitMSB
    rw [this]
    congr 2
    · congr 1; omega
    · congr 1; omega

end Props

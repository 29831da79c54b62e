import Verif.Lemmas.Sizes
/-!
# The parts shared by the format decoders: they end and keep sizes
-/

namespace Model
open Rust

/-! ## Bit readers and byte streams -/

/-- Both operations of a reader end. -/
class PumpOps.Total {σ : Type} (P : PumpOps σ) : Prop where
  peek : ∀ s n, Ends (P.peek s n)
  consume : ∀ s n, Ends (P.consume s n)

section
variable {σ : Type} (P : PumpOps σ) [hP : P.Total]

theorem ends_peek (s : σ) (n : Nat) : Ends (P.peek s n) := hP.peek s n
theorem ends_consume (s : σ) (n : Nat) : Ends (P.consume s n) := hP.consume s n
macro_rules | `(tactic| ends_leaf) => `(tactic| with_reducible exact ends_peek _ _ _)
macro_rules | `(tactic| ends_leaf) => `(tactic| with_reducible exact ends_consume _ _ _)

theorem ends_getBits (s : σ) (n : Nat) : Ends (P.getBits s n) := by unfold PumpOps.getBits; ends
macro_rules | `(tactic| ends_leaf) => `(tactic| with_reducible exact ends_getBits _ _ _)
theorem ends_getIbits (s : σ) (n : Nat) : Ends (P.getIbits s n) := by unfold PumpOps.getIbits; ends
macro_rules | `(tactic| ends_leaf) => `(tactic| with_reducible exact ends_getIbits _ _ _)
theorem ends_sextended (b : Build) (s : σ) (n : Nat) : Ends (P.getIbitsSextended b s n) := by unfold PumpOps.getIbitsSextended; ends
macro_rules | `(tactic| ends_leaf) => `(tactic| with_reducible exact ends_sextended _ _ _ _)
end

theorem ends_topBits (b : Build) (x y z : Nat) : Ends (topBits b x y z) := by unfold topBits; ends
theorem ends_dropBits (b : Build) (x y z : Nat) : Ends (dropBits b x y z) := by unfold dropBits; ends
theorem ends_refillMSB (b : Build) (s : Pump) (z : Nat) : Ends (refillMSB b s z) := by unfold refillMSB; ends
macro_rules | `(tactic| ends_leaf) => `(tactic| with_reducible exact ends_topBits _ _ _ _)
macro_rules | `(tactic| ends_leaf) => `(tactic| with_reducible exact ends_dropBits _ _ _ _)
macro_rules | `(tactic| ends_leaf) => `(tactic| with_reducible exact ends_refillMSB _ _ _)

instance (b : Build) : (pumpLSB b).Total := ⟨fun s n => by unfold pumpLSB peekLSB; ends, fun s n => by unfold pumpLSB consumeLSB; ends⟩
instance (b : Build) : (pumpMSB b).Total := ⟨fun s n => by unfold pumpMSB peekMSB; ends, fun s n => by unfold pumpMSB consumeMSB; ends⟩
instance (b : Build) : (pumpMSB32 b).Total := ⟨fun s n => by unfold pumpMSB32 peekMSB32; ends, fun s n => by unfold pumpMSB32 consumeMSB; ends⟩

theorem ends_jpegFast (b : Build) (s : JPump) : Ends (jpegFast b s) := by unfold jpegFast; ends
theorem ends_jpegByte (s : JPump) : Ends (jpegByte s) := by unfold jpegByte; ends
macro_rules | `(tactic| ends_leaf) => `(tactic| with_reducible exact ends_jpegFast _ _)
macro_rules | `(tactic| ends_leaf) => `(tactic| with_reducible exact ends_jpegByte _)
theorem ends_jpegSlow (b : Build) : ∀ (n : Nat) (s : JPump), Ends (jpegSlow b n s)
  | 0, _ => ends_ok _
  | n + 1, s => by
    have := ends_jpegSlow b n
    unfold jpegSlow
    ends
    exact this _
macro_rules | `(tactic| ends_leaf) => `(tactic| with_reducible exact ends_jpegSlow _ _ _)
theorem ends_jpegRefill (b : Build) (s : JPump) : Ends (jpegRefill b s) := by unfold jpegRefill; ends
theorem ends_jpegZeros (b : Build) (s : JPump) : Ends (jpegZeros b s) := by unfold jpegZeros; ends
macro_rules | `(tactic| ends_leaf) => `(tactic| with_reducible exact ends_jpegRefill _ _)
macro_rules | `(tactic| ends_leaf) => `(tactic| with_reducible exact ends_jpegZeros _ _)
instance (b : Build) : (pumpJPEG b).Total := ⟨fun s n => by unfold pumpJPEG peekJPEG; ends, fun s n => by unfold pumpJPEG consumeJPEG; ends⟩

theorem ends_peekU8 (s : ByteStream) : Ends s.peekU8 := by unfold ByteStream.peekU8; ends
macro_rules | `(tactic| ends_leaf) => `(tactic| with_reducible exact ends_peekU8 _)
theorem ends_getU8 (s : ByteStream) : Ends s.getU8 := by unfold ByteStream.getU8; ends
macro_rules | `(tactic| ends_leaf) => `(tactic| with_reducible exact ends_getU8 _)
theorem ends_getU16 (s : ByteStream) : Ends s.getU16 := by unfold ByteStream.getU16 ByteStream.peekU16; ends
macro_rules | `(tactic| ends_leaf) => `(tactic| with_reducible exact ends_getU16 _)
theorem ends_getPos (b : Build) (s : Pump) : Ends (s.getPos b) := by unfold Pump.getPos; ends
macro_rules | `(tactic| ends_leaf) => `(tactic| with_reducible exact ends_getPos _ _)
theorem ends_LEf32 (l : Bytes) (i : Nat) : Ends (LEf32 l i) := by unfold LEf32; ends
macro_rules | `(tactic| ends_leaf) => `(tactic| with_reducible exact ends_LEf32 _ _)

/-! ## Lookup tables -/

theorem ends_entry (b : Build) (t : List Nat) (i : Nat) : Ends (LookupTable.entry b t i) := by unfold LookupTable.entry; ends
macro_rules | `(tactic| ends_leaf) => `(tactic| with_reducible exact ends_entry _ _ _)
theorem ends_lookup (b : Build) (t : List Nat) : Ends (LookupTable.new b t) := by unfold LookupTable.new; ends
macro_rules | `(tactic| ends_leaf) => `(tactic| with_reducible exact ends_lookup _ _)
theorem ends_dither (b : Build) (t : LookupTable) (v r : Nat) : Ends (t.dither b v r) := by unfold LookupTable.dither; ends
macro_rules | `(tactic| ends_leaf) => `(tactic| with_reducible exact ends_dither _ _ _ _)

/-! ## Directories and cameras -/

macro_rules | `(tactic| ends_leaf) => `(tactic| with_reducible exact TiffIFD.ends_getU32 _ _)
macro_rules | `(tactic| ends_leaf) => `(tactic| with_reducible exact TiffIFD.ends_getF32 _ _)
macro_rules | `(tactic| ends_leaf) => `(tactic| with_reducible exact TiffIFD.ends_getStr _)

theorem ends_getForceU32 (e : TiffEntry) (i : Nat) : Ends (e.getForceU32 i) := by unfold TiffEntry.getForceU32; ends
macro_rules | `(tactic| ends_leaf) => `(tactic| with_reducible exact ends_getForceU32 _ _)
theorem ends_getForceU16 (e : TiffEntry) (i : Nat) : Ends (e.getForceU16 i) := by unfold TiffEntry.getForceU16; ends
macro_rules | `(tactic| ends_leaf) => `(tactic| with_reducible exact ends_getForceU16 _ _)
theorem ends_copyOffset (e : TiffEntry) (b : Bytes) : Ends (e.copyOffsetFromParent b) := by unfold TiffEntry.copyOffsetFromParent; ends
macro_rules | `(tactic| ends_leaf) => `(tactic| with_reducible exact ends_copyOffset _ _)
theorem ends_fetchTag (i : TiffIFD) (t : Nat) : Ends (i.fetchTag t) := by unfold TiffIFD.fetchTag; ends
macro_rules | `(tactic| ends_leaf) => `(tactic| with_reducible exact ends_fetchTag _ _)
theorem ends_fetchIfd (i : TiffIFD) (t : Nat) : Ends (i.fetchIfd t) := by unfold TiffIFD.fetchIfd; ends
macro_rules | `(tactic| ends_leaf) => `(tactic| with_reducible exact ends_fetchIfd _ _)
theorem ends_fetchUsize (i : TiffIFD) (t : Nat) : Ends (fetchUsize i t) := by unfold fetchUsize; ends
macro_rules | `(tactic| ends_leaf) => `(tactic| with_reducible exact ends_fetchUsize _ _)

theorem ends_parse (b : Build) (buf : Bytes) (o ba s : Nat) (e : Endian) : Ends (TiffIFD.parse b buf o ba s e) := (TiffIFD.post_parse b buf o ba s e).1
macro_rules | `(tactic| ends_leaf) => `(tactic| with_reducible exact ends_parse _ _ _ _ _ _)
theorem ends_newRoot (b : Build) (buf : Bytes) (o : Nat) : Ends (TiffIFD.newRoot b buf o) := (TiffIFD.post_newRoot b buf o).1
macro_rules | `(tactic| ends_leaf) => `(tactic| with_reducible exact ends_newRoot _ _ _)

theorem ends_findM {α : Type} {p : α → M Bool} (hp : ∀ a, Ends (p a)) : ∀ l : List α, Ends (findM p l)
  | [] => ends_ok _
  | a :: l => by
    unfold findM
    exact ends_bind (hp a) fun _ _ => ends_ite (fun _ => ends_ok _) fun _ => ends_findM hp l

theorem ends_wideIfd (l : List TiffIFD) : Ends (wideIfd l) := by
  unfold wideIfd
  refine ends_bind (ends_findM (fun a => ?_) _) fun r _ => ?_
  · ends
  · ends
macro_rules | `(tactic| ends_leaf) => `(tactic| with_reducible exact ends_wideIfd _)

theorem ends_everything (l : RawLoader) (x y z : Bytes) : Ends (l.checkSupportedWithEverything x y z) := by
  unfold RawLoader.checkSupportedWithEverything; ends
macro_rules | `(tactic| ends_leaf) => `(tactic| with_reducible exact ends_everything _ _ _ _)
theorem ends_orientation (t : TiffIFD) : Ends (RawLoader.orientationFromTiff t) := by unfold RawLoader.orientationFromTiff; ends
macro_rules | `(tactic| ends_leaf) => `(tactic| with_reducible exact ends_orientation _)
theorem ends_withMode (l : RawLoader) (t : TiffIFD) (m : Bytes) : Ends (l.checkSupportedWithMode t m) := by
  unfold RawLoader.checkSupportedWithMode; ends
macro_rules | `(tactic| ends_leaf) => `(tactic| with_reducible exact ends_withMode _ _ _)
theorem ends_supported (l : RawLoader) (t : TiffIFD) : Ends (l.checkSupported t) := by unfold RawLoader.checkSupported; ends
macro_rules | `(tactic| ends_leaf) => `(tactic| with_reducible exact ends_supported _ _)

/-! ## Images -/

/-- The buffer holds exactly the samples that the dimensions announce. -/
def Full (img : RawImage) : Prop := img.data.length = img.width * img.height * img.cpp

theorem ends_colorAt (b : Build) (c : CFA) (x y : Nat) : Ends (c.colorAt b x y) := by unfold CFA.colorAt; ends
macro_rules | `(tactic| ends_leaf) => `(tactic| with_reducible exact ends_colorAt _ _ _ _)
theorem ends_blackPixel (b : Build) (c : CFA) (w : Nat) (i : List Nat) (x y : Nat) (s : List F32 × List F32) : Ends (blackPixel b c w i x y s) := by
  unfold blackPixel; ends
macro_rules | `(tactic| ends_leaf) => `(tactic| with_reducible exact ends_blackPixel _ _ _ _ _ _ _)
theorem ends_blackAreas (b : Build) (c : Camera) (w h : Nat) (i : List Nat) : Ends (blackAreas b c w h i) := by unfold blackAreas; ends
macro_rules | `(tactic| ends_leaf) => `(tactic| with_reducible exact ends_blackAreas _ _ _ _ _)

/-- What `RawImage::new` leaves. -/
theorem post_rawImage (b : Build) (c : Camera) (w h : Nat) (wb : List F32) (d : List Nat) :
    Post (RawImage.new b c w h wb d) (fun img => img.width = w ∧ img.height = h ∧ img.cpp = 1 ∧ img.data = d) := by
  unfold RawImage.new
  dsimp only
  split
  · refine post_bind (post_ends (ends_blackAreas _ _ _ _ _)) fun _ _ => post_ok ⟨rfl, rfl, rfl, rfl⟩
  · exact post_bind (Q := fun _ => True) (post_ok trivial) fun _ _ => post_ok ⟨rfl, rfl, rfl, rfl⟩

theorem post_okImage {b : Build} {c : Camera} {w h : Nat} {wb : List F32} {d : List Nat} (hd : d.length = w * h) : Post (okImage b c w h wb d) Full :=
  post_weaken (post_rawImage b c w h wb d) fun img hi => by
    unfold Full
    rw [hi.1, hi.2.1, hi.2.2.1, hi.2.2.2, hd, Nat.mul_one]

theorem post_okImageBlack {b : Build} {c : Camera} {w h : Nat} {wb : List F32} {k d : List Nat} (hd : d.length = w * h) :
    Post (okImageWithBlacklevels b c w h wb k d) Full := by
  unfold okImageWithBlacklevels
  refine post_bind (post_rawImage b c w h wb d) fun img hi => post_ok ?_
  unfold Full
  rw [show ({ img with blacklevels := k } : RawImage).data = img.data from rfl, show ({ img with blacklevels := k } : RawImage).width = img.width from rfl,
    show ({ img with blacklevels := k } : RawImage).height = img.height from rfl, show ({ img with blacklevels := k } : RawImage).cpp = img.cpp from rfl,
    hi.1, hi.2.1, hi.2.2.1, hi.2.2.2, hd, Nat.mul_one]

/-! ## Packed data -/

theorem post_threaded {w h : Nat} {f : List Nat → Nat → M (List Nat)} (hf : ∀ o i, Post (f o i) (fun r => size r = size o)) :
    Post (decodeThreaded w h f) (fun r => size r = w * h) := by
  unfold decodeThreaded
  exact post_weaken (post_parChunksMut_size hf) fun r hr => by rw [hr]; simp

theorem post_multiline {w h n : Nat} {f : List Nat → Nat → M (List Nat)} (hf : ∀ o i, Post (f o i) (fun r => size r = size o)) :
    Post (decodeThreadedMultiline w h n f) (fun r => size r = w * h) := by
  unfold decodeThreadedMultiline
  exact post_weaken (post_parChunksMut_size fun o i => hf o _) fun r hr => by rw [hr]; simp

theorem post_wtableLoop (b : Build) (t : LookupTable) : ∀ (out : List Nat) (inb : Bytes) (r : Nat), Post (wtableLoop b t out inb r) (fun o => size o = size out)
  | [], _, _ => by unfold wtableLoop; exact post_ok rfl
  | _ :: _, [], _ => by unfold wtableLoop; exact post_ok rfl
  | _ :: os, i :: is, r => by
    unfold wtableLoop
    refine post_bind (post_ends (ends_dither _ _ _ _)) fun p _ => post_bind (post_wtableLoop b t os is p.2) fun o ho => post_ok ?_
    simp only [size_list, List.length_cons] at *
    omega
macro_rules | `(tactic| post_leaf) => `(tactic| with_reducible exact post_wtableLoop _ _ _ _ _)

theorem post_wordLoop (w : Nat) {f : Bytes → M Nat} (hf : ∀ x, Ends (f x)) (out : List Nat) (inb : Bytes) : Post (wordLoop w f out inb) (fun o => size o = size out) := by
  unfold wordLoop
  refine post_foldlM_size (fun t a => ?_) _ _
  refine post_bind (post_ends (hf _)) fun v _ => post_setIdx_size _ _ _

theorem post_body10leLsb16 (o : List Nat) (i : Bytes) : Post (body10leLsb16 o i) (fun r => size r = size o) := by unfold body10leLsb16; sized
theorem post_body10le (o : List Nat) (i : Bytes) : Post (body10le o i) (fun r => size r = size o) := by unfold body10le; sized
theorem post_body12be (o : List Nat) (i : Bytes) : Post (body12be o i) (fun r => size r = size o) := by unfold body12be; sized
theorem post_body12beMsb16 (o : List Nat) (i : Bytes) : Post (body12beMsb16 o i) (fun r => size r = size o) := by unfold body12beMsb16; sized
theorem post_body12beMsb32 (o : List Nat) (i : Bytes) : Post (body12beMsb32 o i) (fun r => size r = size o) := by unfold body12beMsb32; sized
theorem post_body12le (o : List Nat) (i : Bytes) : Post (body12le o i) (fun r => size r = size o) := by unfold body12le; sized

/-- Closes the goal for a decoder of packed rows. -/
macro "packed_rows" : tactic => `(tactic| first
  | exact post_zipChunks_size post_body10leLsb16 _ _
  | exact post_zipChunks_size post_body10le _ _
  | exact post_zipChunks_size post_body12be _ _
  | exact post_zipChunks_size post_body12beMsb16 _ _
  | exact post_zipChunks_size post_body12beMsb32 _ _
  | exact post_zipChunks_size post_body12le _ _
  | exact post_zipChunks_size (fun _ _ => post_zipChunks_size post_body12le _ _) _ _
  | exact post_zipChunks_size (fun _ _ => post_zipChunks_size post_body12be _ _) _ _
  | exact post_wordLoop _ (fun _ => by ends) _ _
  | exact post_wtableLoop _ _ _ _ _)

macro "packed_threaded" : tactic => `(tactic| (
  refine post_threaded fun o i => ?_
  repeat (refine post_bind (post_ends (by ends; done)) fun _ _ => ?_)
  packed_rows))

theorem post_8bit (b : Build) (src : Bytes) (t : LookupTable) (w h : Nat) : Post (decode_8bit_wtable b src t w h) (fun r => size r = w * h) := by
  unfold decode_8bit_wtable; packed_threaded
theorem post_10le_lsb16 (src : Bytes) (w h : Nat) : Post (decode_10le_lsb16 src w h) (fun r => size r = w * h) := by
  unfold decode_10le_lsb16; packed_threaded
theorem post_10le (src : Bytes) (w h : Nat) : Post (decode_10le src w h) (fun r => size r = w * h) := by unfold decode_10le; packed_threaded
theorem post_12be (src : Bytes) (w h : Nat) : Post (decode_12be src w h) (fun r => size r = w * h) := by unfold decode_12be; packed_threaded
theorem post_12be_msb16 (src : Bytes) (w h : Nat) : Post (decode_12be_msb16 src w h) (fun r => size r = w * h) := by
  unfold decode_12be_msb16
  exact post_weaken (post_zipChunks_size post_body12beMsb16 _ _) fun r hr => by rw [hr]; simp
theorem post_12be_msb32 (src : Bytes) (w h : Nat) : Post (decode_12be_msb32 src w h) (fun r => size r = w * h) := by
  unfold decode_12be_msb32
  exact post_weaken (post_zipChunks_size post_body12beMsb32 _ _) fun r hr => by rw [hr]; simp
theorem post_12le_16bitaligned (src : Bytes) (w h : Nat) : Post (decode_12le_16bitaligned src w h) (fun r => size r = w * h) := by
  unfold decode_12le_16bitaligned; dsimp only; packed_threaded
theorem post_12le_wcontrol (src : Bytes) (w h : Nat) : Post (decode_12le_wcontrol src w h) (fun r => size r = w * h) := by
  unfold decode_12le_wcontrol; dsimp only; packed_threaded
theorem post_12be_wcontrol (src : Bytes) (w h : Nat) : Post (decode_12be_wcontrol src w h) (fun r => size r = w * h) := by
  unfold decode_12be_wcontrol; dsimp only; packed_threaded
theorem post_12be_interlaced (src : Bytes) (w h : Nat) : Post (decode_12be_interlaced src w h) (fun r => size r = w * h) := by
  unfold decode_12be_interlaced
  refine post_bind (post_ends (by ends)) fun _ _ => post_threaded fun o i => ?_
  dsimp only
  split <;> (refine post_bind (post_ends (by ends; done)) fun _ _ => ?_) <;> packed_rows
theorem post_12be_interlaced_unaligned (src : Bytes) (w h : Nat) : Post (decode_12be_interlaced_unaligned src w h) (fun r => size r = w * h) := by
  unfold decode_12be_interlaced_unaligned
  refine post_bind (post_ends (by ends)) fun _ _ => post_threaded fun o i => ?_
  dsimp only
  split <;> (refine post_bind (post_ends (by ends; done)) fun _ _ => ?_) <;> packed_rows
theorem post_12le (src : Bytes) (w h : Nat) : Post (decode_12le src w h) (fun r => size r = w * h) := by unfold decode_12le; packed_threaded
theorem post_12le_unpacked (src : Bytes) (w h : Nat) : Post (decode_12le_unpacked src w h) (fun r => size r = w * h) := by
  unfold decode_12le_unpacked; packed_threaded
theorem post_12be_unpacked (src : Bytes) (w h : Nat) : Post (decode_12be_unpacked src w h) (fun r => size r = w * h) := by
  unfold decode_12be_unpacked; packed_threaded
theorem post_12be_left (src : Bytes) (w h : Nat) : Post (decode_12be_unpacked_left_aligned src w h) (fun r => size r = w * h) := by
  unfold decode_12be_unpacked_left_aligned; packed_threaded
theorem post_12le_left (src : Bytes) (w h : Nat) : Post (decode_12le_unpacked_left_aligned src w h) (fun r => size r = w * h) := by
  unfold decode_12le_unpacked_left_aligned; packed_threaded
theorem post_14le_unpacked (src : Bytes) (w h : Nat) : Post (decode_14le_unpacked src w h) (fun r => size r = w * h) := by
  unfold decode_14le_unpacked; packed_threaded
theorem post_14be_unpacked (src : Bytes) (w h : Nat) : Post (decode_14be_unpacked src w h) (fun r => size r = w * h) := by
  unfold decode_14be_unpacked; packed_threaded
theorem post_16le (src : Bytes) (w h : Nat) : Post (decode_16le src w h) (fun r => size r = w * h) := by unfold decode_16le; packed_threaded
theorem post_16le_skiplines (src : Bytes) (w h : Nat) : Post (decode_16le_skiplines src w h) (fun r => size r = w * h) := by
  unfold decode_16le_skiplines; packed_threaded
theorem post_16be (src : Bytes) (w h : Nat) : Post (decode_16be src w h) (fun r => size r = w * h) := by unfold decode_16be; packed_threaded

macro_rules | `(tactic| post_leaf) => `(tactic| with_reducible first
  | exact post_8bit _ _ _ _ _ | exact post_10le_lsb16 _ _ _ | exact post_10le _ _ _ | exact post_12be _ _ _ | exact post_12be_msb16 _ _ _
  | exact post_12be_msb32 _ _ _ | exact post_12le_16bitaligned _ _ _ | exact post_12le_wcontrol _ _ _ | exact post_12be_wcontrol _ _ _
  | exact post_12be_interlaced _ _ _ | exact post_12be_interlaced_unaligned _ _ _ | exact post_12le _ _ _ | exact post_12le_unpacked _ _ _
  | exact post_12be_unpacked _ _ _ | exact post_12be_left _ _ _ | exact post_12le_left _ _ _ | exact post_14le_unpacked _ _ _
  | exact post_14be_unpacked _ _ _ | exact post_16le _ _ _ | exact post_16le_skiplines _ _ _ | exact post_16be _ _ _)

end Model

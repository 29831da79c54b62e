import Verif.Lemmas.DecSimple
/-!
# IIQ, DCR, RW2, SRW, MOS and ORF: decoding ends and fills the image
-/

namespace Model
open Rust

/-! ## Phase One -/

namespace Iiq

theorem ends_entry (buf : Bytes) (o n : Nat) (s : Info) : Ends (entry buf o n s) := by unfold entry; ends
macro_rules | `(tactic| ends_leaf) => `(tactic| with_reducible exact Iiq.ends_entry _ _ _ _)
theorem ends_zeros (b : Build) : ∀ n j s, Ends (zeros b n j s)
  | 0, _, _ => ends_ok _
  | n + 1, j, s => by unfold zeros; exact ends_bind (by ends) fun _ _ => ends_ite (fun _ => ends_zeros b n _ _) fun _ => ends_ok _
macro_rules | `(tactic| ends_leaf) => `(tactic| with_reducible exact Iiq.ends_zeros _ _ _ _)
theorem ends_newLen (b : Build) (i : Nat) (s : List Nat × Pump) : Ends (newLen b i s) := by unfold newLen; ends
macro_rules | `(tactic| ends_leaf) => `(tactic| with_reducible exact Iiq.ends_newLen _ _ _)
theorem post_newLen (b : Build) (i : Nat) (s : List Nat × Pump) : Post (newLen b i s) (fun r => size r = size s) := by unfold newLen; dsimp only; sized
macro_rules | `(tactic| post_leaf) => `(tactic| with_reducible exact Iiq.post_newLen _ _ _)
theorem post_pixel (b : Build) (w c : Nat) (s : List Nat × RowState) : Post (pixel b w c s) (fun r => size r = size s) := by
  unfold pixel; dsimp only; sized
macro_rules | `(tactic| post_leaf) => `(tactic| with_reducible exact Iiq.post_pixel _ _ _ _)
theorem post_decodeCompressed (b : Build) (buf : Bytes) (d s w h : Nat) : Post (decodeCompressed b buf d s w h) (fun r => size r = w * h) := by
  unfold decodeCompressed
  exact post_threaded fun o i => by sized
macro_rules | `(tactic| post_leaf) => `(tactic| with_reducible exact Iiq.post_decodeCompressed _ _ _ _ _ _)
end Iiq

theorem full_iiq (b : Build) (buffer : Bytes) (t : TiffIFD) (l : RawLoader) : Post (Iiq.image b buffer t l) Full := by unfold Iiq.image; sized

/-! ## Kodak DCR -/

namespace Dcr

theorem ends_refill (n : Nat) (s : Nat × ByteStream) : Ends (refill n s) := by unfold refill; ends
macro_rules | `(tactic| ends_leaf) => `(tactic| with_reducible exact Dcr.ends_refill _ _)
theorem ends_segmentStep (b : Build) (l : List Nat) (i : Nat) (s : List Int × Nat × Nat × ByteStream) : Ends (segmentStep b l i s) := by
  unfold segmentStep; dsimp only; ends
macro_rules | `(tactic| ends_leaf) => `(tactic| with_reducible exact Dcr.ends_segmentStep _ _ _ _)
theorem ends_lengths (n : Nat) (s : ByteStream) : Ends (lengths n s) := by unfold lengths; ends
macro_rules | `(tactic| ends_leaf) => `(tactic| with_reducible exact Dcr.ends_lengths _ _)
theorem ends_decodeSegment (b : Build) (s : ByteStream) (n : Nat) : Ends (decodeSegment b s n) := by unfold decodeSegment; dsimp only; ends
macro_rules | `(tactic| ends_leaf) => `(tactic| with_reducible exact Dcr.ends_decodeSegment _ _ _)
theorem post_pixel (b : Build) (c : LookupTable) (p : Nat) (l : List Int) (i : Nat) (s : List Nat × List Int × Nat) :
    Post (pixel b c p l i s) (fun r => size r = size s) := by unfold pixel; sized
macro_rules | `(tactic| post_leaf) => `(tactic| with_reducible exact Dcr.post_pixel _ _ _ _ _ _)
theorem post_decode (b : Build) (buf : Bytes) (c : LookupTable) (w h : Nat) : Post (decodeKodak65000 b buf c w h) (fun r => size r = w * h) := by
  unfold decodeKodak65000; sized
macro_rules | `(tactic| post_leaf) => `(tactic| with_reducible exact Dcr.post_decode _ _ _ _ _)
theorem ends_getWb (t : TiffIFD) : Ends (getWb t) := by unfold getWb; ends
macro_rules | `(tactic| ends_leaf) => `(tactic| with_reducible exact Dcr.ends_getWb _)
theorem ends_getCurve (b : Build) (e : TiffEntry) : Ends (getCurve b e) := by unfold getCurve; ends
macro_rules | `(tactic| ends_leaf) => `(tactic| with_reducible exact Dcr.ends_getCurve _ _)
end Dcr

theorem full_dcr (b : Build) (buffer : Bytes) (t : TiffIFD) (l : RawLoader) : Post (Dcr.image b buffer t l) Full := by unfold Dcr.image; sized

/-! ## Panasonic -/

namespace Rw2

instance (b : Build) : (pumpPanasonic b).Total :=
  ⟨fun s n => by unfold pumpPanasonic peekPanasonic; dsimp only; ends, fun s n => by unfold pumpPanasonic consumePanasonic; ends⟩

theorem post_pixel (b : Build) (i : Nat) (s : List Nat × State) : Post (pixel b i s) (fun r => size r = size s) := by unfold pixel; dsimp only; sized
macro_rules | `(tactic| post_leaf) => `(tactic| with_reducible exact Rw2.post_pixel _ _ _)
theorem post_group (b : Build) (o : List Nat) (s : Nat × PPump) : Post (group b o s) (fun r => r.1.length = o.length) := by
  show Post (group b o s) (fun r => size r = size o)
  unfold group; sized
theorem post_decode (b : Build) (buf : Bytes) (w h : Nat) (sp : Bool) : Post (decodePanasonic b buf w h sp) (fun r => size r = w * h) := by
  unfold decodePanasonic
  refine post_multiline fun o i => ?_
  dsimp only
  refine post_bind (post_ends (by ends)) fun _ _ => post_bind (post_ends (by ends)) fun _ _ =>
    post_bind (Ljpeg.post_foldChunks_size (fun o s => post_group _ _ _) (by omega) _ _) fun r hr => post_ok hr
macro_rules | `(tactic| post_leaf) => `(tactic| with_reducible exact Rw2.post_decode _ _ _ _ _)
theorem ends_getWb (t : TiffIFD) : Ends (getWb t) := by unfold getWb; ends
macro_rules | `(tactic| ends_leaf) => `(tactic| with_reducible exact Rw2.ends_getWb _)

theorem post_triple {x : M (List Nat)} {w h : Nat} (hx : Post x (fun r => size r = w * h)) :
    Post (do let l ← x; .ok (w, h, l)) (fun r : Nat × Nat × List Nat => r.2.2.length = r.1 * r.2.1) :=
  post_bind hx fun _ hl => post_ok hl

theorem post_pixels (b : Build) (buf : Bytes) (t : TiffIFD) : Post (pixels b buf t) (fun r => r.2.2.length = r.1 * r.2.1) := by
  unfold pixels
  split
  · refine post_bind (post_ends (by ends)) fun _ _ => post_bind (post_ends (by ends)) fun _ _ => post_bind (post_ends (by ends)) fun _ _ =>
      post_bind (post_ends (by ends)) fun _ _ => post_triple (by post_leaf)
  · refine post_bind (post_ends (by ends)) fun _ _ => post_bind (post_ends (by ends)) fun _ _ => post_bind (post_ends (by ends)) fun _ _ =>
      post_bind (post_ends (by ends)) fun _ _ => post_bind (post_ends (by ends)) fun _ _ => ?_
    dsimp only
    split
    · exact post_triple (by post_leaf)
    · split <;> exact post_triple (by post_leaf)

end Rw2

theorem full_rw2 (b : Build) (buffer : Bytes) (t : TiffIFD) (l : RawLoader) : Post (Rw2.image b buffer t l) Full := by
  unfold Rw2.image
  dsimp only
  refine post_bind (Rw2.post_pixels _ _ _) fun r hr => post_ite (fun _ => post_crash) fun _ => post_bind (post_ends (by ends)) fun _ _ =>
    post_bind (post_ends (by ends)) fun _ _ => post_okImage hr

/-! ## Samsung -/

namespace Srw

theorem ends_getWb (buf : Bytes) (t : TiffIFD) : Ends (getWb buf t) := by unfold getWb; dsimp only; ends
macro_rules | `(tactic| ends_leaf) => `(tactic| with_reducible exact Srw.ends_getWb _ _)
theorem ends_changeLen (b : Build) (i o : Nat) (s : List Nat × Pump) : Ends (changeLen b i o s) := by unfold changeLen; ends
macro_rules | `(tactic| ends_leaf) => `(tactic| with_reducible exact Srw.ends_changeLen _ _ _ _)
theorem post_pixel1 (b : Build) (w i u k c : Nat) (d : Bool) (l : List Nat) (a e : Nat) (s : List Nat × Pump) :
    Post (pixel1 b w i u k c d l a e s) (fun r => size r = size s) := by unfold pixel1; dsimp only; sized
macro_rules | `(tactic| post_leaf) => `(tactic| with_reducible exact Srw.post_pixel1 _ _ _ _ _ _ _ _ _ _ _)
theorem post_group1 (b : Build) (w r c : Nat) (s : List Nat × List Nat × Pump) : Post (group1 b w r c s) (fun r => size r = size s) := by
  unfold group1; dsimp only; sized
macro_rules | `(tactic| post_leaf) => `(tactic| with_reducible exact Srw.post_group1 _ _ _ _ _)
theorem post_swap (o : List Nat) (i j : Nat) : Post (swap o i j) (fun r => size r = size o) := by unfold swap; sized
macro_rules | `(tactic| post_leaf) => `(tactic| with_reducible exact Srw.post_swap _ _ _)
theorem post_decodeSrw1 (b : Build) (buf lo : Bytes) (w h : Nat) : Post (decodeSrw1 b buf lo w h) (fun r => size r = w * h) := by
  unfold decodeSrw1; sized
macro_rules | `(tactic| post_leaf) => `(tactic| with_reducible exact Srw.post_decodeSrw1 _ _ _ _ _)

theorem ends_diff2 (b : Build) (p : Pump) : Ends (diff2 b p) := by unfold diff2; ends
macro_rules | `(tactic| ends_leaf) => `(tactic| with_reducible exact Srw.ends_diff2 _ _)
instance : Size State2 := ⟨fun s => s.out.length⟩
theorem size_state2 (s : State2) : size s = s.out.length := rfl
theorem post_pixel2 (b : Build) (w r c : Nat) (s : State2) : Post (pixel2 b w r c s) (fun r => size r = size s) := by
  unfold pixel2; dsimp only
  refine post_bind (post_ends (by ends)) fun _ _ => ?_
  split <;> sized <;> (simp only [size_state2, size_list] at *; assumption)
theorem post_decodeSrw2 (b : Build) (buf : Bytes) (w h : Nat) : Post (decodeSrw2 b buf w h) (fun r => size r = w * h) := by
  unfold decodeSrw2
  refine post_bind (post_forRange_size fun j s _ => post_forRange_size fun k s _ => post_pixel2 _ _ _ _ _) fun s hs => post_ok ?_
  simpa [size_state2] using hs
macro_rules | `(tactic| post_leaf) => `(tactic| with_reducible exact Srw.post_decodeSrw2 _ _ _ _)

theorem ends_skip (b : Build) : ∀ l p, Ends (skip b l p)
  | [], _ => ends_ok _
  | _ :: l, p => by unfold skip; exact ends_bind (by ends) fun _ _ => ends_skip b l _
macro_rules | `(tactic| ends_leaf) => `(tactic| with_reducible exact Srw.ends_skip _ _ _)
theorem ends_header (b : Build) (p : Pump) : Ends (header b p) := by unfold header; ends
macro_rules | `(tactic| ends_leaf) => `(tactic| with_reducible exact Srw.ends_header _ _)
theorem ends_scale3 (b : Build) (h : Header) (c : Nat) (s : Int) (p : Pump) : Ends (scale3 b h c s p) := by unfold scale3; ends
macro_rules | `(tactic| ends_leaf) => `(tactic| with_reducible exact Srw.ends_scale3 _ _ _ _ _)
theorem ends_motion3 (b : Build) (h : Header) (m : Nat) (p : Pump) : Ends (motion3 b h m p) := by unfold motion3; ends
macro_rules | `(tactic| ends_leaf) => `(tactic| with_reducible exact Srw.ends_motion3 _ _ _ _)
theorem ends_refpixel (w r c i : Nat) (s : Int) : Ends (refpixel w r c i s) := by unfold refpixel; dsimp only; ends
macro_rules | `(tactic| ends_leaf) => `(tactic| with_reducible exact Srw.ends_refpixel _ _ _ _ _)
theorem post_reference (b : Build) (h : Header) (w r c m i : Nat) (o : List Nat) : Post (reference b h w r c m i o) (fun r => size r = size o) := by
  unfold reference; dsimp only; sized
macro_rules | `(tactic| post_leaf) => `(tactic| with_reducible exact Srw.post_reference _ _ _ _ _ _ _ _)
theorem ends_diffBits (b : Build) (h : Header) (r i f : Nat) (s : List Nat × List (List Nat) × Pump) : Ends (diffBits b h r i f s) := by
  unfold diffBits; dsimp only; ends
macro_rules | `(tactic| ends_leaf) => `(tactic| with_reducible exact Srw.ends_diffBits _ _ _ _ _ _)
theorem ends_blockBits (b : Build) (h : Header) (r : Nat) (m : List (List Nat)) (p : Pump) : Ends (blockBits b h r m p) := by
  unfold blockBits; dsimp only; ends
macro_rules | `(tactic| ends_leaf) => `(tactic| with_reducible exact Srw.ends_blockBits _ _ _ _ _)
theorem post_apply3 (b : Build) (h : Header) (w r c : Nat) (sc : Int) (l : List Nat) (i : Nat) (s : List Nat × Pump) :
    Post (apply3 b h w r c sc l i s) (fun r => size r = size s) := by unfold apply3; dsimp only; sized
macro_rules | `(tactic| post_leaf) => `(tactic| with_reducible exact Srw.post_apply3 _ _ _ _ _ _ _ _ _)
instance : Size Row3 := ⟨fun s => s.out.length⟩
theorem size_row3 (s : Row3) : size s = s.out.length := rfl
theorem post_block3 (b : Build) (h : Header) (w r c : Nat) (s : Row3) : Post (block3 b h w r c s) (fun r => size r = size s) := by
  unfold block3
  refine post_bind (post_ends (by ends)) fun _ _ => post_bind (post_ends (by ends)) fun _ _ => post_ite (fun _ => post_crash) fun _ =>
    post_bind (post_forRange_size fun j t _ => by post_leaf) fun o ho => post_bind (post_ends (by ends)) fun _ _ =>
    post_bind (post_forRange_size fun j t _ => by post_leaf) fun o' ho' => post_ok ?_
  simp only [size_row3, size_list, size_pair] at *
  omega
theorem post_row3 (b : Build) (h : Header) (buf : Bytes) (w r : Nat) (s : List Nat × Nat × Pump) : Post (row3 b h buf w r s) (fun r => size r = size s) := by
  unfold row3
  dsimp only
  refine post_bind (post_ends (by ends)) fun _ _ => post_bind (post_ends (by ends)) fun _ _ => ?_
  split <;> (refine post_bind (post_ends (by ends)) fun _ _ => post_bind (post_ends (by ends)) fun _ _ =>
    post_bind (post_forStep_size fun j t _ => post_block3 _ _ _ _ _ _) fun o ho => post_ok ?_; simpa [size_row3] using ho)
macro_rules | `(tactic| post_leaf) => `(tactic| with_reducible exact Srw.post_row3 _ _ _ _ _ _)
theorem post_decodeSrw3 (b : Build) (buf : Bytes) (w h : Nat) : Post (decodeSrw3 b buf w h) (fun r => size r = w * h) := by
  unfold decodeSrw3; sized
macro_rules | `(tactic| post_leaf) => `(tactic| with_reducible exact Srw.post_decodeSrw3 _ _ _ _)

theorem post_pixels (b : Build) (buf : Bytes) (cam : Camera) (raw : TiffIFD) (src : Bytes) (w h c bits : Nat) :
    Post (pixels b buf cam raw src w h c bits) (fun r => size r = w * h) := by unfold pixels; sized
macro_rules | `(tactic| post_leaf) => `(tactic| with_reducible exact Srw.post_pixels _ _ _ _ _ _ _ _ _)

end Srw

theorem full_srw (b : Build) (buffer : Bytes) (t : TiffIFD) (l : RawLoader) : Post (Srw.image b buffer t l) Full := by unfold Srw.image; sized

/-! ## Leaf MOS -/

namespace Mos

theorem ends_xmpTag (t : TiffIFD) (g : Bytes) : Ends (xmpTag t g) := by unfold xmpTag; ends
macro_rules | `(tactic| ends_leaf) => `(tactic| with_reducible exact Mos.ends_xmpTag _ _)
theorem ends_modelName (g : Bytes) : Ends (modelName g) := by unfold modelName; ends
macro_rules | `(tactic| ends_leaf) => `(tactic| with_reducible exact Mos.ends_modelName _)
theorem ends_search (f : Bytes → F32) (d : Bytes) : ∀ n pos, 0 < n → d.length < n + pos → Ends (search f d n pos)
  | 0, _, h, _ => by omega
  | n + 1, pos, _, h => by
    unfold search
    refine ends_ite (fun hp => ?_) fun _ => ends_ok _
    refine ends_bind (by ends) fun _ _ => ends_ite (fun _ => by ends) fun _ => ends_search f d n _ (by omega) (by omega)
theorem ends_getWb (f : Bytes → F32) (t : TiffIFD) : Ends (getWb f t) := by
  unfold getWb
  exact ends_bind (by ends) fun e _ => ends_search f _ _ _ (by omega) (by omega)
macro_rules | `(tactic| ends_leaf) => `(tactic| with_reducible exact Mos.ends_getWb _ _)
theorem post_deinterlace (b : Build) (w h : Nat) (l : List Nat) : Post (deinterlace b w h l) (fun r => size r = w * h) := by
  unfold deinterlace; dsimp only; sized
theorem post_decodeCompressed (b : Build) (cam : Camera) (src : Bytes) (w h : Nat) : Post (decodeCompressed b cam src w h) (fun r => size r = w * h) := by
  unfold decodeCompressed
  refine post_bind (Ljpeg.post_newFull _ _ _ _) fun d hd => post_bind (Ljpeg.post_decodeLeaf b hd w h) fun l hl => ?_
  split
  · exact post_deinterlace _ _ _ _
  · exact post_ok hl
macro_rules | `(tactic| post_leaf) => `(tactic| with_reducible exact Mos.post_decodeCompressed _ _ _ _ _)
end Mos

theorem full_mos (b : Build) (f : Bytes → F32) (buffer : Bytes) (t : TiffIFD) (l : RawLoader) : Post (Mos.image b f buffer t l) Full := by
  unfold Mos.image; sized

end Model

import Verif.Lemmas.DecLjpeg
import Verif.Lemmas.Mrw
/-!
# The small decoders: decoding ends and fills the image
-/

namespace Model
open Rust

macro_rules | `(tactic| sized_step) => `(tactic| with_reducible exact post_okImage (by size_done))
macro_rules | `(tactic| sized_step) => `(tactic| with_reducible exact post_okImageBlack (by size_done))

theorem post_fail_bind {α β : Type} {m : String} {f : α → M β} {Q : β → Prop} : Post ((fail m : M α) >>= f) Q := post_fail
theorem post_crash_bind {α β : Type} {f : α → M β} {Q : β → Prop} : Post ((crash : M α) >>= f) Q := post_crash
macro_rules | `(tactic| sized_step) => `(tactic| with_reducible first | exact post_fail_bind | exact post_crash_bind)

theorem full_mrw (b : Build) (buffer : Bytes) (d : Mrw.Decoder) (l : RawLoader) : Post (Mrw.image b buffer d l) Full := by
  unfold Mrw.image; sized

theorem full_ari (b : Build) (buffer : Bytes) (l : RawLoader) : Post (Ari.image b buffer l) Full := by unfold Ari.image; sized
theorem full_mef (b : Build) (buffer : Bytes) (t : TiffIFD) (l : RawLoader) : Post (Mef.image b buffer t l) Full := by unfold Mef.image; sized
theorem full_nkd (b : Build) (buffer : Bytes) (c : Camera) : Post (Nkd.image b buffer c) Full := by unfold Nkd.image; dsimp only; sized

theorem ends_erfWb (t : TiffIFD) : Ends (Erf.getWb t) := by unfold Erf.getWb; ends
macro_rules | `(tactic| ends_leaf) => `(tactic| with_reducible exact ends_erfWb _)
theorem full_erf (b : Build) (buffer : Bytes) (t : TiffIFD) (l : RawLoader) : Post (Erf.image b buffer t l) Full := by unfold Erf.image; sized

theorem ends_dcsTable (b : Build) (e : TiffEntry) : Ends (Dcs.table b e) := by unfold Dcs.table; ends
macro_rules | `(tactic| ends_leaf) => `(tactic| with_reducible exact ends_dcsTable _ _)
theorem full_dcs (b : Build) (buffer : Bytes) (t : TiffIFD) (l : RawLoader) : Post (Dcs.image b buffer t l) Full := by unfold Dcs.image; sized

theorem ends_kdcWb (t : TiffIFD) : Ends (Kdc.getWb t) := by unfold Kdc.getWb; ends
macro_rules | `(tactic| ends_leaf) => `(tactic| with_reducible exact ends_kdcWb _)
theorem full_kdc (b : Build) (buffer : Bytes) (t : TiffIFD) (l : RawLoader) : Post (Kdc.image b buffer t l) Full := by unfold Kdc.image; sized

theorem ends_nrwWb (b : Build) (t : TiffIFD) (c : Camera) : Ends (Nrw.getWb b t c) := by unfold Nrw.getWb; ends
macro_rules | `(tactic| ends_leaf) => `(tactic| with_reducible exact ends_nrwWb _ _ _)
theorem full_nrw (b : Build) (buffer : Bytes) (t : TiffIFD) (l : RawLoader) : Post (Nrw.image b buffer t l) Full := by unfold Nrw.image; sized

theorem ends_tfrWb (t : TiffIFD) : Ends (Tfr.getWb t) := by unfold Tfr.getWb; ends
macro_rules | `(tactic| ends_leaf) => `(tactic| with_reducible exact ends_tfrWb _)
theorem post_tfrCompressed (b : Build) (src : Bytes) (w h : Nat) : Post (Tfr.decodeCompressed b src w h) (fun r => size r = w * h) := by
  unfold Tfr.decodeCompressed
  exact post_bind (Ljpeg.post_newFull _ _ _ _) fun d hd => post_weaken (Ljpeg.post_decode b hd _ _ _ _ _) fun r hr => by size_done
macro_rules | `(tactic| post_leaf) => `(tactic| with_reducible exact post_tfrCompressed _ _ _ _)
theorem full_tfr (b : Build) (buffer : Bytes) (t : TiffIFD) (l : RawLoader) : Post (Tfr.image b buffer t l) Full := by unfold Tfr.image; sized

theorem ends_x3fDirectory (buf : Bytes) (o : Nat) : Ends (X3f.Directory.new buf o) := by unfold X3f.Directory.new; ends
theorem ends_x3fImage (buf : Bytes) (o : Nat) : Ends (X3f.Image.new buf o) := by unfold X3f.Image.new; ends
macro_rules | `(tactic| ends_leaf) => `(tactic| with_reducible exact ends_x3fDirectory _ _)
macro_rules | `(tactic| ends_leaf) => `(tactic| with_reducible exact ends_x3fImage _ _)
theorem ends_x3fFile (b : Build) (buf : Buffer) : Ends (X3f.File.new b buf) := by unfold X3f.File.new; ends
theorem ends_x3f (b : Build) (buf : Buffer) : Ends (X3f.new b buf) := by
  have h := ends_x3fFile b buf
  unfold X3f.new
  split
  · exact ends_ok _
  · rename_i e; exact absurd e h
  · exact ends_crash
theorem full_x3f (b : Build) (buffer : Bytes) (f : X3f.File) (l : RawLoader) : Post (X3f.image b buffer f l) Full := by
  unfold X3f.image X3f.decodeCompressed; sized

end Model

import Verif.Lemmas.Strips
import Verif.Props.Ljpeg
import Verif.Model.Dec.Dng
/-!
# C49: the tiles of a DNG file cover the image

`dng_tiles_restored_partial`: a grid of tiles, each a lossless JPEG file (the encoder is the one of `Verif.Spec.Ljpeg`, written from the standard), decodes to the image the tiles were
cut from. Tiles on the right and the bottom edge may reach beyond the image. What is beyond is dropped, no tile disturbs its neighbours, and every sample of the image comes from the one
tile it lies in.

What is missing: the image has to have a whole number of JPEG pixels per row, and tiles with four components have to be as wide as the image. Both are necessary: `dng_tiles_uneven`
and `dng_tiles_four`.
-/

namespace Spec

/-- The bytes begin with a lossless JPEG file of `h` lines of `w` pixels with `n` components, of which component `k` of pixel `p` of line `r` is `img r p k`. -/
def BeginsWithJpeg (n h w : Nat) (img : Nat → Nat → Nat → Nat) (bytes : Model.Bytes) : Prop :=
  ∃ (precision pt : Nat) (id : Nat → Nat) (tab : Nat → TableSpec) (tail : Model.Bytes),
    (12 ≤ precision ∧ precision ≤ 16) ∧ (pt < precision ∧ pt < 16) ∧ (h < 65536 ∧ w < 65536) ∧
    ((∀ i, i < n → id i < 256) ∧ ∀ i j, i < n → j < n → id i = id j → i = j) ∧ (∀ i, i < n → Props.UsableTable (tab i) precision false) ∧
    (∀ r p k, img r p k < 65536) ∧
    (∀ r p k, r < h → p < w → k < n → category (residual (2 ^ (precision - pt - 1)) img r p k) ∈ (tab k).vals) ∧
    2 ≤ (packBits (encodeScan n w h (fun k => encodeDiff (tab k).lens (tab k).vals) (2 ^ (precision - pt - 1)) img)).length + tail.length ∧
    bytes = encodeFile precision pt h w n id tab img ++ tail

end Spec

namespace Props
open Rust Spec Model Model.Dng

/-- What follows the JPEG does not matter. -/
theorem begins_pad {n h w : Nat} {img : Nat → Nat → Nat → Nat} {bytes : Bytes} (k : Nat) (hj : BeginsWithJpeg n h w img bytes) :
    BeginsWithJpeg n h w img (bytes ++ List.replicate k 0) := by
  obtain ⟨precision, pt, id, tab, tail, h1, h2, h3, h4, h5, h6, h7, h8, h9⟩ := hj
  refine ⟨precision, pt, id, tab, tail ++ List.replicate k 0, h1, h2, h3, h4, h5, h6, h7, ?_, ?_⟩
  · rw [List.length_append]; omega
  · rw [h9, List.append_assoc]

/-- A tile in its strip. -/
theorem tile_placed {b : Build} {buffer : Bytes} {offsets : TiffEntry} {W height tw tlength coltiles row col n off : Nat} {t : Nat → Nat → Nat → Nat} {strip : List Nat}
    (hn : 2 ≤ n ∧ n ≤ 4) (h4 : n = 4 → col = 0 ∧ W ≤ tw) (htl : 0 < tlength) (htw : 0 < tw) (hrow : row * tlength < height) (hcol : col * tw < W)
    (hoff : offsets.getU32 (row * coltiles + col) = .ok off) (hle : off ≤ buffer.length) (hj : BeginsWithJpeg n tlength tw t (buffer.drop off))
    (hlen : strip.length = W * n * min tlength (height - row * tlength)) :
    ∃ out, tile b buffer offsets (W * n) height (tw * n) tlength coltiles row col strip = .ok out ∧
      Placed strip t (col * tw * n) (W * n) (min tw (W - col * tw)) (min tlength (height - row * tlength)) n out := by
  obtain ⟨precision, pt, id, tab, tail, hp, hpt, hsz, hid, ht, himg, hcat, hlong, hbytes⟩ := hj
  have hmulcol : col * (tw * n) = col * tw * n := (Nat.mul_assoc _ _ _).symm
  have hmulcol' : (col + 1) * (tw * n) = (col * tw + tw) * n := by rw [Nat.add_mul, Nat.one_mul, Nat.add_mul, hmulcol]
  have hbw : Nat.min (W * n) ((col + 1) * (tw * n)) - col * (tw * n) = min tw (W - col * tw) * n := by
    rw [hmulcol, hmulcol']
    show min _ _ - _ = _
    rw [Nat.mul_min_mul_right, ← Nat.sub_mul]
    congr 1
    omega
  have hle1 : col * tw * n ≤ W * n := Nat.mul_le_mul_right _ (by omega)
  have hle2 : col * tw * n ≤ (col * tw + tw) * n := Nat.mul_le_mul_right _ (by omega)
  have hbl : Nat.min height ((row + 1) * tlength) - row * tlength = min tlength (height - row * tlength) := by
    rw [Nat.add_mul, Nat.one_mul]
    show min height _ - _ = _
    omega
  obtain ⟨d, out, k1, k2, k3, k4, k5⟩ := ljpeg_round_trip b false precision pt tlength tw n id tab t tail hp.1 hp.2 hpt.1 hpt.2 hsz.1 hsz.2 hn.1 hn.2 hid.1 hid.2 ht himg hcat hlong
    strip (col * tw * n) (W * n) (min tw (W - col * tw)) (min tlength (height - row * tlength)) (by omega) (Nat.min_le_left _ _)
    (by omega) (Nat.min_le_left _ _) (Nat.mul_le_mul_right _ (by omega))
    (fun h => by
      obtain ⟨rfl, h⟩ := h4 h
      rw [Nat.zero_mul, Nat.zero_mul, Nat.sub_zero, Nat.min_eq_right h]
      exact ⟨rfl, rfl⟩)
    (by
      rw [hlen, Nat.add_assoc, ← Nat.add_mul]
      have h1 : (col * tw + min tw (W - col * tw)) * n ≤ W * n := Nat.mul_le_mul_right _ (by omega)
      obtain ⟨m, hm⟩ : ∃ m, min tlength (height - row * tlength) = m + 1 := ⟨_, (Nat.sub_add_cancel (by omega)).symm⟩
      rw [hm, Nat.add_sub_cancel, Nat.mul_add, Nat.mul_one, Nat.mul_comm]
      omega)
  refine ⟨out, ?_, k5⟩
  unfold tile
  rw [hoff, ok_bind, sliceFrom_le hle, ok_bind, hbytes]
  unfold Ljpeg.new
  rw [k1, show unwrapped (Except.ok d : M _) = .ok d from rfl, ok_bind, subU_ok, ok_bind, subU_ok, ok_bind, hbw, hbl, hmulcol, k4]
  · rfl
  · show _ ≤ min _ _
    rw [Nat.add_mul, Nat.one_mul]
    omega
  · show _ ≤ min _ _
    rw [hmulcol, hmulcol']
    omega

/-- **C49** (part). Tiles of `tw` by `tlength` JPEG pixels with `n` components (the tile width in samples is `tw * n`) restore an image of `W * n` samples by `height` lines. -/
theorem dng_tiles_restored_partial (b : Build) (buffer : Bytes) (offsets : TiffEntry) (W height tw tlength n : Nat) (img : Nat → Nat → Nat)
    (hn : 2 ≤ n ∧ n ≤ 4) (h4 : n = 4 → W ≤ tw) (hW : 0 < W) (hheight : 0 < height) (htw : 0 < tw) (htl : 0 < tlength)
    (hcount : offsets.count = ((W + tw - 1) / tw) * ((height + tlength - 1) / tlength))
    (htiles : ∀ row col, row * tlength < height → col * tw < W → ∃ off t, offsets.getU32 (row * ((W + tw - 1) / tw) + col) = .ok off ∧ off ≤ buffer.length ∧
      BeginsWithJpeg n tlength tw t (buffer.drop off) ∧
      ∀ r p k, r < tlength → p < tw → k < n → row * tlength + r < height → col * tw + p < W → t r p k = img (row * tlength + r) ((col * tw + p) * n + k)) :
    decodeTiles b buffer offsets (W * n) height (tw * n) tlength = .ok (raster (W * n) height img) := by
  have hn0 : 0 < n := by omega
  have hWn : 0 < W * n := Nat.mul_pos hW hn0
  have htwn : 0 < tw * n := Nat.mul_pos htw hn0
  have hct : (W * n - 1) / (tw * n) + 1 = (W + tw - 1) / tw := by
    have h1 : (W * n - 1) / (tw * n) = (W - 1) / tw := by
      rw [Nat.mul_comm tw n, ← Nat.div_div_eq_div_mul]
      congr 1
      apply Nat.div_eq_of_lt_le
      · have := Nat.mul_le_mul_right n (show W - 1 + 1 ≤ W by omega)
        rw [Nat.add_mul] at this; omega
      · rw [show W - 1 + 1 = W by omega]; omega
    rw [h1, show W + tw - 1 = W - 1 + tw by omega, Nat.add_div_right _ htw]
  have hrt : (height - 1) / tlength + 1 = (height + tlength - 1) / tlength := by
    rw [show height + tlength - 1 = height - 1 + tlength by omega, Nat.add_div_right _ htl]
  have hcolN : ∀ col, col < (W + tw - 1) / tw → col * tw < W := by
    intro col h
    have := (Nat.le_div_iff_mul_le htw).mp (show col + 1 ≤ _ from h)
    rw [Nat.add_mul] at this
    omega
  have hcolE : W ≤ (W + tw - 1) / tw * tw := by
    have h1 := Nat.div_add_mod (W + tw - 1) tw
    have h2 := Nat.mod_lt (W + tw - 1) htw
    rw [Nat.mul_comm] at h1
    omega
  unfold decodeTiles
  rw [subU_ok (by omega), ok_bind, if_neg (by omega)]
  dsimp only
  rw [subU_ok (by omega), ok_bind, if_neg (by omega)]
  rw [hct, hrt, if_neg (by rw [hcount]; simp)]
  apply decodeThreadedMultiline_eq hWn htl
  intro q hq
  rw [Nat.mul_div_cancel _ htl]
  generalize hL : min tlength (height - q * tlength) = L
  obtain ⟨out, h1, h2, h3⟩ := forRange_inv (P := fun col s => s.length = W * n * L ∧
      ∀ r c, r < L → c < W * n → c < col * tw * n → s[r * (W * n) + c]? = some (img (q * tlength + r) c))
    (f := fun col strip => tile b buffer offsets (W * n) height (tw * n) tlength ((W + tw - 1) / tw) q col strip)
    (lo := 0) (hi := (W + tw - 1) / tw) (s := List.replicate (W * n * L) 0) (Nat.zero_le _)
    ⟨List.length_replicate, fun r c _ _ h => by rw [Nat.zero_mul, Nat.zero_mul] at h; omega⟩
    (by
      intro col s _ hcol ⟨hs, hd⟩
      have hcW := hcolN col hcol
      obtain ⟨off, t, e1, e2, e3, e4⟩ := htiles q col hq hcW
      obtain ⟨out, k1, k2⟩ := tile_placed (b := b) (strip := s) hn
        (fun h => by
          have h5 := h4 h
          refine ⟨?_, h5⟩
          rcases Nat.eq_zero_or_pos col with h0 | h0
          · exact h0
          · have := Nat.mul_le_mul_right tw (show 1 ≤ col from h0)
            omega) htl htw hq hcW e1 e2 e3 (by rw [hs, hL])
      rw [hL] at k2
      refine ⟨out, k1, by rw [k2.len, hs], fun r c hr hc hlt => ?_⟩
      by_cases hold : c < col * tw * n
      · rw [k2.rest _ ?_]
        · exact hd r c hr hc hold
        · intro r' p k _ hp hk heq
          have h6 : (p + 1) * n ≤ (W - col * tw) * n := Nat.mul_le_mul_right _ (by omega)
          rw [Nat.add_mul, Nat.one_mul, Nat.sub_mul] at h6
          rcases Nat.lt_trichotomy r r' with h | h | h
          · have := Nat.mul_le_mul_right (W * n) (show r + 1 ≤ r' from h)
            rw [Nat.add_mul, Nat.one_mul] at this
            omega
          · subst h; omega
          · have := Nat.mul_le_mul_right (W * n) (show r' + 1 ≤ r from h)
            rw [Nat.add_mul, Nat.one_mul] at this
            omega
      · obtain ⟨e, rfl⟩ : ∃ e, c = col * tw * n + e := ⟨c - col * tw * n, by omega⟩
        have he : e = e / n * n + e % n := by rw [Nat.mul_comm]; exact (Nat.div_add_mod e n).symm
        have hm := Nat.mod_lt e hn0
        have hp1 : e / n < tw := by
          rw [Nat.div_lt_iff_lt_mul hn0]
          rw [Nat.add_mul, Nat.one_mul, Nat.add_mul] at hlt
          omega
        have hp2 : e / n < W - col * tw := by
          rw [Nat.div_lt_iff_lt_mul hn0, Nat.sub_mul]
          omega
        have := k2.done r (e / n) (e % n) hr (by omega) hm
        rw [Nat.add_assoc, ← he, Nat.add_assoc] at this
        rw [this, e4 r _ _ (by omega) hp1 hm (by omega) (by omega), Nat.add_mul, Nat.add_assoc, ← he])
  rw [h1]
  congr 1
  apply List.ext_getElem?
  intro i
  by_cases hi : i < W * n * L
  · have hi' : i = i / (W * n) * (W * n) + i % (W * n) := by rw [Nat.mul_comm]; exact (Nat.div_add_mod i (W * n)).symm
    have hm := Nat.mod_lt i hWn
    have hr : i / (W * n) < L := by rw [Nat.div_lt_iff_lt_mul hWn, Nat.mul_comm]; exact hi
    rw [hi', h3 _ _ hr hm (Nat.lt_of_lt_of_le hm (Nat.mul_le_mul_right _ hcolE)), raster_getElem? _ _ _ _ _ hr hm]
  · rw [List.getElem?_eq_none (by omega), List.getElem?_eq_none (by rw [raster_length]; omega)]

/-! ## Cases -/

/-- An image to cut into tiles. -/
def tiledImage (r c : Nat) : Nat := (8000 + 7 * r * r + 30 * c + 11 * r * c) % 65536

/-- The tile at `row`, `col`, of `tw` by `tl` pixels of `n` components. Beyond the right edge of the image, at `W` pixels, the last pixel is repeated. -/
def cutTile (n W tw tl row col r p k : Nat) : Nat := tiledImage (row * tl + r) (min (col * tw + p) (W - 1) * n + k)

def tileFile (n W tw tl row col : Nat) : Bytes := encodeFile 14 0 tl tw n id (fun _ => tableK3) (cutTile n W tw tl row col)

/-- The files of a grid of tiles, and where they begin. -/
def tileFiles (n W tw tl rows cols : Nat) : List Bytes := (List.range (rows * cols)).map fun i => tileFile n W tw tl (i / cols) (i % cols)
def tileStarts (files : List Bytes) : List Nat := (List.range files.length).map fun i => ((files.take i).map List.length).sum
def tileOffsets (files : List Bytes) : TiffEntry := ⟨0x0144, 3, files.length, 0, 0, (tileStarts files).flatMap fun o => [o.toUInt8, (o / 256).toUInt8], ⟨false⟩⟩

theorem tableK3_usable' : UsableTable tableK3 14 false :=
  ⟨⟨rfl, by decide⟩, ⟨by decide, by decide⟩, by decide, ⟨by decide, by decide, by decide⟩, Or.inl (by decide), by decide, by decide⟩

theorem begins_jpeg {n h w : Nat} {img : Nat → Nat → Nat → Nat} {rest : Bytes} (hn : n ≤ 4) (hh : h < 65536) (hw : w < 65536) (himg : ∀ r p k, img r p k < 65536)
    (hcat : ∀ r p k, r < h → p < w → k < n → category (residual (2 ^ (14 - 0 - 1)) img r p k) ∈ tableK3.vals) :
    BeginsWithJpeg n h w img (encodeFile 14 0 h w n id (fun _ => tableK3) img ++ (rest ++ [0, 0])) := by
  refine ⟨14, 0, id, fun _ => tableK3, rest ++ [0, 0], ⟨by omega, by omega⟩, ⟨by omega, by omega⟩, ⟨hh, hw⟩, ⟨fun i hi => by simp only [id]; omega, fun i j _ _ h => h⟩,
    fun _ _ => tableK3_usable', himg, hcat, ?_, rfl⟩
  have : 2 ≤ (rest ++ [0, 0]).length := by simp
  omega

def exampleFiles : List Bytes := tileFiles 2 3 2 3 1 2

theorem exampleFiles_at : ∀ col, col < 2 → (tileOffsets exampleFiles).getU32 col = .ok ((tileStarts exampleFiles).getD col 0) ∧
    (tileStarts exampleFiles).getD col 0 ≤ (exampleFiles.flatten ++ [0, 0]).length ∧
    (exampleFiles.flatten ++ [0, 0]).drop ((tileStarts exampleFiles).getD col 0) = tileFile 2 3 2 3 0 col ++ ((exampleFiles.drop (col + 1)).flatten ++ [0, 0]) := by
  decide +kernel

theorem exampleFiles_cat : ∀ col, col < 2 → ∀ r, r < 3 → ∀ p, p < 2 → ∀ k, k < 2 → category (residual (2 ^ (14 - 0 - 1)) (cutTile 2 3 2 3 0 col) r p k) ∈ tableK3.vals := by
  decide +kernel

/-- An image of six by two samples in two tiles of two by three JPEG pixels with two components. Both reach beyond the lower edge and one beyond the right edge. -/
example (b : Build) : decodeTiles b (exampleFiles.flatten ++ [0, 0]) (tileOffsets exampleFiles) (3 * 2) 2 (2 * 2) 3 = .ok (raster (3 * 2) 2 tiledImage) := by
  refine dng_tiles_restored_partial b _ _ 3 2 2 3 2 tiledImage (by decide) (by decide) (by decide) (by decide) (by decide) (by decide) rfl ?_
  intro row col hr hc
  obtain rfl : row = 0 := by omega
  obtain ⟨h1, h2, h3⟩ := exampleFiles_at col (by omega)
  refine ⟨_, cutTile 2 3 2 3 0 col, by rw [Nat.zero_mul, Nat.zero_add]; exact h1, h2, ?_, fun r p k hr hp hk _ hw => ?_⟩
  · rw [h3]
    exact begins_jpeg (by decide) (by decide) (by decide) (fun r p k => Nat.mod_lt _ (by decide)) fun r p k hr hp hk => exampleFiles_cat col (by omega) r hr p hp k hk
  · unfold cutTile
    rw [Nat.min_eq_left (by omega)]

/-- The condition on the width is needed: an image of three samples per line, in one tile of two JPEG pixels with two components, panics. The file is well formed, the fourth sample of
each line is there. -/
theorem dng_tiles_uneven : decodeTiles .debug (tileFile 2 2 2 2 0 0 ++ [0, 0]) (tileOffsets [tileFile 2 2 2 2 0 0]) 3 2 4 2 = .error .panic ∧
    decodeTiles .release (tileFile 2 2 2 2 0 0 ++ [0, 0]) (tileOffsets [tileFile 2 2 2 2 0 0]) 3 2 4 2 = .error .panic := by
  decide +kernel

/-- The condition on four components is needed: two tiles of one JPEG pixel with four components, side by side. The decoder for four components does not know about the strip, both
tiles end up at its beginning, and half of the samples are left at zero. -/
theorem dng_tiles_four : decodeTiles .debug ((tileFiles 4 2 1 2 1 2).flatten ++ [0, 0]) (tileOffsets (tileFiles 4 2 1 2 1 2)) 8 2 4 2 =
    .ok [8120, 8150, 8180, 8210, 8171, 8212, 8253, 8294, 0, 0, 0, 0, 0, 0, 0, 0] ∧
    raster 8 2 tiledImage = [8000, 8030, 8060, 8090, 8120, 8150, 8180, 8210, 8007, 8048, 8089, 8130, 8171, 8212, 8253, 8294] := by
  decide +kernel

end Props

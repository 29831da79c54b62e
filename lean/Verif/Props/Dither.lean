import Verif.Props.Basics
/-!
# C44: what the dithered lookup returns, and the 8-bit rasters that go through it
-/

namespace Spec

/-- Multiply with carry, the generator behind the dithering (a 16-bit multiplier, the carry in the high half). -/
def mwc (r : Nat) : Nat := 15700 * (r % 65536) + r / 65536

/-- Its state after `n` steps. -/
def mwcAfter (r : Nat) : Nat → Nat
  | 0 => r
  | n + 1 => mwcAfter (mwc r) n

/-- A dithered value: from the curve value `c`, up to a quarter of the local `rise` of the curve below, and up to a quarter above, in proportion to eleven random bits. -/
def dithered (c rise r : Nat) : Nat := (if c = 0 then 0 else c - (rise + 2) / 4) + (rise * (r % 2048) + 1024) / 4096

end Spec

namespace Props
open Rust Spec Model

theorem mwc_lt {r : Nat} (h : r < 2 ^ 32) : mwc r < 2 ^ 32 := by unfold mwc; omega

/-- C44. For a curve that is gentle everywhere a lookup gives exactly the dithered value, and the next state of the generator. -/
theorem dither_exact (b : Build) (t : List Nat) (hg : ∀ i, i < t.length → gentle t i) :
    ∃ tbl, LookupTable.new b t = .ok tbl ∧ ∀ i rand, i < t.length → rand < 2 ^ 32 →
      tbl.dither b i rand = .ok (dithered (t[i]?.getD 0) (above t i - below t i) rand, mwc rand) := by
  refine ⟨⟨(List.range t.length).map fun i => (t[i]?.getD 0,
      (if t[i]?.getD 0 = 0 then 0 else t[i]?.getD 0 - (above t i - below t i + 2) / 4), above t i - below t i)⟩, ?_, ?_⟩
  · unfold LookupTable.new
    rw [mapM_ok _ _ _ (fun i hi => entry_eq b t i (List.mem_range.mp hi) (hg i (List.mem_range.mp hi))), ok_bind]
  · intro i rand hi hr
    obtain ⟨g1, g2, g3, g4, g5⟩ := hg i hi
    have hlook : idx ((List.range t.length).map fun i => (t[i]?.getD 0,
        (if t[i]?.getD 0 = 0 then 0 else t[i]?.getD 0 - (above t i - below t i + 2) / 4), above t i - below t i)) i =
        .ok (t[i]?.getD 0,
          (if t[i]?.getD 0 = 0 then 0 else t[i]?.getD 0 - (above t i - below t i + 2) / 4), above t i - below t i) := by
      rw [idx_lt (by simpa using hi)]; simp
    unfold LookupTable.dither dithered mwc
    simp only [hlook, ok_bind, and_07ff, and_ffff]
    generalize t[i]?.getD 0 = c at *
    generalize hd : above t i - below t i = d at *
    have hm : d * (rand % 2048) ≤ d * 2047 := Nat.mul_le_mul_left _ (by omega)
    have hs : rand >>> 16 = rand / 65536 := Nat.shiftRight_eq_div_pow _ _
    have hs2 : ∀ x, x >>> 12 = x / 4096 := fun x => Nat.shiftRight_eq_div_pow _ _
    rw [mulU_ok (by omega), ok_bind, addU_ok (by omega), ok_bind, hs2]
    generalize d * (rand % 2048) = q at *
    have hbase : (if c = 0 then 0 else c - (d + 2) / 4) + (q + 1024) / 4096 < 65536 := by split <;> omega
    rw [addU_ok (by omega), ok_bind, mulU_ok (by omega), ok_bind, hs, addU_ok (by omega), ok_bind, Nat.mod_eq_of_lt hbase]

/-- The dithering covers the whole span it promises: with the random bits at zero the value is a quarter of the rise below the curve, with all of them set it is a quarter above, but for
rounding. In between it grows with the random bits. -/
theorem dither_spans (c rise r : Nat) (hc : 0 < c) (hq : (rise + 2) / 4 ≤ c) :
    (r % 2048 = 0 → dithered c rise r + (rise + 2) / 4 = c) ∧
    (r % 2048 = 2047 → c + rise / 4 ≤ dithered c rise r + rise / 4096 + 2) ∧
    ∀ r', r % 2048 ≤ r' % 2048 → dithered c rise r ≤ dithered c rise r' := by
  unfold dithered
  rw [if_neg (by omega)]
  refine ⟨fun h => ?_, fun h => ?_, fun r' h => ?_⟩
  · rw [h]; omega
  · rw [h]; omega
  · have := Nat.mul_le_mul_left rise h
    omega

theorem wtableLoop_eq {b : Build} {tbl : LookupTable} {t : List Nat} (ht : t.length = 256)
    (hd : ∀ i rand, i < t.length → rand < 2 ^ 32 → tbl.dither b i rand = .ok (dithered (t[i]?.getD 0) (above t i - below t i) rand, mwc rand)) :
    ∀ (n : Nat) (inb : Bytes) (rand : Nat), rand < 2 ^ 32 → n ≤ inb.length → wtableLoop b tbl (List.replicate n 0) inb rand =
      .ok ((List.range n).map fun c => dithered (t[bytesOf inb c]?.getD 0) (above t (bytesOf inb c) - below t (bytesOf inb c)) (mwcAfter rand c)) := by
  intro n
  induction n with
  | zero => intro inb rand _ _; simp [wtableLoop]
  | succ n ih =>
    intro inb rand hr hlen
    cases inb with
    | nil => simp at hlen
    | cons i is =>
      rw [List.replicate_succ]
      unfold wtableLoop
      rw [hd _ _ (by rw [ht]; exact i.toNat_lt) hr, ok_bind]
      dsimp only
      rw [ih is (mwc rand) (mwc_lt hr) (by simpa using hlen), ok_bind, List.range_succ_eq_map]
      simp [bytesOf, mwcAfter, Function.comp_def]

/-- C44 for 8-bit rasters. With a gentle curve of 256 entries, sample `c` of line `r` is the dithered value of the curve at its byte. The generator is started anew on every line, from the
first four bytes of the line (which have to be there even if the line is shorter), and advances once per sample. -/
theorem decode_8bit_wtable_exact (b : Build) (t : List Nat) (ht : t.length = 256) (hg : ∀ i, i < t.length → gentle t i) (buf : Bytes) (w h : Nat) (hw : 0 < w)
    (hlen : w * h ≤ buf.length) (hlen4 : 0 < h → (h - 1) * w + 4 ≤ buf.length) :
    (do let tbl ← LookupTable.new b t
        decode_8bit_wtable b buf tbl w h) = .ok (raster w h fun r c =>
      dithered (t[bytesOf buf (r * w + c)]?.getD 0) (above t (bytesOf buf (r * w + c)) - below t (bytesOf buf (r * w + c)))
        (mwcAfter (bytesOf buf (r * w + 3) * 16777216 + bytesOf buf (r * w + 2) * 65536 + bytesOf buf (r * w + 1) * 256 + bytesOf buf (r * w)) c)) := by
  obtain ⟨tbl, h1, h2⟩ := dither_exact b t hg
  rw [h1, ok_bind]
  unfold decode_8bit_wtable
  apply decodeThreaded_eq hw
  intro r hr
  have hrow : (r + 1) * w ≤ h * w := Nat.mul_le_mul_right _ hr
  have hrow' : r * w ≤ (h - 1) * w := Nat.mul_le_mul_right _ (by omega)
  have h4 := hlen4 (by omega)
  rw [Nat.add_mul, Nat.one_mul, Nat.mul_comm h] at hrow
  rw [sliceFrom_le (by omega), ok_bind, LEu32_eq (by rw [List.length_drop]; omega), ok_bind, wtableLoop_eq ht h2]
  · simp only [bytesOf_drop, Nat.add_zero]
  · have := fun i => bytesOf_lt (buf.drop (r * w)) i
    have h0 := this (0 + 3)
    have h1 := this (0 + 2)
    have h2 := this (0 + 1)
    have h3 := this 0
    omega
  · rw [List.length_drop]; omega

/-- A linear curve, and three bytes of a line through it. -/
def rampCurve : List Nat := (List.range 256).map fun i => 40 * i + 20

example (b : Build) : (do let tbl ← LookupTable.new b rampCurve
                          decode_8bit_wtable b [10, 200, 3, 4, 5, 6] tbl 3 1) = .ok [400, 8006, 137] := by
  cases b <;> decide +kernel

example (b : Build) (buf : Bytes) (hb : 6 ≤ buf.length) := decode_8bit_wtable_exact b rampCurve (by decide +kernel) (by decide +kernel) buf 3 1 (by decide) (by omega) (by omega)

end Props

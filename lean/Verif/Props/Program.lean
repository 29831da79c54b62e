import Verif.Model.Program
import Verif.Spec.Ppm
import Verif.Props.WhiteCast
import Mathlib.Order.Bounds.Defs
/-!
# C93: what the command line program writes
-/

namespace Props
open Model Rust Spec F32

/-! ## Bytes -/

private theorem f255 : lit 255 = .fin 255 := by decide +kernel

/-- The program clamps before it multiplies and `to_srgb` afterwards; for no value, finite or not, does that make a difference. -/
theorem program_byte (v : F32) : programByte v = srgbByte v := by
  unfold programByte srgbByte
  cases v with
  | nan => decide +kernel
  | inf s => cases s <;> decide +kernel
  | zero s => cases s <;> decide +kernel
  | fin p =>
    rw [f255, lit_zero]
    by_cases hp : p < 0
    · have e : (F32.fin p).max (.zero false) = .zero false := by simp [F32.max, F32.lt, hp]
      rw [e]
      have hr : roundQ (p * 255) ≤ 0 := by
        rw [← neg_nonneg, ← roundQ_neg]
        exact roundQ_nonneg (by linarith)
      have : ((F32.fin p).mul (.fin 255)).max (.zero false) = .zero false ∨ ((F32.fin p).mul (.fin 255)).max (.zero false) = .zero true := by
        have hne : p * 255 ≠ 0 := by intro h; linarith
        simp only [F32.mul, F32.round, if_neg hne]
        split
        · right
          have : p * 255 < 0 := by linarith
          simp [F32.max, F32.lt, this]
        · split
          · left
            have : p * 255 < 0 := by linarith
            simp [F32.max, F32.lt, this]
          · left
            rename_i h1 _
            have : roundQ (p * 255) < 0 := lt_of_le_of_ne hr h1
            simp [F32.max, F32.lt, this]
      rcases this with e | e <;> rw [e] <;> decide +kernel
    · have e : (F32.fin p).max (.zero false) = .fin p := by simp [F32.max, F32.lt, hp]
      rw [e]
      have : ((F32.fin p).mul (.fin 255)).max (.zero false) = (F32.fin p).mul (.fin 255) := by
        have h0 : 0 ≤ p * 255 := by linarith
        have hr0 : 0 ≤ roundQ (p * 255) := roundQ_nonneg h0
        simp only [F32.mul, F32.round]
        split
        · rfl
        · split
          · simp [F32.max, F32.lt]
          · split
            · simp [F32.max, F32.lt, not_lt.mpr h0]
            · simp [F32.max, F32.lt, not_lt.mpr hr0]
      rw [this]

example : programByte (lit (1 / 2)) = 127 ∧ programByte (lit (-3)) = 0 ∧ programByte (lit 7) = 255 ∧ programByte .nan = 0 := by decide +kernel

/-! ## The header -/

private theorem digit_byte : ∀ d, d < 10 → ppmDigit (UInt8.ofNat (Nat.digitChar d).toNat) = true ∧ (UInt8.ofNat (Nat.digitChar d).toNat).toNat - 48 = d := by decide

/-- Reading the digits of a number gives the number. -/
theorem decimal_reads (n : Nat) : (∀ c ∈ decimal n, ppmDigit c = true) ∧ decimal n ≠ [] ∧
    (decimal n).foldl (fun n d => 10 * n + (d.toNat - 48)) 0 = n := by
  induction n using Nat.strong_induction_on with
  | _ n ih =>
    unfold decimal at *
    by_cases h : n < 10
    · rw [Nat.toDigits_of_lt_base h]
      obtain ⟨h1, h2⟩ := digit_byte n h
      exact ⟨by simpa using h1, by simp, by simpa using h2⟩
    · obtain ⟨h1, h2, h3⟩ := ih (n / 10) (by omega)
      obtain ⟨g1, g2⟩ := digit_byte (n % 10) (by omega)
      rw [Nat.toDigits_of_base_le (by decide) (by omega), List.map_append]
      refine ⟨?_, by simp, ?_⟩
      · intro c hc
        rw [List.mem_append] at hc
        rcases hc with hc | hc
        · exact h1 c hc
        · simp only [List.map_cons, List.map_nil, List.mem_singleton] at hc
          rw [hc]; exact g1
      · rw [List.foldl_append, h3]
        simp only [List.map_cons, List.map_nil, List.foldl_cons, List.foldl_nil]
        rw [g2]; omega

private theorem digit_no_space {c : UInt8} (h : ppmDigit c = true) : ppmSpace c = false := by
  simp only [ppmDigit, ppmSpace, Bool.and_eq_true, decide_eq_true_eq, Bool.or_eq_false_iff, beq_eq_false_iff_ne, Bool.and_eq_false_iff, decide_eq_false_iff_not, UInt8.le_iff_toNat_le] at *
  have h1 : (48 : UInt8).toNat = 48 := rfl
  have h2 : (57 : UInt8).toNat = 57 := rfl
  have h3 : (13 : UInt8).toNat = 13 := rfl
  refine ⟨?_, Or.inr (by omega)⟩
  rintro rfl
  revert h
  decide

private theorem takeWhile_run {α : Type} {p : α → Bool} {a b : List α} {c : α} (ha : ∀ x ∈ a, p x = true) (hc : p c = false) :
    (a ++ c :: b).takeWhile p = a ∧ (a ++ c :: b).dropWhile p = c :: b := by
  induction a with
  | nil => simp [hc]
  | cons x a ih =>
    have hx := ha x (by simp)
    obtain ⟨h1, h2⟩ := ih (fun y hy => ha y (by simp [hy]))
    simp [hx, h1, h2]

/-- One space, a number as the program writes it, and some character that is not a digit. -/
theorem number_reads (n : Nat) (c : UInt8) (l : List UInt8) (hc : ppmDigit c = false) : ppmNumber (32 :: (decimal n ++ c :: l)) = some (n, c :: l) := by
  obtain ⟨h1, h2, h3⟩ := decimal_reads n
  have hd : (decimal n ++ c :: l).dropWhile ppmSpace = decimal n ++ c :: l := by
    cases hl : decimal n with
    | nil => exact absurd hl h2
    | cons x t =>
      rw [List.cons_append, List.dropWhile_cons_of_neg]
      rw [digit_no_space (h1 x (by rw [hl]; simp))]
      simp
  obtain ⟨t1, t2⟩ := takeWhile_run (b := l) h1 hc
  unfold ppmNumber
  dsimp only
  rw [if_pos (by decide)]
  simp only [hd, t1, t2, h3]
  rw [if_neg (by simpa using h2)]

/-- What the program writes is a complete portable pixmap with the given size and the bytes of the values. -/
theorem ppm_reads (w h : Nat) (data : List F32) (hlen : data.length = w * h * 3) :
    readPpm (ppmFile w h data) = some (w, h, 255, data.map srgbByte) := by
  have e : ppmFile w h data = 80 :: 54 :: 32 :: (decimal w ++ 32 :: (decimal h ++ 32 :: (decimal 255 ++ 10 :: data.map fun pix => UInt8.ofNat (programByte pix)))) := by
    simp [ppmFile, show (b! "P6 ") = [80, 54, 32] from by decide, show (b! " ") = [32] from by decide]
  have hb : ∀ v : F32, (UInt8.ofNat (programByte v)).toNat = srgbByte v := by
    intro v
    rw [program_byte, UInt8.toNat_ofNat']
    exact Nat.mod_eq_of_lt (srgbByte_lt v)
  rw [e]
  unfold readPpm
  simp only [number_reads _ 32 _ (by decide), number_reads _ 10 _ (by decide), Option.bind_eq_bind, Option.bind_some]
  rw [if_pos]
  · simp [Function.comp_def, hb]
  · simp only [Bool.and_eq_true, decide_eq_true_eq, beq_iff_eq, List.length_map, List.all_eq_true, List.mem_map]
    refine ⟨⟨⟨by decide, by decide⟩, by rw [hlen]; ring⟩, ?_⟩
    rintro v ⟨x, _, rfl⟩
    have := hb x ▸ srgbByte_lt x
    omega

/-! ## The numbers printed -/

private theorem count_loop (b : Build) (data : List Nat) (first n : Nat) (hf : data[0]? = some first) (hn : 0 < n) (hl : n ≤ data.length)
    (hsmall : n < 2 ^ 48) (hw : ∀ v ∈ data, v < 65536) :
    ∃ s, forRange 0 n (countSample b data) (0, first, 0) = .ok s ∧ s.1 = (data.take n).sum ∧
      IsLeast {v | v ∈ data.take n} s.2.1 ∧ IsGreatest {v | v ∈ data.take n} s.2.2 := by
  have key : ∃ s, forRange 0 n (countSample b data) (0, first, 0) = .ok s ∧ (s.1 = (data.take n).sum ∧ s.1 ≤ n * 65536 ∧
      (s.2.1 = first ∨ s.2.1 ∈ data.take n) ∧ (∀ v ∈ data.take n, s.2.1 ≤ v) ∧
      ((n = 0 ∧ s.2.2 = 0) ∨ s.2.2 = 0 ∧ (∀ v ∈ data.take n, v = 0) ∨ s.2.2 ∈ data.take n) ∧ (∀ v ∈ data.take n, v ≤ s.2.2)) := by
    refine forRange_inv (fun n (s : Nat × Nat × Nat) => s.1 = (data.take n).sum ∧ s.1 ≤ n * 65536 ∧
      (s.2.1 = first ∨ s.2.1 ∈ data.take n) ∧ (∀ v ∈ data.take n, s.2.1 ≤ v) ∧
      ((n = 0 ∧ s.2.2 = 0) ∨ s.2.2 = 0 ∧ (∀ v ∈ data.take n, v = 0) ∨ s.2.2 ∈ data.take n) ∧ (∀ v ∈ data.take n, v ≤ s.2.2))
      (Nat.zero_le _) (by simp) ?_
    rintro j ⟨s, mi, ma⟩ _ hj ⟨h1, h2, h3, h4, h5, h6⟩
    have hj' : j < data.length := by omega
    have hlt := hw _ (List.getElem_mem hj')
    have ht : data.take (j + 1) = data.take j ++ [data[j]] := by rw [List.take_add_one, List.getElem?_eq_getElem hj']; rfl
    have hadd : addU 64 b s data[j] = .ok (s + data[j]) := by
      unfold addU
      dsimp only at h2
      rw [if_pos]
      have : s + data[j] < 2 ^ 48 * 65536 := by nlinarith
      exact this
    refine ⟨(s + data[j], if data[j] < mi then data[j] else mi, if ma < data[j] then data[j] else ma), ?_, ?_⟩
    · simp only [countSample, idx, List.getElem?_eq_getElem hj', ok_bind, hadd]
    · dsimp only at h1 h2 h3 h4 h5 h6 ⊢
      rw [ht]
      clear ht hadd
      generalize data[j] = x at *
      generalize hT : data.take j = T at *
      refine ⟨by simp [h1], by nlinarith, ?_, ?_, ?_, ?_⟩
      · split
        · right; simp
        · rcases h3 with h | h
          · left; exact h
          · right; simp [h]
      · intro v hv
        simp only [List.mem_append, List.mem_singleton] at hv
        rcases hv with hv | rfl
        · have := h4 v hv
          split <;> omega
        · split <;> omega
      · right
        by_cases hc : ma < x
        · right; rw [if_pos hc]; simp
        · rw [if_neg hc]
          rcases h5 with ⟨rfl, rfl⟩ | ⟨rfl, h⟩ | h
          · left
            have : T = [] := by rw [← hT]; rfl
            rw [this]
            simp only [List.nil_append, List.mem_singleton, true_and]
            omega
          · left
            refine ⟨rfl, ?_⟩
            intro v hv
            simp only [List.mem_append, List.mem_singleton] at hv
            rcases hv with hv | rfl
            · exact h v hv
            · omega
          · right; simp [h]
      · intro v hv
        simp only [List.mem_append, List.mem_singleton] at hv
        rcases hv with hv | rfl
        · have := h6 v hv
          split <;> omega
        · split <;> omega
  have hmem : first ∈ data.take n := by
    rw [List.mem_iff_getElem?]
    exact ⟨0, by rw [List.getElem?_take_of_lt hn]; exact hf⟩
  obtain ⟨s, h0, h1, h2, h3, h4, h5, h6⟩ := key
  refine ⟨s, h0, h1, ⟨?_, fun v hv => h4 v hv⟩, ⟨?_, fun v hv => h6 v hv⟩⟩
  · rcases h3 with h | h
    · rw [Set.mem_setOf_eq, h]; exact hmem
    · exact h
  · rcases h5 with ⟨h, _⟩ | ⟨h, h'⟩ | h
    · omega
    · rw [Set.mem_setOf_eq, h, ← h' _ hmem]; exact hmem
    · exact h

/-- The numbers are about the first `width * height` samples: their sum, the whole part of their mean, the least and the greatest.
There are numbers exactly if the picture has at least one pixel and that many samples; otherwise the program panics. -/
theorem statistics_right (b : Build) (img : RawImage) (hsmall : img.width * img.height < 2 ^ 48) (hw : ∀ v ∈ img.data, v < 65536) :
    (0 < img.width * img.height → img.width * img.height ≤ img.data.length →
      ∃ s, statistics b img = .ok s ∧ s.sum = (img.data.take (img.width * img.height)).sum ∧
        (s.avg * (img.width * img.height) ≤ s.sum ∧ s.sum < (s.avg + 1) * (img.width * img.height)) ∧
        IsLeast {v | v ∈ img.data.take (img.width * img.height)} s.min ∧ IsGreatest {v | v ∈ img.data.take (img.width * img.height)} s.max) ∧
    (¬ (0 < img.width * img.height ∧ img.width * img.height ≤ img.data.length) → statistics b img = crash) := by
  have hm : mulU 64 b img.width img.height = .ok (img.width * img.height) := by
    unfold mulU
    exact if_pos (Nat.lt_trans hsmall (by decide))
  constructor
  · intro h0 hl
    obtain ⟨first, hf⟩ : ∃ first, img.data[0]? = some first := ⟨_, List.getElem?_eq_getElem (by omega)⟩
    obtain ⟨s, h1, h2, h3, h4⟩ := count_loop b img.data first _ hf h0 hl hsmall hw
    refine ⟨⟨s.1, s.1 / (img.width * img.height), s.2.1, s.2.2⟩, ?_, h2, ?_, h3, h4⟩
    · unfold statistics
      simp only [idx, hf, ok_bind, hm, h1]
      rw [if_neg (by omega)]
    · exact ⟨Nat.div_mul_le_self _ _, by rw [Nat.add_mul, Nat.one_mul]; exact Nat.lt_div_mul_add h0⟩
  · intro hno
    unfold statistics
    cases hf : img.data[0]? with
    | none => simp only [idx, hf]; rfl
    | some first =>
      simp only [idx, hf, ok_bind, hm]
      by_cases h0 : img.width * img.height = 0
      · rw [h0]
        simp [forRange_nil, ok_bind]
      · have hlt : img.data.length < img.width * img.height := by omega
        have hpos : 0 < img.data.length := by
          rcases List.eq_nil_or_concat img.data with h | ⟨_, _, h⟩
          · rw [h] at hf; simp at hf
          · rw [h]; simp
        obtain ⟨s, h1, _⟩ := count_loop b img.data first img.data.length hf hpos (Nat.le_refl _) (by omega) hw
        rw [forRange_split _ (Nat.zero_le _) (Nat.le_of_lt hlt), h1, ok_bind, forRange_cons _ hlt]
        simp only [countSample, idx, List.getElem?_eq_none (Nat.le_refl img.data.length)]
        rfl

/-- A picture of 3 by 2. -/
example : statistics .debug (grey 3 2 .normal) = .ok ⟨15, 2, 0, 5⟩ := by decide +kernel

/-- With three samples per pixel only the first third of the samples is counted: the greatest one here is 9, not 1. -/
example : statistics .debug { grey 2 1 .normal with cpp := 3, data := [1, 1, 9, 9, 9, 9] } = .ok ⟨2, 1, 1, 1⟩ := by decide +kernel

/-! ## The program -/

/-- Where the picture goes: the second argument, or the name of the raw file with `.ppm` added. -/
def outputPath (args : List Bytes) : Option Bytes :=
  match args[2]?, args[1]? with
  | some out, _ => some out
  | none, some file => some (file ++ b! ".ppm")
  | none, none => none

/-- **C93.** If the raw file decodes to a usable picture and the output can be created, the program ends with status 0, having
written one file, at the output path. A reader of portable pixmaps finds in it the picture of `to_srgb` at full size, rotated,
complete. The numbers it prints are right. If the output cannot be created, the status is 2 and nothing is written. -/
theorem program_writes (env : Platform) (b : Build) (db : Toml) (world : World) (args : List Bytes) (file out : Bytes) (img : RawImage)
    (cw ch : Nat) (hu : Usable img cw ch) (hfile : args[1]? = some file) (hout : outputPath args = some out)
    (hdec : rawloaderDecode env b db (world.read file) = .ok img) :
    ∃ (s : Statistics) (w h : Nat) (bytes : List Nat) (contents : Bytes),
      toSrgb env.libm b img 0 0 = .ok (w, h, bytes) ∧ (w, h) = (if img.orientation.toFlips.1 then (ch, cw) else (cw, ch)) ∧
      readPpm contents = some (w, h, 255, bytes) ∧
      s.sum = (img.data.take (img.width * img.height)).sum ∧
      (s.avg * (img.width * img.height) ≤ s.sum ∧ s.sum < (s.avg + 1) * (img.width * img.height)) ∧
      IsLeast {v | v ∈ img.data.take (img.width * img.height)} s.min ∧ IsGreatest {v | v ∈ img.data.take (img.width * img.height)} s.max ∧
      programMain env b db world args =
        .ok (if world.create out then ⟨0, some s, some (out, contents)⟩ else ⟨2, some s, none⟩) := by
  obtain ⟨ow, oh, q, h1, h2, _⟩ := decoder_total env.libm b img cw ch 0 0 false hu (by decide) (by decide) (Or.inl rfl)
  obtain ⟨t, r, bo, l, hc⟩ := hu.crops
  have hpos : 0 < img.width * img.height := by
    obtain ⟨_, e1, e2, h3⟩ := hc
    have := hu.rows
    exact Nat.mul_pos (by omega) (by omega)
  have hsmall : img.width * img.height < 2 ^ 48 :=
    Nat.lt_of_le_of_lt (Nat.mul_le_mul hu.small.1 hu.small.2) (by decide)
  have hlen : img.width * img.height ≤ img.data.length := by
    rw [hu.length]
    have : 0 < img.cpp := by rcases hu.kind with ⟨h, _⟩ | ⟨h, _⟩ | h <;> omega
    exact Nat.le_mul_of_pos_right _ this
  obtain ⟨s, s1, s2, s3, s4, s5⟩ := (statistics_right b img hsmall hu.words).1 hpos hlen
  refine ⟨s, ow, oh, _, ppmFile ow oh (ofPix ow oh 3 q).data, toSrgb_map h1, ?_, ppm_reads ow oh _ (ofPix_wf ow oh 3 q), s2, s3, s4, s5, ?_⟩
  · obtain ⟨nw, nh, e1, e2, _, _, h3, _⟩ := h2.size
    obtain ⟨rfl, rfl⟩ := h3 (Or.inl rfl)
    rw [e1, e2]
    split <;> rfl
  · have hafter : afterDecode env b world out img = .ok (if world.create out then ⟨0, some s, some (out, ppmFile ow oh (ofPix ow oh 3 q).data)⟩ else ⟨2, some s, none⟩) := by
      unfold afterDecode toRgb
      simp only [s1, h1, ok_bind, unwrapped]
      split <;> rfl
    match args, hfile, hout with
    | a :: f :: rest, hfile, hout =>
      simp only [List.getElem?_cons_succ, List.getElem?_cons_zero, Option.some.injEq] at hfile
      subst hfile
      cases rest with
      | nil =>
        have : f ++ b! ".ppm" = out := by simpa [outputPath] using hout
        unfold programMain
        simp only [hdec, this, hafter]
      | cons name rest =>
        have : name = out := by simpa [outputPath] using hout
        unfold programMain
        simp only [hdec, this, hafter]

/-- **C93, all runs.** Status 0 is returned exactly if a file has been written, and then it is at the output path; too few arguments
give 1, and a file that cannot be decoded gives 2. A run that fails writes nothing, so what was at the output path stays. -/
theorem program_outcomes (env : Platform) (b : Build) (db : Toml) (world : World) (args : List Bytes) (o : Outcome)
    (h : programMain env b db world args = .ok o) :
    (o.status = 0 ↔ o.written ≠ none) ∧ (∀ p c, o.written = some (p, c) → outputPath args = some p ∧ world.create p = true) ∧
    o.status ∈ [0, 1, 2, 101] ∧ (o.status = 1 ↔ args.length < 2) ∧
    (∀ file msg, args[1]? = some file → rawloaderDecode env b db (world.read file) = fail msg → o.status = 2) ∧
    (o.printed = none → o.written = none) := by
  revert h
  match args with
  | [] =>
    intro h
    simp only [programMain, Except.ok.injEq] at h
    subst h
    simp
  | [a] =>
    intro h
    simp only [programMain, Except.ok.injEq] at h
    subst h
    simp
  | a :: f :: rest =>
    intro h
    obtain ⟨out, hp, h⟩ : ∃ out, outputPath (a :: f :: rest) = some out ∧ (match rawloaderDecode env b db (world.read f) with
        | .error (.err _) => .ok { status := 2 }
        | .error .panic => .ok { status := 101 }
        | .error .fuel => .error .fuel
        | .ok image =>
          match afterDecode env b world out image with
          | .error .fuel => .error .fuel
          | .error _ => .ok { status := 101 }
          | .ok outcome => .ok outcome) = (.ok o : M Outcome) := by
      cases rest with
      | nil => exact ⟨_, rfl, h⟩
      | cons name rest => exact ⟨_, rfl, h⟩
    rw [hp]
    simp only [List.getElem?_cons_succ, List.getElem?_cons_zero, List.length_cons]
    split at h
    · simp only [Except.ok.injEq] at h
      subst h
      simp
    · rename_i hd
      simp only [Except.ok.injEq] at h
      subst h
      refine ⟨by simp, by simp, by simp, by simp, ?_, by simp⟩
      rintro file msg ⟨rfl⟩ h'
      rw [hd] at h'
      cases h'
    · cases h
    · rename_i img hd
      have hnf : ∀ (file : Bytes) (msg : String), some f = some file → rawloaderDecode env b db (world.read file) = fail msg → False := by
        rintro file msg ⟨rfl⟩ h'
        rw [hd] at h'
        cases h'
      split at h
      · cases h
      · simp only [Except.ok.injEq] at h
        subst h
        refine ⟨by simp, by simp, by simp, by simp, fun file msg h1 h2 => (hnf file msg h1 h2).elim, by simp⟩
      · rename_i o' ha
        simp only [Except.ok.injEq] at h
        subst h
        unfold afterDecode at ha
        rw [bind_eq_ok] at ha
        obtain ⟨s, _, ha⟩ := ha
        rw [bind_eq_ok] at ha
        obtain ⟨d, _, ha⟩ := ha
        split at ha
        · simp only [Except.ok.injEq] at ha
          subst ha
          rename_i hcr
          refine ⟨by simp, ?_, by simp, by simp, fun file msg h1 h2 => (hnf file msg h1 h2).elim, by simp⟩
          intro p c hpc
          simp only [Option.some.injEq, Prod.mk.injEq] at hpc
          rw [← hpc.1]
          exact ⟨rfl, hcr⟩
        · simp only [Except.ok.injEq] at ha
          subst ha
          refine ⟨by simp, by simp, by simp, by simp, fun file msg h1 h2 => (hnf file msg h1 h2).elim, by simp⟩

/-- The default name is never that of the raw file, which is therefore not overwritten. -/
theorem default_output (a file : Bytes) : outputPath [a, file] = some (file ++ b! ".ppm") ∧ file ++ b! ".ppm" ≠ file := by
  refine ⟨rfl, fun h => ?_⟩
  have := congrArg List.length h
  simp at this

/-- A picture without pixels, or with fewer samples than pixels, stops the program with status 101 before anything is written. -/
theorem program_short (env : Platform) (b : Build) (db : Toml) (world : World) (args : List Bytes) (file : Bytes) (img : RawImage)
    (hfile : args[1]? = some file) (hdec : rawloaderDecode env b db (world.read file) = .ok img)
    (hsmall : img.width * img.height < 2 ^ 48) (hw : ∀ v ∈ img.data, v < 65536)
    (hno : ¬ (0 < img.width * img.height ∧ img.width * img.height ≤ img.data.length)) :
    programMain env b db world args = .ok { status := 101 } := by
  have hs := (statistics_right b img hsmall hw).2 hno
  have ha : ∀ out, afterDecode env b world out img = crash := by
    intro out
    unfold afterDecode
    rw [hs]
    rfl
  match args, hfile with
  | a :: f :: rest, hfile =>
    simp only [List.getElem?_cons_succ, List.getElem?_cons_zero, Option.some.injEq] at hfile
    subst hfile
    unfold programMain
    simp only [hdec, ha]
    rfl

/-! ## Cases -/

/-- `rawloader a.mef`, where the file holds a picture of 3 by 2 taken with the camera upright: the file is of 2 by 3. -/
example (env : Platform) (db : Toml) (world : World) (hc : ∀ p, world.create p = true)
    (hdec : rawloaderDecode env .release db (world.read (b! "a.mef")) = .ok (grey 3 2 .rotate90)) :
    ∃ contents bytes, programMain env .release db world [b! "rawloader", b! "a.mef"] = .ok ⟨0, some ⟨15, 2, 0, 5⟩, some (b! "a.mef.ppm", contents)⟩ ∧
      toSrgb env.libm .release (grey 3 2 .rotate90) 0 0 = .ok (2, 3, bytes) ∧ readPpm contents = some (2, 3, 255, bytes) := by
  obtain ⟨s, w, h, bytes, contents, h1, h2, h3, h4, ⟨h5, h5'⟩, h6, h7, h8⟩ := program_writes env .release db world [b! "rawloader", b! "a.mef"] (b! "a.mef") (b! "a.mef.ppm") _ 3 2
    (grey_usable 3 2 .rotate90 (by decide) (by decide) (by decide) (by decide)) rfl rfl hdec
  obtain ⟨rfl, rfl⟩ : w = 2 ∧ h = 3 := by simpa [grey, Orientation.toFlips] using h2
  refine ⟨contents, bytes, ?_, h1, h3⟩
  rw [h8, if_pos (hc _)]
  obtain ⟨sum, avg, mi, ma⟩ := s
  have e1 : (grey 3 2 .rotate90).data.take ((grey 3 2 .rotate90).width * (grey 3 2 .rotate90).height) = [0, 1, 2, 3, 4, 5] := by decide
  have e2 : (grey 3 2 .rotate90).width * (grey 3 2 .rotate90).height = 6 := by decide
  rw [e1] at h4 h6 h7
  rw [e2] at h5 h5'
  simp only [List.sum_cons, List.sum_nil] at h4 h5 h5'
  have m1 := h6.2 (show (0 : Nat) ∈ {v | v ∈ [0, 1, 2, 3, 4, 5]} by simp)
  have m2 := h7.2 (show (5 : Nat) ∈ {v | v ∈ [0, 1, 2, 3, 4, 5]} by simp)
  have m3 := h7.1
  simp only [Set.mem_setOf_eq, List.mem_cons, List.not_mem_nil, or_false] at m3 m1 m2
  congr 4 <;> omega

/-- No file, no output. -/
example (env : Platform) (s : RawLoader) (db : Toml) (hdb : RawLoader.new db = .ok s) (world : World) (h : ∀ p, world.read p = .error "No such file or directory") :
    programMain env .release db world [b! "rawloader", b! "a.mef", b! "b.ppm"] = .ok { status := 2 } := by
  unfold programMain rawloaderDecode
  simp only [h, hdb, ok_bind]
  rfl

end Props

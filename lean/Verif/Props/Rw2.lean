import Verif.Lemmas.Rw2
/-!
# Panasonic's compressed images are decoded to the stored samples
-/

namespace Props
open Rust Model Spec
open Model.Rw2

/-! ## The reader -/

/-- The reader stands at bit `c`. -/
private structure PanaAt (src : Bytes) (split : Bool) (c : Nat) (s : PPump) : Prop where
  buf : s.buffer = src
  spl : s.split = split
  sum : s.nbits + c = 8 * s.pos
  mul : s.pos % 0x4000 = 0
  lt : s.nbits < 0x20000

private theorem xor_block : ∀ x : Fin 1024, ∀ y : Fin 16, ((1023 - x.val) * 16 + y.val) ^^^ 0x3ff0 = x.val * 16 + y.val := by
  decide +kernel

/-- Where the two bytes of a field are. -/
private def panaByte (split : Bool) (c n : Nat) : Nat :=
  c / 131072 * 16384 + if split then (c % 131072 / 128 * 16 + (128 - c % 128 - n) / 8 + 8184) % 16384 else c % 131072 / 128 * 16 + (128 - c % 128 - n) / 8

/-- The part of `peek_bits` after the block has been changed. -/
private theorem pana_peek {b : Build} {src : Bytes} {split : Bool} {c n nb pos : Nat} (hn : 1 ≤ n) (hn8 : n ≤ 8)
    (hc : c % 128 + n ≤ 128) (hlen : panaByte split c n + 2 ≤ src.length) (hnb : nb + c = 8 * pos) (hpos : pos % 0x4000 = 0) (hle : n ≤ nb)
    (hle2 : nb ≤ 0x20000) :
    peekPanasonic b ⟨src, pos, nb, split⟩ n = .ok (panaRaw (bytesOf src) split c n, ⟨src, pos, nb, split⟩) := by
  have hxor : (nb - n) >>> 3 ^^^ 0x3ff0 = c % 131072 / 128 * 16 + (128 - c % 128 - n) / 8 := by
    have := xor_block ⟨c % 131072 / 128, by omega⟩ ⟨(128 - c % 128 - n) / 8, by omega⟩
    rw [← this]
    congr 1
    rw [Nat.shiftRight_eq_div_pow]
    dsimp only
    omega
  have hk8 : (nb - n) % 8 = (128 - c % 128 - n) % 8 := by omega
  have hat : (if split then (c % 131072 / 128 * 16 + (128 - c % 128 - n) / 8 + 0x4000 - 0x2008) % 0x4000 else c % 131072 / 128 * 16 + (128 - c % 128 - n) / 8) + pos - 0x4000 = panaByte split c n := by
    unfold panaByte
    cases split <;> simp <;> omega
  have hge : 0x4000 ≤ pos := by omega
  unfold peekPanasonic
  dsimp only
  rw [if_neg (by omega), ok_bind]
  dsimp only
  rw [subU_ok hle, ok_bind, hxor, subU_ok (by omega), ok_bind, hat, LEu16_eq hlen, ok_bind, subU_ok (by omega), ok_bind]
  unfold shrU
  rw [if_pos (by omega), ok_bind, hk8]
  have hmask : 0xffffffff >>> (32 - n) = 2 ^ n - 1 := by
    have : n = 1 ∨ n = 2 ∨ n = 3 ∨ n = 4 ∨ n = 5 ∨ n = 6 ∨ n = 7 ∨ n = 8 := by omega
    rcases this with rfl | rfl | rfl | rfl | rfl | rfl | rfl | rfl <;> rfl
  rw [hmask, Nat.and_two_pow_sub_one_eq_mod, Nat.shiftRight_eq_div_pow]
  rfl

private theorem peek_refill {b : Build} {src : Bytes} {split : Bool} {n pos : Nat} (hn : 1 ≤ n) (hn8 : n ≤ 8) :
    peekPanasonic b ⟨src, pos, 0, split⟩ n = peekPanasonic b ⟨src, pos + 0x4000, 0x20000, split⟩ n := by
  unfold peekPanasonic
  dsimp only
  rw [if_pos (show n > 0 by omega), addU_ok (by decide), ok_bind, ok_bind, if_neg (by omega)]

private theorem pana_get {b : Build} {src : Bytes} {split : Bool} {c n : Nat} {s : PPump} (h : PanaAt src split c s) (hn : 1 ≤ n) (hn8 : n ≤ 8)
    (hc : c % 128 + n ≤ 128) (hlen : panaByte split c n + 2 ≤ src.length) :
    ∃ s', (pumpPanasonic b).getBits s n = .ok (panaRaw (bytesOf src) split c n, s') ∧ PanaAt src split (c + n) s' := by
  obtain ⟨hb, hs, hsum, hmul, hlt⟩ := h
  obtain ⟨buf, pos, nb, spl⟩ := s
  dsimp only at hb hs hsum hmul hlt
  subst hb hs
  have key : ∃ nb' pos', peekPanasonic b ⟨buf, pos, nb, spl⟩ n = .ok (panaRaw (bytesOf buf) spl c n, ⟨buf, pos', nb', spl⟩) ∧
      nb' + c = 8 * pos' ∧ pos' % 0x4000 = 0 ∧ n ≤ nb' ∧ nb' ≤ 0x20000 := by
    by_cases hx : n > nb
    · have h0 : nb = 0 := by omega
      subst h0
      exact ⟨0x20000, pos + 0x4000, by
        rw [peek_refill hn hn8, pana_peek hn hn8 hc hlen (by omega) (by omega) (by omega) (by omega)], by omega, by omega, by omega, by omega⟩
    · exact ⟨nb, pos, pana_peek hn hn8 hc hlen (by omega) (by omega) (by omega) (by omega), hsum, hmul, by omega, by omega⟩
  obtain ⟨nb', pos', hp, h1, h2, h3, h4⟩ := key
  refine ⟨⟨buf, pos', nb' - n, spl⟩, ?_, ⟨rfl, rfl, ?_, h2, ?_⟩⟩
  · unfold PumpOps.getBits
    rw [if_neg (by omega)]
    show (do
      let (val, s) ← peekPanasonic b ⟨buf, pos, nb, spl⟩ n
      let s ← consumePanasonic b s n
      (.ok (val, s) : M _)) = _
    rw [hp, ok_bind]
    dsimp only
    unfold consumePanasonic
    dsimp only
    rw [subU_ok h3, ok_bind, ok_bind]
  · show nb' - n + (c + n) = 8 * pos'; omega
  · show nb' - n < _; omega

/-! ## A group -/

private theorem adjust_eq {pred sh code : Nat} (hs : sh ∈ [0, 1, 2, 4]) : adjust (pred : Int) sh code = (PanaGroup.next pred sh code : Nat) := by
  unfold adjust PanaGroup.next
  by_cases h0 : code = 0
  · simp [h0]
  · simp only [ne_eq, h0, not_false_eq_true, if_true, if_false, Nat.shiftLeft_eq]
    simp only [List.mem_cons, List.not_mem_nil, or_false] at hs
    rcases hs with rfl | rfl | rfl | rfl
    all_goals
      simp
      repeat' split
      all_goals omega

/-- The end of a step. -/
private def pixelEnd (i : Nat) (s : List Nat × State) (sh nz : Nat) (pr : Int) (p : PPump) : M (List Nat × State) := do
  let nonz ← setIdx s.2.nonz (i % 2) nz
  let pred ← setIdx s.2.pred (i % 2) pr
  let out ← setIdx s.1 i (toU16 pr)
  .ok (out, ⟨pred, nonz, sh, p⟩)

/-- A step after its selector. -/
private def pixelRest (b : Build) (i : Nat) (s : List Nat × State) (sh : Nat) (p : PPump) : M (List Nat × State) := do
  let nz ← idx s.2.nonz (i % 2)
  let pr ← idx s.2.pred (i % 2)
  if nz ≠ 0 then do
    let (j, p) ← (pumpPanasonic b).getBits p 8
    pixelEnd i s sh nz (adjust pr sh j) p
  else do
    let (nz, p) ← (pumpPanasonic b).getBits p 8
    if nz ≠ 0 ∨ i > 11 then do
      let (v, p) ← (pumpPanasonic b).getBits p 4
      pixelEnd i s sh nz ((nz <<< 4 ||| v : Nat) : Int) p
    else pixelEnd i s sh nz pr p

private theorem pixel_eq (b : Build) (i : Nat) (s : List Nat × State) : pixel b i s =
    if i % 3 = 2 then do
      let (v, p) ← (pumpPanasonic b).getBits s.2.pump 2
      let k ← subU 32 b 3 v
      pixelRest b i s (4 >>> k) p
    else pixelRest b i s s.2.sh s.2.pump := by
  have hrest : ∀ sh p, pixelRest b i s sh p = (do
      let nz ← idx s.2.nonz (i % 2)
      let pr ← idx s.2.pred (i % 2)
      let (nz, pr, p) ← if nz ≠ 0 then do
          let (j, p) ← (pumpPanasonic b).getBits p 8
          (.ok (nz, adjust pr sh j, p) : M _)
        else do
          let (nz, p) ← (pumpPanasonic b).getBits p 8
          if nz ≠ 0 ∨ i > 11 then do
            let (v, p) ← (pumpPanasonic b).getBits p 4
            .ok (nz, ((nz <<< 4 ||| v : Nat) : Int), p)
          else .ok (nz, pr, p)
      pixelEnd i s sh nz pr p) := by
    intro sh p
    unfold pixelRest
    cases idx s.2.nonz (i % 2) with
    | error e => rfl
    | ok nz =>
      rw [ok_bind, ok_bind]
      cases idx s.2.pred (i % 2) with
      | error e => rfl
      | ok pr =>
        rw [ok_bind, ok_bind]
        by_cases hnz : nz ≠ 0
        · rw [if_pos hnz, if_pos hnz]
          cases (pumpPanasonic b).getBits p 8 <;> rfl
        · rw [if_neg hnz, if_neg hnz]
          cases (pumpPanasonic b).getBits p 8 with
          | error e => rfl
          | ok r =>
            obtain ⟨nz, p⟩ := r
            rw [ok_bind, ok_bind]
            dsimp only
            by_cases hn2 : nz ≠ 0 ∨ i > 11
            · rw [if_pos hn2, if_pos hn2]
              cases (pumpPanasonic b).getBits p 4 <;> rfl
            · rw [if_neg hn2, if_neg hn2]; rfl
  unfold pixel
  by_cases h3 : i % 3 = 2
  · rw [if_pos h3, if_pos h3]
    simp only [hrest]
    cases (pumpPanasonic b).getBits s.2.pump 2 with
    | error e => rfl
    | ok r =>
      obtain ⟨v, p⟩ := r
      rw [ok_bind, ok_bind]
      dsimp only
      cases subU 32 b 3 v with
      | error e => rfl
      | ok k => rfl
  · rw [if_neg h3, if_neg h3, hrest]
    rfl

/-- The state before sample `i` of a group that starts at bit `C`. -/
private structure PanaInv (g : PanaGroup) (src : Bytes) (split : Bool) (C i : Nat) (r : List Nat × State) : Prop where
  out : r.1 = (List.range i).map g.sample ++ List.replicate (14 - i) 0
  pred : r.2.pred = [(g.last 0 i : Int), (g.last 1 i : Int)]
  nonz : ∃ x y, r.2.nonz = [x, y] ∧ (x ≠ 0 ↔ g.started 0 i = true) ∧ (y ≠ 0 ↔ g.started 1 i = true)
  sh : 2 < i → r.2.sh = g.shift (i - 1)
  pos : PanaAt src split (C + fieldsWidth (g.before i)) r.2.pump

private theorem list_set_append {l : List Nat} {n i v : Nat} (h : l.length = i) (hn : i < n) :
    (l ++ List.replicate (n - i) 0).set i v = l ++ [v] ++ List.replicate (n - (i + 1)) 0 := by
  rw [List.set_append, if_neg (by omega), h, Nat.sub_self, show n - i = n - (i + 1) + 1 by omega, List.replicate_succ]
  simp

private theorem pixelEnd_ok {g : PanaGroup} {src : Bytes} {split : Bool} {C i : Nat} {s : List Nat × State} (hf : g.Fits) (hi : i < 14)
    (h : PanaInv g src split C i s) {sh nz : Nat} {pr : Int} {p : PPump} (hsh : 2 ≤ i → sh = g.shift i) (hpr : pr = (g.sample i : Nat))
    (hnz : nz ≠ 0 ↔ g.started (i % 2) (i + 1) = true) (hp : PanaAt src split (C + fieldsWidth (g.before (i + 1))) p) :
    ∃ s', pixelEnd i s sh nz pr p = .ok s' ∧ PanaInv g src split C (i + 1) s' := by
  obtain ⟨x, y, hxy, hx, hy⟩ := h.nonz
  have hlast : ∀ t, g.last t (i + 1) = if i % 2 = t then g.sample i else g.last t i := fun _ => rfl
  have hst : ∀ t, i % 2 ≠ t → g.started t (i + 1) = g.started t i := by
    intro t ht
    rw [PanaGroup.started_succ]
    simp [ht]
  have hout : setIdx s.1 i (toU16 pr) = .ok ((List.range (i + 1)).map g.sample ++ List.replicate (14 - (i + 1)) 0) := by
    have ht : toU16 pr = g.sample i := by
      have := PanaGroup.sample_lt hf hi
      rw [hpr]
      unfold toU16
      omega
    rw [h.out, setIdx_lt (by simp; omega), list_set_append (by simp) hi, ht, List.range_succ, List.map_append]
    rfl
  have h2 : i % 2 = 0 ∨ i % 2 = 1 := by omega
  unfold pixelEnd
  rw [hxy, h.pred, hout]
  rcases h2 with h2 | h2
  · rw [h2] at hnz ⊢
    refine ⟨_, rfl, ⟨rfl, ?_, ⟨nz, y, rfl, hnz, ?_⟩, ?_, hp⟩⟩
    · rw [hlast, hlast, h2, hpr]; rfl
    · rw [hst 1 (by omega)]; exact hy
    · intro h; exact hsh (by omega)
  · rw [h2] at hnz ⊢
    refine ⟨_, rfl, ⟨rfl, ?_, ⟨x, nz, rfl, ?_, hnz⟩, ?_, hp⟩⟩
    · rw [hlast, hlast, h2, hpr]; rfl
    · rw [hst 0 (by omega)]; exact hx
    · intro h; exact hsh (by omega)

private theorem started_mono {g : PanaGroup} {t i : Nat} (h : g.started t i = true) : g.started t (i + 1) = true := by
  rw [PanaGroup.started_succ, h, Bool.true_or]

private theorem or_low {x v : Nat} (hv : v < 16) : x <<< 4 ||| v = x * 16 + v := by
  rw [← Nat.shiftLeft_add_eq_or_of_lt (show v < 2 ^ 4 from hv), Nat.shiftLeft_eq]

private theorem pixelRest_ok {b : Build} {g : PanaGroup} {src : Bytes} {split : Bool} {C i q : Nat} {s : List Nat × State} (hf : g.Fits) (hi : i < 14)
    (hC : C % 128 = 0) (hlen : ∀ p n, 1 ≤ n → n ≤ 8 → p + n ≤ 128 → panaByte split (C + p) n + 2 ≤ src.length)
    (h : PanaInv g src split C i s) {sh : Nat} {p : PPump} (hsh : 2 ≤ i → sh = g.shift i) (hp : PanaAt src split (C + q) p)
    (hq : q + 8 + 4 * (g.opens i).toNat = fieldsWidth (g.before (i + 1))) (hq8 : q + 8 ≤ 128)
    (hcode : panaRaw (bytesOf src) split (C + q) 8 = g.code i)
    (hlow : g.opens i = true → q + 12 ≤ 128 ∧ panaRaw (bytesOf src) split (C + (q + 8)) 4 = g.low (i % 2)) :
    ∃ s', pixelRest b i s sh p = .ok s' ∧ PanaInv g src split C (i + 1) s' := by
  obtain ⟨x, y, hxy, hx, hy⟩ := h.nonz
  have hnzi : ∃ z, idx s.2.nonz (i % 2) = .ok z ∧ (z ≠ 0 ↔ g.started (i % 2) i = true) := by
    rw [hxy]
    have h2 : i % 2 = 0 ∨ i % 2 = 1 := by omega
    rcases h2 with h2 | h2 <;> rw [h2]
    · exact ⟨x, rfl, hx⟩
    · exact ⟨y, rfl, hy⟩
  have hpri : idx s.2.pred (i % 2) = .ok ((g.last (i % 2) i : Nat) : Int) := by
    rw [h.pred]
    have h2 : i % 2 = 0 ∨ i % 2 = 1 := by omega
    rcases h2 with h2 | h2 <;> rw [h2] <;> rfl
  obtain ⟨z, hz, hzs⟩ := hnzi
  obtain ⟨p1, hp1, hat1⟩ := pana_get (b := b) hp (n := 8) (by omega) (by omega) (by omega) (hlen q 8 (by omega) (by omega) hq8)
  rw [hcode] at hp1
  have hse := g.sample_eq i
  unfold pixelRest
  rw [hz, ok_bind, hpri, ok_bind]
  by_cases hs : g.started (i % 2) i = true
  · have ho : g.opens i = false := by unfold PanaGroup.opens; rw [hs]; rfl
    have hi2 : 2 ≤ i := by
      refine Nat.le_of_not_lt fun hlt => ?_
      have : i = 0 ∨ i = 1 := by omega
      rcases this with rfl | rfl <;> simp [PanaGroup.started, List.range_succ] at hs
    rw [if_pos (hzs.mpr hs), hp1, ok_bind]
    refine pixelEnd_ok hf hi h hsh ?_ ?_ ?_
    · rw [hsh hi2, adjust_eq (g.shift_mem i), hse, PanaGroup.sampleAfter, if_pos hs]
    · rw [started_mono hs]; exact ⟨fun _ => rfl, fun _ => hzs.mpr hs⟩
    · rw [← hq, ho]; exact hat1
  · have hz0 : z = 0 := by
      refine Classical.byContradiction fun hne => hs (hzs.mp hne)
    have hs' : g.started (i % 2) i = false := by simpa using hs
    rw [if_neg (by simp [hz0]), hp1, ok_bind]
    dsimp only
    have hst : g.code i ≠ 0 ↔ g.started (i % 2) (i + 1) = true := by
      rw [PanaGroup.started_succ, hs']
      simp
    by_cases ho : g.code i ≠ 0 ∨ i > 11
    · have hop : g.opens i = true := by
        unfold PanaGroup.opens
        rw [hs']
        simp only [Bool.not_false, Bool.true_and, Bool.or_eq_true, decide_eq_true_eq]
        exact ho
      obtain ⟨hq12, hl⟩ := hlow hop
      obtain ⟨p2, hp2, hat2⟩ := pana_get (b := b) (c := C + (q + 8)) (by rw [← Nat.add_assoc]; exact hat1) (n := 4) (by omega) (by omega) (by omega)
        (hlen (q + 8) 4 (by omega) (by omega) hq12)
      rw [if_pos ho, hp2, hl, ok_bind]
      refine pixelEnd_ok hf hi h hsh ?_ hst ?_
      · rw [or_low (hf.low _), hse, PanaGroup.sampleAfter, if_neg hs, if_pos hop]
      · rw [← hq, hop]
        exact hat2
    · have hop : g.opens i = false := by
        unfold PanaGroup.opens
        rw [hs']
        simp only [Bool.not_false, Bool.true_and, Bool.or_eq_false_iff, decide_eq_false_iff_not]
        exact not_or.mp ho
      rw [if_neg ho]
      refine pixelEnd_ok hf hi h hsh ?_ hst ?_
      · rw [hse, PanaGroup.sampleAfter, if_neg hs, hop, PanaGroup.last_zero i (by omega) hs']
        rfl
      · rw [← hq, hop]; exact hat1

private theorem pixel_ok {b : Build} {g : PanaGroup} {src : Bytes} {split : Bool} {C i : Nat} {s : List Nat × State} (hf : g.Fits) (hi : i < 14)
    (hC : C % 128 = 0) (hlen : ∀ p n, 1 ≤ n → n ≤ 8 → p + n ≤ 128 → panaByte split (C + p) n + 2 ≤ src.length)
    (hg : GivesFields (fun p n => panaRaw (bytesOf src) split (C + p) n) 0 (g.before 14))
    (h : PanaInv g src split C i s) : ∃ s', pixel b i s = .ok s' ∧ PanaInv g src split C (i + 1) s' := by
  have hfi : GivesFields (fun p n => panaRaw (bytesOf src) split (C + p) n) (fieldsWidth (g.before i)) (g.fields i) ∧
      fieldsWidth (g.before i) + fieldsWidth (g.fields i) ≤ 128 := by
    obtain ⟨l, hl⟩ := PanaGroup.before_mono g (show i + 1 ≤ 14 by omega)
    have hw := PanaGroup.width_128 g
    rw [hl, PanaGroup.before_succ, givesFields_append, givesFields_append, Nat.zero_add] at hg
    rw [hl, PanaGroup.before_succ, fieldsWidth_append, fieldsWidth_append] at hw
    exact ⟨hg.1.2, by omega⟩
  obtain ⟨hfi, hwi⟩ := hfi
  have hwf := PanaGroup.fields_width g i
  have hwb : fieldsWidth (g.before (i + 1)) = fieldsWidth (g.before i) + fieldsWidth (g.fields i) := by rw [PanaGroup.before_succ, fieldsWidth_append]
  unfold PanaGroup.fields at hfi
  rw [givesFields_append, givesFields_append] at hfi
  obtain ⟨⟨hsel, hcode⟩, hlow⟩ := hfi
  rw [pixel_eq]
  have hlow' : ∀ q, g.opens i = true → fieldsWidth (g.before i) + fieldsWidth ((if i % 3 = 2 then [(2, g.sel (i / 3))] else []) ++ [(8, g.code i)]) = q →
      panaRaw (bytesOf src) split (C + q) 4 = g.low (i % 2) := by
    intro q ho hq
    rw [if_pos ho, hq] at hlow
    exact hlow.1
  by_cases h3 : i % 3 = 2
  · rw [if_pos h3] at hwf
    rw [if_pos h3] at hsel hcode hlow'
    obtain ⟨p1, hp1, hat1⟩ := pana_get (b := b) h.pos (n := 2) (by omega) (by omega) (by omega) (hlen _ 2 (by omega) (by omega) (by omega))
    have hsv := hf.sel (i / 3)
    rw [if_pos h3, hp1, ok_bind]
    dsimp only
    rw [show panaRaw (bytesOf src) split (C + fieldsWidth (g.before i)) 2 = g.sel (i / 3) from hsel.1, subU_ok (by omega), ok_bind]
    refine pixelRest_ok (q := fieldsWidth (g.before i) + 2) hf hi hC hlen h ?_ ?_ ?_ ?_ ?_ ?_
    · intro _
      unfold PanaGroup.shift
      rw [show (i - 2) / 3 = i / 3 by omega]
      have : g.sel (i / 3) = 0 ∨ g.sel (i / 3) = 1 ∨ g.sel (i / 3) = 2 ∨ g.sel (i / 3) = 3 := by omega
      rcases this with h | h | h | h <;> rw [h] <;> rfl
    · exact hat1
    · omega
    · omega
    · exact hcode.1
    · intro ho
      rw [ho] at hwf
      simp only [Bool.toNat_true] at hwf
      exact ⟨by omega, hlow' _ ho rfl⟩
  · rw [if_neg h3] at hwf
    rw [if_neg h3] at hsel hcode hlow'
    rw [if_neg h3]
    refine pixelRest_ok (q := fieldsWidth (g.before i)) hf hi hC hlen h ?_ h.pos ?_ ?_ ?_ ?_
    · intro h2
      rw [h.sh (by omega)]
      unfold PanaGroup.shift
      rw [show (i - 1 - 2) / 3 = (i - 2) / 3 by omega]
    · omega
    · omega
    · exact hcode.1
    · intro ho
      rw [ho] at hwf
      simp only [Bool.toNat_true] at hwf
      exact ⟨by omega, hlow' _ ho rfl⟩

private theorem group_ok {b : Build} {g : PanaGroup} {src : Bytes} {split : Bool} {C sh : Nat} {p : PPump} (hf : g.Fits)
    (hC : C % 128 = 0) (hlen : ∀ p n, 1 ≤ n → n ≤ 8 → p + n ≤ 128 → panaByte split (C + p) n + 2 ≤ src.length)
    (hg : GivesFields (fun p n => panaRaw (bytesOf src) split (C + p) n) 0 (g.before 14)) (hp : PanaAt src split C p) :
    ∃ s', group b (List.replicate 14 0) (sh, p) = .ok ((List.range 14).map g.sample, s') ∧ PanaAt src split (C + 128) s'.2 := by
  obtain ⟨r, hr, hI⟩ := forRange_inv (f := pixel b) (s := (List.replicate 14 0, ⟨[0, 0], [0, 0], sh, p⟩)) (PanaInv g src split C) (Nat.zero_le 14)
    ⟨rfl, rfl, ⟨0, 0, rfl, by simp [PanaGroup.started], by simp [PanaGroup.started]⟩, fun h => absurd h (by omega), hp⟩
    (fun j s _ hj hI => pixel_ok hf hj hC hlen hg hI)
  refine ⟨(r.2.sh, r.2.pump), ?_, ?_⟩
  · unfold group
    rw [hr, ok_bind, hI.out]
    simp
  · have := hI.pos
    rw [PanaGroup.width_128] at this
    exact this

/-! ## The image -/

private theorem panaByte_add (split : Bool) (c n B : Nat) : panaByte split (c + B * 131072) n = panaByte split c n + B * 16384 := by
  unfold panaByte
  rw [show (c + B * 131072) / 131072 = c / 131072 + B by omega, show (c + B * 131072) % 131072 = c % 131072 by omega,
    show (c + B * 131072) % 128 = c % 128 by omega]
  omega

private theorem panaRaw_drop (src : Bytes) (split : Bool) (c n B : Nat) :
    panaRaw (bytesOf (src.drop (B * 16384))) split c n = panaRaw (bytesOf src) split (c + B * 131072) n := by
  unfold panaRaw
  dsimp only
  rw [show (c + B * 131072) / 131072 = c / 131072 + B by omega, show (c + B * 131072) % 131072 = c % 131072 by omega,
    show (c + B * 131072) % 128 = c % 128 by omega, Spec.bytesOf_drop, Spec.bytesOf_drop]
  generalize (if split = true then _ else _ : Nat) = l
  rw [show B * 16384 + (c / 131072 * 16384 + l + 1) = (c / 131072 + B) * 16384 + l + 1 by omega,
    show B * 16384 + (c / 131072 * 16384 + l) = (c / 131072 + B) * 16384 + l by omega]

private theorem panaByte_bound {split : Bool} {G T p n : Nat} (hG : G < T) (hp : p < 128) (hn : 1 ≤ n) :
    panaByte split (128 * G + p) n + 1 ≤ panaBytes split T := by
  unfold panaByte panaBytes
  rw [show (128 * G + p) / 131072 = G / 1024 by omega, show (128 * G + p) % 131072 / 128 = G % 1024 by omega]
  cases split
  · simp only [Bool.false_eq_true, if_false]; omega
  · simp only [if_true]; omega

private theorem strip_raster (q m R : Nat) (gs : Nat → PanaGroup) :
    ((List.range' 0 (q * m)).flatMap fun j => (List.range 14).map (gs (q * R + j)).sample) =
      raster (14 * q) m fun r c => (gs (q * (R + r) + c / 14)).sample (c % 14) := by
  rw [← List.range_eq_range', ← raster_eq_flatMap 14 (q * m) fun j => (gs (q * R + j)).sample]
  unfold raster
  rw [Nat.mul_assoc]
  apply List.map_congr_left
  intro i _
  dsimp only
  rw [Nat.mod_mul_right_mod, Nat.mod_mul_right_div_self, ← Nat.div_div_eq_div_mul, Nat.mul_add, Nat.add_assoc, Nat.div_add_mod]

/-- Any image that is long enough is decoded to the samples of the groups that are read. -/
private theorem pana_run {b : Build} {src : Bytes} {split : Bool} {q h : Nat} (gs : Nat → PanaGroup) (hq : 0 < q) (hlen : panaBytes split (q * h) < src.length)
    (hf : ∀ k, (gs k).Fits)
    (hg : ∀ k, k < q * h → GivesFields (fun p n => panaRaw (bytesOf src) split (128 * k + p) n) 0 ((gs k).before 14)) :
    decodePanasonic b src (14 * q) h split = .ok (raster (14 * q) h fun r c => (gs (q * r + c / 14)).sample (c % 14)) := by
  unfold decodePanasonic
  apply decodeThreadedMultiline_eq (by omega) (by decide)
  intro t ht
  generalize hR : t * 5 = R at ht ⊢
  generalize hm : min 5 (h - R) = m
  dsimp only
  have hskip : (14 * q * R * 9 + 14 * q / 14 * 2 * R) / 8 = 16 * (q * R) := by
    rw [Nat.mul_div_cancel_left q (by decide : 0 < 14), Nat.mul_assoc 14 q R, Nat.mul_assoc q 2 R, Nat.mul_left_comm q 2 R]
    omega
  have hqR : q * R + q * m ≤ q * h := by
    rw [← Nat.mul_add]
    exact Nat.mul_le_mul_left q (by omega)
  have hqm : 0 < q * m := Nat.mul_pos hq (by omega)
  rw [hskip]
  generalize hB : q * R / 1024 = B
  have hblk : 16 * (q * R) / 0x4000 = B := by omega
  have hrel : 16 * (q * R) % 0x4000 = 16 * (q * R % 1024) := by omega
  rw [hblk, hrel]
  have hbig : ∀ k p n, 1 ≤ n → k < q * h → p < 128 → panaByte split (128 * k + p) n + 2 ≤ src.length := by
    intro k p n hn hk hp
    have := panaByte_bound (split := split) (n := n) hk hp hn
    omega
  have hBlen : B * 0x4000 ≤ src.length := by
    have h1 := hbig (q * R) 0 1 (Nat.le_refl 1) (by omega) (by decide)
    have h2 : B * 16384 ≤ panaByte split (128 * (q * R) + 0) 1 := by
      unfold panaByte
      rw [show (128 * (q * R) + 0) / 131072 = B by omega]
      exact Nat.le_add_right _ _
    omega
  rw [sliceFrom_le hBlen, ok_bind]
  have habs : ∀ k, k < 1024 → 128 * (q * R % 1024 + k) + B * 131072 = 128 * (q * R + k) := by intro k _; omega
  have hdlen : (src.drop (B * 0x4000)).length = src.length - B * 0x4000 := List.length_drop
  have hrl : ∀ c n, 1 ≤ n → (∃ k p, c + B * 131072 = 128 * k + p ∧ k < q * h ∧ p < 128) → panaByte split c n + 2 ≤ (src.drop (B * 0x4000)).length := by
    intro c n hn ⟨k, p, hc, hk, hp⟩
    have h1 := hbig k p n hn hk hp
    rw [← hc, panaByte_add] at h1
    rw [hdlen]
    omega
  obtain ⟨p0, hp0, hat0⟩ := forRange_inv (f := fun _ p => (do
      let (_, p) ← (pumpPanasonic b).getBits p 8
      (.ok p : M PPump))) (s := PPump.new (src.drop (B * 0x4000)) split) (fun j s => PanaAt (src.drop (B * 0x4000)) split (8 * j) s) (Nat.zero_le (16 * (q * R % 1024)))
    ⟨rfl, rfl, rfl, rfl, Nat.zero_lt_succ _⟩ (by
      intro j s _ hj hI
      obtain ⟨s', h1, h2⟩ := pana_get (b := b) hI (n := 8) (by omega) (by omega) (by omega)
        (hrl _ 8 (by omega) ⟨j / 16 + B * 1024, 8 * (j % 16), by omega, by omega, by omega⟩)
      exact ⟨s', by rw [h1, ok_bind], h2⟩)
  rw [hp0, ok_bind]
  have hcr := Props.chunks_replicate (n := 14) (k := q * m) (by decide)
  obtain ⟨s', h1, _⟩ := foldChunks_ok (f := group b) (fun j s => PanaAt (src.drop (B * 0x4000)) split (128 * (q * R % 1024 + j)) s.2)
    (fun j => (List.range 14).map (gs (q * R + j)).sample) (chunks 14 (List.replicate (14 * (q * m)) 0)) 0 (0, p0)
    (by show PanaAt _ _ _ p0; rw [show 128 * (q * R % 1024 + 0) = 8 * (16 * (q * R % 1024)) by omega]; exact hat0)
    (by
      intro j s hj hI
      rw [hcr.2 j hj]
      rw [hcr.1] at hj
      simp only [Nat.zero_add] at hI ⊢
      have habs : 128 * (q * R % 1024 + j) + B * 131072 = 128 * (q * R + j) := by omega
      obtain ⟨sh, p⟩ := s
      obtain ⟨s', h1, h2⟩ := group_ok (b := b) (g := gs (q * R + j)) (sh := sh) (hf _) (by omega) (fun p n hn hn8 hp =>
        hrl _ n hn ⟨q * R + j, p, by omega, by omega, by omega⟩) (by
          have hgg := hg (q * R + j) (by omega)
          have e : (fun p n => panaRaw (bytesOf (src.drop (B * 0x4000))) split (128 * (q * R % 1024 + j) + p) n) =
              fun p n => panaRaw (bytesOf src) split (128 * (q * R + j) + p) n := by
            funext p n
            rw [panaRaw_drop, ← habs, Nat.add_right_comm]
          rw [e]
          exact hgg) hI
      exact ⟨s', h1, by rw [show 128 * (q * R % 1024 + (j + 1)) = 128 * (q * R % 1024 + j) + 128 by omega]; exact h2⟩)
  rw [Nat.mul_assoc 14 q m, h1, ok_bind, hcr.1, strip_raster]

private theorem number_gives {src : Bytes} {split : Bool} {k : Nat} {g : PanaGroup} (hf : g.Fits) (hw : panaWhole split k)
    (hlen : panaStart split k + 16 ≤ src.length) (hn : numberLE (bytesAt src (panaStart split k) 16) = g.number) :
    GivesFields (fun p n => panaRaw (bytesOf src) split (128 * k + p) n) 0 (g.before 14) := by
  have hfit : ∀ f ∈ g.before 14, f.2 < 2 ^ f.1 := by
    intro f hm
    unfold PanaGroup.before at hm
    obtain ⟨i, _, hi⟩ := List.mem_flatMap.mp hm
    exact PanaGroup.fields_fit hf i f hi
  have hsize : ∀ f ∈ g.before 14, 1 ≤ f.1 ∧ f.1 ≤ 8 := by
    intro f hm
    unfold PanaGroup.before at hm
    obtain ⟨i, _, hi⟩ := List.mem_flatMap.mp hm
    unfold PanaGroup.fields at hi
    simp only [List.mem_append, List.mem_singleton] at hi
    rcases hi with (hi | hi) | hi
    · split at hi
      · rw [List.mem_singleton] at hi; subst hi; exact ⟨by show 1 ≤ 2; decide, by show 2 ≤ 8; decide⟩
      · cases hi
    · subst hi; show 1 ≤ 8 ∧ 8 ≤ 8; decide
    · split at hi
      · rw [List.mem_singleton] at hi; subst hi; exact ⟨by show 1 ≤ 4; decide, by show 4 ≤ 8; decide⟩
      · cases hi
  have key : ∀ (l : List (Nat × Nat)) (p : Nat), (∀ f ∈ l, 1 ≤ f.1 ∧ f.1 ≤ 8) → p + fieldsWidth l ≤ 128 →
      GivesFields (fun p n => packFields (g.before 14) / 2 ^ (128 - p - n) % 2 ^ n) p l →
      GivesFields (fun p n => panaRaw (bytesOf src) split (128 * k + p) n) p l := by
    intro l
    induction l with
    | nil => intros; trivial
    | cons f l ih =>
      intro p h1 h2 h3
      obtain ⟨w, v⟩ := f
      have hw8 := h1 (w, v) List.mem_cons_self
      have hwl : fieldsWidth ((w, v) :: l) = w + fieldsWidth l := by simp [fieldsWidth]
      dsimp only at hw8
      refine ⟨?_, ih (p + w) (fun f hf => h1 f (List.mem_cons_of_mem _ hf)) (by omega) h3.2⟩
      show panaRaw (bytesOf src) split (128 * k + p) w = v
      rw [panaRaw_whole hw hw8.1 (by omega) hw8.2 hlen, hn]
      exact h3.1
  exact key _ 0 hsize (by rw [PanaGroup.width_128]) (gives_packed hfit (PanaGroup.width_128 g))

private theorem panaStart_le {split : Bool} {k T : Nat} (hw : panaWhole split k) (hk : k < T) : panaStart split k + 16 ≤ panaBytes split T := by
  unfold panaStart panaBytes
  cases split
  · simp only [Bool.false_eq_true, if_false]; omega
  · rcases hw with hw | hw
    · cases hw
    · simp only [if_true]; omega

private theorem panaRaw_lt (st : Nat → Nat) (split : Bool) (c n : Nat) : panaRaw st split c n < 2 ^ n := Nat.mod_lt _ (Nat.two_pow_pos n)

/-- **C65** A compressed image with one byte after its groups is decoded, and every sample of a group whose 16 bytes follow each other
is the sample stored in it. Missing: group 512 of every block of a split file, which is misread (`pana_torn_group`). -/
theorem pana_exact_partial (b : Build) (src : Bytes) (split : Bool) (q h : Nat) (gs : Nat → PanaGroup) (hq : 0 < q)
    (hlen : panaBytes split (q * h) < src.length) (hf : ∀ k, k < q * h → panaWhole split k → (gs k).Fits)
    (hn : ∀ k, k < q * h → panaWhole split k → numberLE (bytesAt src (panaStart split k) 16) = (gs k).number) :
    ∃ data, decodePanasonic b src (14 * q) h split = .ok data ∧ data.length = 14 * q * h ∧
      ∀ k i, k < q * h → panaWhole split k → i < 14 → data[14 * k + i]? = some ((gs k).sample i) := by
  have hex : ∀ k, ∃ g : PanaGroup, g.Fits ∧ (k < q * h → GivesFields (fun p n => panaRaw (bytesOf src) split (128 * k + p) n) 0 (g.before 14)) ∧
      (k < q * h → panaWhole split k → g = gs k) := by
    intro k
    by_cases hk : k < q * h ∧ panaWhole split k
    · refine ⟨gs k, hf k hk.1 hk.2, fun _ => ?_, fun _ _ => rfl⟩
      have := panaStart_le hk.2 hk.1
      exact number_gives (hf k hk.1 hk.2) hk.2 (by omega) (hn k hk.1 hk.2)
    · obtain ⟨g, h1, h2⟩ := PanaGroup.exists_group (fun p n => panaRaw (bytesOf src) split (128 * k + p) n) (fun _ _ => panaRaw_lt _ _ _ _)
      exact ⟨g, h1, fun _ => h2, fun h3 h4 => absurd ⟨h3, h4⟩ hk⟩
  let gs' := fun k => (hex k).choose
  have hs := fun k => (hex k).choose_spec
  refine ⟨_, pana_run gs' hq hlen (fun k => (hs k).1) (fun k hk => (hs k).2.1 hk), raster_length _ _ _, ?_⟩
  intro k i hk hw hi
  have hr : k / q < h := Nat.div_lt_of_lt_mul hk
  have hc : k % q * 14 + i < 14 * q := by
    have := Nat.mod_lt k hq
    omega
  have := raster_getElem? (14 * q) h (fun r c => (gs' (q * r + c / 14)).sample (c % 14)) (k / q) (k % q * 14 + i) hr hc
  have e1 : k / q * (14 * q) + (k % q * 14 + i) = 14 * k + i := by
    have h1 := Nat.div_add_mod k q
    rw [Nat.mul_left_comm, Nat.mul_comm (k / q) q]
    omega
  have e2 : q * (k / q) + (k % q * 14 + i) / 14 = k := by
    rw [show (k % q * 14 + i) / 14 = k % q by omega, Nat.div_add_mod]
  rw [e1] at this
  rw [e2, show (k % q * 14 + i) % 14 = i by omega, show gs' k = gs k from (hs k).2.2 hk hw] at this
  exact this

/-- **C65** In a file that is not split this is the whole image. -/
theorem pana_unsplit (b : Build) (src : Bytes) (q h : Nat) (gs : Nat → PanaGroup) (hq : 0 < q) (hlen : 16 * (q * h) < src.length)
    (hf : ∀ k, k < q * h → (gs k).Fits) (hn : ∀ k, k < q * h → numberLE (bytesAt src (16 * k) 16) = (gs k).number) :
    decodePanasonic b src (14 * q) h false = .ok (raster (14 * q) h fun r c => (gs (q * r + c / 14)).sample (c % 14)) := by
  obtain ⟨data, hd, hl, hs⟩ := pana_exact_partial b src false q h gs hq hlen (fun k hk _ => hf k hk)
    (fun k hk _ => by show numberLE (bytesAt src (k * 16) 16) = _; rw [Nat.mul_comm]; exact hn k hk)
  rw [hd]
  congr 1
  apply List.ext_getElem?
  intro j
  by_cases hj : j < 14 * q * h
  · have h1 := hs (j / 14) (j % 14) (Nat.div_lt_of_lt_mul (by rw [← Nat.mul_assoc]; exact hj)) (Or.inl rfl) (Nat.mod_lt _ (by decide))
    rw [Nat.div_add_mod] at h1
    rw [h1]
    unfold raster
    rw [List.getElem?_map, List.getElem?_range hj, Option.map_some]
    dsimp only
    rw [Nat.mod_mul_right_mod, Nat.mod_mul_right_div_self, ← Nat.div_div_eq_div_mul, Nat.div_add_mod]
  · rw [List.getElem?_eq_none (by omega), List.getElem?_eq_none (by rw [raster_length]; omega)]

/-- **C65** Whatever the bytes are, an image with one byte after its groups is decoded. -/
theorem pana_total (b : Build) (src : Bytes) (split : Bool) (q h : Nat) (hq : 0 < q) (hlen : panaBytes split (q * h) < src.length) :
    ∃ data, decodePanasonic b src (14 * q) h split = .ok data ∧ data.length = 14 * q * h := by
  have hex : ∀ k, ∃ g : PanaGroup, g.Fits ∧ GivesFields (fun p n => panaRaw (bytesOf src) split (128 * k + p) n) 0 (g.before 14) := fun k =>
    PanaGroup.exists_group _ (fun _ _ => panaRaw_lt _ _ _ _)
  exact ⟨_, pana_run (fun k => (hex k).choose) hq hlen (fun k => (hex k).choose_spec.1) (fun k _ => (hex k).choose_spec.2), raster_length _ _ _⟩

/-! ## Samples that are coded -/

private theorem ofSamples_fits {x : Nat → Nat} (h : panaSmooth x) : (PanaGroup.ofSamples x).Fits := by
  refine ⟨?_, ?_, ?_⟩
  · intro i
    show (if i < 2 then x i / 16 else if i < 14 then x i + 128 - x (i - 2) else 0) < 256
    split
    · have := h i (by omega); omega
    · split
      · have := h i (by omega); omega
      · decide
  · intro s; show x s % 16 < 16; omega
  · intro t; show 0 < 4; decide

private theorem ofSamples_sample {x : Nat → Nat} (h : panaSmooth x) : ∀ i, i < 14 → (PanaGroup.ofSamples x).sample i = x i := by
  have hcode : ∀ i, (PanaGroup.ofSamples x).code i = if i < 2 then x i / 16 else if i < 14 then x i + 128 - x (i - 2) else 0 := fun _ => rfl
  have hfirst : ∀ i, i < 2 → (PanaGroup.ofSamples x).sampleAfter i 0 = x i := by
    intro i hi
    have h1 := h i (by omega)
    have hs : (PanaGroup.ofSamples x).started (i % 2) i = false := by
      have : i = 0 ∨ i = 1 := by omega
      rcases this with rfl | rfl <;> simp [PanaGroup.started, List.range_succ]
    have hc : (PanaGroup.ofSamples x).code i = x i / 16 := by rw [hcode, if_pos hi]
    have ho : (PanaGroup.ofSamples x).opens i = true := by
      unfold PanaGroup.opens
      rw [hs, hc]
      have : x i / 16 ≠ 0 := by omega
      simp [this]
    rw [PanaGroup.sampleAfter, hs, ho, hc, if_neg (by decide), if_pos rfl, show i % 2 = i by omega]
    show x i / 16 * 16 + x i % 16 = x i
    omega
  intro i
  induction i using Nat.strongRecOn with
  | _ i ih =>
    intro hi
    match i with
    | 0 => exact hfirst 0 (by omega)
    | 1 => exact hfirst 1 (by omega)
    | i + 2 =>
      show (PanaGroup.ofSamples x).sampleAfter (i + 2) ((PanaGroup.ofSamples x).sample i) = _
      rw [ih i (by omega) (by omega)]
      have h0 := h (i % 2) (by omega)
      have h1 := h i (by omega)
      have h2 := h (i + 2) hi
      rw [show i + 2 - 2 = i by omega] at h2
      have h3 := h2.2.2 (by omega)
      have hs : (PanaGroup.ofSamples x).started ((i + 2) % 2) (i + 2) = true := by
        unfold PanaGroup.started
        rw [List.any_eq_true]
        refine ⟨i % 2, List.mem_range.mpr (by omega), ?_⟩
        have hne : x (i % 2) / 16 ≠ 0 := by omega
        rw [hcode, if_pos (by omega)]
        simp [hne]
      have hsh : (PanaGroup.ofSamples x).shift (i + 2) = 0 := rfl
      rw [PanaGroup.sampleAfter, if_pos hs, hsh, hcode, if_neg (by omega), if_pos hi, show i + 2 - 2 = i by omega]
      unfold PanaGroup.next
      rw [if_neg (by omega), if_neg (by simp; omega)]
      omega

private theorem encodeLE_length : ∀ n v, (encodeLE n v).length = n := by
  intro n
  induction n with
  | zero => intro v; rfl
  | succ n ih => intro v; rw [encodeLE, List.length_cons, ih]

/-- **C65** Smooth images survive coding and decoding. -/
theorem pana_roundtrip (b : Build) (q h : Nat) (img : Nat → Nat → Nat) (hq : 0 < q)
    (hs : ∀ r g, r < h → g < q → panaSmooth fun i => img r (g * 14 + i)) :
    decodePanasonic b (panaFile q h img) (14 * q) h false = .ok (raster (14 * q) h img) := by
  have hsm : ∀ k, k < q * h → panaSmooth fun i => img (k / q) (k % q * 14 + i) := fun k hk =>
    hs _ _ (Nat.div_lt_of_lt_mul hk) (Nat.mod_lt k hq)
  have hl : ((List.range (q * h)).flatMap fun k => encodeLE 16 (PanaGroup.ofSamples fun i => img (k / q) (k % q * 14 + i)).number).length = q * h * 16 := by
    rw [flatMap_const_length _ 16 (fun _ => encodeLE_length _ _), List.length_range]
  rw [pana_unsplit b (panaFile q h img) q h (fun k => PanaGroup.ofSamples fun i => img (k / q) (k % q * 14 + i)) hq]
  · congr 1
    apply raster_congr
    intro r c hr hc
    have hc14 : c / 14 < q := Nat.div_lt_of_lt_mul hc
    have e1 : (q * r + c / 14) / q = r := by rw [Nat.mul_add_div hq, Nat.div_eq_of_lt hc14, Nat.add_zero]
    have e2 : (q * r + c / 14) % q = c / 14 := by rw [Nat.mul_add_mod, Nat.mod_eq_of_lt hc14]
    rw [e1, e2, ofSamples_sample (hs r (c / 14) hr hc14) (c % 14) (Nat.mod_lt _ (by decide)), Nat.mul_comm, Nat.div_add_mod]
  · unfold panaFile
    rw [List.length_append, hl, List.length_singleton]
    omega
  · intro k hk
    exact ofSamples_fits (hsm k hk)
  · intro k hk
    have hfit : ∀ f ∈ (PanaGroup.ofSamples fun i => img (k / q) (k % q * 14 + i)).before 14, f.2 < 2 ^ f.1 := by
      intro f hm
      unfold PanaGroup.before at hm
      obtain ⟨i, _, hi⟩ := List.mem_flatMap.mp hm
      exact PanaGroup.fields_fit (ofSamples_fits (hsm k hk)) i f hi
    have hlt : (PanaGroup.ofSamples fun i => img (k / q) (k % q * 14 + i)).number < 256 ^ 16 := by
      have := packFields_lt hfit
      rw [PanaGroup.width_128] at this
      exact this
    have hb := flatMap_chunk (fun k => encodeLE 16 (PanaGroup.ofSamples fun i => img (k / q) (k % q * 14 + i)).number) 16 (fun _ => encodeLE_length _ _)
      (List.range (q * h)) k (by rw [List.length_range]; exact hk)
    rw [List.getElem_range] at hb
    have he : bytesAt (panaFile q h img) (16 * k) 16 = encodeLE 16 (PanaGroup.ofSamples fun i => img (k / q) (k % q * 14 + i)).number := by
      rw [← hb]
      unfold panaFile bytesAt
      rw [Nat.mul_comm 16 k, List.drop_append, List.take_append_of_le_length]
      rw [List.length_drop, hl]
      omega
    rw [he, numberLE_encodeLE 16 _ hlt]

/-! ## What goes wrong -/

private theorem peek_end (b : Build) {src : Bytes} (hl : src.length = 16) : (pumpPanasonic b).getBits (PPump.new src false) 8 = crash := by
  have hle : LEu16 src 15 = crash := by
    unfold LEu16 slice
    rw [if_neg (by omega)]
    rfl
  have hp : peekPanasonic b (PPump.new src false) 8 = crash := by
    show peekPanasonic b ⟨src, 0, 0, false⟩ 8 = crash
    rw [peek_refill (by decide) (by decide)]
    unfold peekPanasonic
    dsimp only
    rw [if_neg (by decide), ok_bind]
    dsimp only
    rw [subU_ok (by decide), ok_bind, if_neg (by decide), show (0x20000 - 8) >>> 3 ^^^ 0x3ff0 = 15 by decide, subU_ok (by decide), ok_bind,
      show 15 + (0 + 0x4000) - 0x4000 = 15 by decide, hle]
    rfl
  unfold PumpOps.getBits
  rw [if_neg (by decide)]
  show (peekPanasonic b (PPump.new src false) 8 >>= _) = crash
  rw [hp]
  rfl

/-- **C65** Without a byte after the last group the decoder stops. -/
theorem pana_needs_byte (b : Build) (src : Bytes) (hl : src.length = 16) : decodePanasonic b src 14 1 false = crash := by
  have hg : group b (List.replicate 14 0) (0, PPump.new src false) = crash := by
    unfold group
    rw [forRange_cons _ (by decide), pixel_eq, if_neg (by decide)]
    unfold pixelRest
    dsimp only
    rw [show idx [0, 0] (0 % 2) = (.ok 0 : M Nat) from rfl, ok_bind, show idx [0, 0] (0 % 2) = (.ok 0 : M Int) from rfl, ok_bind,
      if_neg (by decide), peek_end b hl]
    rfl
  have hd : src.drop 0 = src := rfl
  unfold decodePanasonic decodeThreadedMultiline parChunksMut
  rw [if_neg (by decide), show chunks (14 * 5) (List.replicate (14 * 1) 0) = [List.replicate 14 0] by decide +kernel]
  show ((do
    let parts ← [(List.replicate 14 0, 0)].mapM fun p => _
    _) : M _) = crash
  rw [List.mapM_cons]
  dsimp only
  rw [show (14 * (0 * 5) * 9 + 14 / 14 * 2 * (0 * 5)) / 8 = 0 by decide, show 0 / 0x4000 * 0x4000 = 0 by decide, sliceFrom_le (Nat.zero_le _), hd, ok_bind,
    show 0 % 0x4000 = 0 by decide, forRange_nil (Nat.le_refl 0), ok_bind, show chunks 14 (List.replicate 14 0) = [List.replicate 14 0] by decide +kernel, Ljpeg.foldChunks, hg]
  rfl

private def zeroGroup : PanaGroup := ⟨fun _ => 0, fun _ => 0, fun _ => 0⟩

private def tornGroup : PanaGroup := ⟨fun i => if i = 7 then 0xf0 else 0, fun _ => 0, fun _ => 0⟩

private instance givesDec (get : Nat → Nat → Nat) : ∀ p l, Decidable (GivesFields get p l)
  | _, [] => isTrue trivial
  | p, (w, v) :: l => by
    have := givesDec get (p + w) l
    unfold GivesFields
    infer_instance

private theorem torn_bytes (N i : Nat) : bytesOf (List.replicate N 0 ++ [0xff]) i = if i = N then 255 else 0 := by
  unfold bytesOf
  by_cases h : i < N
  · rw [List.getElem?_append_left (by simpa using h), List.getElem?_replicate, if_pos h, if_neg (by omega)]
    rfl
  · rw [List.getElem?_append_right (by simpa using h), List.length_replicate]
    by_cases h2 : i = N
    · rw [h2, Nat.sub_self, if_pos rfl]; rfl
    · rw [if_neg h2, List.getElem?_eq_none (by simp; omega)]

private theorem torn_take {N a n : Nat} (h : a + n ≤ N) : bytesAt (List.replicate N 0 ++ [0xff]) a n = List.replicate n 0 := by
  unfold bytesAt
  rw [List.drop_append, List.take_append_of_le_length (by simp; omega), List.drop_replicate, List.take_replicate]
  congr 1
  omega

private theorem torn_length (N : Nat) : (List.replicate N (0 : UInt8) ++ [0xff]).length = N + 1 := by simp

/-- **C65** In split files the group whose bytes are torn apart (the last 8 bytes of its block, then the first 8) is misread: a field
over the seam takes its upper bits from the following block. -/
theorem pana_torn_group (b : Build) : ∃ (src : Bytes) (g : PanaGroup) (data : List Nat), panaBytes true 513 < src.length ∧ g.Fits ∧
    numberLE (bytesAt src 16376 8 ++ bytesAt src 0 8) = g.number ∧
    decodePanasonic b src (14 * 513) 1 true = .ok data ∧ data[14 * 512 + 7]? = some 3840 ∧ g.sample 7 = 0 := by
  have hz : zeroGroup.Fits := ⟨fun _ => by show 0 < 256; decide, fun _ => by show 0 < 16; decide, fun _ => by show 0 < 4; decide⟩
  have ht : tornGroup.Fits := ⟨fun i => by show (if i = 7 then 0xf0 else 0) < 256; split <;> decide, fun _ => by show 0 < 16; decide, fun _ => by show 0 < 4; decide⟩
  have hl : (List.replicate 16384 (0 : UInt8) ++ [0xff]).length = 16385 := torn_length 16384
  have hrun := pana_run (b := b) (src := List.replicate 16384 0 ++ [0xff]) (split := true) (q := 513) (h := 1) (fun k => if k = 512 then tornGroup else zeroGroup)
    (by decide) (by rw [hl]; decide) (fun k => by split; exacts [ht, hz]) (by
      intro k hk
      by_cases h : k = 512
      · rw [if_pos h, h, show bytesOf (List.replicate 16384 0 ++ [0xff]) = fun i => if i = 16384 then 255 else 0 from funext (torn_bytes 16384)]
        decide +kernel
      · rw [if_neg h]
        have hst : panaStart true k + 16 ≤ 16384 := by
          unfold panaStart
          simp only [if_true]
          omega
        refine number_gives hz (Or.inr (by omega)) (by rw [hl]; omega) ?_
        rw [torn_take hst]
        decide +kernel)
  refine ⟨_, zeroGroup, _, by rw [hl]; decide, hz, ?_, hrun, ?_, by decide +kernel⟩
  · rw [torn_take (by decide), torn_take (by decide)]
    decide +kernel
  · have := raster_getElem? (14 * 513) 1 (fun r c => ((fun k => if k = 512 then tornGroup else zeroGroup) (513 * r + c / 14)).sample (c % 14)) 0 (14 * 512 + 7) (by decide) (by decide)
    rw [Nat.zero_mul, Nat.zero_add] at this
    rw [this]
    decide +kernel

/-! ## Concrete cases -/

/-- A group with steps 1, 2, 4 and 16, and its first odd sample missing. -/
private def sampleGroup : PanaGroup :=
  ⟨fun i => [0x20, 0, 130, 0x31, 127, 140, 0x80, 0, 200, 90, 128, 129, 1, 255].getD i 0, fun s => [5, 9].getD s 0, fun t => [0, 1, 2, 3].getD t 0⟩

example : (List.range 14).map sampleGroup.sample = [517, 0, 519, 793, 518, 817, 518, 817, 806, 665, 806, 2073, 22, 4089] := by decide +kernel

example : decodePanasonic .debug (encodeLE 16 sampleGroup.number ++ [0xff]) 14 1 false =
    .ok [517, 0, 519, 793, 518, 817, 518, 817, 806, 665, 806, 2073, 22, 4089] := by decide +kernel

example : panaSmooth (fun i => 200 + 10 * i) := by
  intro i hi
  dsimp only
  omega

example : decodePanasonic .debug (panaFile 1 7 fun r c => 200 + 100 * r + 10 * c) 14 7 false = .ok (raster 14 7 fun r c => 200 + 100 * r + 10 * c) := by
  decide +kernel

end Props

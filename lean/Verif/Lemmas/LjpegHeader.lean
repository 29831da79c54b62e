import Verif.Lemmas.Post
import Verif.Lemmas.Words
import Verif.Model.Ljpeg
/-!
# Parsing lossless JPEG headers ends and checks what it accepts
-/

namespace Model.ByteStream
open Rust Spec

/-- Reading moves forward inside the buffer. -/
def Moved (s s' : ByteStream) (n : Nat) : Prop := s'.buffer = s.buffer ∧ s'.endian = s.endian ∧ s'.pos = s.pos + n ∧ s'.pos ≤ s'.buffer.length

theorem post_getU8 (s : ByteStream) : Post s.getU8 (fun r => Moved s r.2 1 ∧ r.1 = bytesOf s.buffer s.pos ∧ r.1 < 256) := by
  unfold getU8 peekU8
  by_cases h : s.pos < s.buffer.length
  · rw [byteAt_lt h, ok_bind]
    exact post_ok ⟨⟨rfl, rfl, rfl, h⟩, rfl, bytesOf_lt _ _⟩
  · rw [byteAt_ge (by omega)]; exact post_crash

theorem post_getU16 (s : ByteStream) : Post s.getU16 (fun r => Moved s r.2 2 ∧ r.1 < 65536) := by
  have hs : ∀ {a b : Nat}, a < 256 → b < 256 → a * 256 + b < 65536 := by omega
  unfold getU16 peekU16 Endian.ru16
  by_cases h : s.pos + 2 ≤ s.buffer.length
  · split
    · rw [BEu16_eq h, ok_bind]
      exact post_ok ⟨⟨rfl, rfl, rfl, h⟩, hs (bytesOf_lt _ _) (bytesOf_lt _ _)⟩
    · rw [LEu16_eq h, ok_bind]
      exact post_ok ⟨⟨rfl, rfl, rfl, h⟩, hs (bytesOf_lt _ _) (bytesOf_lt _ _)⟩
  · split
    · rw [BEu16_short (by omega)]; exact post_crash
    · rw [LEu16_short (by omega)]; exact post_crash

/-- A marker (not a stuffed or fill byte) starts at byte `i`. -/
def MarkerAt (buf : Bytes) (i : Nat) : Prop := i + 1 < buf.length ∧ bytesOf buf i = 0xff ∧ bytesOf buf (i + 1) ≠ 0 ∧ bytesOf buf (i + 1) ≠ 0xff

theorem post_atMarker (s : ByteStream) : Post s.atMarker (fun r => s.pos < s.buffer.length ∧ (r = true → MarkerAt s.buffer s.pos)) := by
  unfold atMarker
  by_cases h : s.pos < s.buffer.length
  · rw [byteAt_lt h, ok_bind]
    refine post_ite (fun _ => post_ok ⟨h, nofun⟩) fun h0 => ?_
    by_cases h' : s.pos + 1 < s.buffer.length
    · rw [byteAt_lt h', ok_bind]
      refine post_ok ⟨h, fun hm => ?_⟩
      simp only [decide_eq_true_eq] at hm
      exact ⟨h', by simpa using h0, hm⟩
    · rw [byteAt_ge (by omega)]; exact post_crash
  · rw [byteAt_ge (by omega)]; exact post_crash

theorem post_skipLoop : ∀ (fuel : Nat) (s : ByteStream) (n : Nat), 0 < fuel → s.buffer.length < fuel + s.pos →
    Post (skipLoop fuel s n) (fun r => r.1.buffer = s.buffer ∧ r.1.endian = s.endian ∧ s.pos ≤ r.1.pos ∧ MarkerAt s.buffer r.1.pos) := by
  intro fuel
  induction fuel with
  | zero => intro s n h; omega
  | succ fuel ih =>
    intro s n _ h
    rw [skipLoop]
    refine post_bind (post_atMarker s) fun stop hstop => post_ite (fun hs => post_ok ⟨rfl, rfl, Nat.le_refl _, hstop.2 hs⟩) fun _ => ?_
    simp only
    refine post_ite (fun _ => post_fail) fun hp => ?_
    refine post_weaken (ih _ _ (by simp at hp; omega) (by simp; omega)) ?_
    rintro r ⟨h1, h2, h3, h4⟩
    exact ⟨h1, h2, by simp at h3; omega, h4⟩

theorem post_skipToMarker (s : ByteStream) : Post s.skipToMarker (fun r => r.2.buffer = s.buffer ∧ r.2.endian = s.endian ∧ s.pos + 1 ≤ r.2.pos ∧
    MarkerAt s.buffer (r.2.pos - 1)) := by
  unfold skipToMarker
  refine post_bind (post_skipLoop _ s 0 (by omega) (by omega)) fun r hr => post_ok ⟨hr.1, hr.2.1, by simp; omega, by simpa using hr.2.2.2⟩

end Model.ByteStream

namespace Model.Ljpeg
open Rust Spec Model.ByteStream

/-- A stream over `src` at position `p`. -/
def On (src : Bytes) (p : Nat) (s : ByteStream) : Prop := s.buffer = src ∧ s.endian = BIG_ENDIAN ∧ s.pos = p ∧ p ≤ src.length

theorem on_u8 {src : Bytes} {p : Nat} {s : ByteStream} (h : On src p s) : Post s.getU8 (fun r => On src (p + 1) r.2 ∧ r.1 = bytesOf src p ∧ r.1 < 256) := by
  obtain ⟨rfl, h2, rfl, h4⟩ := h
  refine post_weaken (post_getU8 s) ?_
  rintro r ⟨⟨e1, e2, e3, e4⟩, e5, e6⟩
  exact ⟨⟨e1, by rw [e2, h2], e3, by rw [← e3, ← e1]; exact e4⟩, e5, e6⟩

theorem on_u16 {src : Bytes} {p : Nat} {s : ByteStream} (h : On src p s) :
    Post s.getU16 (fun r => On src (p + 2) r.2 ∧ r.1 = bytesOf src p * 256 + bytesOf src (p + 1)) := by
  obtain ⟨rfl, h2, rfl, h4⟩ := h
  unfold getU16 peekU16 Endian.ru16
  rw [h2]
  simp only [BIG_ENDIAN, if_true]
  by_cases h : s.pos + 2 ≤ s.buffer.length
  · rw [BEu16_eq h, ok_bind]
    exact post_ok ⟨⟨rfl, rfl, rfl, h⟩, rfl⟩
  · rw [BEu16_short (by omega)]; exact post_crash

/-- The frame header at byte `j` (a marker FF C3, then the length) says this. -/
structure FrameAt (src : Bytes) (j : Nat) (sof : Sof) : Prop where
  marker : bytesOf src j = 0xff ∧ bytesOf src (j + 1) = 0xc3
  inside : j + 10 + 3 * sof.cps ≤ src.length
  length : bytesOf src (j + 2) * 256 + bytesOf src (j + 3) = 8 + 3 * sof.cps
  precision : sof.precision = bytesOf src (j + 4) ∧ 12 ≤ sof.precision ∧ sof.precision ≤ 16
  height : sof.height = bytesOf src (j + 5) * 256 + bytesOf src (j + 6)
  width : sof.width = bytesOf src (j + 7) * 256 + bytesOf src (j + 8)
  cps : sof.cps = bytesOf src (j + 9) ∧ 1 ≤ sof.cps ∧ sof.cps ≤ 4
  comps : sof.cps ≤ sof.components.length

/-- What holds for the frame information between markers. -/
structure SofInv (src : Bytes) (p : Nat) (sof : Sof) : Prop where
  frame : sof.width ≠ 0 → ∃ j, 2 ≤ j ∧ j + 10 + 3 * sof.cps ≤ p ∧ FrameAt src j sof
  tables : ∀ c ∈ sof.components, c.dcTbl < 4

theorem post_parseSof {src : Bytes} {p p0 : Nat} {s : ByteStream} {sof : Sof} (h : On src p s) (hi : SofInv src p0 sof) (h2 : 4 ≤ p)
    (hm : bytesOf src (p - 2) = 0xff ∧ bytesOf src (p - 1) = 0xc3) :
    Post (parseSof sof s) (fun r => ∃ q, p ≤ q ∧ On src q r.2 ∧ r.1.csfix = sof.csfix ∧
      (12 ≤ r.1.precision → SofInv src q r.1)) := by
  unfold parseSof
  refine post_bind (on_u16 h) fun r1 ⟨o1, e1⟩ => ?_
  refine post_bind (on_u8 o1) fun r2 ⟨o2, e2, _⟩ => ?_
  refine post_bind (on_u16 o2) fun r3 ⟨o3, e3⟩ => ?_
  refine post_bind (on_u16 o3) fun r4 ⟨o4, e4⟩ => ?_
  refine post_bind (on_u8 o4) fun r5 ⟨o5, e5, _⟩ => ?_
  refine post_ite (fun _ => post_fail) fun hp => post_ite (fun _ => post_fail) fun hc => post_ite (fun _ => post_fail) fun hl => ?_
  refine post_bind (post_forRange (fun i (q : List Component × ByteStream) => On src (p + 8 + 3 * i) q.2 ∧ q.1.length = sof.components.length + i ∧
      ∀ c ∈ q.1, c.dcTbl < 4) (Nat.zero_le _) ⟨o5, rfl, hi.tables⟩ ?_) ?_
  · intro j q _ _ ⟨oq, lq, tq⟩
    unfold sofComponent
    refine post_bind (on_u8 oq) fun r6 ⟨o6, _, _⟩ => ?_
    refine post_bind (on_u8 o6) fun r7 ⟨o7, _, _⟩ => ?_
    refine post_bind (on_u8 o7) fun r8 ⟨o8, _, _⟩ => post_ok ⟨o8, by simp; omega, ?_⟩
    intro c hc
    rw [List.mem_append] at hc
    rcases hc with hc | hc
    · exact tq c hc
    · simp at hc; subst hc; simp
  · rintro q ⟨oq, lq, tq⟩
    refine post_ok ⟨_, ?_, oq, rfl, fun h12 => ⟨fun hw => ⟨p - 2, by omega, ?_, ?_⟩, tq⟩⟩
    · omega
    · simp only; omega
    · simp only at h12 hw ⊢
      refine ⟨?_, ?_, ?_, ?_, ?_, ?_, ?_, ?_⟩
      · rw [show p - 2 + 1 = p - 1 by omega]; exact hm
      · have := oq.2.2.2
        simp only; omega
      · rw [show p - 2 + 2 = p by omega, show p - 2 + 3 = p + 1 by omega, ← e1]; simp only; omega
      · rw [show p - 2 + 4 = p + 2 by omega]; exact ⟨e2, h12, by simp only; omega⟩
      · rw [show p - 2 + 5 = p + 2 + 1 by omega, show p - 2 + 6 = p + 2 + 1 + 1 by omega]; exact e3
      · rw [show p - 2 + 7 = p + 2 + 1 + 2 by omega, show p - 2 + 8 = p + 2 + 1 + 2 + 1 by omega]; exact e4
      · rw [show p - 2 + 9 = p + 2 + 1 + 2 + 2 by omega]; exact ⟨e5, by simp only; omega, by simp only; omega⟩
      · simp only; omega

theorem setTable_length (cs td : Nat) : ∀ l : List Component, (setTable cs td l).length = l.length := by
  intro l
  induction l with
  | nil => rfl
  | cons c l ih => unfold setTable; split <;> simp [ih]

theorem setTable_lt {cs td : Nat} (ht : td < 4) : ∀ {l : List Component}, (∀ c ∈ l, c.dcTbl < 4) → ∀ c ∈ setTable cs td l, c.dcTbl < 4 := by
  intro l
  induction l with
  | nil => intro h; exact h
  | cons c l ih =>
    intro h x hx
    unfold setTable at hx
    split at hx
    · rw [List.mem_cons] at hx
      rcases hx with rfl | hx
      · exact ht
      · exact h x (by simp [hx])
    · rw [List.mem_cons] at hx
      rcases hx with rfl | hx
      · exact h _ (by simp)
      · exact ih (fun c hc => h c (by simp [hc])) x hx

/-- The scan header at byte `i` (a marker FF DA) says this, and the data start right after it. -/
structure ScanAt (src : Bytes) (i : Nat) (h : Header) : Prop where
  marker : bytesOf src i = 0xff ∧ bytesOf src (i + 1) = 0xda
  cps : bytesOf src (i + 4) = h.sof.cps
  predictor : h.predictor = bytesOf src (i + 5 + 2 * h.sof.cps)
  transform : h.pointTransform = bytesOf src (i + 7 + 2 * h.sof.cps) % 16
  data : h.pos = i + 8 + 2 * h.sof.cps
  inside : h.pos ≤ src.length

theorem post_parseSos {src : Bytes} {p : Nat} {s : ByteStream} {sof : Sof} {d : Dhts} (h : On src p s) (hi : SofInv src p sof)
    (hm : bytesOf src (p - 2) = 0xff ∧ bytesOf src (p - 1) = 0xda) (h2 : 2 ≤ p) :
    Post (parseSos sof s) (fun r => SofInv src p r.1 ∧ r.1.width ≠ 0 ∧ ScanAt src (p - 2) ⟨r.1, d, r.2.1, r.2.2.1, r.2.2.2.pos⟩) := by
  unfold parseSos
  refine post_ite (fun _ => post_fail) fun hw => ?_
  refine post_bind (on_u16 h) fun r1 ⟨o1, e1⟩ => ?_
  refine post_bind (on_u8 o1) fun r2 ⟨o2, e2, _⟩ => ?_
  refine post_ite (fun _ => post_fail) fun hc => ?_
  refine post_bind (post_forRange (fun i (q : List Component × ByteStream) => On src (p + 3 + 2 * i) q.2 ∧ q.1.length = sof.components.length ∧
      ∀ c ∈ q.1, c.dcTbl < 4) (Nat.zero_le _) ⟨o2, rfl, hi.tables⟩ ?_) ?_
  · intro j q _ _ ⟨oq, lq, tq⟩
    unfold sosComponent
    refine post_bind (on_u8 oq) fun r6 ⟨o6, _, _⟩ => ?_
    simp only
    refine post_ite (fun _ => post_fail) fun _ => ?_
    refine post_bind (on_u8 o6) fun r7 ⟨o7, _, _⟩ => ?_
    refine post_ite (fun _ => post_fail) fun ht => post_ok ⟨o7, ?_, ?_⟩
    · simp only; rw [setTable_length, lq]
    · exact setTable_lt (by omega) tq
  · rintro q ⟨oq, lq, tq⟩
    refine post_bind (on_u8 oq) fun r6 ⟨o6, e6, _⟩ => ?_
    refine post_bind (on_u8 o6) fun r7 ⟨o7, _, _⟩ => ?_
    refine post_bind (on_u8 o7) fun r8 ⟨o8, e8, _⟩ => post_ok ⟨⟨?_, tq⟩, hw, ?_⟩
    · intro hw'
      obtain ⟨j, j1, j2, f⟩ := hi.frame hw
      exact ⟨j, j1, j2, ⟨f.marker, f.inside, f.length, f.precision, f.height, f.width, f.cps, by simp only; rw [lq]; exact f.comps⟩⟩
    · simp only [ne_eq, Decidable.not_not] at hc
      refine ⟨?_, ?_, ?_, ?_, ?_, ?_⟩
      · rw [show p - 2 + 1 = p - 1 by omega]; exact hm
      · rw [show p - 2 + 4 = p + 2 by omega, ← e2]; simp only; exact hc.symm
      · rw [show p - 2 + 5 + 2 * sof.cps = p + 3 + 2 * sof.cps by omega]; exact e6
      · simp only
        rw [show p - 2 + 7 + 2 * sof.cps = p + 3 + 2 * sof.cps + 1 + 1 by omega, ← e8]
        exact Nat.and_two_pow_sub_one_eq_mod _ 4
      · simp only; rw [o8.2.2.1]; omega
      · simp only; rw [o8.2.2.1]; exact o8.2.2.2

/-- The shape of the table arrays. -/
structure DhtInv (d : Dhts) : Prop where
  init : d.init.length = 4
  bits : IsGrid 4 17 d.bits
  vals : IsGrid 4 256 d.huffval
  bytes : ∀ l ∈ d.huffval, ∀ v ∈ l, v < 256

theorem dhtInv_zero : DhtInv Dhts.zero := by
  refine ⟨rfl, isGrid_replicate _ _ _, isGrid_replicate _ _ _, ?_⟩
  intro l hl v hv
  simp only [Dhts.zero, List.mem_replicate] at hl
  rw [hl.2, List.mem_replicate] at hv
  omega

theorem post_setIdx2 {α : Type} {h w : Nat} {m : List (List α)} (hm : IsGrid h w m) {Q : α → Prop} (hq : ∀ l ∈ m, ∀ v ∈ l, Q v) {r c : Nat} {v : α} (hv : Q v) :
    Post (setIdx2 m r c v) (fun m' => IsGrid h w m' ∧ ∀ l ∈ m', ∀ v ∈ l, Q v) := by
  unfold setIdx2
  refine post_bind post_idx_mem fun row hrow => post_bind post_setIdx fun row' ⟨_, e⟩ => post_weaken post_setIdx ?_
  rintro m' ⟨_, rfl⟩
  subst e
  refine ⟨⟨by simp [hm.1], ?_⟩, ?_⟩
  · intro l hl
    rcases List.mem_or_eq_of_mem_set hl with hl | hl
    · exact hm.2 l hl
    · subst hl; simp [hm.2 row hrow]
  · intro l hl u hu
    rcases List.mem_or_eq_of_mem_set hl with hl | hl
    · exact hq l hl u hu
    · subst hl
      rcases List.mem_or_eq_of_mem_set hu with hu | hu
      · exact hq row hrow u hu
      · subst hu; exact hv

theorem post_dhtTable {b : Build} {src : Bytes} {p : Nat} {s : ByteStream} {d : Dhts} {length : Nat} (h : On src p s) (hd : DhtInv d) :
    Post (dhtTable b d s length) (fun r => DhtInv r.1 ∧ ∃ q, p + 17 ≤ q ∧ On src q r.2.1) := by
  unfold dhtTable
  refine post_bind (on_u8 h) fun r1 ⟨o1, e1, _⟩ => ?_
  simp only
  refine post_ite (fun _ => post_fail) fun _ => post_ite (fun _ => post_fail) fun _ => ?_
  refine post_bind (post_forRange (fun i (q : List (List Nat) × Nat × ByteStream) => On src (p + 1 + i) q.2.2 ∧ IsGrid 4 17 q.1) (Nat.zero_le _)
    ⟨o1, hd.bits⟩ ?_) ?_
  · rintro j ⟨m, acc, t⟩ _ _ ⟨g1, g2⟩
    refine post_bind (on_u8 g1) fun r2 ⟨o2, _, _⟩ => ?_
    refine post_bind (post_setIdx2 (Q := fun _ => True) g2 (fun _ _ _ _ => trivial) trivial) fun m' hm' => post_ok ⟨o2, hm'.1⟩
  · rintro ⟨m, acc, t⟩ ⟨g1, g2⟩
    refine post_bind (post_setIdx2 (Q := fun _ => True) g2 (fun _ _ _ _ => trivial) trivial) fun m' hm' => ?_
    simp only
    refine post_ite (fun _ => post_fail) fun _ => post_ite (fun _ => post_fail) fun _ => ?_
    refine post_bind (post_forRange (fun i (q : List (List Nat) × ByteStream) => On src (p + 17 + i) q.2 ∧ IsGrid 4 256 q.1 ∧ ∀ l ∈ q.1, ∀ v ∈ l, v < 256)
      (Nat.zero_le _) ⟨g1, hd.vals, hd.bytes⟩ ?_) ?_
    · rintro j ⟨m, t⟩ _ _ ⟨k1, k2, k3⟩
      refine post_bind (on_u8 k1) fun r2 ⟨o2, _, hv⟩ => ?_
      exact post_bind (post_setIdx2 k2 k3 hv) fun m' hm' => post_ok ⟨o2, hm'⟩
    · rintro ⟨m2, t2⟩ ⟨k1, k2, k3⟩
      refine post_bind post_setIdx fun init ⟨_, e⟩ => post_bind (post_ends (ends_subU _ _ _ _)) fun _ _ => post_ok ⟨⟨?_, hm'.1, k2, k3⟩, _, ?_, k1⟩
      · rw [e]; simp [hd.init]
      · omega

theorem post_dhtLoop {b : Build} {src : Bytes} : ∀ (fuel : Nat) (p : Nat) (s : ByteStream) (d : Dhts) (length : Nat), 0 < fuel → src.length < fuel + p → On src p s → DhtInv d →
    Post (dhtLoop b fuel d s length) (fun r => DhtInv r.1 ∧ ∃ q, p ≤ q ∧ On src q r.2) := by
  intro fuel
  induction fuel with
  | zero => intro p s d length h; omega
  | succ fuel ih =>
    intro p s d length _ hf h hd
    rw [dhtLoop]
    refine post_ite (fun _ => ?_) fun _ => post_ok ⟨hd, p, Nat.le_refl _, h⟩
    refine post_bind (post_dhtTable h hd) ?_
    rintro ⟨d', s', l'⟩ ⟨hd', q, hq, hs'⟩
    have := hs'.2.2.2
    refine post_weaken (ih q s' d' l' (by omega) (by omega) hs' hd') ?_
    rintro r ⟨g1, q', g2, g3⟩
    exact ⟨g1, q', by omega, g3⟩

theorem post_parseDht {b : Build} {src : Bytes} {p : Nat} {s : ByteStream} {d : Dhts} (h : On src p s) (hd : DhtInv d) :
    Post (parseDht b d s) (fun r => DhtInv r.1 ∧ ∃ q, p ≤ q ∧ On src q r.2) := by
  unfold parseDht
  refine post_bind (on_u16 h) fun r1 ⟨o1, _⟩ => post_bind (post_ends (ends_subU _ _ _ _)) fun l _ => ?_
  have hb : r1.2.buffer = src := o1.1
  rw [hb]
  refine post_weaken (post_dhtLoop _ _ _ _ _ (by omega) (by omega) o1 hd) ?_
  rintro r ⟨g1, q, g2, g3⟩
  exact ⟨g1, q, by omega, g3⟩

theorem post_getNextMarker {src : Bytes} {p : Nat} {s : ByteStream} (h : On src p s) :
    Post (getNextMarker s true) (fun r => ∃ q, p + 2 ≤ q ∧ On src q r.2 ∧ bytesOf src (q - 2) = 0xff ∧ r.1 = bytesOf src (q - 1)) := by
  unfold getNextMarker
  rw [if_neg (by simp)]
  refine post_bind (post_skipToMarker s) ?_
  rintro ⟨n, s'⟩ ⟨g1, g2, g3, g4⟩
  simp only at g1 g2 g3 g4 ⊢
  rw [h.1] at g1 g4
  rw [h.2.1] at g2
  rw [h.2.2.1] at g3
  have := g4.1
  have ho : On src s'.pos s' := ⟨g1, g2, rfl, by omega⟩
  refine post_weaken (on_u8 ho) ?_
  rintro r ⟨k1, k2, _⟩
  refine ⟨s'.pos + 1, by omega, k1, ?_, by rw [k2]; rfl⟩
  have := g4.2.1
  rwa [show s'.pos + 1 - 2 = s'.pos - 1 by omega]

theorem post_markerLoop {b : Build} {src : Bytes} : ∀ (fuel : Nat) (p : Nat) (s : ByteStream) (sof : Sof) (d : Dhts), 0 < fuel → src.length < fuel + p → 2 ≤ p →
    On src p s → SofInv src p sof → DhtInv d →
    Post (markerLoop b fuel sof d s) (fun h => DhtInv h.dhts ∧ ∃ i, p ≤ i ∧ SofInv src (i + 2) h.sof ∧ h.sof.width ≠ 0 ∧ ScanAt src i h) := by
  intro fuel
  induction fuel with
  | zero => intro p s sof d h; omega
  | succ fuel ih =>
    intro p s sof d _ hf hp2 h hi hd
    have again : ∀ q s' sof' d', p + 2 ≤ q → On src q s' → SofInv src q sof' → DhtInv d' →
        Post (markerLoop b fuel sof' d' s') (fun h => DhtInv h.dhts ∧ ∃ i, p ≤ i ∧ SofInv src (i + 2) h.sof ∧ h.sof.width ≠ 0 ∧ ScanAt src i h) := by
      intro q s' sof' d' hq ho hi' hd'
      have := ho.2.2.2
      refine post_weaken (ih q s' sof' d' (by omega) (by omega) (by omega) ho hi' hd') ?_
      rintro r ⟨g1, i, g2, g3⟩
      exact ⟨g1, i, by omega, g3⟩
    rw [markerLoop]
    refine post_bind (post_getNextMarker h) ?_
    rintro ⟨marker, s1⟩ ⟨q, hq, ho, hm, hmk⟩
    simp only at ho hmk ⊢
    have hup : SofInv src q sof := ⟨fun hw => by
      obtain ⟨j, j1, j2, f⟩ := hi.frame hw
      exact ⟨j, j1, by omega, f⟩, hi.tables⟩
    refine post_ite (fun e => ?_) fun _ => post_ite (fun _ => ?_) fun _ => post_ite (fun e => ?_) fun _ => post_ite (fun _ => post_fail) fun _ =>
      post_ite (fun _ => post_fail) fun _ => again q s1 sof d hq ho hup hd
    · refine post_bind (post_parseSof ho hup (by omega) ⟨hm, by rw [← hmk]; exact e⟩) ?_
      rintro ⟨sof', s2⟩ ⟨q', hq', ho', _, hi'⟩
      simp only at ho' hi' ⊢
      refine post_ite (fun _ => post_fail) fun hpr => again q' s2 sof' d (by omega) ho' (hi' (by omega)) hd
    · refine post_bind (post_parseDht ho hd) ?_
      rintro ⟨d', s2⟩ ⟨hd', q', hq', ho'⟩
      exact again q' s2 sof d' (by omega) ho' ⟨fun hw => by
        obtain ⟨j, j1, j2, f⟩ := hup.frame hw
        exact ⟨j, j1, by omega, f⟩, hup.tables⟩ hd'
    · refine post_bind (post_parseSos (d := d) ho hup ⟨hm, by rw [← hmk]; exact e⟩ (by omega)) ?_
      rintro ⟨sof', pred, pt, s2⟩ ⟨k1, k2, k3⟩
      exact post_ok ⟨hd, q - 2, by omega, by rw [show q - 2 + 2 = q by omega]; exact k1, k2, k3⟩

theorem post_parseHeader (b : Build) (src : Bytes) (csfix : Bool) :
    Post (parseHeader b src csfix) (fun h => bytesOf src 0 = 0xff ∧ bytesOf src 1 = 0xd8 ∧ DhtInv h.dhts ∧ h.sof.width ≠ 0 ∧
      ∃ i, 2 ≤ i ∧ SofInv src (i + 2) h.sof ∧ ScanAt src i h) := by
  unfold parseHeader
  simp only
  have h0 : On src 0 (ByteStream.new src BIG_ENDIAN) := ⟨rfl, rfl, rfl, Nat.zero_le _⟩
  unfold getNextMarker
  rw [if_pos rfl]
  refine post_bind (Q := fun r => On src 2 r.2 ∧ bytesOf src 0 = 0xff ∧ r.1 = bytesOf src 1) ?_ ?_
  · refine post_bind (on_u8 h0) fun r1 ⟨o1, e1, _⟩ => ?_
    refine post_ite (fun _ => post_fail) fun hff => ?_
    refine post_bind (on_u8 o1) fun r2 ⟨o2, e2, _⟩ => ?_
    refine post_ite (fun _ => post_fail) fun _ => post_ok ⟨o2, ?_, e2⟩
    simp only [ne_eq, Decidable.not_not] at hff
    rw [← e1]; exact hff
  · rintro ⟨marker, s1⟩ ⟨o, e0, e1⟩
    refine post_ite (fun _ => post_fail) fun hd8 => ?_
    simp only [ne_eq, Decidable.not_not] at hd8
    refine post_weaken (post_markerLoop _ 2 s1 _ _ (by omega) (by omega) (by omega) o ⟨fun h => absurd rfl h, nofun⟩ dhtInv_zero) ?_
    rintro r ⟨g1, i, g2, g3, g4, g5⟩
    exact ⟨e0, by rw [← e1]; exact hd8, g1, g4, i, by omega, g3, g5⟩

end Model.Ljpeg

import Verif.Lemmas.JpegPump
/-!
# C16 to C19: the bit readers
-/

namespace Props
open Rust Spec Model

/-! ## C16 and C17: plain readers -/

/-- C16: any client of the MSB-first reader, doing any sequence of looks, reads and skips of up to 32 bits, sees the
consecutive fields of the byte sequence. It panics exactly when an access goes past the last whole 32-bit word. -/
theorem msb_reader (b : Build) (buf : Bytes) (ops : List ReadOp) (hops : ∀ o ∈ ops, o.legal) :
    runOps (pumpMSB b) (Pump.new buf) ops = orCrash (readOps (fieldMSB (bytesOf buf)) (some (32 * (buf.length / 4))) 0 ops) :=
  (readsMSB b buf).ops ops hops _ 0 0 (atMSB_new buf _)

/-- C16 for 32-bit little-endian words. -/
theorem msb32_reader (b : Build) (buf : Bytes) (ops : List ReadOp) (hops : ∀ o ∈ ops, o.legal) :
    runOps (pumpMSB32 b) (Pump.new buf) ops =
      orCrash (readOps (fieldMSB (swap32 (bytesOf buf))) (some (32 * (buf.length / 4))) 0 ops) :=
  (readsMSB32 b buf).ops ops hops _ 0 0 (atMSB_new buf _)

/-- C17: the same for the LSB-first reader. -/
theorem lsb_reader (b : Build) (buf : Bytes) (ops : List ReadOp) (hops : ∀ o ∈ ops, o.legal) :
    runOps (pumpLSB b) (Pump.new buf) ops = orCrash (readOps (fieldLSB (bytesOf buf)) (some (32 * (buf.length / 4))) 0 ops) :=
  (readsLSB b buf).ops ops hops _ 0 0 (atLSB_new buf)

example : runOps (pumpMSB .debug) (Pump.new [0x12, 0x34, 0x56, 0x78, 0x9a, 0xbc, 0xde, 0xf0])
    [.peek 4, .get 12, .get 28, .skip 8 4, .get 20, .get 1] = crash := by decide
example : runOps (pumpMSB .debug) (Pump.new [0x12, 0x34, 0x56, 0x78, 0x9a, 0xbc, 0xde, 0xf0])
    [.peek 4, .get 12, .get 28, .skip 8 4, .get 20] = .ok [1, 0x123, 0x456789a, 0xbc, 0xcdef0] := by decide
example : runOps (pumpMSB32 .debug) (Pump.new [0x12, 0x34, 0x56, 0x78, 0x9a, 0xbc, 0xde, 0xf0])
    [.get 12, .get 28] = .ok [0x785, 0x63412f0] := by decide
example : runOps (pumpLSB .debug) (Pump.new [0x12, 0x34, 0x56, 0x78, 0x9a, 0xbc, 0xde, 0xf0])
    [.get 12, .get 28, .get 8] = .ok [0x412, 0x9a78563, 0xbc] := by decide

/-- Reads of given sizes. -/
def gets (sizes : List Nat) : List ReadOp := sizes.map .get

theorem gets_legal {sizes : List Nat} (h : ∀ n ∈ sizes, n ≤ 32) : ∀ o ∈ gets sizes, o.legal := by
  intro o ho
  simp only [gets, List.mem_map] at ho
  obtain ⟨n, hn, rfl⟩ := ho
  exact h n hn

theorem orCrash_ok {α : Type} {o : Option α} {v : α} (h : orCrash o = .ok v) : o = some v := by
  cases o with
  | none => simp [crash] at h
  | some x => simp at h; rw [h]

theorem readOps_joinMSB (st : Nat → Nat) (limit : Option Nat) : ∀ (sizes : List Nat) (c : Nat) (vs : List Nat),
    readOps (fieldMSB st) limit c (gets sizes) = some vs → joinMSB sizes vs = fieldMSB st c sizes.sum := by
  intro sizes
  induction sizes with
  | nil => intro c vs _; rfl
  | cons n ns ih =>
    intro c vs h
    simp only [gets, List.map_cons, readOps] at h
    by_cases h0 : n = 0
    · rw [if_pos h0] at h
      cases hr : readOps (fieldMSB st) limit c (ns.map .get) with
      | none => rw [hr] at h; simp at h
      | some r =>
        rw [hr] at h; simp at h; subst h; subst h0
        simp only [joinMSB, List.sum_cons, Nat.zero_add, Nat.zero_mul]
        exact ih c r hr
    · rw [if_neg h0] at h
      by_cases hw : within limit (c + n)
      · rw [if_pos hw] at h
        cases hr : readOps (fieldMSB st) limit (c + n) (ns.map .get) with
        | none => rw [hr] at h; simp at h
        | some r =>
          rw [hr] at h; simp at h; subst h
          simp only [joinMSB, List.sum_cons]
          rw [ih (c + n) r hr, fieldMSB_add]
      · rw [if_neg hw] at h; simp at h

theorem readOps_joinLSB (st : Nat → Nat) (limit : Option Nat) : ∀ (sizes : List Nat) (c : Nat) (vs : List Nat),
    readOps (fieldLSB st) limit c (gets sizes) = some vs → joinLSB sizes vs = fieldLSB st c sizes.sum := by
  intro sizes
  induction sizes with
  | nil => intro c vs _; rfl
  | cons n ns ih =>
    intro c vs h
    simp only [gets, List.map_cons, readOps] at h
    by_cases h0 : n = 0
    · rw [if_pos h0] at h
      cases hr : readOps (fieldLSB st) limit c (ns.map .get) with
      | none => rw [hr] at h; simp at h
      | some r =>
        rw [hr] at h; simp at h; subst h; subst h0
        simp only [joinLSB, List.sum_cons, Nat.zero_add, Nat.pow_zero, Nat.one_mul]
        exact ih c r hr
    · rw [if_neg h0] at h
      by_cases hw : within limit (c + n)
      · rw [if_pos hw] at h
        cases hr : readOps (fieldLSB st) limit (c + n) (ns.map .get) with
        | none => rw [hr] at h; simp at h
        | some r =>
          rw [hr] at h; simp at h; subst h
          simp only [joinLSB, List.sum_cons]
          rw [ih (c + n) r hr, fieldLSB_add]
      · rw [if_neg hw] at h; simp at h

/-- C16, independence of the split: whatever the sizes, the values read put together are the leading bits of the data. -/
theorem msb_split (b : Build) (buf : Bytes) (sizes : List Nat) (h : ∀ n ∈ sizes, n ≤ 32) (vs : List Nat)
    (hr : runOps (pumpMSB b) (Pump.new buf) (gets sizes) = .ok vs) :
    joinMSB sizes vs = fieldMSB (bytesOf buf) 0 sizes.sum := by
  rw [msb_reader b buf _ (gets_legal h)] at hr
  exact readOps_joinMSB _ _ sizes 0 vs (orCrash_ok hr)

/-- C16, independence of the split for 32-bit little-endian words. -/
theorem msb32_split (b : Build) (buf : Bytes) (sizes : List Nat) (h : ∀ n ∈ sizes, n ≤ 32) (vs : List Nat)
    (hr : runOps (pumpMSB32 b) (Pump.new buf) (gets sizes) = .ok vs) :
    joinMSB sizes vs = fieldMSB (swap32 (bytesOf buf)) 0 sizes.sum := by
  rw [msb32_reader b buf _ (gets_legal h)] at hr
  exact readOps_joinMSB _ _ sizes 0 vs (orCrash_ok hr)

/-- C17, independence of the split. -/
theorem lsb_split (b : Build) (buf : Bytes) (sizes : List Nat) (h : ∀ n ∈ sizes, n ≤ 32) (vs : List Nat)
    (hr : runOps (pumpLSB b) (Pump.new buf) (gets sizes) = .ok vs) :
    joinLSB sizes vs = fieldLSB (bytesOf buf) 0 sizes.sum := by
  rw [lsb_reader b buf _ (gets_legal h)] at hr
  exact readOps_joinLSB _ _ sizes 0 vs (orCrash_ok hr)

example : runOps (pumpMSB .debug) (Pump.new [0x12, 0x34, 0x56, 0x78]) (gets [3, 0, 13, 16]) = .ok [0, 0, 0x1234, 0x5678] ∧
    joinMSB [3, 0, 13, 16] [0, 0, 0x1234, 0x5678] = 0x12345678 := by decide

theorem readOps_peek (field : Nat → Nat → Nat) (limit : Option Nat) (n : Nat) (post : List ReadOp) :
    ∀ (pre : List ReadOp) (c : Nat) (vs : List Nat), readOps field limit c (pre ++ .peek n :: post) = some vs →
      readOps field limit c (pre ++ post) = some (vs.eraseIdx pre.length) := by
  intro pre
  induction pre with
  | nil =>
    intro c vs h
    simp only [List.nil_append, readOps] at h
    split at h
    · cases hr : readOps field limit c post with
      | none => rw [hr] at h; simp at h
      | some r => rw [hr] at h; simp at h; subst h; simpa using hr
    · simp at h
  | cons op pre ih =>
    intro c vs h
    have key : ∀ c' v, ((v :: ·) <$> readOps field limit c' (pre ++ .peek n :: post)) = some vs →
        ((v :: ·) <$> readOps field limit c' (pre ++ post)) = some (vs.eraseIdx (op :: pre).length) := by
      intro c' v h
      cases hr : readOps field limit c' (pre ++ .peek n :: post) with
      | none => rw [hr] at h; simp at h
      | some r =>
        rw [hr] at h; simp at h; subst h
        rw [ih c' r hr]; simp
    cases op with
    | peek m =>
      simp only [List.cons_append, readOps] at h ⊢
      split at h
      · rename_i hw; rw [if_pos hw]; exact key _ _ h
      · simp at h
    | get m =>
      simp only [List.cons_append, readOps] at h ⊢
      split at h
      · rename_i hw; rw [if_pos hw]; exact key _ _ h
      · rename_i h0
        rw [if_neg h0]
        split at h
        · rename_i hw; rw [if_pos hw]; exact key _ _ h
        · simp at h
    | skip m k =>
      simp only [List.cons_append, readOps] at h ⊢
      split at h
      · rename_i hw; rw [if_pos hw]; exact key _ _ h
      · simp at h

theorem legal_append_peek {pre post : List ReadOp} {n : Nat} (h : ∀ o ∈ pre ++ .peek n :: post, o.legal) :
    ∀ o ∈ pre ++ post, o.legal := by
  intro o ho
  apply h
  simp only [List.mem_append, List.mem_cons] at ho ⊢
  rcases ho with ho | ho
  · exact .inl ho
  · exact .inr (.inr ho)

/-- C16: peeking never changes what is read before or later, on either MSB-first reader. -/
theorem msb_peek_transparent (b : Build) (buf : Bytes) (pre post : List ReadOp) (n : Nat) (vs : List Nat)
    (hops : ∀ o ∈ pre ++ .peek n :: post, o.legal) :
    (runOps (pumpMSB b) (Pump.new buf) (pre ++ .peek n :: post) = .ok vs →
      runOps (pumpMSB b) (Pump.new buf) (pre ++ post) = .ok (vs.eraseIdx pre.length)) ∧
    (runOps (pumpMSB32 b) (Pump.new buf) (pre ++ .peek n :: post) = .ok vs →
      runOps (pumpMSB32 b) (Pump.new buf) (pre ++ post) = .ok (vs.eraseIdx pre.length)) := by
  constructor
  · intro h
    rw [msb_reader b buf _ hops] at h
    rw [msb_reader b buf _ (legal_append_peek hops), readOps_peek _ _ n post pre 0 vs (orCrash_ok h)]; rfl
  · intro h
    rw [msb32_reader b buf _ hops] at h
    rw [msb32_reader b buf _ (legal_append_peek hops), readOps_peek _ _ n post pre 0 vs (orCrash_ok h)]; rfl

/-- C17: peeking never changes what is read on the LSB-first reader. -/
theorem lsb_peek_transparent (b : Build) (buf : Bytes) (pre post : List ReadOp) (n : Nat) (vs : List Nat)
    (hops : ∀ o ∈ pre ++ .peek n :: post, o.legal)
    (h : runOps (pumpLSB b) (Pump.new buf) (pre ++ .peek n :: post) = .ok vs) :
    runOps (pumpLSB b) (Pump.new buf) (pre ++ post) = .ok (vs.eraseIdx pre.length) := by
  rw [lsb_reader b buf _ hops] at h
  rw [lsb_reader b buf _ (legal_append_peek hops), readOps_peek _ _ n post pre 0 vs (orCrash_ok h)]; rfl

example : runOps (pumpLSB .debug) (Pump.new [0x12, 0x34, 0x56, 0x78]) ([.get 3] ++ .peek 20 :: [.get 9]) = .ok [2, 706178, 130] ∧
    runOps (pumpLSB .debug) (Pump.new [0x12, 0x34, 0x56, 0x78]) ([.get 3] ++ [.get 9]) = .ok [2, 130] := by decide

/-! ## C18 -/

/-- C18, for segments of at least four bytes that do not end in the middle of a 0xff pair: any sequence of looks, reads and skips
gives the consecutive fields of the unstuffed data up to the first marker, followed by zeros without end. Missing: shorter
buffers and a trailing lone 0xff, where the claim is false (`jpeg_reader_short`, `jpeg_reader_trailing`). -/
theorem jpeg_reader_partial (b : Build) (buf : Bytes) (h4 : 4 ≤ buf.length) (hw : wellEnded buf = true) (ops : List ReadOp)
    (hops : ∀ o ∈ ops, o.legal) :
    runOps (pumpJPEG b) (JPump.new buf) ops = orCrash (readOps (fieldMSB (bytesOf (unstuff buf))) none 0 ops) :=
  (readsJPEG b buf h4).ops ops hops _ 0 0 (atJ_new buf hw)

theorem readOps_none (field : Nat → Nat → Nat) : ∀ (ops : List ReadOp) (c : Nat), (readOps field none c ops).isSome = true := by
  intro ops
  induction ops with
  | nil => intro c; rfl
  | cons op rest ih =>
    intro c
    cases op with
    | peek n => simp only [readOps, within, if_true]; simpa using ih c
    | get n =>
      simp only [readOps, within, if_true]
      split
      · simpa using ih c
      · simpa using ih (c + n)
    | skip m n => simp only [readOps, within, if_true]; simpa using ih (c + n)

/-- C18: under the same conditions no read ever panics, however far past the end. -/
theorem jpeg_reader_total_partial (b : Build) (buf : Bytes) (h4 : 4 ≤ buf.length) (hw : wellEnded buf = true)
    (ops : List ReadOp) (hops : ∀ o ∈ ops, o.legal) : ∃ vs, runOps (pumpJPEG b) (JPump.new buf) ops = .ok vs := by
  rw [jpeg_reader_partial b buf h4 hw ops hops]
  have := readOps_none (fieldMSB (bytesOf (unstuff buf))) ops 0
  cases h : readOps (fieldMSB (bytesOf (unstuff buf))) none 0 ops with
  | none => rw [h] at this; simp at this
  | some vs => exact ⟨vs, rfl⟩

/-- C18 is false for a buffer shorter than four bytes: reading one byte panics in both builds. -/
theorem jpeg_reader_short : ∀ b, runOps (pumpJPEG b) (JPump.new [0x12, 0x34, 0x56]) [.get 8] = crash := by
  intro b; cases b <;> decide

/-- C18 is false when the data ends with a lone 0xff: reading the bytes before it panics in both builds. -/
theorem jpeg_reader_trailing : ∀ b, runOps (pumpJPEG b) (JPump.new [0x12, 0x34, 0x56, 0xff]) [.get 8] = crash := by
  intro b; cases b <;> decide

example : wellEnded [0x12, 0xff, 0x00, 0x34, 0x56, 0x78, 0xff, 0xd9, 0x77] = true ∧
    unstuff [0x12, 0xff, 0x00, 0x34, 0x56, 0x78, 0xff, 0xd9, 0x77] = [0x12, 0xff, 0x34, 0x56, 0x78] := by decide
example : runOps (pumpJPEG .debug) (JPump.new [0x12, 0xff, 0x00, 0x34, 0x56, 0x78, 0xff, 0xd9, 0x77])
    [.get 12, .get 12, .skip 16 4, .get 12, .get 32, .get 32] = .ok [0x12f, 0xf34, 0x5678, 0x678, 0, 0] := by decide

/-! ## C19 -/

/-- C19: on any reader, whenever reading `n` bits gives the `n`-bit number `v`, the signed read gives the two's-complement
value of `v` and leaves the reader in the same state. -/
theorem sign_extension {σ : Type} (P : PumpOps σ) (b : Build) (s s' : σ) (n v : Nat) (h1 : 1 ≤ n) (h32 : n ≤ 32)
    (hv : v < 2 ^ n) (h : P.getBits s n = .ok (v, s')) : P.getIbitsSextended b s n = .ok (twos n v, s') := by
  unfold PumpOps.getIbitsSextended PumpOps.getIbits
  rw [h]
  simp only [ok_bind]
  rw [subU_ok h32, ok_bind]
  have hk : (32 - n) % 32 = 32 - n := Nat.mod_eq_of_lt (by omega)
  rw [hk]
  have hval : sarI (shlI32 (toI32 v) (32 - n)) (32 - n) = twos n v := by
    have hP : (2 : Int) ^ n * 2 ^ (32 - n) = 4294967296 := by
      rw [← Int.pow_add, show n + (32 - n) = 32 by omega]; rfl
    have hH : (2 : Int) ^ (n - 1) * 2 ^ (32 - n) = 2147483648 := by
      rw [← Int.pow_add, show n - 1 + (32 - n) = 31 by omega]; rfl
    have hq : (0 : Int) < 2 ^ (32 - n) := Int.pow_pos (by omega)
    have hvI : (v : Int) < 2 ^ n := by exact_mod_cast hv
    unfold shlI32 toI32 sarI twos
    rw [Int.bmod_mul_bmod]
    generalize hQ : (2 : Int) ^ (32 - n) = Q at *
    generalize hN : (2 : Int) ^ n = N at *
    generalize hM : (2 : Int) ^ (n - 1) = Hh at *
    have hlt : (v : Int) * Q < 4294967296 := by rw [← hP]; exact Int.mul_lt_mul_of_pos_right hvI hq
    have hge : 0 ≤ (v : Int) * Q := Int.mul_nonneg (by omega) (by omega)
    by_cases hc : v < 2 ^ (n - 1)
    · have hcI : (v : Int) < Hh := by rw [← hM]; exact_mod_cast hc
      have : (v : Int) * Q < 2147483648 := by rw [← hH]; exact Int.mul_lt_mul_of_pos_right hcI hq
      rw [if_pos hc, Int.bmod_def]
      have e : (v : Int) * Q % ((4294967296 : Nat) : Int) = v * Q := Int.emod_eq_of_lt hge (by simpa using hlt)
      rw [e, if_pos (by omega), Int.mul_ediv_cancel _ (by omega)]
    · have hcI : Hh ≤ (v : Int) := by rw [← hM]; exact_mod_cast Nat.le_of_not_lt hc
      have : 2147483648 ≤ (v : Int) * Q := by rw [← hH]; exact Int.mul_le_mul_of_nonneg_right hcI (by omega)
      rw [if_neg hc, Int.bmod_def]
      have e : (v : Int) * Q % ((4294967296 : Nat) : Int) = v * Q := Int.emod_eq_of_lt hge (by simpa using hlt)
      rw [e, if_neg (by omega)]
      have : (v : Int) * Q - ((4294967296 : Nat) : Int) = (v - N) * Q := by
        rw [Int.sub_mul, hP]; rfl
      rw [this, Int.mul_ediv_cancel _ (by omega)]
  rw [hval]

/-- C19 on the MSB-first reader: the signed value of the field at the current position. -/
theorem sign_extension_msb (b : Build) (buf : Bytes) (n : Nat) (h1 : 1 ≤ n) (h32 : n ≤ 32) (hl : 4 ≤ buf.length) :
    ∃ s, (pumpMSB b).getIbitsSextended b (Pump.new buf) n = .ok (twos n (fieldMSB (bytesOf buf) 0 n), s) := by
  obtain ⟨s, a, h, _⟩ := (readsMSB b buf).get (n := n) (atMSB_new buf _) h32 (by omega) (by simp only [within]; omega)
  exact ⟨s, sign_extension _ b _ s n _ h1 h32 (fieldMSB_lt _ _ _) h⟩

example : twos 4 0x7 = 7 ∧ twos 4 0x8 = -8 ∧ twos 4 0xf = -1 := by decide
example : ((pumpMSB .debug).getIbitsSextended .debug (Pump.new [0x92, 0x34, 0x56, 0x78]) 5).map (·.1) = .ok (-14) := by decide

end Props

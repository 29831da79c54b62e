import Verif.Model.Pumps
import Verif.Spec.Stream
import Verif.Lemmas.Words
/-!
# The bit readers refine an abstract bit stream
-/

namespace Model
open Rust Spec

/-- `at_ s c a`: the reader in state `s` stands at bit `c` of the stream and has `a` bits buffered. -/
structure Reads {σ : Type} (P : PumpOps σ) (field : Nat → Nat → Nat) (limit : Option Nat) (at_ : σ → Nat → Nat → Prop) : Prop where
  peek : ∀ s c a n, at_ s c a → n ≤ 32 → within limit (c + n) →
    ∃ s' a', P.peek s n = .ok (field c n, s') ∧ at_ s' c a' ∧ n ≤ a' ∧ a ≤ a'
  stop : ∀ s c a n, at_ s c a → n ≤ 32 → ¬ within limit (c + n) → P.peek s n = crash
  consume : ∀ s c a n, at_ s c a → n ≤ a → ∃ s', P.consume s n = .ok s' ∧ at_ s' (c + n) (a - n)

/-- A client's operations on a reader. -/
def runOps {σ : Type} (P : PumpOps σ) (s : σ) : List ReadOp → M (List Nat)
  | [] => .ok []
  | .peek n :: rest => do
    let (v, s) ← P.peek s n
    let vs ← runOps P s rest
    .ok (v :: vs)
  | .get n :: rest => do
    let (v, s) ← P.getBits s n
    let vs ← runOps P s rest
    .ok (v :: vs)
  | .skip m n :: rest => do
    let (v, s) ← P.peek s m
    let s ← P.consume s n
    let vs ← runOps P s rest
    .ok (v :: vs)

/-- `none` is a panic. -/
def orCrash {α : Type} : Option α → M α
  | some a => .ok a
  | none => crash

@[simp] theorem orCrash_some {α : Type} (a : α) : orCrash (some a) = .ok a := rfl
@[simp] theorem orCrash_none {α : Type} : (orCrash none : M α) = crash := rfl

theorem orCrash_cons {α : Type} (v : α) (o : Option (List α)) :
    orCrash ((v :: ·) <$> o) = (do let vs ← orCrash o; .ok (v :: vs)) := by
  cases o <;> rfl

variable {σ : Type} {P : PumpOps σ} {field : Nat → Nat → Nat} {limit : Option Nat} {at_ : σ → Nat → Nat → Prop}

theorem Reads.get (hR : Reads P field limit at_) {s : σ} {c a n : Nat} (hs : at_ s c a) (hn : n ≤ 32) (h0 : 0 < n)
    (hw : within limit (c + n)) : ∃ s' a', P.getBits s n = .ok (field c n, s') ∧ at_ s' (c + n) a' := by
  obtain ⟨s1, a1, h1, h2, h3, _⟩ := hR.peek s c a n hs hn hw
  obtain ⟨s2, h4, h5⟩ := hR.consume s1 c a1 n h2 h3
  refine ⟨s2, _, ?_, h5⟩
  unfold PumpOps.getBits
  rw [if_neg (by omega), h1]
  simp only [ok_bind]
  rw [h4]; rfl

theorem Reads.get_stop (hR : Reads P field limit at_) {s : σ} {c a n : Nat} (hs : at_ s c a) (hn : n ≤ 32) (h0 : 0 < n)
    (hw : ¬ within limit (c + n)) : P.getBits s n = crash := by
  unfold PumpOps.getBits
  rw [if_neg (by omega), hR.stop s c a n hs hn hw]; rfl

theorem Reads.ops (hR : Reads P field limit at_) (ops : List ReadOp) (hops : ∀ o ∈ ops, o.legal) :
    ∀ s c a, at_ s c a → runOps P s ops = orCrash (readOps field limit c ops) := by
  induction ops with
  | nil => intro s c a _; rfl
  | cons op rest ih =>
    intro s c a hs
    have ih := ih (fun o ho => hops o (by simp [ho]))
    have hl := hops op (by simp)
    cases op with
    | peek n =>
      simp only [ReadOp.legal] at hl
      simp only [runOps, readOps]
      by_cases hw : within limit (c + n)
      · obtain ⟨s', a', h1, h2, _, _⟩ := hR.peek s c a n hs hl hw
        rw [h1, if_pos hw, orCrash_cons]
        simp only [ok_bind]
        rw [ih s' c a' h2]
      · rw [hR.stop s c a n hs hl hw, if_neg hw]; rfl
    | get n =>
      simp only [ReadOp.legal] at hl
      simp only [runOps, readOps]
      by_cases h0 : n = 0
      · subst h0
        rw [PumpOps.getBits, if_pos rfl, if_pos rfl, orCrash_cons]
        simp only [ok_bind]
        rw [ih s c a hs]
      · rw [if_neg h0]
        by_cases hw : within limit (c + n)
        · obtain ⟨s', a', h1, h2⟩ := hR.get hs hl (by omega) hw
          rw [h1, if_pos hw, orCrash_cons]
          simp only [ok_bind]
          rw [ih s' _ a' h2]
        · rw [hR.get_stop hs hl (by omega) hw, if_neg hw]; rfl
    | skip m n =>
      simp only [ReadOp.legal] at hl
      simp only [runOps, readOps]
      by_cases hw : within limit (c + m)
      · obtain ⟨s', a', h1, h2, h3, _⟩ := hR.peek s c a m hs hl.1 hw
        obtain ⟨s2, h4, h5⟩ := hR.consume s' c a' n h2 (by omega)
        rw [h1, if_pos hw, orCrash_cons]
        simp only [ok_bind]
        rw [h4]
        simp only [ok_bind]
        rw [ih s2 _ _ h5]
      · rw [hR.stop s c a m hs hl.1 hw, if_neg hw]; rfl

/-! ### MSB-first -/

theorem shlU64_ok {b : Build} {x k : Nat} (hk : k < 64) (h : x * 2 ^ k < 2 ^ 64) : shlU 64 b x k = .ok (x * 2 ^ k) := by
  unfold shlU; rw [if_pos hk, Nat.shiftLeft_eq, Nat.mod_eq_of_lt h]

theorem shrU64_ok {b : Build} {x k : Nat} (hk : k < 64) : shrU 64 b x k = .ok (x / 2 ^ k) := by
  unfold shrU; rw [if_pos hk, Nat.shiftRight_eq_div_pow]

theorem topBits_eq (b : Build) (st : Nat → Nat) (c nbits num : Nat) (h : num ≤ nbits) (h63 : nbits ≤ 63) (h32 : num ≤ 32) :
    topBits b (fieldMSB st c nbits) nbits num = .ok (fieldMSB st c num) := by
  unfold topBits
  rw [subU_ok h, ok_bind, shrU64_ok (by omega), ok_bind]
  have e : nbits = num + (nbits - num) := by omega
  have : fieldMSB st c nbits / 2 ^ (nbits - num) = fieldMSB st c num := by
    conv => lhs; lhs; rw [e, fieldMSB_add]
    rw [Nat.add_comm, Nat.add_mul_div_right _ _ (Nat.pow_pos (by omega)),
      Nat.div_eq_of_lt (fieldMSB_lt _ _ _), Nat.zero_add]
  rw [this]
  have h1 := fieldMSB_lt st c num
  have h2 : 2 ^ num ≤ 2 ^ 32 := Nat.pow_le_pow_right (by omega) h32
  rw [Nat.mod_eq_of_lt (by omega)]

theorem dropBits_eq (b : Build) (st : Nat → Nat) (c nbits num : Nat) (h : num ≤ nbits) (h63 : nbits ≤ 63) :
    dropBits b (fieldMSB st c nbits) nbits num = .ok (fieldMSB st (c + num) (nbits - num), nbits - num) := by
  unfold dropBits
  have hp : 2 ^ (nbits - num) ≤ 2 ^ 63 := Nat.pow_le_pow_right (by omega) (by omega)
  have hp' : 0 < 2 ^ (nbits - num) := Nat.pow_pos (by omega)
  rw [subU_ok h, ok_bind, shlU64_ok (by omega) (by omega), ok_bind, subU_ok (by omega), ok_bind, Nat.one_mul,
    Nat.and_two_pow_sub_one_eq_mod]
  have e : nbits = num + (nbits - num) := by omega
  have : fieldMSB st c nbits % 2 ^ (nbits - num) = fieldMSB st (c + num) (nbits - num) := by
    conv => lhs; lhs; rw [e, fieldMSB_add]
    rw [Nat.add_comm, Nat.add_mul_mod_self_right, Nat.mod_eq_of_lt (fieldMSB_lt _ _ _)]
  rw [this]

theorem fieldMSB_push (st : Nat → Nat) (c nbits k v : Nat) (hv : v = fieldMSB st (c + nbits) k) :
    fieldMSB st c nbits * 2 ^ k ||| v = fieldMSB st c (nbits + k) := by
  rw [mul_pow_or _ _ _ (by rw [hv]; exact fieldMSB_lt _ _ _), hv, fieldMSB_add]

theorem push_lt (st : Nat → Nat) (c nbits k : Nat) (h : nbits + k ≤ 64) : fieldMSB st c nbits * 2 ^ k < 2 ^ 64 := by
  have h1 := fieldMSB_lt st c nbits
  have h2 : 2 ^ nbits * 2 ^ k ≤ 2 ^ 64 := by rw [← Nat.pow_add]; exact Nat.pow_le_pow_right (by omega) h
  exact Nat.lt_of_lt_of_le (Nat.mul_lt_mul_of_pos_right h1 (Nat.pow_pos (by omega))) h2

theorem fieldMSB_byte (st : Nat → Nat) (hst : ∀ i, st i < 256) (i : Nat) : fieldMSB st (8 * i) 8 = st i := by
  have := fieldMSB_within st i 0 8 (by omega)
  simp only [Nat.add_zero, Nat.sub_zero, Nat.sub_self, Nat.pow_zero, Nat.div_one] at this
  rw [this, Nat.mod_eq_of_lt (hst i)]

theorem fieldMSB_word (st : Nat → Nat) (hst : ∀ i, st i < 256) (i : Nat) :
    fieldMSB st (8 * i) 32 = st i * 16777216 + st (i + 1) * 65536 + st (i + 2) * 256 + st (i + 3) := by
  have e : (32 : Nat) = 8 + (8 + (8 + 8)) := rfl
  rw [e, fieldMSB_add, fieldMSB_add, fieldMSB_add]
  have h1 : 8 * i + 8 = 8 * (i + 1) := by omega
  have h2 : 8 * (i + 1) + 8 = 8 * (i + 2) := by omega
  have h3 : 8 * (i + 2) + 8 = 8 * (i + 3) := by omega
  rw [h1, h2, h3, fieldMSB_byte st hst, fieldMSB_byte st hst, fieldMSB_byte st hst, fieldMSB_byte st hst]
  omega

/-- State of an MSB-first word reader over the byte sequence `st`. -/
def AtMSB (buf : Bytes) (st : Nat → Nat) (s : Pump) (c a : Nat) : Prop :=
  s.buffer = buf ∧ s.nbits = a ∧ a ≤ 63 ∧ s.pos % 4 = 0 ∧ s.pos ≤ buf.length ∧ 8 * s.pos = c + a ∧ s.bits = fieldMSB st c a

theorem reads_word (b : Build) (buf : Bytes) (st : Nat → Nat) (hst : ∀ i, st i < 256) (word : Bytes → Nat → M Nat)
    (hw : ∀ pos, pos % 4 = 0 → pos + 4 ≤ buf.length → word buf pos = .ok (fieldMSB st (8 * pos) 32))
    (hs : ∀ pos, buf.length < pos + 4 → word buf pos = crash)
    (peek : Pump → Nat → M (Nat × Pump))
    (hpeek : ∀ s n, peek s n = (do
      let s ← if n > s.nbits then do
          let inbits ← word s.buffer s.pos
          refillMSB b s inbits
        else .ok s
      let v ← topBits b s.bits s.nbits n
      .ok (v, s))) :
    Reads ⟨peek, consumeMSB b⟩ (fieldMSB st) (some (32 * (buf.length / 4))) (AtMSB buf st) where
  peek := by
    intro s c a n ⟨h1, h2, h3, h4, h5, h6, h7⟩ hn hlim
    simp only [within] at hlim
    simp only [hpeek]
    by_cases hgt : n > s.nbits
    · rw [if_pos hgt, h1, hw s.pos h4 (by omega)]
      simp only [ok_bind]
      unfold refillMSB
      rw [h7, shlU64_ok (by omega) (push_lt _ _ _ _ (by omega)), ok_bind, addU_ok (by omega), ok_bind]
      simp only [ok_bind]
      rw [fieldMSB_push st c a 32 _ (by rw [h6]), h2, topBits_eq b st c (a + 32) n (by omega) (by omega) hn, ok_bind]
      exact ⟨_, a + 32, rfl, ⟨h1, rfl, by omega, by show (s.pos + 4) % 4 = 0; omega, by show s.pos + 4 ≤ _; omega,
        by show 8 * (s.pos + 4) = _; omega, rfl⟩, by omega, by omega⟩
    · rw [if_neg hgt]
      simp only [ok_bind]
      rw [h7, h2, topBits_eq b st c a n (by omega) h3 hn, ok_bind]
      exact ⟨s, a, rfl, ⟨h1, h2, h3, h4, h5, h6, h7⟩, by omega, by omega⟩
  stop := by
    intro s c a n ⟨h1, h2, h3, h4, h5, h6, h7⟩ hn hlim
    simp only [within] at hlim
    simp only [hpeek]
    have hgt : n > s.nbits := by omega
    rw [if_pos hgt, h1, hs s.pos (by omega)]; rfl
  consume := by
    intro s c a n ⟨h1, h2, h3, h4, h5, h6, h7⟩ hn
    simp only [consumeMSB]
    rw [h7, h2, dropBits_eq b st c a n hn h3]
    exact ⟨_, rfl, h1, rfl, by omega, h4, h5, by show 8 * s.pos = _; omega, rfl⟩

theorem readsMSB (b : Build) (buf : Bytes) :
    Reads (pumpMSB b) (fieldMSB (bytesOf buf)) (some (32 * (buf.length / 4))) (AtMSB buf (bytesOf buf)) :=
  reads_word b buf (bytesOf buf) (bytesOf_lt buf) BEu32
    (fun pos _ h => by rw [BEu32_eq h, fieldMSB_word _ (bytesOf_lt buf)])
    (fun pos h => BEu32_short h) (peekMSB b) (fun _ _ => rfl)

theorem readsMSB32 (b : Build) (buf : Bytes) :
    Reads (pumpMSB32 b) (fieldMSB (swap32 (bytesOf buf))) (some (32 * (buf.length / 4))) (AtMSB buf (swap32 (bytesOf buf))) :=
  reads_word b buf (swap32 (bytesOf buf)) (swap32_lt (bytesOf_lt buf)) LEu32
    (fun pos hm h => by
      rw [LEu32_eq h, fieldMSB_word _ (swap32_lt (bytesOf_lt buf))]
      unfold swap32
      have e0 : pos / 4 * 4 + (3 - pos % 4) = pos + 3 := by omega
      have e1 : (pos + 1) / 4 * 4 + (3 - (pos + 1) % 4) = pos + 2 := by omega
      have e2 : (pos + 2) / 4 * 4 + (3 - (pos + 2) % 4) = pos + 1 := by omega
      have e3 : (pos + 3) / 4 * 4 + (3 - (pos + 3) % 4) = pos := by omega
      rw [e0, e1, e2, e3])
    (fun pos h => LEu32_short h) (peekMSB32 b) (fun _ _ => rfl)

theorem atMSB_new (buf : Bytes) (st : Nat → Nat) : AtMSB buf st (Pump.new buf) 0 0 :=
  ⟨rfl, rfl, by omega, rfl, Nat.zero_le _, rfl, rfl⟩

/-! ### LSB-first -/

theorem fieldLSB_byte (st : Nat → Nat) (hst : ∀ i, st i < 256) (i : Nat) : fieldLSB st (8 * i) 8 = st i := by
  have := fieldLSB_within st i 0 8 (by omega)
  simp only [Nat.add_zero, Nat.pow_zero, Nat.div_one] at this
  rw [this, Nat.mod_eq_of_lt (hst i)]

theorem fieldLSB_word (st : Nat → Nat) (hst : ∀ i, st i < 256) (i : Nat) :
    fieldLSB st (8 * i) 32 = st (i + 3) * 16777216 + st (i + 2) * 65536 + st (i + 1) * 256 + st i := by
  have e : (32 : Nat) = 8 + (8 + (8 + 8)) := rfl
  rw [e, fieldLSB_add, fieldLSB_add, fieldLSB_add]
  have h1 : 8 * i + 8 = 8 * (i + 1) := by omega
  have h2 : 8 * (i + 1) + 8 = 8 * (i + 2) := by omega
  have h3 : 8 * (i + 2) + 8 = 8 * (i + 3) := by omega
  rw [h1, h2, h3, fieldLSB_byte st hst, fieldLSB_byte st hst, fieldLSB_byte st hst, fieldLSB_byte st hst]
  omega

/-- State of the LSB-first reader. -/
def AtLSB (buf : Bytes) (s : Pump) (c a : Nat) : Prop :=
  s.buffer = buf ∧ s.nbits = a ∧ a ≤ 63 ∧ s.pos % 4 = 0 ∧ s.pos ≤ buf.length ∧ 8 * s.pos = c + a ∧
  s.bits = fieldLSB (bytesOf buf) c a

/-- Masking the low `n` bits of a longer field. -/
theorem lowBits_eq (b : Build) (st : Nat → Nat) (c a n : Nat) (hn : n ≤ 32) (ha : n ≤ a) :
    (do
      let k ← subU 32 b 32 n
      let mask ← shrU 64 b 0xffffffff k
      .ok ((fieldLSB st c a &&& mask) % 4294967296) : M Nat) = .ok (fieldLSB st c n) := by
  rw [subU_ok hn, ok_bind, shrU64_ok (by omega), ok_bind]
  have hm : 0xffffffff / 2 ^ (32 - n) = 2 ^ n - 1 := by
    have e : (2 : Nat) ^ 32 = 2 ^ n * 2 ^ (32 - n) := by rw [← Nat.pow_add]; congr 1; omega
    have h1 : (0xffffffff : Nat) = 2 ^ 32 - 1 := rfl
    rw [h1, e]
    have hp : 0 < 2 ^ (32 - n) := Nat.pow_pos (by omega)
    have hpn : 0 < 2 ^ n := Nat.pow_pos (by omega)
    obtain ⟨q, hq⟩ : ∃ q, 2 ^ n = q + 1 := ⟨2 ^ n - 1, by omega⟩
    obtain ⟨r, hr⟩ : ∃ r, 2 ^ (32 - n) = r + 1 := ⟨2 ^ (32 - n) - 1, by omega⟩
    have e2 : 2 ^ n * 2 ^ (32 - n) - 1 = r + 2 ^ (32 - n) * q := by
      rw [hq, hr, Nat.add_mul, Nat.one_mul, Nat.mul_comm q]; omega
    rw [e2, Nat.add_mul_div_left _ _ hp, Nat.div_eq_of_lt (by omega), hq]; omega
  have e : a = n + (a - n) := by omega
  have hf : fieldLSB st c a % 2 ^ n = fieldLSB st c n := by
    conv => lhs; lhs; rw [e, fieldLSB_add]
    rw [Nat.add_mul_mod_self_left, Nat.mod_eq_of_lt (fieldLSB_lt _ _ _)]
  rw [hm, Nat.and_two_pow_sub_one_eq_mod, hf]
  have h1 := fieldLSB_lt st c n
  have h2 : 2 ^ n ≤ 2 ^ 32 := Nat.pow_le_pow_right (by omega) hn
  rw [Nat.mod_eq_of_lt (by omega)]

theorem readsLSB (b : Build) (buf : Bytes) :
    Reads (pumpLSB b) (fieldLSB (bytesOf buf)) (some (32 * (buf.length / 4))) (AtLSB buf) where
  peek := by
    intro s c a n ⟨h1, h2, h3, h4, h5, h6, h7⟩ hn hlim
    simp only [within] at hlim
    simp only [pumpLSB, peekLSB]
    by_cases hgt : n > s.nbits
    · simp only [if_pos hgt]
      rw [h1, LEu32_eq (by omega), ok_bind, ← fieldLSB_word _ (bytesOf_lt buf), h2, subU_ok (by omega), ok_bind, h7]
      have ha : a < 32 := by omega
      have hw := fieldLSB_lt (bytesOf buf) (8 * s.pos) 32
      have hb := fieldLSB_lt (bytesOf buf) c a
      have hlo : fieldLSB (bytesOf buf) c a * 2 ^ (32 - a) < 2 ^ 32 := by
        have e : (2 : Nat) ^ 32 = 2 ^ a * 2 ^ (32 - a) := by rw [← Nat.pow_add]; congr 1; omega
        rw [e]
        exact Nat.mul_lt_mul_of_pos_right hb (Nat.pow_pos (by omega))
      rw [shlU64_ok (by omega) (by omega), ok_bind, shlU64_ok (by omega) (by omega), ok_bind, shrU64_ok (by omega), ok_bind,
        addU_ok (by omega), ok_bind, mul_pow_or _ _ _ hlo]
      have hbits : (fieldLSB (bytesOf buf) (8 * s.pos) 32 * 2 ^ 32 + fieldLSB (bytesOf buf) c a * 2 ^ (32 - a)) / 2 ^ (32 - a) =
          fieldLSB (bytesOf buf) c (a + 32) := by
        have e : (2 : Nat) ^ 32 = 2 ^ a * 2 ^ (32 - a) := by rw [← Nat.pow_add]; congr 1; omega
        rw [e, ← Nat.mul_assoc, ← Nat.add_mul, Nat.mul_div_cancel _ (Nat.pow_pos (by omega)), fieldLSB_add, h6,
          Nat.mul_comm, Nat.add_comm]
      rw [hbits]
      have := lowBits_eq b (bytesOf buf) c (a + 32) n hn (by omega)
      rw [bind_eq_ok] at this
      obtain ⟨k, hk, this⟩ := this
      rw [bind_eq_ok] at this
      obtain ⟨m, hm, this⟩ := this
      simp only [ok_bind, hk, hm]
      simp only [Except.ok.injEq] at this
      rw [this]
      exact ⟨_, a + 32, rfl, ⟨rfl, rfl, by omega, by show (s.pos + 4) % 4 = 0; omega, by show s.pos + 4 ≤ _; omega,
        by show 8 * (s.pos + 4) = _; omega, rfl⟩, by omega, by omega⟩
    · simp only [if_neg hgt, ok_bind]
      rw [h7]
      have := lowBits_eq b (bytesOf buf) c a n hn (by omega)
      rw [bind_eq_ok] at this
      obtain ⟨k, hk, this⟩ := this
      rw [bind_eq_ok] at this
      obtain ⟨m, hm, this⟩ := this
      simp only [ok_bind, hk, hm]
      simp only [Except.ok.injEq] at this
      rw [this]
      exact ⟨s, a, rfl, ⟨h1, h2, h3, h4, h5, h6, h7⟩, by omega, by omega⟩
  stop := by
    intro s c a n ⟨h1, h2, h3, h4, h5, h6, h7⟩ hn hlim
    simp only [within] at hlim
    simp only [pumpLSB, peekLSB]
    have hgt : n > s.nbits := by omega
    simp only [if_pos hgt]
    rw [h1, LEu32_short (by omega)]; rfl
  consume := by
    intro s c a n ⟨h1, h2, h3, h4, h5, h6, h7⟩ hn
    simp only [pumpLSB, consumeLSB]
    rw [h2, subU_ok hn, ok_bind, shrU64_ok (by omega), ok_bind, h7]
    have e : a = n + (a - n) := by omega
    have hf : fieldLSB (bytesOf buf) c a / 2 ^ n = fieldLSB (bytesOf buf) (c + n) (a - n) := by
      conv => lhs; lhs; rw [e, fieldLSB_add]
      rw [Nat.add_mul_div_left _ _ (Nat.pow_pos (by omega)), Nat.div_eq_of_lt (fieldLSB_lt _ _ _), Nat.zero_add]
    rw [hf]
    exact ⟨_, rfl, h1, rfl, by omega, h4, h5, by show 8 * s.pos = _; omega, rfl⟩

theorem atLSB_new (buf : Bytes) : AtLSB buf (Pump.new buf) 0 0 :=
  ⟨rfl, rfl, by omega, rfl, Nat.zero_le _, rfl, rfl⟩

end Model

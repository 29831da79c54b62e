/-!
# Semantics of the Rust subset used by rawloader

A computation is a value of `M α`. A panic, a returned `Err` and an exhausted step budget are
explicit values, so nothing in the model is made total by a default value.
-/

namespace Rust

/-- The ways a Rust computation can stop without producing its value.
`panic` is unwinding (index or slice out of range, checked overflow, `unwrap` on `None`, explicit `panic!`),
`err` is a returned `Err(msg)`, `fuel` says that a loop given an explicit step budget is still running. -/
inductive Stop where
  | panic
  | err (msg : String)
  | fuel
  deriving DecidableEq, Repr

/-- Computations of the model. -/
abbrev M (α : Type) := Except Stop α

/-- Equality of outcomes is decidable when equality of values is (used for concrete cases). -/
instance instDecidableEqM {α : Type} [DecidableEq α] : DecidableEq (M α) := fun x y =>
  match x, y with
  | .ok a, .ok b => if h : a = b then isTrue (by rw [h]) else isFalse (by intro e; cases e; exact h rfl)
  | .error a, .error b => if h : a = b then isTrue (by rw [h]) else isFalse (by intro e; cases e; exact h rfl)
  | .ok _, .error _ => isFalse (by intro e; cases e)
  | .error _, .ok _ => isFalse (by intro e; cases e)

/-- The two cargo profiles of the crate: the dev profile checks integer overflow, the release profile wraps
(`Cargo.toml` sets `opt-level` and `panic` only, so the defaults for overflow checks apply). -/
inductive Build where
  | debug
  | release
  deriving DecidableEq, Repr

/-- A panic. -/
def crash {α : Type} : M α := .error .panic

/-- `return Err(msg)`. -/
def fail {α : Type} (msg : String) : M α := .error (.err msg)

/-- `slice[i]`. -/
def idx {α : Type} (l : List α) (i : Nat) : M α :=
  match l[i]? with
  | some a => .ok a
  | none => crash

/-- `slice[i] = v`. -/
def setIdx {α : Type} (l : List α) (i : Nat) (v : α) : M (List α) :=
  if i < l.length then .ok (l.set i v) else crash

/-- `array[r][c]`. -/
def idx2 {α : Type} (m : List (List α)) (r c : Nat) : M α := do
  let row ← idx m r
  idx row c

/-- `array[r][c] = v`. -/
def setIdx2 {α : Type} (m : List (List α)) (r c : Nat) (v : α) : M (List (List α)) := do
  let row ← idx m r
  let row ← setIdx row c v
  setIdx m r row

/-- `&slice[i..]`. -/
def sliceFrom {α : Type} (l : List α) (i : Nat) : M (List α) :=
  if i ≤ l.length then .ok (l.drop i) else crash

/-- `&slice[a..b]`. -/
def slice {α : Type} (l : List α) (a b : Nat) : M (List α) :=
  if a ≤ b ∧ b ≤ l.length then .ok ((l.take b).drop a) else crash

/-- `slice.chunks(n)`; the caller checks `n ≠ 0`. The first argument bounds the recursion. -/
def chunksFuel {α : Type} (n : Nat) : Nat → List α → List (List α)
  | 0, _ => []
  | fuel + 1, l => if l.isEmpty then [] else l.take n :: chunksFuel n fuel (l.drop n)

/-- `slice.chunks(n)` for `n > 0`: consecutive pieces of `n` elements, the last one possibly shorter. -/
def chunks {α : Type} (n : Nat) (l : List α) : List (List α) := chunksFuel n l.length l

/-- `for (o, i) in out.chunks_mut(ko).zip(inb.chunks(ki)) { f }`, where `f` returns the new contents of `o`.
The first argument bounds the recursion. -/
def zipChunksFuel {α β : Type} (ko ki : Nat) (f : List α → List β → M (List α)) :
    Nat → List α → List β → M (List α)
  | 0, out, _ => .ok out
  | fuel + 1, out, inb =>
    if out.isEmpty || inb.isEmpty then .ok out
    else do
      let o ← f (out.take ko) (inb.take ki)
      let rest ← zipChunksFuel ko ki f fuel (out.drop ko) (inb.drop ki)
      .ok (o ++ rest)

/-- `for (o, i) in out.chunks_mut(ko).zip(inb.chunks(ki)) { f }` for positive `ko`, `ki`. -/
def zipChunks {α β : Type} (ko ki : Nat) (f : List α → List β → M (List α))
    (out : List α) (inb : List β) : M (List α) :=
  zipChunksFuel ko ki f out.length out inb

/-- `for (n, (o, i)) in out.chunks_mut(ko).zip(inb.chunks(ki)).enumerate() { f }`, counting from the second argument. -/
def zipChunksEnumFuel {α β : Type} (ko ki : Nat) (f : Nat → List α → List β → M (List α)) :
    Nat → Nat → List α → List β → M (List α)
  | 0, _, out, _ => .ok out
  | fuel + 1, n, out, inb =>
    if out.isEmpty || inb.isEmpty then .ok out
    else do
      let o ← f n (out.take ko) (inb.take ki)
      let rest ← zipChunksEnumFuel ko ki f fuel (n + 1) (out.drop ko) (inb.drop ki)
      .ok (o ++ rest)

/-- `for (n, (o, i)) in out.chunks_mut(ko).zip(inb.chunks(ki)).enumerate() { f }` for positive `ko`, `ki`. -/
def zipChunksEnum {α β : Type} (ko ki : Nat) (f : Nat → List α → List β → M (List α))
    (out : List α) (inb : List β) : M (List α) :=
  zipChunksEnumFuel ko ki f out.length 0 out inb

/-- `for o in out.chunks_mut(k) { f }`, for positive `k`. -/
def mapChunks {α : Type} (k : Nat) (f : List α → M (List α)) (out : List α) : M (List α) := do
  let parts ← (chunks k out).mapM f
  .ok parts.flatten

/-- `n` iterations `f i`, `f (i+1)`, ... on a loop state. -/
def loopN {σ : Type} (f : Nat → σ → M σ) : Nat → Nat → σ → M σ
  | 0, _, s => .ok s
  | n + 1, i, s => do
    let s' ← f i s
    loopN f n (i + 1) s'

/-- `for i in lo..hi { s = f(i, s) }`. -/
def forRange {σ : Type} (lo hi : Nat) (f : Nat → σ → M σ) (s : σ) : M σ := loopN f (hi - lo) lo s

/-- `for i in (lo..hi).step(k) { s = f(i, s) }` for `k > 0`. -/
def forStep {σ : Type} (lo hi k : Nat) (f : Nat → σ → M σ) (s : σ) : M σ :=
  loopN (fun j => f (lo + j * k)) ((hi - lo + k - 1) / k) 0 s

/-- `out[pos..pos+n].copy_from_slice(vals)` with `n = vals.len()`. -/
def copySlice {α : Type} (out : List α) (pos : Nat) (vals : List α) : M (List α) :=
  if pos + vals.length ≤ out.length then .ok (out.take pos ++ vals ++ out.drop (pos + vals.length)) else crash

/-- `out.par_chunks_mut(n).enumerate().for_each(|(i, chunk)| f(chunk, i))`, run in index order. That every other
schedule gives the same result is proved in `Verif.Props.Schedule`. A zero chunk size panics. -/
def parChunksMut {α : Type} (n : Nat) (out : List α) (f : List α → Nat → M (List α)) : M (List α) :=
  if n = 0 then crash
  else do
    let parts ← (chunks n out).zipIdx.mapM (fun p => f p.1 p.2)
    .ok parts.flatten

/-! ## Integer arithmetic -/

/-- `x + y` at width `w` bits. -/
def addU (w : Nat) (b : Build) (x y : Nat) : M Nat :=
  if x + y < 2 ^ w then .ok (x + y)
  else match b with
    | .debug => crash
    | .release => .ok ((x + y) % 2 ^ w)

/-- `x - y` at width `w` bits, for operands below `2^w`. -/
def subU (w : Nat) (b : Build) (x y : Nat) : M Nat :=
  if y ≤ x then .ok (x - y)
  else match b with
    | .debug => crash
    | .release => .ok (2 ^ w + x - y)

/-- `x * y` at width `w` bits. -/
def mulU (w : Nat) (b : Build) (x y : Nat) : M Nat :=
  if x * y < 2 ^ w then .ok (x * y)
  else match b with
    | .debug => crash
    | .release => .ok ((x * y) % 2 ^ w)

/-- `x << k` at width `w` bits: bits shifted out are dropped, an oversized shift amount panics or is masked. -/
def shlU (w : Nat) (b : Build) (x k : Nat) : M Nat :=
  if k < w then .ok ((x <<< k) % 2 ^ w)
  else match b with
    | .debug => crash
    | .release => .ok ((x <<< (k % w)) % 2 ^ w)

/-- `x >> k` at width `w` bits. -/
def shrU (w : Nat) (b : Build) (x k : Nat) : M Nat :=
  if k < w then .ok (x >>> k)
  else match b with
    | .debug => crash
    | .release => .ok (x >>> (k % w))

/-- `x << k` for a `u16` and a constant `k < 16`. -/
def shl16 (x k : Nat) : Nat := (x <<< k) % 65536

/-- `x as i32` for any integer type. -/
def toI32 (x : Int) : Int := Int.bmod x 4294967296

/-- `x as u16`. -/
def toU16 (x : Int) : Nat := (x % 65536).toNat

/-- `x as u32`. -/
def toU32 (x : Int) : Nat := (x % 4294967296).toNat

/-- An `i32` result: in range, or overflow. -/
def i32Result (b : Build) (x : Int) : M Int :=
  if -2147483648 ≤ x ∧ x < 2147483648 then .ok x
  else match b with
    | .debug => crash
    | .release => .ok (toI32 x)

/-- `a >> k` on signed integers: arithmetic shift, that is floor division. -/
def sarI (a : Int) (k : Nat) : Int := a / 2 ^ k

/-- `a << k` on `i32`, `k < 32`: bits shifted out are dropped. -/
def shlI32 (a : Int) (k : Nat) : Int := toI32 (a * 2 ^ k)

end Rust

import Verif.Model.Camera
/-!
# Reading the files of the camera database

The files in `data/cameras` are joined into `all.toml`, each behind a line `[[cameras]]`, and the `toml` crate reads the result
(`mod.rs:63`, `271-274`). `all.toml` is not in the repository and the crate is not modelled; `readFile` is a reader for the part of
TOML these files use: bare keys, strings without escapes, decimal integers, arrays of values of one kind, comments, and the tables
`[[cameras.modes]]`, which belong to the camera in front of them. It gives up on everything else.
-/

namespace Model
open Rust

/-- `text! "..."` is the number with the bytes of the text as digits, the first one lowest. It keeps texts small for the kernel. -/
syntax "text! " str : term

macro_rules
  | `(text! $s:str) => do
    let n := s.getString.toUTF8.data.toList.foldr (fun b n => n * 256 + b.toNat) 0
    return Lean.Syntax.mkNumLit (toString n)

namespace TomlText

/-- `k n`; the kernel computes `n` first. -/
def force {α : Type} (n : Nat) (k : Nat → α) : α :=
  match n with
  | 0 => k 0
  | m + 1 => k (m + 1)

/-- `k (acc.reverse ++ l)`, likewise. -/
def forceRev {α : Type} : List Nat → List Nat → (List Nat → α) → α
  | [], l, k => k l
  | c :: acc, l, k => forceRev acc (c :: l) k

/-- The bytes of a text written with `text!` in reverse; the first argument bounds their number. -/
def unpack : Nat → Nat → List Nat → Option (List Nat)
  | 0, n, acc => if n = 0 then some acc else none
  | k + 1, n, acc => if n = 0 then some acc else force (n % 256) fun c => force (n / 256) fun n => unpack k n (c :: acc)

inductive Token where
  | left | right | comma | equals | newline
  | text (s : List Nat)
  | word (s : List Nat)

/-- Where the reader is: between tokens, in a comment, in a string or in a word (whose characters are in reverse). -/
inductive Place where
  | between | comment
  | string (s : List Nat)
  | word (s : List Nat)

/-- Letters, digits, `_`, `-` and `.`. -/
def isWord (c : Nat) : Bool :=
  (97 ≤ c && c ≤ 122) || (65 ≤ c && c ≤ 90) || (48 ≤ c && c ≤ 57) || c = 95 || c = 45 || c = 46

/-- A character between tokens: the tokens with the one it is, if any, and what it begins. -/
def between (c : Nat) (acc : List Token) : Option (List Token × Place) :=
  if c = 32 ∨ c = 9 then some (acc, .between)
  else if c = 10 then some (.newline :: acc, .between)
  else if c = 44 then some (.comma :: acc, .between)
  else if c = 34 then some (acc, .string [])
  else if c = 61 then some (.equals :: acc, .between)
  else if c = 91 then some (.left :: acc, .between)
  else if c = 93 then some (.right :: acc, .between)
  else if c = 35 then some (acc, .comment)
  else if isWord c then some (acc, .word [c])
  else none

/-- The tokens of a text, in reverse, behind those already read. -/
def tokens : Place → List Nat → List Token → Option (List Token)
  | .between, [], acc => some acc
  | .comment, [], acc => some acc
  | .string _, [], _ => none
  | .word s, [], acc => forceRev s [] fun s => some (.word s :: acc)
  | .between, c :: rest, acc =>
    match between c acc with
    | some (acc, p) => tokens p rest acc
    | none => none
  | .comment, c :: rest, acc => if c = 10 then tokens .between rest (.newline :: acc) else tokens .comment rest acc
  | .string s, c :: rest, acc =>
    if c = 34 then forceRev s [] fun s => tokens .between rest (.text s :: acc)
    else if c < 32 ∨ c = 92 ∨ 127 ≤ c then none
    else tokens (.string (c :: s)) rest acc
  | .word s, c :: rest, acc =>
    if isWord c then tokens (.word (c :: s)) rest acc
    else forceRev s [] fun s =>
      match between c (.word s :: acc) with
      | some (acc, p) => tokens p rest acc
      | none => none

/-- Decimal digits, without a leading zero. -/
def digits (s : List Nat) : Option Nat :=
  if s ≠ [] ∧ (∀ c ∈ s, 48 ≤ c ∧ c ≤ 57) ∧ (s.head? = some 48 → s = [48]) then some (s.foldl (fun n c => n * 10 + (c - 48)) 0) else none

/-- A decimal integer of 64 bits. -/
def integer (s : List Nat) : Option Int :=
  match s with
  | 45 :: s => match digits s with | some n => if n ≤ 2 ^ 63 then some (-(n : Int)) else none | none => none
  | s => match digits s with | some n => if n < 2 ^ 63 then some (n : Int) else none | none => none

/-- The kind of a value. -/
def kind : Toml → Nat
  | .str _ => 0
  | .int _ => 1
  | .arr _ => 2
  | .table _ => 3
  | .other => 4

def bytes (s : List Nat) : Bytes := s.map UInt8.ofNat

/-- What is expected next: the beginning of a line; `=` behind a key; a value, where the list holds the arrays that are open, each
with its items in reverse and the innermost first; a comma or the end of the innermost array; the end of the line; or the rest of
`[[cameras.modes]]`, of which the given number of tokens is read. -/
inductive Expect where
  | line
  | equals (k : List Nat)
  | value (k : List Nat) (open_ : List (List Toml))
  | more (k : List Nat) (open_ : List (List Toml))
  | newline
  | header (n : Nat)

/-- A table whose keys are in reverse. -/
abbrev Keys := List (List Nat × Toml)

/-- What is read so far: the keys of the camera, the tables of its modes, the last one first, and what is expected. -/
inductive State where
  | mk (base : Keys) (modes : List Keys) (expect : Expect)

/-- A new key with its value. -/
def addKey (t : Keys) (k : List Nat) (v : Toml) : Option Keys := if t.any (fun p => p.1 = k) then none else some ((k, v) :: t)

/-- A value is complete: it belongs to the innermost open array or is the value of the key. -/
def complete (base : Keys) (modes : List Keys) (k : List Nat) (v : Toml) : List (List Toml) → Option State
  | l :: ls => some (.mk base modes (.more k ((v :: l) :: ls)))
  | [] =>
    match modes with
    | [] => match addKey base k v with | some t => some (.mk t [] .newline) | none => none
    | m :: ms => match addKey m k v with | some m => some (.mk base (m :: ms) .newline) | none => none

/-- An array ends. -/
def close (base : Keys) (modes : List Keys) (k : List Nat) : List (List Toml) → Option State
  | l :: ls => if l.all (fun v => kind v = kind (l.headD .other)) then complete base modes k (.arr l.reverse) ls else none
  | [] => none

/-- One token. -/
def step (b : Keys) (m : List Keys) (e : Expect) (t : Token) : Option State :=
  match e with
  | .line =>
    match t with
    | .newline => some (.mk b m .line)
    | .word k => if k.contains 46 then none else some (.mk b m (.equals k))
    | .left => some (.mk b m (.header 1))
    | _ => none
  | .header n =>
    match t with
    | .left => if n = 1 then some (.mk b m (.header 2)) else none
    | .word k => if n = 2 ∧ bytes k = b! "cameras.modes" then some (.mk b m (.header 3)) else none
    | .right => if n = 3 then some (.mk b m (.header 4)) else if n = 4 then some (.mk b ([] :: m) .newline) else none
    | _ => none
  | .equals k =>
    match t with
    | .equals => some (.mk b m (.value k []))
    | _ => none
  | .value k o =>
    match t with
    | .text v => complete b m k (.str (bytes v)) o
    | .word v => match integer v with | some i => complete b m k (.int i) o | none => none
    | .left => some (.mk b m (.value k ([] :: o)))
    | .right => close b m k o
    | .newline => if o.isEmpty then none else some (.mk b m (.value k o))
    | _ => none
  | .more k o =>
    match t with
    | .comma => some (.mk b m (.value k o))
    | .right => close b m k o
    | .newline => some (.mk b m (.more k o))
    | _ => none
  | .newline =>
    match t with
    | .newline => some (.mk b m .line)
    | _ => none

def steps : State → List Token → Option State
  | s, [] => match s with | .mk _ _ .line => some s | .mk _ _ .newline => some s | _ => none
  | .mk b m e, t :: ts => match step b m e t with | some s => steps s ts | none => none

/-- The keys of a table in the order of the file. -/
def table (t : Keys) : List (Bytes × Toml) := t.reverse.map fun p => (bytes p.1, p.2)

/-- The table of a camera. A key `modes` of its own is not accepted. -/
def readFile (text : Nat) : Option (List (Bytes × Toml)) :=
  match unpack 4096 text [] with
  | none => none
  | some cs =>
    forceRev cs [] fun cs =>
    match tokens .between cs [] with
    | none => none
    | some toks =>
      match steps (.mk [] [] .line) toks.reverse with
      | some (.mk base modes _) =>
        if (table base).any (fun p => p.1 = b! "modes") then none
        else if modes.isEmpty then some (table base)
        else some (table base ++ [(b! "modes", .arr (modes.reverse.map fun m => .table (table m)))])
      | none => none

/-- The database made of the files. -/
def database (files : List Nat) : Option Toml := (files.mapM readFile).map fun l => .table [(b! "cameras", .arr (l.map .table))]

end TomlText

end Model

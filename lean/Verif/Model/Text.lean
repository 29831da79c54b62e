import Lean.Elab.Term
import Verif.Model.Basics
/-!
# Strings and hash maps of the standard library

A string is the list of its UTF-8 bytes. A hash map is an association list; `insert` replaces the value of an equal key, and
the order of iteration is never used by the crate.
-/

namespace Model
open Rust

/-- `b! "text"` is the list of the UTF-8 bytes of the literal, written out. -/
syntax "b! " str : term

macro_rules
  | `(b! $s:str) => do
    let bytes := s.getString.toUTF8.data.toList
    let elems ← bytes.mapM fun b => `(($(Lean.quote b.toNat) : UInt8))
    `([$(elems.toArray),*])

/-- `HashMap<K,V>` -/
abbrev Map (κ α : Type) := List (κ × α)

namespace Map

/-- `HashMap::insert` -/
def insert {κ α : Type} [DecidableEq κ] (m : Map κ α) (k : κ) (v : α) : Map κ α := (k, v) :: m.filter (fun p => p.1 ≠ k)

/-- `HashMap::get` -/
def get {κ α : Type} [DecidableEq κ] (m : Map κ α) (k : κ) : Option α :=
  match m with
  | [] => none
  | (k', v) :: rest => if k' = k then some v else get rest k

/-- `HashMap::contains_key` -/
def containsKey {κ α : Type} [DecidableEq κ] (m : Map κ α) (k : κ) : Bool := (get m k).isSome

end Map

/-- Reading UTF-8: how many continuation bytes are due, and the range of the next one (Unicode, table 3-7). -/
structure Utf8State where
  due : Nat
  lo : UInt8
  hi : UInt8

/-- One byte of a UTF-8 sequence, `none` if it cannot stand here. -/
def utf8Step (s : Utf8State) (a : UInt8) : Option Utf8State :=
  if s.due = 0 then
    if a < 0x80 then some ⟨0, 0, 0⟩
    else if 0xC2 ≤ a ∧ a ≤ 0xDF then some ⟨1, 0x80, 0xBF⟩
    else if a = 0xE0 then some ⟨2, 0xA0, 0xBF⟩
    else if a = 0xED then some ⟨2, 0x80, 0x9F⟩
    else if 0xE1 ≤ a ∧ a ≤ 0xEF then some ⟨2, 0x80, 0xBF⟩
    else if a = 0xF0 then some ⟨3, 0x90, 0xBF⟩
    else if 0xF1 ≤ a ∧ a ≤ 0xF3 then some ⟨3, 0x80, 0xBF⟩
    else if a = 0xF4 then some ⟨3, 0x80, 0x8F⟩
    else none
  else if s.lo ≤ a ∧ a ≤ s.hi then some ⟨s.due - 1, 0x80, 0xBF⟩
  else none

/-- Whether `str::from_utf8` accepts the rest of the bytes. -/
def utf8From (s : Utf8State) : Bytes → Bool
  | [] => s.due = 0
  | a :: rest =>
    match utf8Step s a with
    | some s' => utf8From s' rest
    | none => false

/-- Whether `str::from_utf8` accepts the bytes. -/
def utf8Valid (l : Bytes) : Bool := utf8From ⟨0, 0, 0⟩ l

/-- The characters with the Unicode property White_Space, in UTF-8. -/
def whitespace : List Bytes :=
  [[9], [10], [11], [12], [13], [32], [0xC2, 0x85], [0xC2, 0xA0], [0xE1, 0x9A, 0x80]] ++
  (List.range 11).map (fun i => [0xE2, 0x80, UInt8.ofNat (0x80 + i)]) ++
  [[0xE2, 0x80, 0xA8], [0xE2, 0x80, 0xA9], [0xE2, 0x80, 0xAF], [0xE2, 0x81, 0x9F], [0xE3, 0x80, 0x80]]

/-- Removes leading words of `ws` as long as there are any; the first argument bounds the recursion. -/
def trimLeft (ws : List Bytes) : Nat → Bytes → Bytes
  | 0, l => l
  | n + 1, l =>
    match ws.find? (fun w => w.isPrefixOf l) with
    | some w => trimLeft ws n (l.drop w.length)
    | none => l

/-- `str::trim` -/
def trim (l : Bytes) : Bytes :=
  let l := trimLeft whitespace l.length l
  (trimLeft (whitespace.map List.reverse) l.length l.reverse).reverse

/-- `String::from_utf8_lossy`, from a state on: every maximal ill-formed piece becomes U+FFFD. `pending` holds the bytes of the
sequence under construction, last first. -/
def lossyFrom (s : Utf8State) (pending : Bytes) : Bytes → Bytes
  | [] => if s.due = 0 then [] else [0xEF, 0xBF, 0xBD]
  | a :: rest =>
    match utf8Step s a with
    | some s' => if s'.due = 0 then pending.reverse ++ a :: lossyFrom ⟨0, 0, 0⟩ [] rest else lossyFrom s' (a :: pending) rest
    | none =>
      if s.due = 0 then [0xEF, 0xBF, 0xBD] ++ lossyFrom ⟨0, 0, 0⟩ [] rest
      else
        match utf8Step ⟨0, 0, 0⟩ a with
        | some s' =>
          [0xEF, 0xBF, 0xBD] ++ (if s'.due = 0 then a :: lossyFrom ⟨0, 0, 0⟩ [] rest else lossyFrom s' [a] rest)
        | none => [0xEF, 0xBF, 0xBD] ++ ([0xEF, 0xBF, 0xBD] ++ lossyFrom ⟨0, 0, 0⟩ [] rest)

/-- `String::from_utf8_lossy` -/
def fromUtf8Lossy (l : Bytes) : Bytes := lossyFrom ⟨0, 0, 0⟩ [] l

/-- `s.split_terminator("\0").next().unwrap_or("")`: the text up to the first NUL. -/
def firstString (s : Bytes) : Bytes := s.takeWhile (· ≠ 0)

/-- The pieces between separator bytes, the first argument after the separator being the piece under construction. -/
def splitPieces (sep : UInt8) (acc : Bytes) : Bytes → List Bytes
  | [] => [acc.reverse]
  | c :: rest => if c = sep then acc.reverse :: splitPieces sep [] rest else splitPieces sep (c :: acc) rest

/-- `split_terminator(sep)` for a separator of one byte: the pieces between separators, without a final empty one. -/
def splitTerminator (sep : UInt8) (data : Bytes) : List Bytes :=
  let l := splitPieces sep [] data
  if l.getLast? = some [] then l.dropLast else l

/-- `str::find`: the first position of a non-empty text, from `i` on. -/
def findSub (pat : Bytes) : Nat → Bytes → Option Nat
  | _, [] => none
  | i, c :: rest => if pat.isPrefixOf (c :: rest) then some i else findSub pat (i + 1) rest

/-- A number in decimal. -/
def decimal (n : Nat) : Bytes := (Nat.toDigits 10 n).map fun c => UInt8.ofNat c.toNat

end Model

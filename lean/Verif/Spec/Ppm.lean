import Verif.Model.Basics
/-!
# Reading a portable pixmap

The format of `ppm(5)`, for pictures with one byte per value: the magic number `P6`, then width, height and the largest value in
decimal, each after white space, then a single white space and three bytes for every pixel, row by row. Comments, which the format
also has, are not accepted: this reader takes less than it could.
-/

namespace Spec

/-- Blank, TAB, LF, VT, FF, CR. -/
def ppmSpace (c : UInt8) : Bool := c == 32 || (9 ≤ c && c ≤ 13)

def ppmDigit (c : UInt8) : Bool := 48 ≤ c && c ≤ 57

/-- White space and a decimal number, and what follows. -/
def ppmNumber : List UInt8 → Option (Nat × List UInt8)
  | [] => none
  | c :: rest =>
    if ppmSpace c then
      let body := rest.dropWhile ppmSpace
      let digits := body.takeWhile ppmDigit
      if digits.isEmpty then none
      else some (digits.foldl (fun n d => 10 * n + (d.toNat - 48)) 0, body.dropWhile ppmDigit)
    else none

/-- Width, height, largest value and the values of a complete file. -/
def readPpm : List UInt8 → Option (Nat × Nat × Nat × List Nat)
  | 80 :: 54 :: l => do
    let (w, l) ← ppmNumber l
    let (h, l) ← ppmNumber l
    let (m, l) ← ppmNumber l
    match l with
    | c :: values =>
      if ppmSpace c && decide (0 < m ∧ m < 256) && values.length == 3 * w * h && values.all (fun v => v.toNat ≤ m) then
        some (w, h, m, values.map (·.toNat))
      else none
    | [] => none
  | _ => none

/-- A file with one red and one blue pixel. -/
example : readPpm [80, 54, 10, 50, 32, 49, 10, 50, 53, 53, 10, 255, 0, 0, 0, 0, 255] = some (2, 1, 255, [255, 0, 0, 0, 0, 255]) := by decide

/-- A byte is missing. -/
example : readPpm [80, 54, 10, 50, 32, 49, 10, 50, 53, 53, 10, 255, 0, 0, 0, 0] = none := by decide

end Spec

import Verif.Arith
/-!
# Model of the matrix code: `inverse` (`colorspaces.rs`), `pseudoinverse` and `xyz_matrix_and_neutralwb` (`image.rs`)

Arrays of fixed size are functions from indices here: the code indexes them with constants and with loop variables below
the array sizes only, so no access can fail. Assignments to an element are updates of the function.
-/

namespace Model
open Rust

variable {α : Type} (A : Arith α)

/-- A matrix; the sizes are stated where it is used. -/
abbrev Mat (α : Type) := Nat → Nat → α

/-- `m[i][j] = v` -/
def Mat.set {α : Type} (m : Mat α) (i j : Nat) (v : α) : Mat α := fun r c => if r = i ∧ c = j then v else m r c

/-- `for i in 0..n` over a pure loop state. -/
def pureLoop {σ : Type} (f : Nat → σ → σ) : Nat → σ → σ
  | 0, s => s
  | n + 1, s => f n (pureLoop f n s)

/-- `inverse` (`colorspaces.rs:49-68`) -/
def inverse (inm : Mat α) : Mat α :=
  let mul := A.mul
  let sub := A.sub
  let invdet := A.div A.one (A.add (sub
    (mul (inm 0 0) (sub (mul (inm 1 1) (inm 2 2)) (mul (inm 2 1) (inm 1 2))))
    (mul (inm 0 1) (sub (mul (inm 1 0) (inm 2 2)) (mul (inm 1 2) (inm 2 0)))))
    (mul (inm 0 2) (sub (mul (inm 1 0) (inm 2 1)) (mul (inm 1 1) (inm 2 0)))))
  fun r c => match r, c with
    | 0, 0 => mul (sub (mul (inm 1 1) (inm 2 2)) (mul (inm 2 1) (inm 1 2))) invdet
    | 0, 1 => mul (A.neg (sub (mul (inm 0 1) (inm 2 2)) (mul (inm 0 2) (inm 2 1)))) invdet
    | 0, 2 => mul (sub (mul (inm 0 1) (inm 1 2)) (mul (inm 0 2) (inm 1 1))) invdet
    | 1, 0 => mul (A.neg (sub (mul (inm 1 0) (inm 2 2)) (mul (inm 1 2) (inm 2 0)))) invdet
    | 1, 1 => mul (sub (mul (inm 0 0) (inm 2 2)) (mul (inm 0 2) (inm 2 0))) invdet
    | 1, 2 => mul (A.neg (sub (mul (inm 0 0) (inm 1 2)) (mul (inm 1 0) (inm 0 2)))) invdet
    | 2, 0 => mul (sub (mul (inm 1 0) (inm 2 1)) (mul (inm 2 0) (inm 1 1))) invdet
    | 2, 1 => mul (A.neg (sub (mul (inm 0 0) (inm 2 1)) (mul (inm 2 0) (inm 0 1)))) invdet
    | 2, 2 => mul (sub (mul (inm 0 0) (inm 1 1)) (mul (inm 1 0) (inm 0 1))) invdet
    | _, _ => A.zero

/-- First loop of `pseudoinverse` (`image.rs:182-191`): the normal matrix with the identity beside it. -/
def pinvSetup (inm : Mat α) : Mat α :=
  pureLoop (fun i temp =>
    let temp := pureLoop (fun j temp => temp.set i j (if j = i + 3 then A.one else A.zero)) 6 temp
    pureLoop (fun j temp => pureLoop (fun k temp => temp.set i j (A.add (temp i j) (A.mul (inm k i) (inm k j)))) 4 temp) 3 temp)
    3 (fun _ _ => A.zero)

/-- One elimination step (`image.rs:193-205`) with pivot row `i`. -/
def pinvStep (i : Nat) (temp : Mat α) : Mat α :=
  let num := temp i i
  let temp := pureLoop (fun j temp => temp.set i j (A.div (temp i j) num)) 6 temp
  pureLoop (fun k temp =>
    if k = i then temp
    else
      let num := temp k i
      pureLoop (fun j temp => temp.set k j (A.sub (temp k j) (A.mul (temp i j) num))) 6 temp) 3 temp

/-- `pseudoinverse` (`image.rs:179-219`) -/
def pseudoinverse (inm : Mat α) : Mat α :=
  let temp := pureLoop (pinvStep A) 3 (pinvSetup A inm)
  pureLoop (fun i out => pureLoop (fun j out =>
    let out := out.set j i A.zero
    pureLoop (fun k out => out.set j i (A.add (out j i) (A.mul (temp j (k + 3)) (inm i k)))) 3 out) 3 out) 4 (fun _ _ => A.zero)

/-- `rgb_to_cam` before normalisation (`image.rs:136-145`). -/
def rgbToCam (xyzToCam rgbToXyz : Mat α) : Mat α :=
  pureLoop (fun i m => pureLoop (fun j m =>
    let m := m.set i j A.zero
    pureLoop (fun k m => m.set i j (A.add (m i j) (A.mul (xyzToCam i k) (rgbToXyz k j)))) 3 m) 3 m) 4 (fun _ _ => A.zero)

/-- Row sum (`image.rs:150-153`). -/
def rowSum (m : Mat α) (i : Nat) : α := pureLoop (fun j num => A.add num (m i j)) 3 A.zero

/-- The normalisation loop (`image.rs:147-162`): the matrix and `neutralwb`. -/
def normaliseCam (m : Mat α) : Mat α × (Nat → α) :=
  pureLoop (fun i (s : Mat α × (Nat → α)) =>
    let num := rowSum A s.1 i
    let m := pureLoop (fun j m => m.set i j (if A.isZero num then A.zero else A.div (m i j) num)) 3 s.1
    (m, fun r => if r = i then A.div A.one num else s.2 r)) 4 (m, fun _ => A.zero)

/-- `cam_to_xyz` (`image.rs:164-174`). -/
def camToXyz (camToRgb rgbToXyz : Mat α) (white : Nat → α) : Mat α :=
  pureLoop (fun i m => pureLoop (fun j m =>
    let m := m.set i j A.zero
    pureLoop (fun k m => m.set i j (A.add (m i j) (A.div (A.mul (camToRgb k j) (rgbToXyz i k)) (white i)))) 3 m) 4 m) 3
    (fun _ _ => A.zero)

/-- `xyz_matrix_and_neutralwb` (`image.rs:127-177`), with the two constant tables as arguments. -/
def xyzMatrixAndNeutralwb (xyzToCam rgbToXyz : Mat α) (white : Nat → α) : Mat α × (Nat → α) :=
  let (m, neutralwb) := normaliseCam A (rgbToCam A xyzToCam rgbToXyz)
  (camToXyz A (pseudoinverse A m) rgbToXyz white, neutralwb)

/-- `rgb_to_xyz`, sRGB D65 (`image.rs:129-134`, `colorspaces.rs:71-76`) -/
def rgbToXyzTable (ofDecimal : Rat → α) : Mat α := fun r c => ofDecimal (match r, c with
  | 0, 0 => 412453 / 1000000 | 0, 1 => 357580 / 1000000 | 0, 2 => 180423 / 1000000
  | 1, 0 => 212671 / 1000000 | 1, 1 => 715160 / 1000000 | 1, 2 => 72169 / 1000000
  | 2, 0 => 19334 / 1000000 | 2, 1 => 119193 / 1000000 | 2, 2 => 950227 / 1000000
  | _, _ => 0)

/-- `d65_white` (`image.rs:128`) -/
def d65White (ofDecimal : Rat → α) : Nat → α := fun i => ofDecimal (match i with
  | 0 => 9547 / 10000
  | 1 => 1
  | _ => 108883 / 100000)

end Model

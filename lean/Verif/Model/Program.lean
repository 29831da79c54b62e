import Verif.Model.Loader
import Verif.Model.Process
/-!
# The command line program, `bin/rawloader.rs`

Texts that are only printed are left out, except for the four numbers computed for printing. Writing to a file that could be
created is taken to succeed.
-/

namespace Model
open Rust

/-- What the operating system answers: reading the file at a path, and whether a file can be created at a path. -/
structure World where
  read : Bytes → RawLoader.FileResult
  create : Bytes → Bool

/-- The numbers printed by lines 61 to 65 of `bin/rawloader.rs`. -/
structure Statistics where
  sum : Nat
  avg : Nat
  min : Nat
  max : Nat
  deriving DecidableEq, Repr

/-- Body of the loop (`bin/rawloader.rs:56-59`) on sum, minimum and maximum. -/
def countSample (b : Build) (data : List Nat) (i : Nat) (s : Nat × Nat × Nat) : M (Nat × Nat × Nat) := do
  let val ← idx data i
  let sum ← addU 64 b s.1 val
  let min := if val < s.2.1 then val else s.2.1
  let max := if s.2.2 < val then val else s.2.2
  .ok (sum, min, max)

/-- The numbers about the samples (`bin/rawloader.rs:52-65`). Dividing by zero panics. -/
def statistics (b : Build) (img : RawImage) : M Statistics := do
  let first ← idx img.data 0
  let n ← mulU 64 b img.width img.height
  let s ← forRange 0 n (countSample b img.data) (0, first, 0)
  let count ← mulU 64 b img.width img.height
  if count = 0 then crash else .ok ⟨s.1, s.1 / count, s.2.1, s.2.2⟩

/-- One byte of the file (`bin/rawloader.rs:79`). -/
def programByte (pix : F32) : Nat := (((pix.max (lit 0)).mul (lit 255)).min (lit 255)).toUnsigned 8

/-- All that is written (`bin/rawloader.rs:74-83`). -/
def ppmFile (width height : Nat) (data : List F32) : Bytes :=
  b! "P6 " ++ decimal width ++ b! " " ++ decimal height ++ b! " " ++ decimal 255 ++ [10] ++ data.map fun pix => UInt8.ofNat (programByte pix)

/-- How a run ends: the exit status, which is 101 after a panic, the numbers printed, and the path and contents of the file written.
Numbers printed before a panic are left out. -/
structure Outcome where
  status : Nat
  printed : Option Statistics := none
  written : Option (Bytes × Bytes) := none
  deriving DecidableEq, Repr

/-- The part of `main` after the picture has been decoded (`bin/rawloader.rs:52-83`). The file is created after the last place that
can panic. -/
def afterDecode (env : Platform) (b : Build) (world : World) (outfile : Bytes) (img : RawImage) : M Outcome := do
  let numbers ← statistics b img
  let decoded ← unwrapped (toRgb env.libm b img 0 0)
  if world.create outfile then .ok { status := 0, printed := some numbers, written := some (outfile, ppmFile decoded.1 decoded.2.1 decoded.2.2) }
  else .ok { status := 2, printed := some numbers }

/-- `main` (`bin/rawloader.rs:20-84`) on its arguments, the first of which is the name of the program. `env::args` also panics on
arguments that are not UTF-8, here they are any bytes. The time is not modelled. -/
def programMain (env : Platform) (b : Build) (database : Toml) (world : World) (args : List Bytes) : M Outcome :=
  match args with
  | _ :: file :: rest =>
    let fileppm := file ++ b! ".ppm"
    let outfile := match rest with
      | name :: _ => name
      | [] => fileppm
    match rawloaderDecode env b database (world.read file) with
    | .error (.err _) => .ok { status := 2 }
    | .error .panic => .ok { status := 101 }
    | .error .fuel => .error .fuel
    | .ok image =>
      match afterDecode env b world outfile image with
      | .error .fuel => .error .fuel
      | .error _ => .ok { status := 101 }
      | .ok outcome => .ok outcome
  | _ => .ok { status := 1 }

end Model

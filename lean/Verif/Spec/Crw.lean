import Verif.Spec.Ljpeg
/-!
# Canon's first compression (files of the CIFF kind, `crw.rs`)

The format, written down as an encoder. The picture is one sequence of samples, cut into blocks of 64. Every sample is replaced by
its difference to the sample two places before in the same line, or to 512 at the start of a line. The first difference of a
block is stored relative to the first difference of the block before, the others as runs of zeros and a category, as in T.81 F.1.2.2.
-/

namespace Spec

/-- The code for the first difference of a block: the three tables a file can choose from. -/
def crwFirstTable : Nat → TableSpec
  | 0 => ⟨[0, 1, 4, 2, 3, 1, 2, 0, 0, 0, 0, 0, 0, 0, 0, 0],
   [4, 3, 5, 6, 2, 7, 1, 8, 9, 0, 10, 11, 255]⟩
  | 1 => ⟨[0, 2, 2, 3, 1, 1, 1, 1, 2, 0, 0, 0, 0, 0, 0, 0],
   [3, 2, 4, 1, 5, 0, 6, 7, 9, 8, 10, 11, 255]⟩
  | _ => ⟨[0, 0, 6, 3, 1, 1, 2, 0, 0, 0, 0, 0, 0, 0, 0, 0],
   [6, 5, 7, 4, 8, 3, 9, 2, 0, 10, 1, 11, 255]⟩

/-- The code for the other differences of a block. A symbol is 16 times the number of zeros, plus the category of the difference after
them; 0 stands for zeros up to the end of the block and 240 for 16 zeros. The entries 255 have no code. -/
def crwRestTable : Nat → TableSpec
  | 0 => ⟨[0, 2, 2, 2, 1, 4, 2, 1, 2, 5, 1, 1, 0, 0, 0, 139],
   [3, 4, 2, 5, 1, 6, 7, 8, 18, 19, 17, 20, 9, 21, 34, 0, 33, 22, 10, 240, 35, 23, 36, 49, 50, 24, 25, 51, 37, 65, 52,
   66, 53, 81, 54, 55, 56, 41, 121, 38, 26, 57, 86, 87, 40, 39, 82, 85, 88, 67, 118, 89, 119, 84, 97, 249, 113, 120,
   117, 150, 151, 73, 183, 83, 215, 116, 182, 152, 71, 72, 149, 105, 153, 145, 250, 184, 104, 181, 185, 214, 247, 216,
   103, 70, 69, 148, 137, 248, 129, 213, 246, 180, 136, 177, 42, 68, 114, 217, 135, 102, 212, 245, 58, 167, 115, 169,
   168, 134, 98, 199, 101, 200, 201, 161, 244, 209, 233, 90, 146, 133, 166, 231, 147, 232, 193, 198, 122, 100, 225, 74,
   106, 230, 179, 241, 211, 165, 138, 178, 154, 186, 132, 164, 99, 229, 197, 243, 210, 196, 130, 170, 218, 228, 242,
   202, 131, 163, 162, 195, 234, 194, 226, 227, 255, 255]⟩
  | 1 => ⟨[0, 2, 2, 1, 4, 1, 4, 1, 3, 3, 1, 0, 0, 0, 0, 140],
   [2, 3, 1, 4, 5, 18, 17, 6, 19, 7, 8, 20, 34, 9, 33, 0, 35, 21, 49, 50, 10, 22, 240, 36, 51, 65, 66, 25, 23, 37, 24,
   81, 52, 67, 82, 41, 53, 97, 57, 113, 98, 54, 83, 38, 56, 26, 55, 129, 39, 145, 121, 85, 69, 40, 114, 89, 161, 177,
   68, 105, 84, 88, 209, 250, 87, 225, 241, 185, 73, 71, 99, 106, 249, 86, 70, 168, 42, 74, 120, 153, 58, 117, 116,
   134, 101, 193, 118, 182, 150, 214, 137, 133, 201, 245, 149, 180, 199, 247, 138, 151, 184, 115, 183, 216, 217, 135,
   167, 122, 72, 130, 132, 234, 244, 166, 197, 90, 148, 164, 198, 146, 195, 104, 181, 200, 228, 229, 230, 233, 162,
   163, 227, 194, 102, 103, 147, 170, 212, 213, 231, 248, 136, 154, 215, 119, 196, 100, 226, 152, 165, 202, 218, 232,
   243, 246, 169, 178, 179, 242, 210, 131, 186, 211, 255, 255]⟩
  | _ => ⟨[0, 0, 6, 2, 1, 3, 3, 2, 5, 1, 2, 2, 8, 10, 0, 117],
   [4, 5, 3, 6, 2, 7, 1, 8, 9, 18, 19, 20, 17, 21, 10, 22, 23, 240, 0, 34, 33, 24, 35, 25, 36, 50, 49, 37, 51, 56, 55,
   52, 53, 54, 57, 121, 87, 88, 89, 40, 86, 120, 39, 65, 41, 119, 38, 66, 118, 153, 26, 85, 152, 151, 249, 72, 84, 150,
   137, 71, 183, 73, 250, 117, 104, 182, 103, 105, 185, 184, 216, 82, 215, 136, 181, 116, 81, 70, 217, 248, 58, 214,
   135, 69, 122, 149, 213, 246, 134, 180, 169, 148, 83, 42, 168, 67, 245, 247, 212, 102, 167, 90, 68, 138, 201, 232,
   200, 231, 154, 106, 115, 74, 97, 199, 244, 198, 101, 233, 114, 230, 113, 145, 147, 166, 218, 146, 133, 98, 243, 197,
   178, 164, 132, 186, 100, 165, 179, 210, 129, 229, 211, 170, 196, 202, 242, 177, 228, 209, 131, 99, 234, 195, 226,
   130, 241, 163, 194, 161, 193, 227, 162, 225, 255, 255]⟩

/-- The code of symbol `v`. -/
def symbolCode (t : TableSpec) (v : Nat) : List Nat := bitsOf (t.lens.getD (t.vals.idxOf v) 0) (canonical t.lens (t.vals.idxOf v))

/-- The additional bits of a difference (T.81 F.1.2.1). -/
def crwBits (d : Int) : List Nat := bitsOf (category d) (additional (category d) d)

/-- The differences of a block after `run` zeros that have not been stored yet. -/
def crwRest (t : TableSpec) : Nat → List Int → List Nat
  | run, [] => if run = 0 then [] else symbolCode t 0
  | run, d :: ds =>
    if d = 0 then crwRest t (run + 1) ds
    else (List.replicate (run / 16) (symbolCode t 240)).flatten ++ symbolCode t (run % 16 * 16 + category d) ++ crwBits d ++ crwRest t 0 ds

/-- What sample `n` of the picture adds to its prediction. -/
def crwStep (w : Nat) (img : Nat → Nat → Nat) (n : Nat) : Int :=
  (img (n / w) (n % w) : Int) - (if n % w < 2 then 512 else (img (n / w) (n % w - 2) : Int))

/-- The first difference of block `k`, relative to the block before. -/
def crwFirst (w : Nat) (img : Nat → Nat → Nat) : Nat → Int
  | 0 => crwStep w img 0
  | k + 1 => crwStep w img (64 * (k + 1)) - crwStep w img (64 * k)

/-- Block `k`. -/
def crwBlock (first rest : TableSpec) (w : Nat) (img : Nat → Nat → Nat) (k : Nat) : List Nat :=
  symbolCode first (category (crwFirst w img k)) ++ crwBits (crwFirst w img k) ++
    crwRest rest 0 ((List.range 63).map fun i => crwStep w img (64 * k + 1 + i))

/-- The bits of a picture with `64 * blocks` samples in lines of `w`, with the tables number `table`. -/
def encodeCrw (table w blocks : Nat) (img : Nat → Nat → Nat) : List Nat :=
  (List.range blocks).flatMap (crwBlock (crwFirstTable table) (crwRestTable table) w img)

/-- The two low bits of the samples, four samples in a byte. -/
def crwLow (w n : Nat) (img : Nat → Nat → Nat) : List UInt8 := (List.range n).map fun i => UInt8.ofNat
  (img (4 * i / w) (4 * i % w) % 4 + 4 * (img ((4 * i + 1) / w) ((4 * i + 1) % w) % 4) + 16 * (img ((4 * i + 2) / w) ((4 * i + 2) % w) % 4) +
   64 * (img ((4 * i + 3) / w) ((4 * i + 3) % w) % 4))

end Spec

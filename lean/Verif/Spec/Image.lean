/-!
# Specification: image orientation

Nothing here refers to the model.
-/

namespace Spec

/-- Where EXIF orientation `o` puts the stored pixel `(row, col)` of an `h` by `w` image, as `(row, col)` on display. The EXIF
table says which side of the picture the stored row 0 and column 0 are: 1 top/left, 2 top/right, 3 bottom/right, 4 bottom/left,
5 left/top, 6 right/top, 7 right/bottom, 8 left/bottom. Values outside 1..8 mean nothing, the picture is left alone. -/
def exifPlace (o h w row col : Nat) : Nat × Nat :=
  match o with
  | 2 => (row, w - 1 - col)
  | 3 => (h - 1 - row, w - 1 - col)
  | 4 => (h - 1 - row, col)
  | 5 => (col, row)
  | 6 => (col, h - 1 - row)
  | 7 => (w - 1 - col, h - 1 - row)
  | 8 => (w - 1 - col, row)
  | _ => (row, col)

/-- Whether the orientation exchanges width and height. -/
def exifSwaps (o : Nat) : Bool := 5 ≤ o && o ≤ 8

end Spec

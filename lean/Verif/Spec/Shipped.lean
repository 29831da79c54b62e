import Verif.Spec.Camera
import Verif.Model.Shipped
/-!
# The database that comes with the program

`data/cameras/join.rs` writes the files one after the other into `all.toml`, each behind `[[cameras]]`. The order is that of the `glob`
crate, so nothing is assumed about it.
-/

namespace Spec
open Model Rust

/-- The tables of the files. -/
def IsTables (ts : List Table) : Prop := Shipped.files.map TomlText.readFile = ts.map some

/-- A database with the tables of all files, in some order. -/
def IsShipped (db : Toml) : Prop := ∃ ts order : List Table, IsTables ts ∧ order.Perm ts ∧ db = .table [(b! "cameras", .arr (order.map .table))]

/-- What a variant is looked up by. -/
def Variant.key (v : Variant) : Bytes × Bytes × Bytes := (v.make, v.model, v.modeName)

/-- The names under which two files list a camera. -/
def sharedNames : List (Bytes × Bytes × Bytes) := [
  (b! "Canon", b! "Canon EOS REBEL SL1", []),
  (b! "Canon", b! "Canon EOS REBEL T3", []),
  (b! "Canon", b! "Canon EOS REBEL T5", []),
  (b! "Canon", b! "Canon EOS 350D Digital", []),
  (b! "Canon", b! "Canon EOS REBEL T1i", []),
  (b! "Canon", b! "Canon EOS REBEL T2i", []),
  (b! "Canon", b! "Canon EOS REBEL T3i", []),
  (b! "Canon", b! "Canon EOS REBEL T5i", []),
  (b! "NIKON CORPORATION", b! "NIKON D5200", []),
  (b! "NIKON CORPORATION", b! "NIKON D5200", b! "14bit")]

/-- The names of cameras whose levels are only given in their modes: those of Nikon without a mode. -/
def LevelsInModes (key : Bytes × Bytes × Bytes) : Prop :=
  key.2.2 = [] ∧ (key.1 = b! "NIKON CORPORATION" ∨ key.1 = b! "NIKON" ∧ (key.2.1 = b! "COOLPIX P330" ∨ key.2.1 = b! "COOLPIX B700"))

instance (key : Bytes × Bytes × Bytes) : Decidable (LevelsInModes key) := by unfold LevelsInModes; infer_instance

end Spec

import Verif.Model.Camera
/-!
# The camera database

What an entry of the database says, independently of how the tables are read. Only the data types `Toml` and `Camera` (and the
CFA parser, specified in C31) are shared with the model.
-/

namespace Spec
open Model Rust

/-- A table of the database. -/
abbrev Table := List (Bytes × Toml)

/-- The table a value is (empty if it is none). -/
def tableOf : Toml → Table | .table t => t | _ => []
/-- The items of an array. -/
def itemsOf : Option Toml → List Toml | some (.arr l) => l | _ => []
/-- The text of a string value. -/
def textOf : Option Toml → Bytes | some (.str s) => s | _ => []
/-- The number in an integer value. -/
def intOf : Option Toml → Int | some (.int i) => i | _ => 0

/-- An unsigned setting (the integers of the database are 64-bit). -/
def natOf (v : Option Toml) : Nat := (intOf v % 18446744073709551616).toNat
/-- A 16-bit level. -/
def levelOf (v : Option Toml) : Nat := (intOf v % 65536).toNat

/-- One camera of the database: the table of the camera, the table of the mode (the camera's own for the base mode), and the name
under which it is found with its clean version. -/
structure Variant where
  base : Table
  mode : Table
  name : Bytes × Bytes

namespace Variant

/-- A setting: the mode's if it has one, otherwise the camera's. -/
def setting (v : Variant) (key : Bytes) : Option Toml := (v.mode.lookup key).or (v.base.lookup key)

/-- An item of an array setting, taken one by one from the mode and otherwise from the camera. -/
def item (v : Variant) (key : Bytes) (i : Nat) : Option Toml := ((itemsOf (v.mode.lookup key))[i]?).or ((itemsOf (v.base.lookup key))[i]?)

/-- What the variant is looked up by. -/
def make (v : Variant) : Bytes := textOf (v.setting (b! "make"))
def model (v : Variant) : Bytes := v.name.1
def modeName (v : Variant) : Bytes := textOf (v.setting (b! "mode"))
def filesize (v : Variant) : Nat := natOf (v.setting (b! "filesize"))

/-- The camera has the settings of the variant. -/
structure Describes (v : Variant) (c : Camera) : Prop where
  make : c.make = v.make
  model : c.model = v.name.1
  mode : c.mode = v.modeName
  cleanMake : c.cleanMake = textOf (v.setting (b! "clean_make"))
  cleanModel : c.cleanModel = v.name.2
  filesize : c.filesize = v.filesize
  rawWidth : c.rawWidth = natOf (v.setting (b! "raw_width"))
  rawHeight : c.rawHeight = natOf (v.setting (b! "raw_height"))
  orientation : c.orientation = .unknown
  whitelevels : c.whitelevels = List.replicate 4 (levelOf (v.setting (b! "whitepoint")))
  blacklevels : c.blacklevels = List.replicate 4 (levelOf (v.setting (b! "blackpoint")))
  blackareah : c.blackareah = (natOf (itemsOf (v.setting (b! "blackareah")))[0]?, natOf (itemsOf (v.setting (b! "blackareah")))[1]?)
  blackareav : c.blackareav = (natOf (itemsOf (v.setting (b! "blackareav")))[0]?, natOf (itemsOf (v.setting (b! "blackareav")))[1]?)
  xyzToCam : ∀ i j, i < 4 → j < 3 → (do (← c.xyzToCam[i]?)[j]?) = some (F32.ofRat (intOf (v.item (b! "color_matrix") (3 * i + j))))
  cfa : CFA.new (textOf (v.setting (b! "color_pattern"))) = .ok c.cfa
  crops : ∀ i, i < 4 → c.crops[i]? = some (natOf (v.item (b! "crops") i))
  bps : c.bps = natOf (v.setting (b! "bps"))
  wbOffset : c.wbOffset = natOf (v.setting (b! "wb_offset"))
  hints : c.hints = (itemsOf (v.setting (b! "hints"))).map fun h => textOf (some h)

end Variant

/-- The names of a camera: its own and its aliases, each with the clean version. -/
def namesIn (base : Table) : List (Bytes × Bytes) :=
  (textOf (base.lookup (b! "model")), textOf (base.lookup (b! "clean_model"))) ::
  (itemsOf (base.lookup (b! "model_aliases"))).map fun a => (textOf (itemsOf (some a))[0]?, textOf (itemsOf (some a))[1]?)

/-- The modes of a camera: the base mode first. -/
def modesIn (base : Table) : List Table := base :: (itemsOf (base.lookup (b! "modes"))).map tableOf

/-- All cameras of a table. -/
def variantsIn (base : Table) : List Variant := (namesIn base).flatMap fun n => (modesIn base).map fun m => ⟨base, m, n⟩

/-- All cameras of the database, in its order. -/
def variants (db : Toml) : List Variant := (itemsOf ((tableOf db).lookup (b! "cameras"))).flatMap fun c => variantsIn (tableOf c)

/-- No table repeats a key (TOML forbids it). -/
def DistinctKeys (db : Toml) : Prop := ∀ v ∈ variants db, (v.base.map Prod.fst).Nodup ∧ (v.mode.map Prod.fst).Nodup

/-- `x` is the last element of the list satisfying `p`. -/
def LastWith {α : Type} (p : α → Prop) (l : List α) (x : α) : Prop := ∃ pre post, l = pre ++ x :: post ∧ p x ∧ ∀ y ∈ post, ¬ p y

end Spec

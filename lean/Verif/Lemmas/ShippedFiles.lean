import Verif.Lemmas.ShippedFiles1
import Verif.Lemmas.ShippedFiles2
import Verif.Lemmas.ShippedFiles3
import Verif.Lemmas.ShippedFiles4
/-!
# All files of the database are checked

Generated by `tools/database.py`.
-/

namespace Shipped

set_option maxRecDepth 100000

def numbers : List Row := arri ++ canon ++ epson ++ fuji ++ hasselblad ++ kodak ++ leaf ++ leica ++ mamiya ++ minolta ++ nikon ++ olympus ++ panasonic ++ pentax ++ phase_one ++ samsung ++ sony

theorem files_good : FilesChecked Model.Shipped.files numbers := ((((((((((((((((arri_good.append canon_good).append epson_good).append fuji_good).append hasselblad_good).append kodak_good).append leaf_good).append leica_good).append mamiya_good).append minolta_good).append nikon_good).append olympus_good).append panasonic_good).append pentax_good).append phase_one_good).append samsung_good).append sony_good)

theorem names_fresh : fresh (numbers.flatMap Prod.fst) 0 = true := by decide +kernel

theorem sizes_distinct : (numbers.flatMap fun r => r.2.1).Nodup := by decide +kernel

end Shipped

"""Writes lean/Verif/Model/Shipped.lean (the files of /repo/data/cameras, verbatim) and lean/Verif/Lemmas/ShippedFiles*.lean
(the checks of all files, with the numbers they give). Run from /verif."""
import collections
import glob
import os
import tomllib

ROOT = '/repo/data/cameras'
makers = {d: sorted(glob.glob(f'{ROOT}/{d}/*.toml')) for d in sorted(os.listdir(ROOT)) if os.path.isdir(f'{ROOT}/{d}')}

out = '''import Verif.Model.TomlText
/-!
# The camera database

The files `data/cameras/*/*.toml`, verbatim. Generated by `tools/database.py`.
-/

namespace Model.Shipped

'''
for d, fs in makers.items():
    out += f"/-- `data/cameras/{d}`: " + ", ".join(f"`{os.path.basename(f)}`" for f in fs) + " -/\n"
    out += f"def {d} : List Nat := [\n" + ",\n".join('  text! r#"' + open(f).read() + '"#' for f in fs) + "]\n\n"
out += "/-- All files. -/\ndef files : List Nat := " + " ++ ".join(makers) + "\n\nend Model.Shipped\n"
open('lean/Verif/Model/Shipped.lean', 'w').write(out)

MODULUS = 37195


def number(key):
    n = 0
    for c in '\0'.join(key).encode():
        n = n * 256 + c
    return n % MODULUS


rows = collections.defaultdict(list)
for fs in makers.values():
    for f in fs:
        base = tomllib.loads('[[cameras]]\n' + open(f).read())['cameras'][0]
        for model, clean in [(base['model'], base.get('clean_model', ''))] + [tuple(a) for a in base.get('model_aliases', [])]:
            for mode in [base] + base.get('modes', []):
                v = {**base, **mode}
                rows[f].append(((v['make'], model, v.get('mode', '')), v.get('filesize', 0)))
count = collections.Counter(k for r in rows.values() for k, _ in r)

groups = [[], [], [], []]
size = [0] * 4
for d, fs in sorted(makers.items(), key=lambda p: -sum(os.path.getsize(f) for f in p[1])):
    i = size.index(min(size))
    groups[i].append(d)
    size[i] += sum(os.path.getsize(f) for f in fs)

matrices = collections.defaultdict(list)
for f in rows:
    base = tomllib.loads('[[cameras]]\n' + open(f).read())['cameras'][0]
    for mode in [base] + base.get('modes', []):
        c = [a if i >= len(mode.get('color_matrix', [])) else mode['color_matrix'][i]
             for i, a in enumerate((base.get('color_matrix', []) + [0] * 12)[:12])]
        if c not in matrices[f]:
            matrices[f].append(c)

for i, g in enumerate(groups):
    ms = []
    for d in g:
        for f in makers[d]:
            ms += [c for c in matrices[f] if c not in ms]
    out = '''import Verif.Lemmas.ShippedCheck
/-!
# Checked matrices of the database

Generated by `tools/database.py`.
-/

namespace Shipped

set_option maxRecDepth 100000

'''
    good = "rfl"
    for n, c in enumerate(ms):
        out += f"def m{i + 1}_{n} : List Int := {c}\ntheorem m{i + 1}_{n}_good : goodEntries m{i + 1}_{n} = true := by decide +kernel\n"
    for n in reversed(range(len(ms))):
        good = f"good_cons m{i + 1}_{n}_good ({good})"
    out += f'''
def matrices{i + 1} : List (List Int) := [{", ".join(f"m{i + 1}_{n}" for n in range(len(ms)))}]

theorem matrices{i + 1}_good : matrices{i + 1}.all goodEntries = true := {good}

end Shipped
'''
    open(f'lean/Verif/Lemmas/ShippedMatrices{i + 1}.lean', 'w').write(out)
    out = f'''import Verif.Lemmas.ShippedMatrices{i + 1}
/-!
# Checked files of the database

Generated by `tools/database.py`: for every file the numbers of its names, the sizes of headerless files, and where its matrices are.
-/

namespace Shipped

set_option maxRecDepth 100000

'''
    for d in g:
        out += f"def {d} : List Row := [\n"
        out += ",\n".join(f"  ({[number(k) for k, _ in rows[f] if count[k] == 1]}, {[s for _, s in rows[f] if s > 0]}, {[ms.index(c) for c in matrices[f]]})" for f in makers[d]) + "]\n\n"
        out += f"theorem {d}_good : FilesChecked Model.Shipped.{d} {d} := goodFiles_ok matrices{i + 1}_good (by decide +kernel)\n\n"
    out += "end Shipped\n"
    open(f'lean/Verif/Lemmas/ShippedFiles{i + 1}.lean', 'w').write(out)

names = list(makers)
good = f"{names[0]}_good"
for d in names[1:]:
    good = f"({good}.append {d}_good)"
out = "".join(f"import Verif.Lemmas.ShippedFiles{i + 1}\n" for i in range(4)) + f'''/-!
# All files of the database are checked

Generated by `tools/database.py`.
-/

namespace Shipped

set_option maxRecDepth 100000

def numbers : List Row := {" ++ ".join(names)}

theorem files_good : FilesChecked Model.Shipped.files numbers := {good}

theorem names_fresh : fresh (numbers.flatMap Prod.fst) 0 = true := by decide +kernel

theorem sizes_distinct : (numbers.flatMap fun r => r.2.1).Nodup := by decide +kernel

end Shipped
'''
open('lean/Verif/Lemmas/ShippedFiles.lean', 'w').write(out)

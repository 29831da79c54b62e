import Verif.Lemmas.ShippedMatrices4
/-!
# Checked files of the database

Generated by `tools/database.py`: for every file the numbers of its names, the sizes of headerless files, and where its matrices are.
-/

namespace Shipped

set_option maxRecDepth 100000

def sony : List Row := [
  ([24238], [], [0]),
  ([26509], [], [1]),
  ([28780], [], [1]),
  ([19689], [], [2]),
  ([9544], [], [3]),
  ([2218], [], [4]),
  ([10056], [], [5]),
  ([21705], [], [6]),
  ([10568], [], [2]),
  ([23484], [], [7]),
  ([33322], [], [8]),
  ([29396], [], [2]),
  ([31667], [], [2]),
  ([29543, 34439], [], [9]),
  ([26247], [], [10]),
  ([30055], [], [2]),
  ([30311], [], [2]),
  ([36880], [], [9]),
  ([15652], [], [2]),
  ([22465], [], [11]),
  ([20689, 36710], [], [12]),
  ([27007], [], [11]),
  ([26040], [], [13]),
  ([3574], [], [14]),
  ([669], [], [15]),
  ([12347, 21273], [], [12]),
  ([35377], [], [16]),
  ([9301], [], [14]),
  ([6061], [], [17]),
  ([8843], [], [18]),
  ([6317], [], [19]),
  ([11114], [], [19]),
  ([33060], [], [20]),
  ([5211], [], [21]),
  ([32346, 8107], [], [22]),
  ([30654], [], [23]),
  ([19110], [], [24]),
  ([2388], [], [25]),
  ([22899], [], [25]),
  ([23411], [], [25]),
  ([19878], [], [25]),
  ([20134], [], [12]),
  ([13225], [], [2]),
  ([11853], [], [26]),
  ([23566], [], [22]),
  ([19594], [], [27]),
  ([7027], [], [28]),
  ([10729], [], [29]),
  ([10985], [], [29]),
  ([11241], [], [29]),
  ([11497], [], [29]),
  ([29951], [], [27]),
  ([30207], [], [27]),
  ([28298], [], [22])]

theorem sony_good : FilesChecked Model.Shipped.sony sony := goodFiles_ok matrices4_good (by decide +kernel)

def fuji : List Row := [
  ([33419], [], [30]),
  ([12383], [], [31]),
  ([28005], [], [32]),
  ([31292], [], [33]),
  ([27208], [], [34]),
  ([24468], [], [35]),
  ([11208], [], [36]),
  ([13588], [], [32]),
  ([21576], [], [34]),
  ([414], [], [37]),
  ([4897], [], [38]),
  ([4490], [], [39]),
  ([26226], [], [40]),
  ([2657], [], [41]),
  ([14197], [], [42]),
  ([6804], [], [43]),
  ([19800], [], [44]),
  ([22071], [], [45]),
  ([34680], [], [46]),
  ([34936], [], [47]),
  ([35192], [], [48]),
  ([36459], [], [49]),
  ([36715], [], [50]),
  ([9953], [], [51]),
  ([2822], [], [49]),
  ([670], [], [49]),
  ([926], [], [52]),
  ([24088], [], [53]),
  ([15234], [], [50]),
  ([6717], [], [50]),
  ([15490], [], [52]),
  ([35058], [], [52]),
  ([19598], [], [53]),
  ([30639], [], [54]),
  ([33251], [], [52]),
  ([36579], [], [55]),
  ([36835], [], [55]),
  ([10744], [], [56]),
  ([1890], [], [57]),
  ([3669], [], [58]),
  ([19895], [], [53]),
  ([34086], [], [59]),
  ([34342], [], [59])]

theorem fuji_good : FilesChecked Model.Shipped.fuji fuji := goodFiles_ok matrices4_good (by decide +kernel)

def samsung : List Row := [
  ([32353], [], [60]),
  ([34144], [], [61]),
  ([7077], [], [62]),
  ([15597], [], [63]),
  ([25255], [], [64]),
  ([5638], [], [64]),
  ([5011], [], [65]),
  ([25511], [], [64]),
  ([16401], [], [65]),
  ([7909], [], [65]),
  ([28462], [], [62]),
  ([36250], [], [65]),
  ([7547], [], [62]),
  ([10180], [], [62]),
  ([14718], [], [66]),
  ([22142], [], [62]),
  ([14722], [], [63])]

theorem samsung_good : FilesChecked Model.Shipped.samsung samsung := goodFiles_ok matrices4_good (by decide +kernel)

def kodak : List Row := [
  ([9820], [], [67]),
  ([20338], [], [67]),
  ([13575], [], [68]),
  ([23282], [], [69]),
  ([26835], [], [70]),
  ([122], [], [71]),
  ([22241], [], [72])]

theorem kodak_good : FilesChecked Model.Shipped.kodak kodak := goodFiles_ok matrices4_good (by decide +kernel)

def arri : List Row := [
  ([21485], [], [73])]

theorem arri_good : FilesChecked Model.Shipped.arri arri := goodFiles_ok matrices4_good (by decide +kernel)

def mamiya : List Row := [
  ([13289], [], [74])]

theorem mamiya_good : FilesChecked Model.Shipped.mamiya mamiya := goodFiles_ok matrices4_good (by decide +kernel)

end Shipped

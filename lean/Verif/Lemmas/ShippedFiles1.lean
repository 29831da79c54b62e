import Verif.Lemmas.ShippedMatrices1
/-!
# Checked files of the database

Generated by `tools/database.py`: for every file the numbers of its names, the sizes of headerless files, and where its matrices are.
-/

namespace Shipped

set_option maxRecDepth 100000

def canon : List Row := [
  ([28991, 11917, 22695, 25566, 5492], [], [0]),
  ([28848, 26734, 2064, 33225], [], [1]),
  ([2840], [], [2]),
  ([15247, 1946, 455, 17941], [], [3]),
  ([1503, 2458, 19942, 233], [], [4]),
  ([24954, 2714, 13492, 11088, 28574], [], [5]),
  ([24125], [], [6]),
  ([29455], [], [7]),
  ([13775], [], [8]),
  ([8583], [], [9]),
  ([32783], [], [10]),
  ([22878], [], [11]),
  ([28035], [], [12]),
  ([17013], [], [13]),
  ([7700], [], [14]),
  ([15220], [], [15]),
  ([5111], [], [16]),
  ([7727, 1044, 19982, 12049, 860], [], [2]),
  ([7382], [], [17]),
  ([25007, 12173, 22951, 27614, 7540], [], [18]),
  ([36978, 18788, 25526, 30174, 10100], [], [19]),
  ([9653], [], [20]),
  ([36166, 27642, 34380, 784, 31945], [], [21]),
  ([11067, 22034, 1040, 32201], [], [22]),
  ([11924], [], [23]),
  ([22422, 13180, 1296, 32457], [], [24]),
  ([33576], [], [25]),
  ([21776], [], [26]),
  ([14094], [], [27]),
  ([25104], [], [28]),
  ([24659], [], [29]),
  ([1893], [], [29]),
  ([34518, 4326, 1552, 32713], [], [4]),
  ([14195], [], [30]),
  ([8678, 32667, 2210, 6193, 23679], [], [1]),
  ([24722], [], [31]),
  ([20774, 23813, 34534, 14825], [], [1]),
  ([16466], [], [31]),
  ([32129, 14959, 21697, 25680, 5971], [], [32]),
  ([34400, 17519, 24257, 22833], [], [32]),
  ([28878], [], [33]),
  ([15868], [], [34]),
  ([21803], [], [35]),
  ([18737], [], [36]),
  ([33407], [24724224], [37]),
  ([3427], [6573120], [38]),
  ([31768], [9219600], [39]),
  ([22914], [10383120], [40]),
  ([14060], [12945240], [41]),
  ([5206], [15636240], [42]),
  ([16862], [10341600], [43]),
  ([26738], [18763488], [42]),
  ([14117], [], [44]),
  ([14307], [], [45]),
  ([24940], [], [46]),
  ([7493], [], [47]),
  ([33551], [], [48]),
  ([33807], [], [49]),
  ([34063], [], [50]),
  ([34831], [], [51]),
  ([35087], [], [52]),
  ([12423], [], [53]),
  ([13858], [], [53]),
  ([7749], [], [54]),
  ([8005], [], [55]),
  ([16965], [], [56]),
  ([8517], [], [57]),
  ([21507], [], [58]),
  ([8773], [], [59]),
  ([26049], [], [58]),
  ([34472], [31342080], [58]),
  ([34594], [], [58]),
  ([9541], [], [60]),
  ([25967], [], [1]),
  ([2447], [], [61]),
  ([2703], [], [32]),
  ([3215], [], [62]),
  ([3471], [], [62]),
  ([33597], [], [63]),
  ([5146], [], [64]),
  ([30346], [], [65]),
  ([4969], [19493760], [65]),
  ([21492], [], [66]),
  ([12638], [], [67]),
  ([5900], [], [68]),
  ([21058], [7710960], [69]),
  ([34241], [], [70]),
  ([35521], [], [71]),
  ([25387], [], [72]),
  ([16533], [], [73]),
  ([7679], [], [74]),
  ([27166], [], [75]),
  ([], [], [1]),
  ([11791], [15467760], [76]),
  ([36986], [], [77]),
  ([20476], [19167840], [78]),
  ([35537], [], [78]),
  ([13403], [], [79]),
  ([], [], [22]),
  ([], [], [24]),
  ([], [], [3]),
  ([], [], [4]),
  ([], [], [4]),
  ([], [], [1]),
  ([15705], [], [5]),
  ([30300], [], [32])]

theorem canon_good : FilesChecked Model.Shipped.canon canon := goodFiles_ok matrices1_good (by decide +kernel)

end Shipped

import Verif.Lemmas.ShippedMatrices2
/-!
# Checked files of the database

Generated by `tools/database.py`: for every file the numbers of its names, the sizes of headerless files, and where its matrices are.
-/

namespace Shipped

set_option maxRecDepth 100000

def panasonic : List Row := [
  ([10219, 25060, 35695, 7353, 18402], [], [0]),
  ([34616, 10097, 20732, 29585, 18959], [], [1]),
  ([13641, 33302, 4960, 914], [], [2]),
  ([6767, 33713, 7153, 16006, 1870], [], [3]),
  ([4787, 11168], [], [4]),
  ([31080, 24596], [], [5]),
  ([9038, 31684], [], [6]),
  ([19671, 2477], [], [6]),
  ([33128, 26229], [], [7]),
  ([23506, 8132, 16985], [], [8]),
  ([13372, 17523, 26376, 15745], [], [9]),
  ([32859, 37010, 10450, 19303, 27612], [], [10]),
  ([33371, 9522, 20157, 29010, 20539], [], [10]),
  ([30412, 32563], [], [11]),
  ([13005, 2356], [], [12]),
  ([21976, 1490, 5274, 29832], [], [13]),
  ([21699, 33080], [], [14]),
  ([22488, 28904, 2344, 11197, 35396], [], [15]),
  ([23256, 24867, 35502, 7160, 6189], [], [16]),
  ([23512, 11123, 21758, 30611, 21250], [], [17]),
  ([5770, 1226, 11861, 20714, 16878], [], [17]),
  ([34111, 26922], [], [17]),
  ([21996, 27422, 862, 9715, 27954], [], [18]),
  ([22508, 37129, 10569, 19422, 20881], [], [19]),
  ([23020, 9641, 20276, 29129, 13808], [], [20]),
  ([23276, 33092, 6532, 15385, 28869], [], [21]),
  ([23532, 19348, 29983, 1641, 6735], [], [17]),
  ([4288, 30984, 2642, 2626, 20349], [], [22]),
  ([4544, 6605, 17240, 26093, 17687], [], [23]),
  ([4800, 30056, 3496, 12349, 32748], [], [24]),
  ([5056, 16312, 26947, 35800, 10614], [], [25]),
  ([1780, 26151], [], [26]),
  ([34408, 21264, 31899, 3557, 13696], [], [27]),
  ([14481, 6802], [], [27]),
  ([35432, 14118], [], [28]),
  ([11404, 960, 11595, 20448, 23172], [], [15]),
  ([12940, 30081, 3521, 12374, 1953], [], [17]),
  ([13196, 26972], [], [29]),
  ([5719, 7625], [], [30]),
  ([17080, 32321], [], [17]),
  ([14901, 30747], [], [31]),
  ([33054, 6955], [], [32]),
  ([33351, 1297, 11932, 20785, 35054], [], [33]),
  ([22759, 30272], [], [34]),
  ([36172, 29736], [], [35]),
  ([10765, 396, 11031, 19884, 27568], [], [36]),
  ([23015, 8138], [], [37]),
  ([23271, 21737, 32372, 4030, 23199], [], [38]),
  ([23783, 31444, 4884, 13737, 16126], [], [39]),
  ([24295, 3956, 14591, 23444, 9053], [], [40]),
  ([29375, 29674], [], [35]),
  ([35272, 12073, 22708, 31561, 4085], [], [41]),
  ([35528, 35524, 8964, 17817, 19146], [], [41]),
  ([26418, 27134, 574, 9427, 28616], [], [42]),
  ([26674, 13390, 24025, 32878, 6482], [], [42])]

theorem panasonic_good : FilesChecked Model.Shipped.panasonic panasonic := goodFiles_ok matrices2_good (by decide +kernel)

def pentax : List Row := [
  ([32798], [], [43]),
  ([9674], [], [44]),
  ([34474], [], [45]),
  ([11466], [], [46]),
  ([2545], [], [47]),
  ([3057], [], [48]),
  ([27120], [], [48]),
  ([20593], [], [49]),
  ([15531], [], [50]),
  ([4918], [], [50]),
  ([21105], [], [51]),
  ([15564], [], [52]),
  ([34929], [], [53]),
  ([36209], [], [54]),
  ([28273], [], [55]),
  ([28529], [], [56]),
  ([550], [], [57]),
  ([29718], [], [58]),
  ([29717], [], [58]),
  ([23475], [], [59]),
  ([31989], [], [58]),
  ([15974], [], [60]),
  ([25746], [], [61]),
  ([6144], [6114240], [62])]

theorem pentax_good : FilesChecked Model.Shipped.pentax pentax := goodFiles_ok matrices2_good (by decide +kernel)

def leaf : List Row := [
  ([14046], [], [63]),
  ([24444], [], [64]),
  ([20814], [], [65]),
  ([30491], [], [65]),
  ([21326], [], [65]),
  ([32150], [], [66]),
  ([20692], [], [67]),
  ([32918], [], [68]),
  ([3116], [], [69]),
  ([22603], [], [69]),
  ([4895], [], [70])]

theorem leaf_good : FilesChecked Model.Shipped.leaf leaf := goodFiles_ok matrices2_good (by decide +kernel)

def leica : List Row := [
  ([22946, 1002], [], [71]),
  ([575, 2558], [], [37]),
  ([3306, 32562, 4220], [], [9]),
  ([4074, 28525], [], [3])]

theorem leica_good : FilesChecked Model.Shipped.leica leica := goodFiles_ok matrices2_good (by decide +kernel)

def hasselblad : List Row := [
  ([18300], [], [72]),
  ([15244], [], [72]),
  ([26110], [], [73])]

theorem hasselblad_good : FilesChecked Model.Shipped.hasselblad hasselblad := goodFiles_ok matrices2_good (by decide +kernel)

def epson : List Row := [
  ([22690], [], [74])]

theorem epson_good : FilesChecked Model.Shipped.epson epson := goodFiles_ok matrices2_good (by decide +kernel)

end Shipped

import Verif.Lemmas.ShippedMatrices3
/-!
# Checked files of the database

Generated by `tools/database.py`: for every file the numbers of its names, the sizes of headerless files, and where its matrices are.
-/

namespace Shipped

set_option maxRecDepth 100000

def nikon : List Row := [
  ([35425, 23653], [], [0]),
  ([3227, 790], [], [1]),
  ([3483, 25321], [], [1]),
  ([35382, 8345], [], [2]),
  ([9076, 14819], [], [3]),
  ([37159, 28537], [], [4]),
  ([31770, 24298], [], [5]),
  ([10646, 4569], [], [6]),
  ([9943, 17261], [], [7]),
  ([12917, 25895], [], [8]),
  ([1089, 11242], [], [9]),
  ([32282, 3512], [], [10]),
  ([15188, 10026, 14568], [], [11]),
  ([32136, 31764], [], [12]),
  ([3901, 2211], [], [13]),
  ([34407, 15895], [], [14]),
  ([36678, 26], [], [15]),
  ([1754, 21352], [], [16]),
  ([4025, 5483], [], [16]),
  ([29430, 9765], [], [17]),
  ([32538, 28043], [], [18]),
  ([10336, 22229], [], [19]),
  ([27699, 8327], [], [20]),
  ([19296, 29871, 25329], [], [18]),
  ([32794, 15379], [], [21]),
  ([1482, 16210], [], [22]),
  ([19730, 20025, 15483], [], [23]),
  ([4648, 15346], [], [24]),
  ([6919, 4019], [], [25]),
  ([], [], [26]),
  ([11461, 4934, 9476], [], [16]),
  ([16003, 14933], [], [27]),
  ([18274, 36259, 31717], [], [27]),
  ([29823, 10191], [], [12]),
  ([22001, 4156, 36809], [], [28]),
  ([13147, 35332, 30790], [], [28]),
  ([20969, 4172], [], [22]),
  ([24272, 25482], [], [10]),
  ([14355, 3470, 36123], [], [25]),
  ([4229, 27937], [], [22]),
  ([16626, 24796, 20254], [], [26]),
  ([18897, 8927, 4385], [], [26]),
  ([17197, 32582, 28040], [], [29]),
  ([12115, 35348], [], [30]),
  ([26543, 5071, 9613, 5987, 22335, 26877], [], [31]),
  ([17689, 36247, 3594], [], [32]),
  ([3261, 29329], [], [33]),
  ([8143, 27158, 22616], [], [18]),
  ([], [], [26]),
  ([12233], [], [34]),
  ([19046], [], [35]),
  ([32267, 767], [], [36]),
  ([23413], [], [36]),
  ([4500], [], [37]),
  ([27951], [], [38]),
  ([30222], [], [39]),
  ([8564, 2952], [], [1])]

theorem nikon_good : FilesChecked Model.Shipped.nikon nikon := goodFiles_ok matrices3_good (by decide +kernel)

def olympus : List Row := [
  ([29660], [], [40]),
  ([18686], [], [41]),
  ([21710], [], [42]),
  ([27596], [], [43]),
  ([7092], [], [44]),
  ([1263], [], [45]),
  ([15395], [], [46]),
  ([10738], [], [47]),
  ([8786], [], [48]),
  ([19419], [], [49]),
  ([2203], [], [50]),
  ([30544], [], [51]),
  ([3982], [], [52]),
  ([15907], [], [53]),
  ([13328], [], [54]),
  ([4474], [], [55]),
  ([32815], [], [56]),
  ([15599], [], [57]),
  ([3960], [], [58]),
  ([21783], [], [59]),
  ([36718], [], [59]),
  ([2670], [], [60]),
  ([4984], [], [59]),
  ([24655], [], [61]),
  ([14593], [], [62]),
  ([14849], [], [62]),
  ([15105], [], [63]),
  ([15617], [], [59]),
  ([12964], [], [64]),
  ([13476], [], [63]),
  ([13988], [], [59]),
  ([14244], [], [59]),
  ([14500], [], [65]),
  ([4110], [], [63]),
  ([4366], [], [59]),
  ([35086], [], [57]),
  ([34486], [], [66]),
  ([7665], [], [67]),
  ([18452], [], [68]),
  ([29085], [], [69]),
  ([21197], [], [70]),
  ([2], [], [71]),
  ([33169], [], [71]),
  ([6196], [], [72]),
  ([16762], [], [73]),
  ([17018], [], [74])]

theorem olympus_good : FilesChecked Model.Shipped.olympus olympus := goodFiles_ok matrices3_good (by decide +kernel)

def minolta : List Row := [
  ([3619], [], [75]),
  ([16817], [], [76]),
  ([4131], [], [77]),
  ([36304], [], [78]),
  ([8518], [], [79]),
  ([5761], [], [80]),
  ([14470], [], [81]),
  ([31971], [], [82]),
  ([27189], [], [83])]

theorem minolta_good : FilesChecked Model.Shipped.minolta minolta := goodFiles_ok matrices3_good (by decide +kernel)

def phase_one : List Row := [
  ([26196], [], [84]),
  ([29525], [], [85]),
  ([18561], [], [86])]

theorem phase_one_good : FilesChecked Model.Shipped.phase_one phase_one := goodFiles_ok matrices3_good (by decide +kernel)

end Shipped

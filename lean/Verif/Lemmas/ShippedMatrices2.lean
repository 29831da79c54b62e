import Verif.Lemmas.ShippedCheck
/-!
# Checked matrices of the database

Generated by `tools/database.py`.
-/

namespace Shipped

set_option maxRecDepth 100000

def m2_0 : List Int := [7830, -2696, -763, -3325, 11667, 1866, -641, 1712, 4824, 0, 0, 0]
theorem m2_0_good : goodEntries m2_0 = true := by decide +kernel
def m2_1 : List Int := [11904, -4541, -1189, -2355, 10899, 1662, -296, 1586, 4289, 0, 0, 0]
theorem m2_1_good : goodEntries m2_1 = true := by decide +kernel
def m2_2 : List Int := [9932, -3060, -935, -5809, 13331, 2753, -1267, 2155, 5575, 0, 0, 0]
theorem m2_2_good : goodEntries m2_2 = true := by decide +kernel
def m2_3 : List Int := [8112, -2563, -740, -3730, 11784, 2197, -941, 2075, 4933, 0, 0, 0]
theorem m2_3_good : goodEntries m2_3 = true := by decide +kernel
def m2_4 : List Int := [10109, -3488, -993, -5412, 12812, 2916, -1305, 2140, 5543, 0, 0, 0]
theorem m2_4_good : goodEntries m2_4 = true := by decide +kernel
def m2_5 : List Int := [10976, -4029, -1141, -7918, 15491, 2600, -1670, 2071, 8246, 0, 0, 0]
theorem m2_5_good : goodEntries m2_5 = true := by decide +kernel
def m2_6 : List Int := [8378, -2798, -769, -3068, 11410, 1877, -538, 1792, 4623, 0, 0, 0]
theorem m2_6_good : goodEntries m2_6 = true := by decide +kernel
def m2_7 : List Int := [9938, -2780, -890, -4604, 12393, 2480, -1117, 2304, 4620, 0, 0, 0]
theorem m2_7_good : goodEntries m2_7 = true := by decide +kernel
def m2_8 : List Int := [13639, -5535, -1371, -1698, 9633, 2430, 316, 1152, 4108, 0, 0, 0]
theorem m2_8_good : goodEntries m2_8 = true := by decide +kernel
def m2_9 : List Int := [7906, -2709, -594, -6231, 13351, 3220, -1922, 2631, 6537, 0, 0, 0]
theorem m2_9_good : goodEntries m2_9 = true := by decide +kernel
def m2_10 : List Int := [11532, -4324, -1066, -2375, 10847, 1749, -564, 1699, 4351, 0, 0, 0]
theorem m2_10_good : goodEntries m2_10 = true := by decide +kernel
def m2_11 : List Int := [8986, -2755, -802, -6341, 13575, 3077, -1476, 2144, 6379, 0, 0, 0]
theorem m2_11_good : goodEntries m2_11 = true := by decide +kernel
def m2_12 : List Int := [8550, -2908, -842, -3195, 11529, 1881, -338, 1603, 4631, 0, 0, 0]
theorem m2_12_good : goodEntries m2_12 = true := by decide +kernel
def m2_13 : List Int := [8199, -2065, -1056, -8124, 16156, 2033, -2458, 3022, 7220, 0, 0, 0]
theorem m2_13_good : goodEntries m2_13 = true := by decide +kernel
def m2_14 : List Int := [10113, -3400, -1114, -4765, 12683, 2317, -377, 1437, 6710, 0, 0, 0]
theorem m2_14_good : goodEntries m2_14 = true := by decide +kernel
def m2_15 : List Int := [6763, -1919, -863, -3868, 11515, 2684, -1216, 2387, 5879, 0, 0, 0]
theorem m2_15_good : goodEntries m2_15 = true := by decide +kernel
def m2_16 : List Int := [8294, -2891, -651, -3869, 11590, 2595, -1183, 2267, 5352, 0, 0, 0]
theorem m2_16_good : goodEntries m2_16 = true := by decide +kernel
def m2_17 : List Int := [7610, -2780, -576, -4614, 12195, 2733, -1375, 2393, 6490, 0, 0, 0]
theorem m2_17_good : goodEntries m2_17 = true := by decide +kernel
def m2_18 : List Int := [7888, -1902, -1011, -8106, 16085, 2099, -2353, 2866, 7330, 0, 0, 0]
theorem m2_18_good : goodEntries m2_18 = true := by decide +kernel
def m2_19 : List Int := [9051, -2468, -1204, -5212, 13276, 2121, -1197, 2510, 6890, 0, 0, 0]
theorem m2_19_good : goodEntries m2_19 = true := by decide +kernel
def m2_20 : List Int := [8228, -2945, -660, -3938, 11792, 2430, -1094, 2278, 5793, 0, 0, 0]
theorem m2_20_good : goodEntries m2_20 = true := by decide +kernel
def m2_21 : List Int := [8130, -2801, -946, -3520, 11289, 2552, -1314, 2511, 5791, 0, 0, 0]
theorem m2_21_good : goodEntries m2_21 = true := by decide +kernel
def m2_22 : List Int := [6299, -1466, -532, -6535, 13852, 2969, -2331, 3112, 5984, 0, 0, 0]
theorem m2_22_good : goodEntries m2_22 = true := by decide +kernel
def m2_23 : List Int := [7780, -2410, -806, -3913, 11724, 2484, -1018, 2390, 5298, 0, 0, 0]
theorem m2_23_good : goodEntries m2_23 = true := by decide +kernel
def m2_24 : List Int := [6559, -1752, -491, -3672, 11407, 2586, -962, 1875, 5130, 0, 0, 0]
theorem m2_24_good : goodEntries m2_24 = true := by decide +kernel
def m2_25 : List Int := [7122, -2108, -512, -3155, 11201, 2231, -541, 1423, 5045, 0, 0, 0]
theorem m2_25_good : goodEntries m2_25 = true := by decide +kernel
def m2_26 : List Int := [7641, -2336, -605, -3218, 11299, 2187, -485, 1338, 5121, 0, 0, 0]
theorem m2_26_good : goodEntries m2_26 = true := by decide +kernel
def m2_27 : List Int := [6770, -1895, -744, -5232, 13145, 2303, -1664, 2691, 5703, 0, 0, 0]
theorem m2_27_good : goodEntries m2_27 = true := by decide +kernel
def m2_28 : List Int := [8238, -3244, -679, -3921, 11814, 2384, -836, 2022, 5852, 0, 0, 0]
theorem m2_28_good : goodEntries m2_28 = true := by decide +kernel
def m2_29 : List Int := [7564, -2263, -606, -3148, 11239, 2177, -540, 1435, 4853, 0, 0, 0]
theorem m2_29_good : goodEntries m2_29 = true := by decide +kernel
def m2_30 : List Int := [7771, -3020, -629, -4029, 11950, 2345, -821, 1977, 6119, 0, 0, 0]
theorem m2_30_good : goodEntries m2_30 = true := by decide +kernel
def m2_31 : List Int := [8054, -1885, -1025, -8349, 16367, 2040, -2805, 3542, 7629, 0, 0, 0]
theorem m2_31_good : goodEntries m2_31 = true := by decide +kernel
def m2_32 : List Int := [8025, -1942, -1050, -7920, 15904, 2100, -2456, 3005, 7039, 0, 0, 0]
theorem m2_32_good : goodEntries m2_32 = true := by decide +kernel
def m2_33 : List Int := [9379, -3267, -816, -3227, 11560, 1881, -926, 1928, 5340, 0, 0, 0]
theorem m2_33_good : goodEntries m2_33 = true := by decide +kernel
def m2_34 : List Int := [10704, -4187, -1230, -8314, 15952, 2501, -920, 945, 8927, 0, 0, 0]
theorem m2_34_good : goodEntries m2_34 = true := by decide +kernel
def m2_35 : List Int := [7790, -2736, -755, -3452, 11870, 1769, -628, 1647, 4898, 0, 0, 0]
theorem m2_35_good : goodEntries m2_35 = true := by decide +kernel
def m2_36 : List Int := [8844, -3538, -768, -3709, 11762, 2200, -698, 1792, 5220, 0, 0, 0]
theorem m2_36_good : goodEntries m2_36 = true := by decide +kernel
def m2_37 : List Int := [8048, -2810, -623, -6450, 13519, 3272, -1700, 2146, 7049, 0, 0, 0]
theorem m2_37_good : goodEntries m2_37 = true := by decide +kernel
def m2_38 : List Int := [8128, -2668, -655, -6134, 13307, 3161, -1782, 2568, 6083, 0, 0, 0]
theorem m2_38_good : goodEntries m2_38 = true := by decide +kernel
def m2_39 : List Int := [10909, -4295, -948, -1333, 9306, 2399, 22, 1738, 4582, 0, 0, 0]
theorem m2_39_good : goodEntries m2_39 = true := by decide +kernel
def m2_40 : List Int := [10148, -3743, -991, -2837, 11366, 1659, -701, 1893, 4899, 0, 0, 0]
theorem m2_40_good : goodEntries m2_40 = true := by decide +kernel
def m2_41 : List Int := [8607, -2822, -808, -3755, 11930, 2049, -820, 2060, 5224, 0, 0, 0]
theorem m2_41_good : goodEntries m2_41 = true := by decide +kernel
def m2_42 : List Int := [8802, -3135, -789, -3151, 11468, 1904, -550, 1745, 4810, 0, 0, 0]
theorem m2_42_good : goodEntries m2_42 = true := by decide +kernel
def m2_43 : List Int := [9651, -2059, -1189, -8881, 16512, 2487, -1460, 1345, 10687, 0, 0, 0]
theorem m2_43_good : goodEntries m2_43 = true := by decide +kernel
def m2_44 : List Int := [10829, -2838, -1115, -8339, 15817, 2696, -837, 680, 11939, 0, 0, 0]
theorem m2_44_good : goodEntries m2_44 = true := by decide +kernel
def m2_45 : List Int := [10504, -2438, -1189, -8603, 16207, 2531, -1022, 863, 12242, 0, 0, 0]
theorem m2_45_good : goodEntries m2_45 = true := by decide +kernel
def m2_46 : List Int := [10371, -2333, -1206, -8688, 16231, 2602, -1230, 1116, 11282, 0, 0, 0]
theorem m2_46_good : goodEntries m2_46 = true := by decide +kernel
def m2_47 : List Int := [8596, -2981, -639, -4202, 12046, 2431, -685, 1424, 6122, 0, 0, 0]
theorem m2_47_good : goodEntries m2_47 = true := by decide +kernel
def m2_48 : List Int := [7415, -2052, -721, -5186, 12788, 2682, -1446, 2157, 6773, 0, 0, 0]
theorem m2_48_good : goodEntries m2_48 = true := by decide +kernel
def m2_49 : List Int := [8713, -2833, -743, -4342, 11900, 2772, -722, 1543, 6247, 0, 0, 0]
theorem m2_49_good : goodEntries m2_49 = true := by decide +kernel
def m2_50 : List Int := [8170, -2725, -639, -4440, 12017, 2744, -771, 1465, 6599, 0, 0, 0]
theorem m2_50_good : goodEntries m2_50 = true := by decide +kernel
def m2_51 : List Int := [9142, -2947, -678, -8648, 16967, 1663, -2224, 2898, 8615, 0, 0, 0]
theorem m2_51_good : goodEntries m2_51 = true := by decide +kernel
def m2_52 : List Int := [8766, -3149, -747, -3976, 11943, 2292, -517, 1259, 5552, 0, 0, 0]
theorem m2_52_good : goodEntries m2_52 = true := by decide +kernel
def m2_53 : List Int := [11057, -3604, -1155, -5152, 13046, 2329, -282, 375, 8104, 0, 0, 0]
theorem m2_53_good : goodEntries m2_53 = true := by decide +kernel
def m2_54 : List Int := [9895, -3077, -850, -5304, 13035, 2521, -883, 1768, 6936, 0, 0, 0]
theorem m2_54_good : goodEntries m2_54 = true := by decide +kernel
def m2_55 : List Int := [8512, -3211, -787, -4167, 11966, 2487, -638, 1288, 6054, 0, 0, 0]
theorem m2_55_good : goodEntries m2_55 = true := by decide +kernel
def m2_56 : List Int := [52900, -16627, -7529, -25443, 80936, 11071, -5585, 9879, 41775, 0, 0, 0]
theorem m2_56_good : goodEntries m2_56 = true := by decide +kernel
def m2_57 : List Int := [8843, -2837, -625, -5025, 12644, 2668, -411, 1234, 7410, 0, 0, 0]
theorem m2_57_good : goodEntries m2_57 = true := by decide +kernel
def m2_58 : List Int := [11095, -3157, -1324, -8377, 15834, 2720, -1108, 947, 11688, 0, 0, 0]
theorem m2_58_good : goodEntries m2_58 = true := by decide +kernel
def m2_59 : List Int := [9566, -2863, -803, -7170, 15172, 2112, -818, 803, 9705, 0, 0, 0]
theorem m2_59_good : goodEntries m2_59 = true := by decide +kernel
def m2_60 : List Int := [9186, -2678, -907, -8693, 16517, 2260, -1129, 1094, 8524, 0, 0, 0]
theorem m2_60_good : goodEntries m2_60 = true := by decide +kernel
def m2_61 : List Int := [9427, -2714, -868, -7493, 16092, 1373, -2199, 3264, 7180, 0, 0, 0]
theorem m2_61_good : goodEntries m2_61 = true := by decide +kernel
def m2_62 : List Int := [15591, -6402, -1592, -5365, 13198, 2168, -1300, 1824, 5075, 0, 0, 0]
theorem m2_62_good : goodEntries m2_62 = true := by decide +kernel
def m2_63 : List Int := [8236, 1746, -1314, -8251, 15953, 2428, -3673, 5786, 5771, 0, 0, 0]
theorem m2_63_good : goodEntries m2_63 = true := by decide +kernel
def m2_64 : List Int := [7914, 1414, -1190, -8777, 16582, 2280, -2811, 4605, 5562, 0, 0, 0]
theorem m2_64_good : goodEntries m2_64 = true := by decide +kernel
def m2_65 : List Int := [7527, 1285, -166, -6929, 14061, 3176, -1995, 3747, 6077, 0, 0, 0]
theorem m2_65_good : goodEntries m2_65 = true := by decide +kernel
def m2_66 : List Int := [1846, 7955, -1222, -12994, 19563, 3596, -2035, 3340, 5136, 0, 0, 0]
theorem m2_66_good : goodEntries m2_66 = true := by decide +kernel
def m2_67 : List Int := [7691, -108, -339, -6185, 13627, 2833, -2046, 3899, 5952, 0, 0, 0]
theorem m2_67_good : goodEntries m2_67 = true := by decide +kernel
def m2_68 : List Int := [6355, 1085, -140, -6929, 14061, 3176, -2008, 3771, 6117, 0, 0, 0]
theorem m2_68_good : goodEntries m2_68 = true := by decide +kernel
def m2_69 : List Int := [8035, 435, -962, -6001, 13872, 2320, -1159, 3065, 5434, 0, 0, 0]
theorem m2_69_good : goodEntries m2_69 = true := by decide +kernel
def m2_70 : List Int := [6294, 686, -712, -5435, 13417, 2211, -1006, 2435, 5042, 0, 0, 0]
theorem m2_70_good : goodEntries m2_70 = true := by decide +kernel
def m2_71 : List Int := [11340, -4069, -1275, -7555, 15266, 2448, -2960, 3426, 7685, 0, 0, 0]
theorem m2_71_good : goodEntries m2_71 = true := by decide +kernel
def m2_72 : List Int := [8519, -3260, -280, -5081, 13459, 1738, -1449, 2960, 7809, 0, 0, 0]
theorem m2_72_good : goodEntries m2_72 = true := by decide +kernel
def m2_73 : List Int := [3857, 452, -46, -6008, 14477, 1596, -2627, 4481, 5718, 0, 0, 0]
theorem m2_73_good : goodEntries m2_73 = true := by decide +kernel
def m2_74 : List Int := [6827, -1878, -732, -8429, 16012, 2564, -704, 592, 7145, 0, 0, 0]
theorem m2_74_good : goodEntries m2_74 = true := by decide +kernel

def matrices2 : List (List Int) := [m2_0, m2_1, m2_2, m2_3, m2_4, m2_5, m2_6, m2_7, m2_8, m2_9, m2_10, m2_11, m2_12, m2_13, m2_14, m2_15, m2_16, m2_17, m2_18, m2_19, m2_20, m2_21, m2_22, m2_23, m2_24, m2_25, m2_26, m2_27, m2_28, m2_29, m2_30, m2_31, m2_32, m2_33, m2_34, m2_35, m2_36, m2_37, m2_38, m2_39, m2_40, m2_41, m2_42, m2_43, m2_44, m2_45, m2_46, m2_47, m2_48, m2_49, m2_50, m2_51, m2_52, m2_53, m2_54, m2_55, m2_56, m2_57, m2_58, m2_59, m2_60, m2_61, m2_62, m2_63, m2_64, m2_65, m2_66, m2_67, m2_68, m2_69, m2_70, m2_71, m2_72, m2_73, m2_74]

theorem matrices2_good : matrices2.all goodEntries = true := good_cons m2_0_good (good_cons m2_1_good (good_cons m2_2_good (good_cons m2_3_good (good_cons m2_4_good (good_cons m2_5_good (good_cons m2_6_good (good_cons m2_7_good (good_cons m2_8_good (good_cons m2_9_good (good_cons m2_10_good (good_cons m2_11_good (good_cons m2_12_good (good_cons m2_13_good (good_cons m2_14_good (good_cons m2_15_good (good_cons m2_16_good (good_cons m2_17_good (good_cons m2_18_good (good_cons m2_19_good (good_cons m2_20_good (good_cons m2_21_good (good_cons m2_22_good (good_cons m2_23_good (good_cons m2_24_good (good_cons m2_25_good (good_cons m2_26_good (good_cons m2_27_good (good_cons m2_28_good (good_cons m2_29_good (good_cons m2_30_good (good_cons m2_31_good (good_cons m2_32_good (good_cons m2_33_good (good_cons m2_34_good (good_cons m2_35_good (good_cons m2_36_good (good_cons m2_37_good (good_cons m2_38_good (good_cons m2_39_good (good_cons m2_40_good (good_cons m2_41_good (good_cons m2_42_good (good_cons m2_43_good (good_cons m2_44_good (good_cons m2_45_good (good_cons m2_46_good (good_cons m2_47_good (good_cons m2_48_good (good_cons m2_49_good (good_cons m2_50_good (good_cons m2_51_good (good_cons m2_52_good (good_cons m2_53_good (good_cons m2_54_good (good_cons m2_55_good (good_cons m2_56_good (good_cons m2_57_good (good_cons m2_58_good (good_cons m2_59_good (good_cons m2_60_good (good_cons m2_61_good (good_cons m2_62_good (good_cons m2_63_good (good_cons m2_64_good (good_cons m2_65_good (good_cons m2_66_good (good_cons m2_67_good (good_cons m2_68_good (good_cons m2_69_good (good_cons m2_70_good (good_cons m2_71_good (good_cons m2_72_good (good_cons m2_73_good (good_cons m2_74_good (rfl)))))))))))))))))))))))))))))))))))))))))))))))))))))))))))))))))))))))))))

end Shipped

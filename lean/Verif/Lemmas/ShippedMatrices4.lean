import Verif.Lemmas.ShippedCheck
/-!
# Checked matrices of the database

Generated by `tools/database.py`.
-/

namespace Shipped

set_option maxRecDepth 100000

def m4_0 : List Int := [9437, -2811, -774, -8405, 16215, 2290, -710, 596, 7181, 0, 0, 0]
theorem m4_0_good : goodEntries m4_0 = true := by decide +kernel
def m4_1 : List Int := [9847, -3091, -928, -8485, 16345, 2225, -715, 595, 7103, 0, 0, 0]
theorem m4_1_good : goodEntries m4_1 = true := by decide +kernel
def m4_2 : List Int := [5991, -1456, -455, -4764, 12135, 2980, -707, 1425, 6701, 0, 0, 0]
theorem m4_2_good : goodEntries m4_2 = true := by decide +kernel
def m4_3 : List Int := [6069, -1221, -366, -5221, 12779, 2734, -1024, 2066, 6834, 0, 0, 0]
theorem m4_3_good : goodEntries m4_3 = true := by decide +kernel
def m4_4 : List Int := [9847, -3091, -929, -8485, 16346, 2225, -714, 595, 7103, 0, 0, 0]
theorem m4_4_good : goodEntries m4_4 = true := by decide +kernel
def m4_5 : List Int := [5986, -1618, -415, -4557, 11820, 3120, -681, 1404, 6971, 0, 0, 0]
theorem m4_5_good : goodEntries m4_5 = true := by decide +kernel
def m4_6 : List Int := [6038, -1484, -578, -9146, 16746, 2513, -875, 746, 7217, 0, 0, 0]
theorem m4_6_good : goodEntries m4_6 = true := by decide +kernel
def m4_7 : List Int := [6038, -1484, -579, -9145, 16746, 2512, -875, 746, 7218, 0, 0, 0]
theorem m4_7_good : goodEntries m4_7 = true := by decide +kernel
def m4_8 : List Int := [6046, -1127, -278, -5574, 13076, 2786, -691, 1419, 7625, 0, 0, 0]
theorem m4_8_good : goodEntries m4_8 = true := by decide +kernel
def m4_9 : List Int := [5932, -1492, -411, -4813, 12285, 2856, -741, 1524, 6739, 0, 0, 0]
theorem m4_9_good : goodEntries m4_9 = true := by decide +kernel
def m4_10 : List Int := [4950, -580, -103, -5228, 12542, 3029, -709, 1435, 7371, 0, 0, 0]
theorem m4_10_good : goodEntries m4_10 = true := by decide +kernel
def m4_11 : List Int := [5973, -1695, -419, -3826, 11797, 2293, -639, 1398, 5789, 0, 0, 0]
theorem m4_11_good : goodEntries m4_11 = true := by decide +kernel
def m4_12 : List Int := [5491, -1192, -363, -4951, 12342, 2948, -911, 1722, 7192, 0, 0, 0]
theorem m4_12_good : goodEntries m4_12 = true := by decide +kernel
def m4_13 : List Int := [6435, -1903, -536, -4722, 12449, 2550, -663, 1363, 6517, 0, 0, 0]
theorem m4_13_good : goodEntries m4_13 = true := by decide +kernel
def m4_14 : List Int := [5271, -712, -347, -6153, 13653, 2763, -1601, 2366, 7242, 0, 0, 0]
theorem m4_14_good : goodEntries m4_14 = true := by decide +kernel
def m4_15 : List Int := [5775, -805, -359, -8574, 16295, 2391, -1943, 2341, 7249, 0, 0, 0]
theorem m4_15_good : goodEntries m4_15 = true := by decide +kernel
def m4_16 : List Int := [5991, -1732, -443, -4100, 11989, 2381, -704, 1467, 5992, 0, 0, 0]
theorem m4_16_good : goodEntries m4_16 = true := by decide +kernel
def m4_17 : List Int := [4913, -541, -202, -6130, 13513, 2906, -1564, 2151, 7183, 0, 0, 0]
theorem m4_17_good : goodEntries m4_17 = true := by decide +kernel
def m4_18 : List Int := [6629, -1900, -483, -4618, 12349, 2550, -622, 1381, 6514, 0, 0, 0]
theorem m4_18_good : goodEntries m4_18 = true := by decide +kernel
def m4_19 : List Int := [5838, -1430, -246, -3497, 11477, 2297, -748, 1885, 5778, 0, 0, 0]
theorem m4_19_good : goodEntries m4_19 = true := by decide +kernel
def m4_20 : List Int := [5413, -1162, -365, -5665, 13098, 2866, -608, 1179, 8440, 0, 0, 0]
theorem m4_20_good : goodEntries m4_20 = true := by decide +kernel
def m4_21 : List Int := [5209, -1072, -397, -8845, 16120, 2919, -1618, 1803, 8654, 0, 0, 0]
theorem m4_21_good : goodEntries m4_21 = true := by decide +kernel
def m4_22 : List Int := [6344, -1612, -462, -4863, 12477, 2681, -865, 1786, 6899, 0, 0, 0]
theorem m4_22_good : goodEntries m4_22 = true := by decide +kernel
def m4_23 : List Int := [7924, -1910, -777, -8226, 15459, 2998, -1517, 2199, 6818, -7242, 11401, 3481]
theorem m4_23_good : goodEntries m4_23 = true := by decide +kernel
def m4_24 : List Int := [6549, -1550, -436, -4880, 12435, 2753, -854, 1868, 6976, 0, 0, 0]
theorem m4_24_good : goodEntries m4_24 = true := by decide +kernel
def m4_25 : List Int := [6129, -1545, -418, -4930, 12490, 2743, -977, 1693, 6615, 0, 0, 0]
theorem m4_25_good : goodEntries m4_25 = true := by decide +kernel
def m4_26 : List Int := [8512, -2641, -694, -8042, 15670, 2526, -1821, 2117, 7414, 0, 0, 0]
theorem m4_26_good : goodEntries m4_26 = true := by decide +kernel
def m4_27 : List Int := [6679, -1825, -745, -5047, 13256, 1953, -1580, 2422, 5183, 0, 0, 0]
theorem m4_27_good : goodEntries m4_27 = true := by decide +kernel
def m4_28 : List Int := [8651, -2754, -1057, -3464, 12207, 1373, -568, 1398, 4434, 0, 0, 0]
theorem m4_28_good : goodEntries m4_28 = true := by decide +kernel
def m4_29 : List Int := [6596, -2079, -562, -4782, 13016, 1933, -970, 1581, 5181, 0, 0, 0]
theorem m4_29_good : goodEntries m4_29 = true := by decide +kernel
def m4_30 : List Int := [11044, -3888, -1120, -7248, 15168, 2208, -1531, 2277, 8069, 0, 0, 0]
theorem m4_30_good : goodEntries m4_30 = true := by decide +kernel
def m4_31 : List Int := [9183, -2526, -1078, -7461, 15071, 2574, -2022, 2440, 8639, 0, 0, 0]
theorem m4_31_good : goodEntries m4_31 = true := by decide +kernel
def m4_32 : List Int := [13690, -5358, -1474, -3369, 11600, 1998, -132, 1554, 4395, 0, 0, 0]
theorem m4_32_good : goodEntries m4_32 = true := by decide +kernel
def m4_33 : List Int := [10004, -3219, -1201, -7036, 15047, 2107, -1863, 2565, 7736, 0, 0, 0]
theorem m4_33_good : goodEntries m4_33 = true := by decide +kernel
def m4_34 : List Int := [12085, -4727, -953, -3257, 11489, 2002, -511, 2046, 4592, 0, 0, 0]
theorem m4_34_good : goodEntries m4_34 = true := by decide +kernel
def m4_35 : List Int := [11756, -4754, -874, -3056, 11045, 2305, -381, 1457, 6006, 0, 0, 0]
theorem m4_35_good : goodEntries m4_35 = true := by decide +kernel
def m4_36 : List Int := [12440, -3954, -1183, -1123, 9674, 1708, -83, 1614, 4086, 0, 0, 0]
theorem m4_36_good : goodEntries m4_36 = true := by decide +kernel
def m4_37 : List Int := [11401, -4498, -1312, -5088, 12751, 2613, -838, 1568, 5941, 0, 0, 0]
theorem m4_37_good : goodEntries m4_37 = true := by decide +kernel
def m4_38 : List Int := [12492, -4690, -1402, -7033, 15423, 1647, -1507, 2111, 7697, 0, 0, 0]
theorem m4_38_good : goodEntries m4_38 = true := by decide +kernel
def m4_39 : List Int := [11807, -4612, -1294, -8927, 16968, 1988, -2120, 2741, 8006, 0, 0, 0]
theorem m4_39_good : goodEntries m4_39 = true := by decide +kernel
def m4_40 : List Int := [8754, -2732, -1019, -7204, 15069, 2276, -1702, 2334, 6982, 0, 0, 0]
theorem m4_40_good : goodEntries m4_40 = true := by decide +kernel
def m4_41 : List Int := [9636, -2804, -988, -7442, 15040, 2589, -1803, 2311, 8621, 0, 0, 0]
theorem m4_41_good : goodEntries m4_41 = true := by decide +kernel
def m4_42 : List Int := [12300, -5110, -1304, -9117, 17143, 1998, -1947, 2448, 8100, 0, 0, 0]
theorem m4_42_good : goodEntries m4_42 = true := by decide +kernel
def m4_43 : List Int := [12628, -4887, -1401, -6861, 14996, 1962, -2198, 2782, 7091, 0, 0, 0]
theorem m4_43_good : goodEntries m4_43 = true := by decide +kernel
def m4_44 : List Int := [10491, -3423, -1145, -7385, 15027, 2538, -1809, 2275, 8692, 0, 0, 0]
theorem m4_44_good : goodEntries m4_44 = true := by decide +kernel
def m4_45 : List Int := [12343, -4515, -1285, -7165, 14899, 2435, -1895, 2496, 8800, 0, 0, 0]
theorem m4_45_good : goodEntries m4_45 = true := by decide +kernel
def m4_46 : List Int := [11086, -4555, -839, -3512, 11310, 2517, -815, 1341, 5940, 0, 0, 0]
theorem m4_46_good : goodEntries m4_46 = true := by decide +kernel
def m4_47 : List Int := [10763, -4560, -917, -3346, 11311, 2322, -475, 1135, 5843, 0, 0, 0]
theorem m4_47_good : goodEntries m4_47 = true := by decide +kernel
def m4_48 : List Int := [12407, -5222, -1086, -2971, 11116, 2120, -294, 1029, 5284, 0, 0, 0]
theorem m4_48_good : goodEntries m4_48 = true := by decide +kernel
def m4_49 : List Int := [10413, -3996, -993, -3721, 11640, 2361, -733, 1540, 6011, 0, 0, 0]
theorem m4_49_good : goodEntries m4_49 = true := by decide +kernel
def m4_50 : List Int := [8458, -2451, -855, -4597, 12447, 2407, -1475, 2482, 6526, 0, 0, 0]
theorem m4_50_good : goodEntries m4_50 = true := by decide +kernel
def m4_51 : List Int := [11562, -5118, -961, -3022, 11007, 2311, -525, 1569, 6097, 0, 0, 0]
theorem m4_51_good : goodEntries m4_51 = true := by decide +kernel
def m4_52 : List Int := [11434, -4948, -1210, -3746, 12042, 1903, -666, 1479, 5235, 0, 0, 0]
theorem m4_52_good : goodEntries m4_52 = true := by decide +kernel
def m4_53 : List Int := [13509, -6199, -1254, -4430, 12733, 1865, -331, 1441, 5022, 0, 0, 0]
theorem m4_53_good : goodEntries m4_53 = true := by decide +kernel
def m4_54 : List Int := [12161, -4457, -1069, -5034, 12874, 2400, -795, 1724, 6904, 0, 0, 0]
theorem m4_54_good : goodEntries m4_54 = true := by decide +kernel
def m4_55 : List Int := [10592, -4262, -1008, -3514, 11355, 2465, -870, 2025, 6386, 0, 0, 0]
theorem m4_55_good : goodEntries m4_55 = true := by decide +kernel
def m4_56 : List Int := [11768, -4971, -1133, -4904, 12927, 2183, -480, 1723, 4605, 0, 0, 0]
theorem m4_56_good : goodEntries m4_56 = true := by decide +kernel
def m4_57 : List Int := [12328, -5256, -1144, -4469, 12927, 1675, -87, 1291, 4351, 0, 0, 0]
theorem m4_57_good : goodEntries m4_57 = true := by decide +kernel
def m4_58 : List Int := [10450, -4329, -878, -3217, 11105, 2421, -752, 1758, 6519, 0, 0, 0]
theorem m4_58_good : goodEntries m4_58 = true := by decide +kernel
def m4_59 : List Int := [9252, -2704, -1064, -5893, 14265, 1717, -1101, 2341, 4349, 0, 0, 0]
theorem m4_59_good : goodEntries m4_59 = true := by decide +kernel
def m4_60 : List Int := [8898, -2498, -994, -3144, 11328, 2066, -760, 1381, 4576, 0, 0, 0]
theorem m4_60_good : goodEntries m4_60 = true := by decide +kernel
def m4_61 : List Int := [10648, -3897, -1055, -2022, 10573, 1668, -492, 1611, 4742, 0, 0, 0]
theorem m4_61_good : goodEntries m4_61 = true := by decide +kernel
def m4_62 : List Int := [7557, -2522, -739, -4679, 12949, 1894, -840, 1777, 5311, 0, 0, 0]
theorem m4_62_good : goodEntries m4_62 = true := by decide +kernel
def m4_63 : List Int := [10686, -4042, -1052, -3595, 13238, 276, -464, 1259, 5931, 0, 0, 0]
theorem m4_63_good : goodEntries m4_63 = true := by decide +kernel
def m4_64 : List Int := [10332, -3234, -1168, -6111, 14639, 1520, -1352, 2647, 8331, 0, 0, 0]
theorem m4_64_good : goodEntries m4_64 = true := by decide +kernel
def m4_65 : List Int := [6933, -2268, -753, -4921, 13387, 1647, -803, 1641, 6096, 0, 0, 0]
theorem m4_65_good : goodEntries m4_65 = true := by decide +kernel
def m4_66 : List Int := [8060, -2933, -761, -4504, 12890, 1762, -630, 1489, 5227, 0, 0, 0]
theorem m4_66_good : goodEntries m4_66 = true := by decide +kernel
def m4_67 : List Int := [10592, -2206, -967, -1944, 11685, 230, 2206, 670, 1273, 0, 0, 0]
theorem m4_67_good : goodEntries m4_67 = true := by decide +kernel
def m4_68 : List Int := [20482, -7172, -3125, -1033, 10410, -285, 2542, 226, 3136, 0, 0, 0]
theorem m4_68_good : goodEntries m4_68 = true := by decide +kernel
def m4_69 : List Int := [16623, -6309, -1411, -4344, 13923, 323, 2285, 274, 2926, 0, 0, 0]
theorem m4_69_good : goodEntries m4_69 = true := by decide +kernel
def m4_70 : List Int := [5494, 2393, -232, -6427, 13850, 2846, -1876, 3997, 5445, 0, 0, 0]
theorem m4_70_good : goodEntries m4_70 = true := by decide +kernel
def m4_71 : List Int := [12805, -4662, -1376, -7480, 15267, 2360, -1626, 2194, 7904, 0, 0, 0]
theorem m4_71_good : goodEntries m4_71 = true := by decide +kernel
def m4_72 : List Int := [11265, -4286, -992, -4694, 12343, 2647, -1090, 1523, 5447, 0, 0, 0]
theorem m4_72_good : goodEntries m4_72 = true := by decide +kernel
def m4_73 : List Int := [32404542, -15371385, -4985314, -9692660, 18760108, 415560, 556434, -2040259, 10572252, 0, 0, 0]
theorem m4_73_good : goodEntries m4_73 = true := by decide +kernel
def m4_74 : List Int := [7645, 2579, -1363, -8689, 16717, 2015, -3712, 5941, 5961, 0, 0, 0]
theorem m4_74_good : goodEntries m4_74 = true := by decide +kernel

def matrices4 : List (List Int) := [m4_0, m4_1, m4_2, m4_3, m4_4, m4_5, m4_6, m4_7, m4_8, m4_9, m4_10, m4_11, m4_12, m4_13, m4_14, m4_15, m4_16, m4_17, m4_18, m4_19, m4_20, m4_21, m4_22, m4_23, m4_24, m4_25, m4_26, m4_27, m4_28, m4_29, m4_30, m4_31, m4_32, m4_33, m4_34, m4_35, m4_36, m4_37, m4_38, m4_39, m4_40, m4_41, m4_42, m4_43, m4_44, m4_45, m4_46, m4_47, m4_48, m4_49, m4_50, m4_51, m4_52, m4_53, m4_54, m4_55, m4_56, m4_57, m4_58, m4_59, m4_60, m4_61, m4_62, m4_63, m4_64, m4_65, m4_66, m4_67, m4_68, m4_69, m4_70, m4_71, m4_72, m4_73, m4_74]

theorem matrices4_good : matrices4.all goodEntries = true := good_cons m4_0_good (good_cons m4_1_good (good_cons m4_2_good (good_cons m4_3_good (good_cons m4_4_good (good_cons m4_5_good (good_cons m4_6_good (good_cons m4_7_good (good_cons m4_8_good (good_cons m4_9_good (good_cons m4_10_good (good_cons m4_11_good (good_cons m4_12_good (good_cons m4_13_good (good_cons m4_14_good (good_cons m4_15_good (good_cons m4_16_good (good_cons m4_17_good (good_cons m4_18_good (good_cons m4_19_good (good_cons m4_20_good (good_cons m4_21_good (good_cons m4_22_good (good_cons m4_23_good (good_cons m4_24_good (good_cons m4_25_good (good_cons m4_26_good (good_cons m4_27_good (good_cons m4_28_good (good_cons m4_29_good (good_cons m4_30_good (good_cons m4_31_good (good_cons m4_32_good (good_cons m4_33_good (good_cons m4_34_good (good_cons m4_35_good (good_cons m4_36_good (good_cons m4_37_good (good_cons m4_38_good (good_cons m4_39_good (good_cons m4_40_good (good_cons m4_41_good (good_cons m4_42_good (good_cons m4_43_good (good_cons m4_44_good (good_cons m4_45_good (good_cons m4_46_good (good_cons m4_47_good (good_cons m4_48_good (good_cons m4_49_good (good_cons m4_50_good (good_cons m4_51_good (good_cons m4_52_good (good_cons m4_53_good (good_cons m4_54_good (good_cons m4_55_good (good_cons m4_56_good (good_cons m4_57_good (good_cons m4_58_good (good_cons m4_59_good (good_cons m4_60_good (good_cons m4_61_good (good_cons m4_62_good (good_cons m4_63_good (good_cons m4_64_good (good_cons m4_65_good (good_cons m4_66_good (good_cons m4_67_good (good_cons m4_68_good (good_cons m4_69_good (good_cons m4_70_good (good_cons m4_71_good (good_cons m4_72_good (good_cons m4_73_good (good_cons m4_74_good (rfl)))))))))))))))))))))))))))))))))))))))))))))))))))))))))))))))))))))))))))

end Shipped

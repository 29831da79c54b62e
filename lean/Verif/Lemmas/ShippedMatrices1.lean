import Verif.Lemmas.ShippedCheck
/-!
# Checked matrices of the database

Generated by `tools/database.py`.
-/

namespace Shipped

set_option maxRecDepth 100000

def m1_0 : List Int := [6771, -1139, -977, -7818, 15123, 2928, -1244, 1437, 7533, 0, 0, 0]
theorem m1_0_good : goodEntries m1_0 = true := by decide +kernel
def m1_1 : List Int := [6602, -841, -939, -4472, 12458, 2247, -975, 2039, 6148, 0, 0, 0]
theorem m1_1_good : goodEntries m1_1 = true := by decide +kernel
def m1_2 : List Int := [8197, -2000, -1118, -6714, 14335, 2592, -2536, 3178, 8266, 0, 0, 0]
theorem m1_2_good : goodEntries m1_2 = true := by decide +kernel
def m1_3 : List Int := [6444, -904, -893, -4563, 12308, 2535, -903, 2016, 6728, 0, 0, 0]
theorem m1_3_good : goodEntries m1_3 = true := by decide +kernel
def m1_4 : List Int := [6461, -907, -882, -4300, 12184, 2378, -819, 1944, 5931, 0, 0, 0]
theorem m1_4_good : goodEntries m1_4 = true := by decide +kernel
def m1_5 : List Int := [6939, -1016, -866, -4428, 12473, 2177, -1175, 2178, 6162, 0, 0, 0]
theorem m1_5_good : goodEntries m1_5 = true := by decide +kernel
def m1_6 : List Int := [6806, -179, -1020, -8097, 16415, 1687, -3267, 4236, 7690, 0, 0, 0]
theorem m1_6_good : goodEntries m1_6 = true := by decide +kernel
def m1_7 : List Int := [6264, -582, -724, -8312, 15948, 2504, -1744, 1919, 8664, 0, 0, 0]
theorem m1_7_good : goodEntries m1_7 = true := by decide +kernel
def m1_8 : List Int := [6240, -466, -822, -8180, 15825, 2500, -1801, 1938, 8042, 0, 0, 0]
theorem m1_8_good : goodEntries m1_8 = true := by decide +kernel
def m1_9 : List Int := [6291, -540, -976, -8350, 16145, 2311, -1714, 1858, 7326, 0, 0, 0]
theorem m1_9_good : goodEntries m1_9 = true := by decide +kernel
def m1_10 : List Int := [6014, -220, -795, -4109, 12014, 2361, -561, 1824, 5787, 0, 0, 0]
theorem m1_10_good : goodEntries m1_10 = true := by decide +kernel
def m1_11 : List Int := [4374, 3631, -1743, -7520, 15212, 2472, -2892, 3632, 8161, 0, 0, 0]
theorem m1_11_good : goodEntries m1_11 = true := by decide +kernel
def m1_12 : List Int := [6517, -602, -867, -8180, 15926, 2378, -1618, 1771, 7633, 0, 0, 0]
theorem m1_12_good : goodEntries m1_12 = true := by decide +kernel
def m1_13 : List Int := [5859, -211, -930, -8255, 16017, 2353, -1732, 1887, 7448, 0, 0, 0]
theorem m1_13_good : goodEntries m1_13 = true := by decide +kernel
def m1_14 : List Int := [6847, -614, -1014, -4669, 12737, 2139, -1197, 2488, 6846, 0, 0, 0]
theorem m1_14_good : goodEntries m1_14 = true := by decide +kernel
def m1_15 : List Int := [7596, -978, -967, -4808, 12571, 2503, -1398, 2567, 5752, 0, 0, 0]
theorem m1_15_good : goodEntries m1_15 = true := by decide +kernel
def m1_16 : List Int := [6599, -537, -891, -8071, 15783, 2424, -1983, 2234, 7462, 0, 0, 0]
theorem m1_16_good : goodEntries m1_16 = true := by decide +kernel
def m1_17 : List Int := [6257, -303, -1000, -7880, 15621, 2396, -1714, 1904, 7046, 0, 0, 0]
theorem m1_17_good : goodEntries m1_17 = true := by decide +kernel
def m1_18 : List Int := [6018, -617, -965, -8645, 15881, 2975, -1530, 1719, 7642, 0, 0, 0]
theorem m1_18_good : goodEntries m1_18 = true := by decide +kernel
def m1_19 : List Int := [7054, -1501, -990, -8156, 15544, 2812, -1278, 1414, 7796, 0, 0, 0]
theorem m1_19_good : goodEntries m1_19 = true := by decide +kernel
def m1_20 : List Int := [6071, -747, -856, -7653, 15365, 2441, -2025, 2553, 7315, 0, 0, 0]
theorem m1_20_good : goodEntries m1_20 = true := by decide +kernel
def m1_21 : List Int := [5784, -262, -821, -7539, 15064, 2672, -1982, 2681, 7427, 0, 0, 0]
theorem m1_21_good : goodEntries m1_21 = true := by decide +kernel
def m1_22 : List Int := [4763, 712, -646, -6821, 14399, 2640, -1921, 3276, 6561, 0, 0, 0]
theorem m1_22_good : goodEntries m1_22 = true := by decide +kernel
def m1_23 : List Int := [4920, 616, -593, -6493, 13964, 2784, -1774, 3178, 7005, 0, 0, 0]
theorem m1_23_good : goodEntries m1_23 = true := by decide +kernel
def m1_24 : List Int := [6941, -1164, -857, -3825, 11597, 2534, -416, 1540, 6039, 0, 0, 0]
theorem m1_24_good : goodEntries m1_24 = true := by decide +kernel
def m1_25 : List Int := [6347, -479, -972, -8297, 15954, 2480, -1968, 2131, 7649, 0, 0, 0]
theorem m1_25_good : goodEntries m1_25 = true := by decide +kernel
def m1_26 : List Int := [4716, 603, -830, -7798, 15474, 2480, -1496, 1937, 6651, 0, 0, 0]
theorem m1_26_good : goodEntries m1_26 = true := by decide +kernel
def m1_27 : List Int := [6722, -635, -963, -4287, 12460, 2028, -908, 2162, 5668, 0, 0, 0]
theorem m1_27_good : goodEntries m1_27 = true := by decide +kernel
def m1_28 : List Int := [6446, -366, -864, -4436, 12204, 2513, -952, 2496, 6348, 0, 0, 0]
theorem m1_28_good : goodEntries m1_28 = true := by decide +kernel
def m1_29 : List Int := [6250, -711, -808, -5153, 12794, 2636, -1249, 2198, 5610, 0, 0, 0]
theorem m1_29_good : goodEntries m1_29 = true := by decide +kernel
def m1_30 : List Int := [6719, -994, -925, -4408, 12426, 2211, -887, 2129, 6051, 0, 0, 0]
theorem m1_30_good : goodEntries m1_30 = true := by decide +kernel
def m1_31 : List Int := [7034, -804, -1014, -4420, 12564, 2058, -851, 1994, 5758, 0, 0, 0]
theorem m1_31_good : goodEntries m1_31 = true := by decide +kernel
def m1_32 : List Int := [6362, -823, -847, -4426, 12109, 2616, -743, 1857, 5635, 0, 0, 0]
theorem m1_32_good : goodEntries m1_32 = true := by decide +kernel
def m1_33 : List Int := [7377, -742, -998, -4235, 11981, 2549, -673, 1918, 5538, 0, 0, 0]
theorem m1_33_good : goodEntries m1_33 = true := by decide +kernel
def m1_34 : List Int := [6844, -996, -856, -3876, 11761, 2396, -593, 1772, 6198, 0, 0, 0]
theorem m1_34_good : goodEntries m1_34 = true := by decide +kernel
def m1_35 : List Int := [7268, -1082, -969, -4186, 11839, 2663, -825, 2029, 5839, 0, 0, 0]
theorem m1_35_good : goodEntries m1_35 = true := by decide +kernel
def m1_36 : List Int := [7457, -671, -937, -4849, 12495, 2643, -1213, 2354, 5492, 0, 0, 0]
theorem m1_36_good : goodEntries m1_36 = true := by decide +kernel
def m1_37 : List Int := [1301431, -469837, -102652, -200195, 961551, 238645, -16441, 142319, 375979, 0, 0, 0]
theorem m1_37_good : goodEntries m1_37 = true := by decide +kernel
def m1_38 : List Int := [15591, -6402, -1592, -5365, 13198, 2168, -1300, 1824, 5075, 0, 0, 0]
theorem m1_38_good : goodEntries m1_38 = true := by decide +kernel
def m1_39 : List Int := [15265, -6193, -1558, -4125, 12116, 2010, -888, 1639, 5220, 0, 0, 0]
theorem m1_39_good : goodEntries m1_39 = true := by decide +kernel
def m1_40 : List Int := [14201, -5308, -1757, -6087, 14472, 1617, -2191, 3105, 5348, 0, 0, 0]
theorem m1_40_good : goodEntries m1_40 = true := by decide +kernel
def m1_41 : List Int := [13124, -5329, -1390, -3602, 11658, 1944, -1612, 2863, 4885, 0, 0, 0]
theorem m1_41_good : goodEntries m1_41 = true := by decide +kernel
def m1_42 : List Int := [9427, -3036, -959, -2581, 10671, 1911, -1039, 1982, 4430, 0, 0, 0]
theorem m1_42_good : goodEntries m1_42 = true := by decide +kernel
def m1_43 : List Int := [14573, -5482, -1546, -1266, 9799, 1468, -1040, 1912, 3810, 0, 0, 0]
theorem m1_43_good : goodEntries m1_43 = true := by decide +kernel
def m1_44 : List Int := [24542, -10860, -3401, -1490, 11370, -297, 2858, -605, 3225, 0, 0, 0]
theorem m1_44_good : goodEntries m1_44 = true := by decide +kernel
def m1_45 : List Int := [9805, -2689, -1312, -5803, 13064, 3068, -2438, 3075, 8775, 0, 0, 0]
theorem m1_45_good : goodEntries m1_45 = true := by decide +kernel
def m1_46 : List Int := [6188, -1341, -890, -7168, 14489, 2937, -2640, 3228, 8483, 0, 0, 0]
theorem m1_46_good : goodEntries m1_46 = true := by decide +kernel
def m1_47 : List Int := [-4778, 9467, 2172, 4743, -1141, 4344, -5146, 9908, 6077, -1566, 11051, 557]
theorem m1_47_good : goodEntries m1_47 = true := by decide +kernel
def m1_48 : List Int := [11093, -3906, -1028, -5047, 12492, 2879, -1003, 1750, 5561, 0, 0, 0]
theorem m1_48_good : goodEntries m1_48 = true := by decide +kernel
def m1_49 : List Int := [12177, -4817, -1069, -1612, 9864, 2049, -98, 850, 4471, 0, 0, 0]
theorem m1_49_good : goodEntries m1_49 = true := by decide +kernel
def m1_50 : List Int := [13244, -5501, -1248, -1508, 9858, 1935, -270, 1083, 4366, 0, 0, 0]
theorem m1_50_good : goodEntries m1_50 = true := by decide +kernel
def m1_51 : List Int := [7474, -2301, -567, -4056, 11456, 2975, -222, 716, 4181, 0, 0, 0]
theorem m1_51_good : goodEntries m1_51 = true := by decide +kernel
def m1_52 : List Int := [8020, -2687, -682, -3704, 11879, 2052, -965, 1921, 5556, 0, 0, 0]
theorem m1_52_good : goodEntries m1_52 = true := by decide +kernel
def m1_53 : List Int := [7378, -1255, -1043, -4088, 12251, 2048, -876, 1946, 5805, 0, 0, 0]
theorem m1_53_good : goodEntries m1_53 = true := by decide +kernel
def m1_54 : List Int := [9087, -2693, -1049, -6715, 14382, 2537, -2291, 2819, 7790, 0, 0, 0]
theorem m1_54_good : goodEntries m1_54 = true := by decide +kernel
def m1_55 : List Int := [9212, -2781, -1073, -6573, 14189, 2605, -2300, 2844, 7664, 0, 0, 0]
theorem m1_55_good : goodEntries m1_55 = true := by decide +kernel
def m1_56 : List Int := [9701, -3857, -921, -3149, 11537, 1817, -786, 1817, 5147, 0, 0, 0]
theorem m1_56_good : goodEntries m1_56 = true := by decide +kernel
def m1_57 : List Int := [9757, -2872, -933, -5972, 13861, 2301, -1622, 2328, 7212, 0, 0, 0]
theorem m1_57_good : goodEntries m1_57 = true := by decide +kernel
def m1_58 : List Int := [9602, -3823, -937, -2984, 11495, 1675, -407, 1415, 5049, 0, 0, 0]
theorem m1_58_good : goodEntries m1_58 = true := by decide +kernel
def m1_59 : List Int := [9877, -3775, -871, -7613, 14807, 3072, -1448, 1305, 7485, 0, 0, 0]
theorem m1_59_good : goodEntries m1_59 = true := by decide +kernel
def m1_60 : List Int := [7368, -2141, -598, -5621, 13254, 2625, -1418, 1696, 5743, 0, 0, 0]
theorem m1_60_good : goodEntries m1_60 = true := by decide +kernel
def m1_61 : List Int := [6400, -480, -888, -5294, 13416, 2047, -1296, 2203, 6137, 0, 0, 0]
theorem m1_61_good : goodEntries m1_61 = true := by decide +kernel
def m1_62 : List Int := [8532, -701, -1167, -4095, 11879, 2508, -797, 2424, 7010, 0, 0, 0]
theorem m1_62_good : goodEntries m1_62 = true := by decide +kernel
def m1_63 : List Int := [10062, -3522, -999, -7643, 15117, 2730, -765, 817, 7323, 0, 0, 0]
theorem m1_63_good : goodEntries m1_63 = true := by decide +kernel
def m1_64 : List Int := [-4155, 9818, 1529, 3939, -25, 4522, -5521, 9870, 6610, -2238, 10873, 1342]
theorem m1_64_good : goodEntries m1_64 = true := by decide +kernel
def m1_65 : List Int := [7968, -2565, -636, -2873, 10697, 2513, 180, 667, 4211, 0, 0, 0]
theorem m1_65_good : goodEntries m1_65 = true := by decide +kernel
def m1_66 : List Int := [8039, -2643, -654, -3783, 11230, 2930, -206, 690, 4194, 0, 0, 0]
theorem m1_66_good : goodEntries m1_66 = true := by decide +kernel
def m1_67 : List Int := [6961, -1685, -695, -4625, 12945, 1836, -1114, 2152, 5518, 0, 0, 0]
theorem m1_67_good : goodEntries m1_67 = true := by decide +kernel
def m1_68 : List Int := [10566, -3652, -1129, -6552, 14662, 2006, -2197, 2581, 7670, 0, 0, 0]
theorem m1_68_good : goodEntries m1_68 = true := by decide +kernel
def m1_69 : List Int := [14062, -5199, -1446, -4712, 12470, 2243, -1286, 2028, 4836, 0, 0, 0]
theorem m1_69_good : goodEntries m1_69 = true := by decide +kernel
def m1_70 : List Int := [8510, -2487, -940, -6869, 14231, 2900, -2318, 2829, 9013, 0, 0, 0]
theorem m1_70_good : goodEntries m1_70 = true := by decide +kernel
def m1_71 : List Int := [8163, -2333, -955, -6682, 14174, 2751, -2077, 2597, 8041, 0, 0, 0]
theorem m1_71_good : goodEntries m1_71 = true := by decide +kernel
def m1_72 : List Int := [8882, -2571, -863, -6348, 14234, 2288, -1516, 2172, 6569, 0, 0, 0]
theorem m1_72_good : goodEntries m1_72 = true := by decide +kernel
def m1_73 : List Int := [8795, -2482, -797, -7804, 15403, 2573, -1422, 1996, 7082, 0, 0, 0]
theorem m1_73_good : goodEntries m1_73 = true := by decide +kernel
def m1_74 : List Int := [9976, -3810, -832, -7115, 14463, 2906, -901, 989, 7889, 0, 0, 0]
theorem m1_74_good : goodEntries m1_74 = true := by decide +kernel
def m1_75 : List Int := [12374, -5016, -1049, -1677, 9902, 2078, -83, 852, 4683, 0, 0, 0]
theorem m1_75_good : goodEntries m1_75 = true := by decide +kernel
def m1_76 : List Int := [14134, -5576, -1527, -1991, 10719, 1273, -1158, 1929, 3581, 0, 0, 0]
theorem m1_76_good : goodEntries m1_76 = true := by decide +kernel
def m1_77 : List Int := [6578, -259, -502, -5974, 13030, 3309, -308, 1058, 4970, 0, 0, 0]
theorem m1_77_good : goodEntries m1_77 = true := by decide +kernel
def m1_78 : List Int := [12432, -4753, -1247, -2110, 10691, 1629, -412, 1623, 4926, 0, 0, 0]
theorem m1_78_good : goodEntries m1_78 = true := by decide +kernel
def m1_79 : List Int := [13161, -5451, -1344, -1989, 10654, 1531, -47, 1271, 4955, 0, 0, 0]
theorem m1_79_good : goodEntries m1_79 = true := by decide +kernel

def matrices1 : List (List Int) := [m1_0, m1_1, m1_2, m1_3, m1_4, m1_5, m1_6, m1_7, m1_8, m1_9, m1_10, m1_11, m1_12, m1_13, m1_14, m1_15, m1_16, m1_17, m1_18, m1_19, m1_20, m1_21, m1_22, m1_23, m1_24, m1_25, m1_26, m1_27, m1_28, m1_29, m1_30, m1_31, m1_32, m1_33, m1_34, m1_35, m1_36, m1_37, m1_38, m1_39, m1_40, m1_41, m1_42, m1_43, m1_44, m1_45, m1_46, m1_47, m1_48, m1_49, m1_50, m1_51, m1_52, m1_53, m1_54, m1_55, m1_56, m1_57, m1_58, m1_59, m1_60, m1_61, m1_62, m1_63, m1_64, m1_65, m1_66, m1_67, m1_68, m1_69, m1_70, m1_71, m1_72, m1_73, m1_74, m1_75, m1_76, m1_77, m1_78, m1_79]

theorem matrices1_good : matrices1.all goodEntries = true := good_cons m1_0_good (good_cons m1_1_good (good_cons m1_2_good (good_cons m1_3_good (good_cons m1_4_good (good_cons m1_5_good (good_cons m1_6_good (good_cons m1_7_good (good_cons m1_8_good (good_cons m1_9_good (good_cons m1_10_good (good_cons m1_11_good (good_cons m1_12_good (good_cons m1_13_good (good_cons m1_14_good (good_cons m1_15_good (good_cons m1_16_good (good_cons m1_17_good (good_cons m1_18_good (good_cons m1_19_good (good_cons m1_20_good (good_cons m1_21_good (good_cons m1_22_good (good_cons m1_23_good (good_cons m1_24_good (good_cons m1_25_good (good_cons m1_26_good (good_cons m1_27_good (good_cons m1_28_good (good_cons m1_29_good (good_cons m1_30_good (good_cons m1_31_good (good_cons m1_32_good (good_cons m1_33_good (good_cons m1_34_good (good_cons m1_35_good (good_cons m1_36_good (good_cons m1_37_good (good_cons m1_38_good (good_cons m1_39_good (good_cons m1_40_good (good_cons m1_41_good (good_cons m1_42_good (good_cons m1_43_good (good_cons m1_44_good (good_cons m1_45_good (good_cons m1_46_good (good_cons m1_47_good (good_cons m1_48_good (good_cons m1_49_good (good_cons m1_50_good (good_cons m1_51_good (good_cons m1_52_good (good_cons m1_53_good (good_cons m1_54_good (good_cons m1_55_good (good_cons m1_56_good (good_cons m1_57_good (good_cons m1_58_good (good_cons m1_59_good (good_cons m1_60_good (good_cons m1_61_good (good_cons m1_62_good (good_cons m1_63_good (good_cons m1_64_good (good_cons m1_65_good (good_cons m1_66_good (good_cons m1_67_good (good_cons m1_68_good (good_cons m1_69_good (good_cons m1_70_good (good_cons m1_71_good (good_cons m1_72_good (good_cons m1_73_good (good_cons m1_74_good (good_cons m1_75_good (good_cons m1_76_good (good_cons m1_77_good (good_cons m1_78_good (good_cons m1_79_good (rfl))))))))))))))))))))))))))))))))))))))))))))))))))))))))))))))))))))))))))))))))

end Shipped

import Verif.Lemmas.ShippedCheck
/-!
# Checked matrices of the database

Generated by `tools/database.py`.
-/

namespace Shipped

set_option maxRecDepth 100000

def m3_0 : List Int := [6588, -1305, -693, -3277, 10987, 2634, -355, 2016, 5106, 0, 0, 0]
theorem m3_0_good : goodEntries m3_0 = true := by decide +kernel
def m3_1 : List Int := [8994, -2667, -865, -4594, 12324, 2552, -699, 1786, 6260, 0, 0, 0]
theorem m3_1_good : goodEntries m3_1 = true := by decide +kernel
def m3_2 : List Int := [6612, -1342, -618, -3338, 11055, 2623, -174, 1792, 5075, 0, 0, 0]
theorem m3_2_good : goodEntries m3_2 = true := by decide +kernel
def m3_3 : List Int := [5958, -1559, -571, -4021, 11453, 2939, -634, 1548, 5087, 0, 0, 0]
theorem m3_3_good : goodEntries m3_3 = true := by decide +kernel
def m3_4 : List Int := [14387, -6014, -1299, -1357, 9975, 1616, 467, 1047, 4744, 0, 0, 0]
theorem m3_4_good : goodEntries m3_4 = true := by decide +kernel
def m3_5 : List Int := [7559, -2130, -965, -7611, 15713, 1972, -2478, 3042, 8290, 0, 0, 0]
theorem m3_5_good : goodEntries m3_5 = true := by decide +kernel
def m3_6 : List Int := [5902, -933, -782, -8983, 16719, 2354, -1402, 1455, 6464, 0, 0, 0]
theorem m3_6_good : goodEntries m3_6 = true := by decide +kernel
def m3_7 : List Int := [7702, -2245, -975, -9114, 17242, 1875, -2679, 3055, 8521, 0, 0, 0]
theorem m3_7_good : goodEntries m3_7 = true := by decide +kernel
def m3_8 : List Int := [8367, -2248, -763, -8758, 16447, 2422, -1527, 1550, 8053, 0, 0, 0]
theorem m3_8_good : goodEntries m3_8 = true := by decide +kernel
def m3_9 : List Int := [10231, -2769, -1255, -8301, 15900, 2552, -797, 680, 7148, 0, 0, 0]
theorem m3_9_good : goodEntries m3_9 = true := by decide +kernel
def m3_10 : List Int := [8139, -2171, -663, -8747, 16541, 2295, -1925, 2008, 8093, 0, 0, 0]
theorem m3_10_good : goodEntries m3_10 = true := by decide +kernel
def m3_11 : List Int := [9030, -1992, -715, -8465, 16302, 2255, -2689, 3217, 8069, 0, 0, 0]
theorem m3_11_good : goodEntries m3_11 = true := by decide +kernel
def m3_12 : List Int := [8736, -2458, -935, -9075, 16894, 2251, -1354, 1242, 8263, 0, 0, 0]
theorem m3_12_good : goodEntries m3_12 = true := by decide +kernel
def m3_13 : List Int := [9030, -1992, -716, -8465, 16302, 2256, -2689, 3217, 8069, 0, 0, 0]
theorem m3_13_good : goodEntries m3_13 = true := by decide +kernel
def m3_14 : List Int := [7911, -2167, -813, -5327, 13150, 2408, -1288, 2483, 7968, 0, 0, 0]
theorem m3_14_good : goodEntries m3_14 = true := by decide +kernel
def m3_15 : List Int := [7013, -1408, -635, -5268, 12902, 2640, -1470, 2801, 7379, 0, 0, 0]
theorem m3_15_good : goodEntries m3_15 = true := by decide +kernel
def m3_16 : List Int := [6988, -1384, -714, -5631, 13410, 2447, -1485, 2204, 7318, 0, 0, 0]
theorem m3_16_good : goodEntries m3_16 = true := by decide +kernel
def m3_17 : List Int := [7171, -1986, -648, -8085, 15555, 2718, -2170, 2512, 7457, 0, 0, 0]
theorem m3_17_good : goodEntries m3_17 = true := by decide +kernel
def m3_18 : List Int := [8598, -2848, -857, -5618, 13606, 2195, -1002, 1773, 7137, 0, 0, 0]
theorem m3_18_good : goodEntries m3_18 = true := by decide +kernel
def m3_19 : List Int := [6992, -1668, -806, -8138, 15748, 2543, -874, 850, 7897, 0, 0, 0]
theorem m3_19_good : goodEntries m3_19 = true := by decide +kernel
def m3_20 : List Int := [8819, -2543, -911, -9025, 16928, 2151, -1329, 1213, 8449, 0, 0, 0]
theorem m3_20_good : goodEntries m3_20 = true := by decide +kernel
def m3_21 : List Int := [9200, -3522, -992, -5755, 13803, 2117, -753, 1486, 6338, 0, 0, 0]
theorem m3_21_good : goodEntries m3_21 = true := by decide +kernel
def m3_22 : List Int := [7732, -2422, -789, -8238, 15884, 2498, -859, 783, 7330, 0, 0, 0]
theorem m3_22_good : goodEntries m3_22 = true := by decide +kernel
def m3_23 : List Int := [8813, -3210, -1036, -4703, 12868, 2021, -1054, 1940, 6129, 0, 0, 0]
theorem m3_23_good : goodEntries m3_23 = true := by decide +kernel
def m3_24 : List Int := [7309, -1403, -519, -8474, 16008, 2622, -2433, 2826, 8064, 0, 0, 0]
theorem m3_24_good : goodEntries m3_24 = true := by decide +kernel
def m3_25 : List Int := [8198, -2239, -724, -4871, 12389, 2798, -1043, 2050, 7181, 0, 0, 0]
theorem m3_25_good : goodEntries m3_25 = true := by decide +kernel
def m3_26 : List Int := [8322, -3112, -1047, -6367, 14342, 2179, -988, 1638, 6394, 0, 0, 0]
theorem m3_26_good : goodEntries m3_26 = true := by decide +kernel
def m3_27 : List Int := [8821, -2938, -785, -4178, 12142, 2287, -824, 1651, 6860, 0, 0, 0]
theorem m3_27_good : goodEntries m3_27 = true := by decide +kernel
def m3_28 : List Int := [8178, -2245, -609, -4857, 12394, 2776, -1207, 2086, 7298, 0, 0, 0]
theorem m3_28_good : goodEntries m3_28 = true := by decide +kernel
def m3_29 : List Int := [9020, -2890, -715, -4535, 12436, 2348, -934, 1919, 7086, 0, 0, 0]
theorem m3_29_good : goodEntries m3_29 = true := by decide +kernel
def m3_30 : List Int := [8629, -2410, -883, -9055, 16940, 2171, -1490, 1363, 8520, 0, 0, 0]
theorem m3_30_good : goodEntries m3_30 = true := by decide +kernel
def m3_31 : List Int := [7866, -2108, -555, -4869, 12483, 2681, -1176, 2069, 7501, 0, 0, 0]
theorem m3_31_good : goodEntries m3_31 = true := by decide +kernel
def m3_32 : List Int := [9369, -3195, -791, -4488, 12430, 2301, -893, 1796, 6872, 0, 0, 0]
theorem m3_32_good : goodEntries m3_32 = true := by decide +kernel
def m3_33 : List Int := [7309, -1403, -519, -8474, 16008, 2622, -2434, 2826, 8064, 0, 0, 0]
theorem m3_33_good : goodEntries m3_33 = true := by decide +kernel
def m3_34 : List Int := [9349, -2987, -1001, -7919, 15766, 2266, -2098, 2680, 6839, 0, 0, 0]
theorem m3_34_good : goodEntries m3_34 = true := by decide +kernel
def m3_35 : List Int := [-5368, 11478, 2368, 5537, -113, 3148, -4969, 10021, 5782, 778, 9028, 211]
theorem m3_35_good : goodEntries m3_35 = true := by decide +kernel
def m3_36 : List Int := [10321, -3920, -931, -2750, 11146, 1824, -442, 1545, 5539, 0, 0, 0]
theorem m3_36_good : goodEntries m3_36 = true := by decide +kernel
def m3_37 : List Int := [9698, -3367, -914, -4706, 12584, 2368, -837, 968, 5801, 0, 0, 0]
theorem m3_37_good : goodEntries m3_37 = true := by decide +kernel
def m3_38 : List Int := [11432, -3679, -1111, -3169, 11239, 2202, -791, 1380, 4455, 0, 0, 0]
theorem m3_38_good : goodEntries m3_38 = true := by decide +kernel
def m3_39 : List Int := [11053, -4269, -1024, -1976, 10182, 2088, -526, 1263, 4469, 0, 0, 0]
theorem m3_39_good : goodEntries m3_39 = true := by decide +kernel
def m3_40 : List Int := [10508, -3124, -1273, -6079, 14294, 1901, -1653, 2306, 6237, 0, 0, 0]
theorem m3_40_good : goodEntries m3_40 = true := by decide +kernel
def m3_41 : List Int := [10445, -3362, -1307, -7662, 15690, 2058, -1135, 1176, 7602, 0, 0, 0]
theorem m3_41_good : goodEntries m3_41 = true := by decide +kernel
def m3_42 : List Int := [10252, -3531, -1095, -7114, 14850, 2436, -1451, 1723, 6365, 0, 0, 0]
theorem m3_42_good : goodEntries m3_42 = true := by decide +kernel
def m3_43 : List Int := [8606, -2509, -1014, -8238, 15714, 2703, -942, 979, 7760, 0, 0, 0]
theorem m3_43_good : goodEntries m3_43 = true := by decide +kernel
def m3_44 : List Int := [11846, -4767, -945, -7027, 15878, 1089, -2699, 4122, 8311, 0, 0, 0]
theorem m3_44_good : goodEntries m3_44 = true := by decide +kernel
def m3_45 : List Int := [13173, -4732, -1499, -5807, 14036, 1895, -2045, 2452, 7142, 0, 0, 0]
theorem m3_45_good : goodEntries m3_45 = true := by decide +kernel
def m3_46 : List Int := [9487, -2875, -1115, -7533, 15606, 2010, -1618, 2100, 7389, 0, 0, 0]
theorem m3_46_good : goodEntries m3_46 = true := by decide +kernel
def m3_47 : List Int := [8144, -1861, -1111, -7763, 15894, 1929, -1865, 2542, 7607, 0, 0, 0]
theorem m3_47_good : goodEntries m3_47 = true := by decide +kernel
def m3_48 : List Int := [7828, -1761, -348, -5788, 14071, 1830, -2853, 4518, 6557, 0, 0, 0]
theorem m3_48_good : goodEntries m3_48 = true := by decide +kernel
def m3_49 : List Int := [8961, -2473, -1084, -7979, 15990, 2067, -2319, 3035, 8249, 0, 0, 0]
theorem m3_49_good : goodEntries m3_49 = true := by decide +kernel
def m3_50 : List Int := [8856, -2582, -1026, -7761, 15766, 2082, -2009, 2575, 7469, 0, 0, 0]
theorem m3_50_good : goodEntries m3_50 = true := by decide +kernel
def m3_51 : List Int := [8746, -2425, -1095, -7594, 15612, 2073, -1780, 2309, 7416, 0, 0, 0]
theorem m3_51_good : goodEntries m3_51 = true := by decide +kernel
def m3_52 : List Int := [8745, -2425, -1095, -7594, 15613, 2073, -1780, 2309, 7416, 0, 0, 0]
theorem m3_52_good : goodEntries m3_52 = true := by decide +kernel
def m3_53 : List Int := [11200, -3783, -1325, -4576, 12593, 2206, -695, 1742, 7504, 0, 0, 0]
theorem m3_53_good : goodEntries m3_53 = true := by decide +kernel
def m3_54 : List Int := [8136, -1968, -299, -5481, 13742, 1871, -2556, 4205, 6630, 0, 0, 0]
theorem m3_54_good : goodEntries m3_54 = true := by decide +kernel
def m3_55 : List Int := [8785, -2529, -1033, -7639, 15624, 2112, -1783, 2300, 7817, 0, 0, 0]
theorem m3_55_good : goodEntries m3_55 = true := by decide +kernel
def m3_56 : List Int := [8344, -2322, -1020, -7596, 15635, 2048, -1748, 2269, 7287, 0, 0, 0]
theorem m3_56_good : goodEntries m3_56 = true := by decide +kernel
def m3_57 : List Int := [8453, -2198, -1092, -7609, 15681, 2008, -1725, 2337, 7824, 0, 0, 0]
theorem m3_57_good : goodEntries m3_57 = true := by decide +kernel
def m3_58 : List Int := [7687, -1984, -606, -4327, 11928, 2721, -1381, 2339, 6452, 0, 0, 0]
theorem m3_58_good : goodEntries m3_58 = true := by decide +kernel
def m3_59 : List Int := [8380, -2630, -639, -2887, 10725, 2496, -627, 1427, 5438, 0, 0, 0]
theorem m3_59_good : goodEntries m3_59 = true := by decide +kernel
def m3_60 : List Int := [9383, -3170, -763, -2457, 10702, 2020, -384, 1236, 5552, 0, 0, 0]
theorem m3_60_good : goodEntries m3_60 = true := by decide +kernel
def m3_61 : List Int := [9422, -3258, -711, -2655, 10898, 2015, -512, 1354, 5512, 0, 0, 0]
theorem m3_61_good : goodEntries m3_61 = true := by decide +kernel
def m3_62 : List Int := [8343, -2050, -1021, -7715, 15705, 2103, -1831, 2380, 8235, 0, 0, 0]
theorem m3_62_good : goodEntries m3_62 = true := by decide +kernel
def m3_63 : List Int := [7575, -2159, -571, -3722, 11341, 2725, -1434, 2819, 6271, 0, 0, 0]
theorem m3_63_good : goodEntries m3_63 = true := by decide +kernel
def m3_64 : List Int := [11408, -4289, -1215, -4286, 12385, 2118, -387, 1467, 7787, 0, 0, 0]
theorem m3_64_good : goodEntries m3_64 = true := by decide +kernel
def m3_65 : List Int := [9197, -3190, -659, -2606, 10830, 2039, -458, 1250, 5458, 0, 0, 0]
theorem m3_65_good : goodEntries m3_65 = true := by decide +kernel
def m3_66 : List Int := [9476, -3182, -765, -2613, 10958, 1893, -449, 1315, 5268, 0, 0, 0]
theorem m3_66_good : goodEntries m3_66 = true := by decide +kernel
def m3_67 : List Int := [10156, -3425, -1077, -2611, 11177, 1624, -385, 1592, 5080, 0, 0, 0]
theorem m3_67_good : goodEntries m3_67 = true := by decide +kernel
def m3_68 : List Int := [11766, -4445, -1067, -6901, 14421, 2707, -1029, 1217, 7572, 0, 0, 0]
theorem m3_68_good : goodEntries m3_68 = true := by decide +kernel
def m3_69 : List Int := [12078, -4836, -1069, -6671, 14306, 2578, -786, 939, 7418, 0, 0, 0]
theorem m3_69_good : goodEntries m3_69 = true := by decide +kernel
def m3_70 : List Int := [9493, -3415, -666, -5211, 12334, 3260, -1548, 2262, 6482, 0, 0, 0]
theorem m3_70_good : goodEntries m3_70 = true := by decide +kernel
def m3_71 : List Int := [8360, -2420, -880, -3928, 12353, 1739, -1381, 2416, 5173, 0, 0, 0]
theorem m3_71_good : goodEntries m3_71 = true := by decide +kernel
def m3_72 : List Int := [11426, -4159, -1126, -2066, 10678, 1593, -120, 1327, 4998, 0, 0, 0]
theorem m3_72_good : goodEntries m3_72 = true := by decide +kernel
def m3_73 : List Int := [10901, -4095, -1074, -1141, 9208, 2293, -62, 1417, 5158, 0, 0, 0]
theorem m3_73_good : goodEntries m3_73 = true := by decide +kernel
def m3_74 : List Int := [9777, -3483, -925, -2886, 11297, 1800, -602, 1663, 5134, 0, 0, 0]
theorem m3_74_good : goodEntries m3_74 = true := by decide +kernel
def m3_75 : List Int := [8983, -2942, -963, -6556, 14476, 2237, -2426, 2887, 8014, 0, 0, 0]
theorem m3_75_good : goodEntries m3_75 = true := by decide +kernel
def m3_76 : List Int := [10284, -3283, -1086, -7957, 15762, 2316, -829, 882, 6644, 0, 0, 0]
theorem m3_76_good : goodEntries m3_76 = true := by decide +kernel
def m3_77 : List Int := [9144, -2777, -998, -6676, 14556, 2281, -2470, 3019, 7744, 0, 0, 0]
theorem m3_77_good : goodEntries m3_77 = true := by decide +kernel
def m3_78 : List Int := [10239, -3104, -1099, -8037, 15727, 2451, -927, 925, 6871, 0, 0, 0]
theorem m3_78_good : goodEntries m3_78 = true := by decide +kernel
def m3_79 : List Int := [11368, -3894, -1242, -6521, 14358, 2339, -2475, 3056, 7285, 0, 0, 0]
theorem m3_79_good : goodEntries m3_79 = true := by decide +kernel
def m3_80 : List Int := [10880, -3638, -1186, -6496, 14313, 2364, -2456, 3092, 7485, 0, 0, 0]
theorem m3_80_good : goodEntries m3_80 = true := by decide +kernel
def m3_81 : List Int := [9274, -2547, -1167, -8220, 16323, 1943, -2273, 2720, 8340, 0, 0, 0]
theorem m3_81_good : goodEntries m3_81 = true := by decide +kernel
def m3_82 : List Int := [9097, -2726, -1053, -8073, 15506, 2762, -966, 981, 7763, 0, 0, 0]
theorem m3_82_good : goodEntries m3_82 = true := by decide +kernel
def m3_83 : List Int := [8560, -2487, -986, -8112, 15535, 2771, -1209, 1324, 7743, 0, 0, 0]
theorem m3_83_good : goodEntries m3_83 = true := by decide +kernel
def m3_84 : List Int := [3984, 0, 0, 0, 10000, 0, 0, 0, 7666, 0, 0, 0]
theorem m3_84_good : goodEntries m3_84 = true := by decide +kernel
def m3_85 : List Int := [4516, -245, -37, -7020, 14976, 2173, -3206, 4671, 7087, 0, 0, 0]
theorem m3_85_good : goodEntries m3_85 = true := by decide +kernel
def m3_86 : List Int := [8035, 435, -962, -6001, 13872, 2320, -1159, 3065, 5434, 0, 0, 0]
theorem m3_86_good : goodEntries m3_86 = true := by decide +kernel

def matrices3 : List (List Int) := [m3_0, m3_1, m3_2, m3_3, m3_4, m3_5, m3_6, m3_7, m3_8, m3_9, m3_10, m3_11, m3_12, m3_13, m3_14, m3_15, m3_16, m3_17, m3_18, m3_19, m3_20, m3_21, m3_22, m3_23, m3_24, m3_25, m3_26, m3_27, m3_28, m3_29, m3_30, m3_31, m3_32, m3_33, m3_34, m3_35, m3_36, m3_37, m3_38, m3_39, m3_40, m3_41, m3_42, m3_43, m3_44, m3_45, m3_46, m3_47, m3_48, m3_49, m3_50, m3_51, m3_52, m3_53, m3_54, m3_55, m3_56, m3_57, m3_58, m3_59, m3_60, m3_61, m3_62, m3_63, m3_64, m3_65, m3_66, m3_67, m3_68, m3_69, m3_70, m3_71, m3_72, m3_73, m3_74, m3_75, m3_76, m3_77, m3_78, m3_79, m3_80, m3_81, m3_82, m3_83, m3_84, m3_85, m3_86]

theorem matrices3_good : matrices3.all goodEntries = true := good_cons m3_0_good (good_cons m3_1_good (good_cons m3_2_good (good_cons m3_3_good (good_cons m3_4_good (good_cons m3_5_good (good_cons m3_6_good (good_cons m3_7_good (good_cons m3_8_good (good_cons m3_9_good (good_cons m3_10_good (good_cons m3_11_good (good_cons m3_12_good (good_cons m3_13_good (good_cons m3_14_good (good_cons m3_15_good (good_cons m3_16_good (good_cons m3_17_good (good_cons m3_18_good (good_cons m3_19_good (good_cons m3_20_good (good_cons m3_21_good (good_cons m3_22_good (good_cons m3_23_good (good_cons m3_24_good (good_cons m3_25_good (good_cons m3_26_good (good_cons m3_27_good (good_cons m3_28_good (good_cons m3_29_good (good_cons m3_30_good (good_cons m3_31_good (good_cons m3_32_good (good_cons m3_33_good (good_cons m3_34_good (good_cons m3_35_good (good_cons m3_36_good (good_cons m3_37_good (good_cons m3_38_good (good_cons m3_39_good (good_cons m3_40_good (good_cons m3_41_good (good_cons m3_42_good (good_cons m3_43_good (good_cons m3_44_good (good_cons m3_45_good (good_cons m3_46_good (good_cons m3_47_good (good_cons m3_48_good (good_cons m3_49_good (good_cons m3_50_good (good_cons m3_51_good (good_cons m3_52_good (good_cons m3_53_good (good_cons m3_54_good (good_cons m3_55_good (good_cons m3_56_good (good_cons m3_57_good (good_cons m3_58_good (good_cons m3_59_good (good_cons m3_60_good (good_cons m3_61_good (good_cons m3_62_good (good_cons m3_63_good (good_cons m3_64_good (good_cons m3_65_good (good_cons m3_66_good (good_cons m3_67_good (good_cons m3_68_good (good_cons m3_69_good (good_cons m3_70_good (good_cons m3_71_good (good_cons m3_72_good (good_cons m3_73_good (good_cons m3_74_good (good_cons m3_75_good (good_cons m3_76_good (good_cons m3_77_good (good_cons m3_78_good (good_cons m3_79_good (good_cons m3_80_good (good_cons m3_81_good (good_cons m3_82_good (good_cons m3_83_good (good_cons m3_84_good (good_cons m3_85_good (good_cons m3_86_good (rfl)))))))))))))))))))))))))))))))))))))))))))))))))))))))))))))))))))))))))))))))))))))))

end Shipped

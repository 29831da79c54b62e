import Verif.Model.TomlText
/-!
# The camera database

The files `data/cameras/*/*.toml`, verbatim. Generated by `tools/database.py`.
-/

namespace Model.Shipped

/-- `data/cameras/arri`: `alexa.toml` -/
def arri : List Nat := [
  text! r#"make = "ARRI"
model = "ALEXA"
clean_make = "ARRI"
clean_model = "ALEXA"
blackpoint = 0
whitepoint = 4095
# we don't have a matrix so use sRGB
color_matrix = [32404542, -15371385, -4985314, -9692660, 18760108, 415560, 556434, -2040259, 10572252]
color_pattern = "RGGB"
crops = [0,0,0,0]
"#]

/-- `data/cameras/canon`: `1000d.toml`, `100d.toml`, `10d.toml`, `1100d.toml`, `1200d.toml`, `1300d.toml`, `1d.toml`, `1dm2.toml`, `1dm2n.toml`, `1dm3.toml`, `1dm4.toml`, `1ds.toml`, `1dsm2.toml`, `1dsm3.toml`, `1dx.toml`, `1dx_m2.toml`, `20d.toml`, `300d.toml`, `30d.toml`, `350d.toml`, `400d.toml`, `40d.toml`, `450d.toml`, `500d.toml`, `50d.toml`, `550d.toml`, `5d.toml`, `5dm2.toml`, `5dm3.toml`, `5dm4.toml`, `5ds.toml`, `5dsr.toml`, `600d.toml`, `60d.toml`, `650d.toml`, `6d.toml`, `700d.toml`, `70d.toml`, `750d.toml`, `760d.toml`, `77d.toml`, `7d.toml`, `7dmk2.toml`, `80d.toml`, `a3300is.toml`, `a610.toml`, `a620.toml`, `a630.toml`, `a640.toml`, `a650.toml`, `a720is.toml`, `d10.toml`, `d2000.toml`, `d30.toml`, `d60.toml`, `g1.toml`, `g10.toml`, `g11.toml`, `g12.toml`, `g15.toml`, `g16.toml`, `g1x.toml`, `g1xm2.toml`, `g2.toml`, `g3.toml`, `g3x.toml`, `g5.toml`, `g5x.toml`, `g6.toml`, `g7x.toml`, `g7x_crw.toml`, `g7xm2.toml`, `g9.toml`, `m.toml`, `m2.toml`, `m3.toml`, `m5.toml`, `m6.toml`, `pro1.toml`, `pro70.toml`, `s100.toml`, `s100_crw.toml`, `s110.toml`, `s120.toml`, `s30.toml`, `s3is.toml`, `s40.toml`, `s45.toml`, `s50.toml`, `s60.toml`, `s70.toml`, `s90.toml`, `sl1.toml`, `sx110is.toml`, `sx1is.toml`, `sx40hs.toml`, `sx50.toml`, `sx60hs.toml`, `t1i.toml`, `t2i.toml`, `t3.toml`, `t3i.toml`, `t5.toml`, `t5i.toml`, `t6.toml`, `t6i.toml` -/
def canon : List Nat := [
  text! r#"make = "Canon"
model = "Canon EOS 1000D"
clean_make = "Canon"
clean_model = "EOS 1000D"

model_aliases = [
  ["Canon EOS DIGITAL REBEL XS", "Rebel XS"],
  ["Canon EOS REBEL XS", "Rebel XS"],
  ["Canon EOS Kiss Digital F", "Kiss F"],
  ["Canon EOS Kiss F", "Kiss F"],
]

blackpoint = 0
whitepoint = 3600
color_matrix = [6771, -1139, -977, -7818, 15123, 2928, -1244, 1437, 7533]
color_pattern = "RGGB"
crops = [18,0,2,42]
blackareav = [0, 41]
"#,
  text! r#"make = "Canon"
model = "Canon EOS 100D"
clean_make = "Canon"
clean_model = "EOS 100D"

model_aliases = [
  ["Canon EOS DIGITAL REBEL SL1", "Rebel SL1"],
  ["Canon EOS REBEL SL1", "Rebel SL1"],
  ["Canon EOS Kiss Digital X7", "Kiss X7"],
  ["Canon EOS Kiss X7", "Kiss X7"],
]

blackpoint = 2047
whitepoint = 12277
color_matrix = [6602, -841, -939, -4472, 12458, 2247, -975, 2039, 6148]
color_pattern = "RGGB"
crops = [52,0,0,72]
blackareav = [0, 72]
blackareah = [8, 44]
"#,
  text! r#"make = "Canon"
model = "Canon EOS 10D"
clean_make = "Canon"
clean_model = "EOS 10D"
blackpoint = 124
whitepoint = 4000
color_matrix = [8197, -2000, -1118, -6714, 14335, 2592, -2536, 3178, 8266]
color_pattern = "RGGB"
crops = [12,0,0,64]
wb_offset = 1
"#,
  text! r#"make = "Canon"
model = "Canon EOS 1100D"
clean_make = "Canon"
clean_model = "EOS 1100D"

model_aliases = [
  ["Canon EOS DIGITAL REBEL T3", "Rebel T3"],
  ["Canon EOS REBEL T3", "Rebel T3"],
  ["Canon EOS Kiss Digital X50", "Kiss X50"],
  ["Canon EOS Kiss X50", "Kiss X50"],
]

blackpoint = 2046
whitepoint = 15000
color_matrix = [6444, -904, -893, -4563, 12308, 2535, -903, 2016, 6728]
color_pattern = "RGGB"
crops = [20,0,0,64]
blackareav = [0, 58]
"#,
  text! r#"make = "Canon"
model = "Canon EOS 1200D"
clean_make = "Canon"
clean_model = "EOS 1200D"

model_aliases = [
  ["Canon EOS DIGITAL REBEL T5", "Rebel T5"],
  ["Canon EOS REBEL T5", "Rebel T5"],
  ["Canon EOS Kiss Digital X70", "Kiss X70"],
  ["Canon EOS Kiss X70", "Kiss X70"],
]

blackpoint = 2046
whitepoint = 12279
color_matrix = [6461, -907, -882, -4300, 12184, 2378, -819, 1944, 5931]
color_pattern = "GBRG"
crops = [54,0,0,146]
blackareav = [0, 140]
blackareah = [4, 44]
"#,
  text! r#"make = "Canon"
model = "Canon EOS 1300D"
clean_make = "Canon"
clean_model = "Canon EOS 1300D"

model_aliases = [
  ["Canon EOS DIGITAL REBEL T6", "Rebel T6"],
  ["Canon EOS REBEL T6", "Rebel T6"],
  ["Canon EOS Kiss Digital X80", "Kiss X80"],
  ["Canon EOS Kiss X80", "Kiss X80"],
]

blackpoint = 2046
whitepoint = 12279
color_matrix = [6939, -1016, -866, -4428, 12473, 2177, -1175, 2178, 6162]
color_pattern = "GRBG"
crops = [50,0,0,142]
blackareav = [0,140]
"#,
  text! r#"make = "Canon"
model = "Canon EOS-1D"
clean_make = "Canon"
clean_model = "EOS-1D"
blackpoint = 0
whitepoint = 3588
color_matrix = [6806, -179, -1020, -8097, 16415, 1687, -3267, 4236, 7690]
color_pattern = "GRBG"
crops = [0,0,0,0]
hints = ["double_line"]
"#,
  text! r#"make = "Canon"
model = "Canon EOS-1D Mark II"
clean_make = "Canon"
clean_model = "EOS-1D Mark II"
blackpoint = 0
whitepoint = 3700
color_matrix = [6264, -582, -724, -8312, 15948, 2504, -1744, 1919, 8664]
color_pattern = "RGGB"
crops = [12,0,0,74]
blackareav = [0, 72]
wb_offset = 34
"#,
  text! r#"make = "Canon"
model = "Canon EOS-1D Mark II N"
clean_make = "Canon"
clean_model = "EOS-1D Mark II N"
blackpoint = 0
whitepoint = 3700
color_matrix = [6240, -466, -822, -8180, 15825, 2500, -1801, 1938, 8042]
color_pattern = "RGGB"
crops = [12,0,0,74]
blackareav = [0, 72]
"#,
  text! r#"make = "Canon"
model = "Canon EOS-1D Mark III"
clean_make = "Canon"
clean_model = "EOS-1D Mark III"
blackpoint = 0
whitepoint = 15100
color_matrix = [6291, -540, -976, -8350, 16145, 2311, -1714, 1858, 7326]
color_pattern = "RGGB"
crops = [20,0,2,78]
blackareav = [2, 74]
"#,
  text! r#"make = "Canon"
model = "Canon EOS-1D Mark IV"
clean_make = "Canon"
clean_model = "EOS-1D Mark IV"
blackpoint = 2048
whitepoint = 15100
color_matrix = [6014, -220, -795, -4109, 12014, 2361, -561, 1824, 5787]
color_pattern = "GBRG"
crops = [46,64,2,144]
blackareav = [0, 140]
"#,
  text! r#"make = "Canon"
model = "Canon EOS-1DS"
clean_make = "Canon"
clean_model = "EOS-1Ds"
blackpoint = 0
whitepoint = 3500
color_matrix = [4374, 3631, -1743, -7520, 15212, 2472, -2892, 3632, 8161]
color_pattern = "GRBG"
crops = [0,0,0,0]
hints = ["double_line"]
"#,
  text! r#"make = "Canon"
model = "Canon EOS-1Ds Mark II"
clean_make = "Canon"
clean_model = "EOS-1Ds Mark II"
blackpoint = 0
whitepoint = 4060
color_matrix = [6517, -602, -867, -8180, 15926, 2378, -1618, 1771, 7633]
color_pattern = "GBRG"
crops = [13,0,0,98]
blackareav = [0, 96]
wb_offset = 34
"#,
  text! r#"make = "Canon"
model = "Canon EOS-1Ds Mark III"
clean_make = "Canon"
clean_model = "EOS-1Ds Mark III"
blackpoint = 0
whitepoint = 15100
color_matrix = [5859, -211, -930, -8255, 16017, 2353, -1732, 1887, 7448]
color_pattern = "RGGB"
crops = [20,10,2,62]
blackareav = [0, 60]
"#,
  text! r#"make = "Canon"
model = "Canon EOS-1D X"
clean_make = "Canon"
clean_model = "EOS-1D X"
blackpoint = 0
whitepoint = 13000
color_matrix = [6847, -614, -1014, -4669, 12737, 2139, -1197, 2488, 6846]
color_pattern = "RGGB"
crops = [102,0,2,128]
blackareav = [0, 120]
blackareah = [0, 98]
"#,
  text! r#"make = "Canon"
model = "Canon EOS-1D X Mark II"
clean_make = "Canon"
clean_model = "Canon EOS-1D X Mark II"
blackpoint = 2048
whitepoint = 14888
color_matrix = [7596, -978, -967, -4808, 12571, 2503, -1398, 2567, 5752]
color_pattern = "RGGB"
crops = [0,0,0,0]
"#,
  text! r#"make = "Canon"
model = "Canon EOS 20D"
clean_make = "Canon"
clean_model = "EOS 20D"
blackpoint = 0
whitepoint = 4095
color_matrix = [6599, -537, -891, -8071, 15783, 2424, -1983, 2234, 7462]
color_pattern = "RGGB"
crops = [12,0,0,74]
blackareav = [0, 72]
wb_offset = 25
"#,
  text! r#"make = "Canon"
model = "Canon EOS 300D DIGITAL"
clean_make = "Canon"
clean_model = "EOS 300D"

model_aliases = [
  ["Canon EOS 350D Digital", "EOS 350D"],
  ["Canon EOS DIGITAL REBEL", "Rebel"],
  ["Canon EOS REBEL", "Rebel"],
  ["Canon EOS Kiss Digital", "Kiss"],
  ["Canon EOS Kiss", "Kiss"],
]

blackpoint = 124
whitepoint = 4000
color_matrix = [8197, -2000, -1118, -6714, 14335, 2592, -2536, 3178, 8266]
color_pattern = "RGGB"
crops = [12,0,0,64]
wb_offset = 13
blackareav = [0,60]
"#,
  text! r#"make = "Canon"
model = "Canon EOS 30D"
clean_make = "Canon"
clean_model = "EOS 30D"
blackpoint = 0
whitepoint = 4071
color_matrix = [6257, -303, -1000, -7880, 15621, 2396, -1714, 1904, 7046]
color_pattern = "RGGB"
crops = [12,0,0,74]
blackareav = [0, 72]
"#,
  text! r#"make = "Canon"
model = "Canon EOS 350D DIGITAL"
clean_make = "Canon"
clean_model = "EOS 350D"

model_aliases = [
  ["Canon EOS 350D Digital", "EOS 350D"],
  ["Canon EOS DIGITAL REBEL XT", "Rebel XT"],
  ["Canon EOS REBEL XT", "Rebel XT"],
  ["Canon EOS Kiss Digital N", "Kiss N"],
  ["Canon EOS Kiss N", "Kiss N"],
]

blackpoint = 0
whitepoint = 4095
color_matrix = [6018, -617, -965, -8645, 15881, 2975, -1530, 1719, 7642]
color_pattern = "RGGB"
crops = [14,0,0,42]
blackareav = [0, 40]
wb_offset = 25
"#,
  text! r#"make = "Canon"
model = "Canon EOS 400D DIGITAL"
clean_make = "Canon"
clean_model = "EOS 400D"

model_aliases = [
  ["Canon EOS DIGITAL REBEL XTi", "Rebel XTi"],
  ["Canon EOS REBEL XTi", "Rebel XTi"],
  ["Canon EOS Kiss Digital X", "Kiss X"],
  ["Canon EOS Kiss X", "Kiss X"],
]

blackpoint = 0
whitepoint = 4058
color_matrix = [7054, -1501, -990, -8156, 15544, 2812, -1278, 1414, 7796]
color_pattern = "RGGB"
crops = [18,0,2,42]
blackareav = [0, 40]
"#,
  text! r#"make = "Canon"
model = "Canon EOS 40D"
clean_make = "Canon"
clean_model = "EOS 40D"
blackpoint = 1021
whitepoint = 13600
color_matrix = [6071, -747, -856, -7653, 15365, 2441, -2025, 2553, 7315]
color_pattern = "RGGB"
crops = [18,6,2,30]
blackareav = [0, 28]
hints = ["40d_yuv"]
"#,
  text! r#"make = "Canon"
model = "Canon EOS 450D"
clean_make = "Canon"
clean_model = "EOS 450D"

model_aliases = [
  ["Canon EOS DIGITAL REBEL XSi", "Rebel XSi"],
  ["Canon EOS REBEL XSi", "Rebel XSi"],
  ["Canon EOS Kiss Digital X2", "Kiss X2"],
  ["Canon EOS Kiss X2", "Kiss X2"],
]

blackpoint = 1020
whitepoint = 14500
color_matrix = [5784, -262, -821, -7539, 15064, 2672, -1982, 2681, 7427]
color_pattern = "RGGB"
crops = [18,0,2,22]
"#,
  text! r#"make = "Canon"
model = "Canon EOS 500D"
clean_make = "Canon"
clean_model = "EOS 500D"

model_aliases = [
  ["Canon EOS DIGITAL REBEL T1i", "Rebel T1i"],
  ["Canon EOS REBEL T1i", "Rebel T1i"],
  ["Canon EOS Kiss Digital X3", "Kiss X3"],
  ["Canon EOS Kiss X3", "Kiss X3"],
]

blackpoint = 1024
whitepoint = 15600
color_matrix = [4763, 712, -646, -6821, 14399, 2640, -1921, 3276, 6561]
color_pattern = "RGGB"
crops = [30,48,32,62]
"#,
  text! r#"make = "Canon"
model = "Canon EOS 50D"
clean_make = "Canon"
clean_model = "EOS 50D"
blackpoint = 1026
whitepoint = 15500
color_matrix = [4920, 616, -593, -6493, 13964, 2784, -1774, 3178, 7005]
color_pattern = "GBRG"
crops = [52,16,18,64]
blackareav = [0, 60]
blackareah = [2, 46]
"#,
  text! r#"make = "Canon"
model = "Canon EOS 550D"
clean_make = "Canon"
clean_model = "EOS 550D"

model_aliases = [
  ["Canon EOS DIGITAL REBEL T2i", "Rebel T2i"],
  ["Canon EOS REBEL T2i", "Rebel T2i"],
  ["Canon EOS Kiss Digital X4", "Kiss X4"],
  ["Canon EOS Kiss X4", "Kiss X4"],
]

blackpoint = 2048
whitepoint = 15831
color_matrix = [6941, -1164, -857, -3825, 11597, 2534, -416, 1540, 6039]
color_pattern = "GBRG"
crops = [54,0,0,148]
blackareav = [0, 140]
blackareah = [4, 44]
"#,
  text! r#"make = "Canon"
model = "Canon EOS 5D"
clean_make = "Canon"
clean_model = "EOS 5D"
blackpoint = 0
whitepoint = 3650
color_matrix = [6347, -479, -972, -8297, 15954, 2480, -1968, 2131, 7649]
color_pattern = "RGGB"
crops = [34,0,0,90]
blackareav = [0, 88]
blackareah = [2, 30]
"#,
  text! r#"make = "Canon"
model = "Canon EOS 5D Mark II"
clean_make = "Canon"
clean_model = "EOS 5D Mark II"
blackpoint = 1020
whitepoint = 15600
color_matrix = [4716, 603, -830, -7798, 15474, 2480, -1496, 1937, 6651]
color_pattern = "GBRG"
crops = [51,0,0,158]
blackareav = [0, 156]
blackareah = [2, 48]
"#,
  text! r#"make = "Canon"
model = "Canon EOS 5D Mark III"
clean_make = "Canon"
clean_model = "EOS 5D Mark III"
blackpoint = 2036
whitepoint = 15000
color_matrix = [6722, -635, -963, -4287, 12460, 2028, -908, 2162, 5668]
color_pattern = "RGGB"
crops = [82,2,0,124]
blackareav = [0, 120]
blackareah = [2, 78]
"#,
  text! r#"make = "Canon"
model = "Canon EOS 5D Mark IV"
clean_make = "Canon"
clean_model = "Canon EOS 5D Mark IV"
blackpoint = 0
whitepoint = 14008
color_matrix = [6446, -366, -864, -4436, 12204, 2513, -952, 2496, 6348]
color_pattern = "RGGB"
crops = [42,0,0,136]
hints = ["double_line"]
blackareav = [0,130]
"#,
  text! r#"make = "Canon"
model = "Canon EOS 5DS"
clean_make = "Canon"
clean_model = "EOS 5DS"
blackpoint = 2047
whitepoint = 14466
color_matrix = [6250, -711, -808, -5153, 12794, 2636, -1249, 2198, 5610]
color_pattern = "RGGB"
crops = [64,2,0,160]
blackareav = [0, 150]
blackareah = [2, 60]
hints = ["double_line"]
"#,
  text! r#"make = "Canon"
model = "Canon EOS 5DS R"
clean_make = "Canon"
clean_model = "EOS 5DS R"
blackpoint = 2048
whitepoint = 15181
color_matrix = [6250, -711, -808, -5153, 12794, 2636, -1249, 2198, 5610]
color_pattern = "RGGB"
crops = [64,2,0,160]
blackareav = [0, 150]
blackareah = [2, 60]
hints = ["double_line"]
"#,
  text! r#"make = "Canon"
model = "Canon EOS 600D"
clean_make = "Canon"
clean_model = "EOS 600D"

model_aliases = [
  ["Canon EOS DIGITAL REBEL T3i", "Rebel T3i"],
  ["Canon EOS REBEL T3i", "Rebel T3i"],
  ["Canon EOS Kiss Digital X5", "Kiss X5"],
  ["Canon EOS Kiss X5", "Kiss X5"],
]

blackpoint = 2048
whitepoint = 13926
color_matrix = [6461, -907, -882, -4300, 12184, 2378, -819, 1944, 5931]
color_pattern = "GBRG"
crops = [54,0,0,146]
blackareav = [0, 140]
blackareah = [4, 44]
"#,
  text! r#"make = "Canon"
model = "Canon EOS 60D"
clean_make = "Canon"
clean_model = "EOS 60D"
blackpoint = 2048
whitepoint = 15000
color_matrix = [6719, -994, -925, -4408, 12426, 2211, -887, 2129, 6051]
color_pattern = "GBRG"
crops = [54,0,0,146]
blackareav = [0, 140]
blackareah = [4, 46]
"#,
  text! r#"make = "Canon"
model = "Canon EOS 650D"
clean_make = "Canon"
clean_model = "EOS 650D"

model_aliases = [
  ["Canon EOS DIGITAL REBEL T4i", "Rebel T4i"],
  ["Canon EOS REBEL T4i", "Rebel T4i"],
  ["Canon EOS Kiss Digital X6i", "Kiss X6i"],
  ["Canon EOS Kiss X6i", "Kiss X6i"],
]

blackpoint = 2047
whitepoint = 12277
color_matrix = [6602, -841, -939, -4472, 12458, 2247, -975, 2039, 6148]
color_pattern = "RGGB"
crops = [56,0,0,76]
blackareav = [0, 70]
blackareah = [4, 44]
"#,
  text! r#"make = "Canon"
model = "Canon EOS 6D"
clean_make = "Canon"
clean_model = "EOS 6D"
blackpoint = 2047
whitepoint = 15000
color_matrix = [7034, -804, -1014, -4420, 12564, 2058, -851, 1994, 5758]
color_pattern = "RGGB"
crops = [40,0,2,74]
blackareav = [0, 68]
blackareah = [2, 36]
"#,
  text! r#"make = "Canon"
model = "Canon EOS 700D"
clean_make = "Canon"
clean_model = "EOS 700D"

model_aliases = [
  ["Canon EOS DIGITAL REBEL T5i", "Rebel T5i"],
  ["Canon EOS REBEL T5i", "Rebel T5i"],
  ["Canon EOS Kiss Digital X7i", "Kiss X7i"],
  ["Canon EOS Kiss X7i", "Kiss X7i"],
]

blackpoint = 2048
whitepoint = 15000
color_matrix = [6602, -841, -939, -4472, 12458, 2247, -975, 2039, 6148]
color_pattern = "RGGB"
crops = [52,0,0,72]
blackareav = [0, 70]
blackareah = [4, 50]
"#,
  text! r#"make = "Canon"
model = "Canon EOS 70D"
clean_make = "Canon"
clean_model = "EOS 70D"
blackpoint = 2049
whitepoint = 12277
color_matrix = [7034, -804, -1014, -4420, 12564, 2058, -851, 1994, 5758]
color_pattern = "RGGB"
crops = [38,0,0,72]
blackareav = [0, 72]
blackareah = [0, 38]
"#,
  text! r#"make = "Canon"
model = "Canon EOS 750D"
clean_make = "Canon"
clean_model = "EOS 750D"

model_aliases = [
  ["Canon EOS DIGITAL REBEL T6i", "Rebel T6i"],
  ["Canon EOS REBEL T6i", "Rebel T6i"],
  ["Canon EOS Kiss Digital X8i", "Kiss X8i"],
  ["Canon EOS Kiss X8i", "Kiss X8i"],
]

blackpoint = 2047
whitepoint = 11765
color_matrix = [6362, -823, -847, -4426, 12109, 2616, -743, 1857, 5635]
color_pattern = "RGGB"
crops = [34,0,0,72]
"#,
  text! r#"make = "Canon"
model = "Canon EOS 760D"
clean_make = "Canon"
clean_model = "EOS 760D"

model_aliases = [
  ["Canon EOS DIGITAL REBEL T6s", "Rebel T6s"],
  ["Canon EOS REBEL T6s", "Rebel T6s"],
  ["Canon EOS 8000D", "EOS 8000D"],
]

blackpoint = 2047
whitepoint = 11765
color_matrix = [6362, -823, -847, -4426, 12109, 2616, -743, 1857, 5635]
color_pattern = "RGGB"
crops = [34,0,0,72]
"#,
  text! r#"make = "Canon"
model = "Canon EOS 77D"
clean_make = "Canon"
clean_model = "Canon EOS 77D"
blackpoint = 2048
whitepoint = 14338
color_matrix = [7377, -742, -998, -4235, 11981, 2549, -673, 1918, 5538]
color_pattern = "RGGB"
crops = [36,0,0,264]
blackareav = [0,260]
blackareah = [0,30]
"#,
  text! r#"make = "Canon"
model = "Canon EOS 7D"
clean_make = "Canon"
clean_model = "EOS 7D"
blackpoint = 2048
whitepoint = 13600
color_matrix = [6844, -996, -856, -3876, 11761, 2396, -593, 1772, 6198]
color_pattern = "GBRG"
crops = [52,0,0,158]
blackareav = [8, 156]
"#,
  text! r#"make = "Canon"
model = "Canon EOS 7D Mark II"
clean_make = "Canon"
clean_model = "EOS 7D Mark II"
blackpoint = 0
whitepoint = 10400
color_matrix = [7268, -1082, -969, -4186, 11839, 2663, -825, 2029, 5839]
color_pattern = "RGGB"
crops = [38,0,0,72]
blackareav = [4, 64]
"#,
  text! r#"make = "Canon"
model = "Canon EOS 80D"
clean_make = "Canon"
clean_model = "Canon EOS 80D"
blackpoint = 0
whitepoint = 11892
color_matrix = [7457, -671, -937, -4849, 12495, 2643, -1213, 2354, 5492]
color_pattern = "RGGB"
crops = [34,0,0,264]
blackareav = [0,260]
blackareah = [0,30]
"#,
  text! r#"make = "Canon"
model = "PowerShot A3300 IS"
clean_make = "Canon"
clean_model = "PowerShot A3300 IS"
blackpoint = 127
whitepoint = 4095
color_matrix = [1301431, -469837, -102652, -200195, 961551, 238645, -16441, 142319, 375979]
color_pattern = "GBRG"
crops = [16,56,8,16]
filesize = 24724224
raw_width = 4704
raw_height = 3504
"#,
  text! r#"make = "Canon"
model = "PowerShot A610"
clean_make = "Canon"
clean_model = "PowerShot A610"
blackpoint = 0
whitepoint = 1023
color_matrix = [15591, -6402, -1592, -5365, 13198, 2168, -1300, 1824, 5075]
color_pattern = "RGGB"
crops = [8,44,0,12]
filesize = 6573120
raw_width = 2672
raw_height = 1968
blackareav = [2632,40]
"#,
  text! r#"make = "Canon"
model = "PowerShot A620"
clean_make = "Canon"
clean_model = "PowerShot A620"
blackpoint = 0
whitepoint = 1023
color_matrix = [15265, -6193, -1558, -4125, 12116, 2010, -888, 1639, 5220]
color_pattern = "RGGB"
crops = [12,4,0,36]
filesize = 9219600
raw_width = 3152
raw_height = 2340
blackareav = [0,30]
"#,
  text! r#"make = "Canon"
model = "PowerShot A630"
clean_make = "Canon"
clean_model = "PowerShot A630"
blackpoint = 0
whitepoint = 1023
color_matrix = [14201, -5308, -1757, -6087, 14472, 1617, -2191, 3105, 5348]
color_pattern = "RGGB"
crops = [6,44,6,12]
filesize = 10383120
raw_width = 3344
raw_height = 2484
blackareav = [0,30]
"#,
  text! r#"make = "Canon"
model = "PowerShot A640"
clean_make = "Canon"
clean_model = "PowerShot A640"
blackpoint = 0
whitepoint = 1023
color_matrix = [13124, -5329, -1390, -3602, 11658, 1944, -1612, 2863, 4885]
color_pattern = "RGGB"
crops = [6,52,6,12]
filesize = 12945240
raw_width = 3736
raw_height = 2772
blackareav = [3686,50]
"#,
  text! r#"make = "Canon"
model = "PowerShot A650"
clean_make = "Canon"
clean_model = "PowerShot A650"
blackpoint = 0
whitepoint = 1023
color_matrix = [9427, -3036, -959, -2581, 10671, 1911, -1039, 1982, 4430]
color_pattern = "RGGB"
crops = [12,24,12,48]
filesize = 15636240
raw_width = 4104
raw_height = 3048
blackareav = [0, 45]
"#,
  text! r#"make = "Canon"
model = "PowerShot A720 IS"
clean_make = "Canon"
clean_model = "PowerShot A720 IS"
blackpoint = 0
whitepoint = 1023
color_matrix = [14573, -5482, -1546, -1266, 9799, 1468, -1040, 1912, 3810]
color_pattern = "GBRG"
crops = [5,32,3,6]
filesize = 10341600
raw_width = 3336
raw_height = 2480
blackareav = [3306,30]
"#,
  text! r#"make = "Canon"
model = "Canon PowerShot D10"
clean_make = "Canon"
clean_model = "PowerShot D10"
blackpoint = 0
whitepoint = 4095
color_matrix = [9427, -3036, -959, -2581, 10671, 1911, -1039, 1982, 4430]
color_pattern = "GBRG"
crops = [22,80,8,25]
filesize = 18763488
raw_width = 4104
raw_height = 3048
blackareav = [4074, 30]
"#,
  text! r#"make = "Canon"
model = "EOS D2000C"
clean_make = "Canon"
clean_model = "EOS D2000C"
blackpoint = 0
whitepoint = 4095
color_matrix = [24542, -10860, -3401, -1490, 11370, -297, 2858, -605, 3225]
color_pattern = "GRBG"
crops = [0,0,0,0]
hints = ["linearization"]
"#,
  text! r#"make = "Canon"
model = "Canon EOS D30"
clean_make = "Canon"
clean_model = "EOS D30"
blackpoint = 126
whitepoint = 4095
color_matrix = [9805, -2689, -1312, -5803, 13064, 3068, -2438, 3075, 8775]
color_pattern = "RGGB"
crops = [6,0,2,48]
blackareav = [0,46]
hints = ["nocinfo2"]
"#,
  text! r#"make = "Canon"
model = "Canon EOS D60"
clean_make = "Canon"
clean_model = "EOS D60"
blackpoint = 127
whitepoint = 4000
color_matrix = [6188, -1341, -890, -7168, 14489, 2937, -2640, 3228, 8483]
color_pattern = "RGGB"
crops = [12,0,0,64]
wb_offset = 1
blackareav = [0,60]
"#,
  text! r#"make = "Canon"
model = "Canon PowerShot G1"
clean_make = "Canon"
clean_model = "PowerShot G1"
blackpoint = 31
whitepoint = 1023
color_matrix = [-4778, 9467, 2172, 4743, -1141, 4344, -5146, 9908, 6077, -1566, 11051, 557]
color_pattern = "RGEB"
crops = [8,52,2,4]
hints = ["nolowbits"]
blackareav = [2094,50]
"#,
  text! r#"make = "Canon"
model = "Canon PowerShot G10"
clean_make = "Canon"
clean_model = "PowerShot G10"
blackpoint = 128
whitepoint = 4095
color_matrix = [11093, -3906, -1028, -5047, 12492, 2879, -1003, 1750, 5561]
color_pattern = "GBRG"
crops = [13,36,12,12]
wb_offset = 71
"#,
  text! r#"make = "Canon"
model = "Canon PowerShot G11"
clean_make = "Canon"
clean_model = "PowerShot G11"
blackpoint = 128
whitepoint = 4095
color_matrix = [12177, -4817, -1069, -1612, 9864, 2049, -98, 850, 4471]
color_pattern = "RGGB"
crops = [18,56,14,10]
blackareav = [3696, 48]
wb_offset = 71
"#,
  text! r#"make = "Canon"
model = "Canon PowerShot G12"
clean_make = "Canon"
clean_model = "PowerShot G12"
blackpoint = 128
whitepoint = 4000
color_matrix = [13244, -5501, -1248, -1508, 9858, 1935, -270, 1083, 4366]
color_pattern = "RGGB"
crops = [14,12,18,54]
blackareav = [0, 50]
wb_offset = 71
"#,
  text! r#"make = "Canon"
model = "Canon PowerShot G15"
clean_make = "Canon"
clean_model = "PowerShot G15"
blackpoint = 128
whitepoint = 4000
color_matrix = [7474, -2301, -567, -4056, 11456, 2975, -222, 716, 4181]
color_pattern = "GBRG"
crops = [12,10,66,106]
blackareav = [0, 100]
blackareah = [3062, 60]
wb_offset = 71
"#,
  text! r#"make = "Canon"
model = "Canon PowerShot G16"
clean_make = "Canon"
clean_model = "PowerShot G16"
blackpoint = 128
whitepoint = 4000
color_matrix = [8020, -2687, -682, -3704, 11879, 2052, -965, 1921, 5556]
color_pattern = "RGGB"
crops = [18,24,0,96]
blackareav = [0, 80]
wb_offset = 71
"#,
  text! r#"make = "Canon"
model = "Canon PowerShot G1 X"
clean_make = "Canon"
clean_model = "PowerShot G1 X"
blackpoint = 512
whitepoint = 16000
color_matrix = [7378, -1255, -1043, -4088, 12251, 2048, -876, 1946, 5805]
color_pattern = "RGGB"
crops = [52,14,0,82]
blackareav = [0, 68]
blackareah = [0, 46]
wb_offset = 71
"#,
  text! r#"make = "Canon"
model = "Canon PowerShot G1 X Mark II"
clean_make = "Canon"
clean_model = "PowerShot G1 X Mark II"
blackpoint = 512
whitepoint = 16000
color_matrix = [7378, -1255, -1043, -4088, 12251, 2048, -876, 1946, 5805]
color_pattern = "RGGB"
crops = [52,14,0,82]
blackareav = [0, 68]
blackareah = [0, 46]
wb_offset = 71
"#,
  text! r#"make = "Canon"
model = "Canon PowerShot G2"
clean_make = "Canon"
clean_model = "PowerShot G2"
blackpoint = 0
whitepoint = 1023
color_matrix = [9087, -2693, -1049, -6715, 14382, 2537, -2291, 2819, 7790]
color_pattern = "RGGB"
crops = [6,52,2,12]
hints = ["nolowbits"]
blackareav = [2326,50]
"#,
  text! r#"make = "Canon"
model = "Canon PowerShot G3"
clean_make = "Canon"
clean_model = "PowerShot G3"
blackpoint = 0
whitepoint = 4095
color_matrix = [9212, -2781, -1073, -6573, 14189, 2605, -2300, 2844, 7664]
color_pattern = "RGGB"
crops = [6,52,2,12]
wb_offset = 60
blackareav = [2326,50]
"#,
  text! r#"make = "Canon"
model = "Canon PowerShot G3 X"
clean_make = "Canon"
clean_model = "PowerShot G3 X"
blackpoint = 2047
whitepoint = 16000
color_matrix = [9701, -3857, -921, -3149, 11537, 1817, -786, 1817, 5147]
color_pattern = "RGGB"
crops = [17,0,0,96]
blackareav = [0, 90]
wb_offset = 71
"#,
  text! r#"make = "Canon"
model = "Canon PowerShot G5"
clean_make = "Canon"
clean_model = "PowerShot G5"
blackpoint = 0
whitepoint = 4095
color_matrix = [9757, -2872, -933, -5972, 13861, 2301, -1622, 2328, 7212]
color_pattern = "RGGB"
crops = [6,44,2,12]
wb_offset = 60
blackareav = [2632,40]
"#,
  text! r#"make = "Canon"
model = "Canon PowerShot G5 X"
clean_make = "Canon"
clean_model = "PowerShot G5 X"
blackpoint = 2047
whitepoint = 16000
color_matrix = [9602, -3823, -937, -2984, 11495, 1675, -407, 1415, 5049]
color_pattern = "RGGB"
crops = [17,0,0,96]
wb_offset = 71
"#,
  text! r#"make = "Canon"
model = "Canon PowerShot G6"
clean_make = "Canon"
clean_model = "PowerShot G6"
blackpoint = 128
whitepoint = 4095
color_matrix = [9877, -3775, -871, -7613, 14807, 3072, -1448, 1305, 7485]
color_pattern = "RGGB"
crops = [12,4,4,44]
wb_offset = 48
hints = ["wb_mangle"]
blackareav = [0,40]
"#,
  text! r#"make = "Canon"
model = "Canon PowerShot G7 X"
clean_make = "Canon"
clean_model = "PowerShot G7 X"
blackpoint = 511
whitepoint = 4000
color_matrix = [9602, -3823, -937, -2984, 11495, 1675, -407, 1415, 5049]
color_pattern = "RGGB"
crops = [18,0,0,96]
wb_offset = 71
"#,
  text! r#"make = "Canon"
model = "Canon PowerShot G7 X CRW"
clean_make = "Canon"
clean_model = "PowerShot G7 X"
blackpoint = 511
whitepoint = 4000
color_matrix = [9602, -3823, -937, -2984, 11495, 1675, -407, 1415, 5049]
color_pattern = "RGGB"
crops = [18,0,0,96]
filesize = 31342080
raw_width = 5632
raw_height = 3710
"#,
  text! r#"make = "Canon"
model = "Canon PowerShot G7 X Mark II"
clean_make = "Canon"
clean_model = "Canon PowerShot G7 X Mark II"
blackpoint = 2047
whitepoint = 16000
color_matrix = [9602, -3823, -937, -2984, 11495, 1675, -407, 1415, 5049]
color_pattern = "RGGB"
crops = [0,0,0,0]
wb_offset = 71
"#,
  text! r#"make = "Canon"
model = "Canon PowerShot G9"
clean_make = "Canon"
clean_model = "PowerShot G9"
blackpoint = 0
whitepoint = 4095
color_matrix = [7368, -2141, -598, -5621, 13254, 2625, -1418, 1696, 5743]
color_pattern = "RGGB"
crops = [12,24,12,48]
blackareav = [0, 46]
"#,
  text! r#"make = "Canon"
model = "Canon EOS M"
clean_make = "Canon"
clean_model = "EOS M"
blackpoint = 2048
whitepoint = 11222
color_matrix = [6602, -841, -939, -4472, 12458, 2247, -975, 2039, 6148]
color_pattern = "RGGB"
crops = [56,0,0,76]
blackareav = [0, 70]
blackareah = [4, 44]
"#,
  text! r#"make = "Canon"
model = "Canon EOS M2"
clean_make = "Canon"
clean_model = "EOS M2"
blackpoint = 2047
whitepoint = 12277
color_matrix = [6400, -480, -888, -5294, 13416, 2047, -1296, 2203, 6137]
color_pattern = "RGGB"
crops = [52,0,0,72]
blackareav = [0, 70]
blackareah = [4, 44]
"#,
  text! r#"make = "Canon"
model = "Canon EOS M3"
clean_make = "Canon"
clean_model = "EOS M3"
blackpoint = 2048
whitepoint = 16000
color_matrix = [6362, -823, -847, -4426, 12109, 2616, -743, 1857, 5635]
color_pattern = "RGGB"
crops = [34,0,0,72]
blackareav = [2, 68]
blackareah = [2, 30]
wb_offset = 71
"#,
  text! r#"make = "Canon"
model = "Canon EOS M5"
clean_make = "Canon"
clean_model = "Canon EOS M5"
blackpoint = 512
whitepoint = 16000
color_matrix = [8532, -701, -1167, -4095, 11879, 2508, -797, 2424, 7010]
color_pattern = "RGGB"
crops = [36,0,0,264]
blackareav = [0,260]
blackareah = [0,30]
wb_offset = 71
"#,
  text! r#"make = "Canon"
model = "Canon EOS M6"
clean_make = "Canon"
clean_model = "Canon EOS M6"
blackpoint = 512
whitepoint = 16000
color_matrix = [8532, -701, -1167, -4095, 11879, 2508, -797, 2424, 7010]
color_pattern = "RGGB"
crops = [36,0,0,264]
blackareav = [0,260]
blackareah = [0,30]
wb_offset = 71
"#,
  text! r#"make = "Canon"
model = "Canon PowerShot Pro1"
clean_make = "Canon"
clean_model = "PowerShot Pro1"
blackpoint = 129
whitepoint = 4095
color_matrix = [10062, -3522, -999, -7643, 15117, 2730, -765, 817, 7323]
color_pattern = "RGGB"
crops = [6,52,6,4]
wb_offset = 48
hints = ["wb_mangle"]
blackareav = [3294,50]
"#,
  text! r#"make = "Canon"
model = "Canon PowerShot Pro70"
clean_make = "Canon"
clean_model = "PowerShot Pro70"
blackpoint = 34
whitepoint = 990
color_matrix = [-4155, 9818, 1529, 3939, -25, 4522, -5521, 9870, 6610, -2238, 10873, 1342]
color_pattern = "EBGRBERGEBRGBEGR"
crops = [0,0,0,0]
"#,
  text! r#"make = "Canon"
model = "Canon PowerShot S100"
clean_make = "Canon"
clean_model = "PowerShot S100"
blackpoint = 128
whitepoint = 4000
color_matrix = [7968, -2565, -636, -2873, 10697, 2513, 180, 667, 4211]
color_pattern = "GBRG"
crops = [12,10,66,104]
blackareav = [0, 100]
blackareah = [3062, 60]
wb_offset = 71
"#,
  text! r#"make = "Canon"
model = "Canon PowerShot S100 CRW"
clean_make = "Canon"
clean_model = "PowerShot S100"
blackpoint = 128
whitepoint = 4000
color_matrix = [7968, -2565, -636, -2873, 10697, 2513, 180, 667, 4211]
color_pattern = "GBRG"
crops = [12,10,66,104]
blackareav = [0, 100]
blackareah = [3062, 60]
filesize = 19493760
raw_width = 4160
raw_height = 3124
"#,
  text! r#"make = "Canon"
model = "Canon PowerShot S110"
clean_make = "Canon"
clean_model = "PowerShot S110"
blackpoint = 128
whitepoint = 4000
color_matrix = [8039, -2643, -654, -3783, 11230, 2930, -206, 690, 4194]
color_pattern = "GBRG"
crops = [12,10,66,106]
blackareav = [0, 100]
blackareah = [3062, 60]
wb_offset = 71
"#,
  text! r#"make = "Canon"
model = "Canon PowerShot S120"
clean_make = "Canon"
clean_model = "PowerShot S120"
blackpoint = 127
whitepoint = 4000
color_matrix = [6961, -1685, -695, -4625, 12945, 1836, -1114, 2152, 5518]
color_pattern = "RGGB"
crops = [30,47,14,121]
blackareav = [0, 74]
wb_offset = 71
"#,
  text! r#"make = "Canon"
model = "Canon PowerShot S30"
clean_make = "Canon"
clean_model = "PowerShot S30"
blackpoint = 31
whitepoint = 1023
color_matrix = [10566, -3652, -1129, -6552, 14662, 2006, -2197, 2581, 7670]
color_pattern = "RGGB"
crops = [8,52,2,4]
hints = ["nolowbits"]
blackareav = [2094,50]
"#,
  text! r#"make = "Canon"
model = "PowerShot S3 IS"
clean_make = "Canon"
clean_model = "PowerShot S3 IS"
blackpoint = 0
whitepoint = 1023
color_matrix = [14062, -5199, -1446, -4712, 12470, 2243, -1286, 2028, 4836]
color_pattern = "RGGB"
crops = [8,4,0,44]
filesize = 7710960
raw_width = 2888
raw_height = 2136
blackareav = [0,40]
"#,
  text! r#"make = "Canon"
model = "Canon PowerShot S40"
clean_make = "Canon"
clean_model = "PowerShot S40"
blackpoint = 0
whitepoint = 1023
color_matrix = [8510, -2487, -940, -6869, 14231, 2900, -2318, 2829, 9013]
color_pattern = "RGGB"
crops = [6,52,2,12]
hints = ["nolowbits"]
wb_offset = 60
blackareav = [2326,50]
"#,
  text! r#"make = "Canon"
model = "Canon PowerShot S45"
clean_make = "Canon"
clean_model = "PowerShot S45"
blackpoint = 0
whitepoint = 4095
color_matrix = [8163, -2333, -955, -6682, 14174, 2751, -2077, 2597, 8041]
color_pattern = "RGGB"
crops = [6,52,2,12]
wb_offset = 60
blackareav = [2326,50]
"#,
  text! r#"make = "Canon"
model = "Canon PowerShot S50"
clean_make = "Canon"
clean_model = "PowerShot S50"
blackpoint = 0
whitepoint = 4095
color_matrix = [8882, -2571, -863, -6348, 14234, 2288, -1516, 2172, 6569]
color_pattern = "RGGB"
crops = [6,44,2,12]
wb_offset = 60
blackareav = [2632,40]
"#,
  text! r#"make = "Canon"
model = "Canon PowerShot S60"
clean_make = "Canon"
clean_model = "PowerShot S60"
blackpoint = 0
whitepoint = 4095
color_matrix = [8795, -2482, -797, -7804, 15403, 2573, -1422, 1996, 7082]
color_pattern = "RGGB"
crops = [6,44,2,12]
wb_offset = 48
hints = ["wb_mangle"]
blackareav = [2632,40]
"#,
  text! r#"make = "Canon"
model = "Canon PowerShot S70"
clean_make = "Canon"
clean_model = "PowerShot S70"
blackpoint = 129
whitepoint = 4095
color_matrix = [9976, -3810, -832, -7115, 14463, 2906, -901, 989, 7889]
color_pattern = "RGGB"
crops = [12,4,4,44]
wb_offset = 48
hints = ["wb_mangle"]
blackareav = [0,40]
"#,
  text! r#"make = "Canon"
model = "Canon PowerShot S90"
clean_make = "Canon"
clean_model = "PowerShot S90"
blackpoint = 128
whitepoint = 4095
color_matrix = [12374, -5016, -1049, -1677, 9902, 2078, -83, 852, 4683]
color_pattern = "RGGB"
crops = [18,54,10,10]
wb_offset = 71
"#,
  text! r#"make = "Canon"
model = "Canon EOS REBEL SL1"
clean_make = "Canon"
clean_model = "EOS Rebel SL1"
blackpoint = 2048
whitepoint = 15000
color_matrix = [6602, -841, -939, -4472, 12458, 2247, -975, 2039, 6148]
color_pattern = "RGGB"
crops = [52,0,0,72]
"#,
  text! r#"make = "Canon"
model = "PowerShot SX110 IS"
clean_make = "Canon"
clean_model = "PowerShot SX110 IS"
blackpoint = 0
whitepoint = 4095
color_matrix = [14134, -5576, -1527, -1991, 10719, 1273, -1158, 1929, 3581]
color_pattern = "RGGB"
crops = [12,30,0,6]
filesize = 15467760
raw_width = 3720
raw_height = 2772
blackareav = [3690,30]
"#,
  text! r#"make = "Canon"
model = "Canon PowerShot SX1 IS"
clean_make = "Canon"
clean_model = "PowerShot SX1 IS"
blackpoint = 128
whitepoint = 4095
color_matrix = [6578, -259, -502, -5974, 13030, 3309, -308, 1058, 4970]
color_pattern = "RGGB"
crops = [12,2,0,192]
blackareav = [0, 188]
wb_offset = 71
"#,
  text! r#"make = "Canon"
model = "Canon PowerShot SX40 HS"
clean_make = "Canon"
clean_model = "PowerShot SX40 HS"
blackpoint = 0
whitepoint = 4095
color_matrix = [12432, -4753, -1247, -2110, 10691, 1629, -412, 1623, 4926]
color_pattern = "RGGB"
crops = [16,8,0,96]
filesize = 19167840
raw_width = 4176
raw_height = 3060
blackareav = [0, 94]
"#,
  text! r#"make = "Canon"
model = "Canon PowerShot SX50 HS"
clean_make = "Canon"
clean_model = "PowerShot SX50 HS"
blackpoint = 128
whitepoint = 4000
color_matrix = [12432, -4753, -1247, -2110, 10691, 1629, -412, 1623, 4926]
color_pattern = "RGGB"
crops = [20,10,0,100]
blackareav = [6, 70]
wb_offset = 71
"#,
  text! r#"make = "Canon"
model = "Canon PowerShot SX60 HS"
clean_make = "Canon"
clean_model = "PowerShot SX60 HS"
blackpoint = 128
whitepoint = 4000
color_matrix = [13161, -5451, -1344, -1989, 10654, 1531, -47, 1271, 4955]
color_pattern = "RGGB"
crops = [26,24,10,112]
blackareav = [0, 70]
wb_offset = 71
"#,
  text! r#"make = "Canon"
model = "Canon EOS REBEL T1i"
clean_make = "Canon"
clean_model = "EOS Rebel T1i"
blackpoint = 1024
whitepoint = 15600
color_matrix = [4763, 712, -646, -6821, 14399, 2640, -1921, 3276, 6561]
color_pattern = "RGGB"
crops = [30,48,32,62]
"#,
  text! r#"make = "Canon"
model = "Canon EOS REBEL T2i"
clean_make = "Canon"
clean_model = "EOS Rebel T2i"
blackpoint = 2048
whitepoint = 15831
color_matrix = [6941, -1164, -857, -3825, 11597, 2534, -416, 1540, 6039]
color_pattern = "GBRG"
crops = [54,0,0,148]
blackareav = [0, 140]
blackareah = [4, 44]
"#,
  text! r#"make = "Canon"
model = "Canon EOS REBEL T3"
clean_make = "Canon"
clean_model = "EOS Rebel T3"
blackpoint = 2046
whitepoint = 15000
color_matrix = [6444, -904, -893, -4563, 12308, 2535, -903, 2016, 6728]
color_pattern = "RGGB"
crops = [20,0,0,64]
blackareav = [0, 58]
"#,
  text! r#"make = "Canon"
model = "Canon EOS REBEL T3i"
clean_make = "Canon"
clean_model = "EOS Rebel T3i"
blackpoint = 2048
whitepoint = 13926
color_matrix = [6461, -907, -882, -4300, 12184, 2378, -819, 1944, 5931]
color_pattern = "GBRG"
crops = [54,0,0,146]
blackareav = [0, 140]
blackareah = [4, 44]
"#,
  text! r#"make = "Canon"
model = "Canon EOS REBEL T5"
clean_make = "Canon"
clean_model = "EOS Rebel T5"
blackpoint = 2046
whitepoint = 12279
color_matrix = [6461, -907, -882, -4300, 12184, 2378, -819, 1944, 5931]
color_pattern = "GBRG"
crops = [54,0,0,146]
blackareav = [0, 140]
blackareah = [4, 44]
"#,
  text! r#"make = "Canon"
model = "Canon EOS REBEL T5i"
clean_make = "Canon"
clean_model = "EOS Rebel T5i"
blackpoint = 2047
whitepoint = 12277
color_matrix = [6602, -841, -939, -4472, 12458, 2247, -975, 2039, 6148]
color_pattern = "RGGB"
crops = [52,0,0,72]
"#,
  text! r#"make = "Canon"
model = "Canon EOS Rebel T6"
clean_make = "Canon"
clean_model = "Canon EOS Rebel T6"
blackpoint = 2046
whitepoint = 12279
color_matrix = [6939, -1016, -866, -4428, 12473, 2177, -1175, 2178, 6162]
color_pattern = "GRBG"
crops = [50,0,0,142]
blackareav = [0,140]
"#,
  text! r#"make = "Canon"
model = "Canon EOS Rebel T6i"
clean_make = "Canon"
clean_model = "EOS Rebel T6i"
blackpoint = 2048
whitepoint = 14580
color_matrix = [6362, -823, -847, -4426, 12109, 2616, -743, 1857, 5635]
color_pattern = "RGGB"
crops = [34,0,0,72]
"#]

/-- `data/cameras/epson`: `r-d1.toml` -/
def epson : List Nat := [
  text! r#"make = "SEIKO EPSON CORP."
model = "R-D1"
clean_make = "Epson"
clean_model = "R-D1"
blackpoint = 63
whitepoint = 4095
color_matrix = [6827, -1878, -732, -8429, 16012, 2564, -704, 592, 7145]
color_pattern = "RGGB"
crops = [0,0,0,0]
"#]

/-- `data/cameras/fuji`: `e550.toml`, `e900.toml`, `f600exr.toml`, `f700.toml`, `f900exr.toml`, `gfx50s.toml`, `hs10.toml`, `hs20exr.toml`, `hs50exr.toml`, `s200exr.toml`, `s2pro.toml`, `s3pro.toml`, `s5000.toml`, `s5600.toml`, `s5pro.toml`, `s6500fd.toml`, `s9500.toml`, `s9600.toml`, `x-a1.toml`, `x-a2.toml`, `x-a3.toml`, `x-e1.toml`, `x-e2.toml`, `x-e2s.toml`, `x-m1.toml`, `x-pro1.toml`, `x-pro2.toml`, `x-s1.toml`, `x-t1.toml`, `x-t10.toml`, `x-t2.toml`, `x-t20.toml`, `x10.toml`, `x100.toml`, `x100f.toml`, `x100s.toml`, `x100t.toml`, `x20.toml`, `x30.toml`, `x70.toml`, `xf1.toml`, `xq1.toml`, `xq2.toml` -/
def fuji : List Nat := [
  text! r#"make = "FUJIFILM"
model = "FinePix E550"
clean_make = "Fujifilm"
clean_model = "FinePix E550"
blackpoint = 0
whitepoint = 15875
color_matrix = [11044, -3888, -1120, -7248, 15168, 2208, -1531, 2277, 8069]
color_pattern = "GBRG"
crops = [0,0,0,0]
hints = ["fuji_rotation"]
"#,
  text! r#"make = "FUJIFILM"
model = "FinePix E900"
clean_make = "Fujifilm"
clean_model = "FinePix E900"
blackpoint = 0
whitepoint = 15564
color_matrix = [9183, -2526, -1078, -7461, 15071, 2574, -2022, 2440, 8639]
color_pattern = "GBRG"
crops = [0,32,0,32]
hints = ["fuji_rotation"]
"#,
  text! r#"make = "FUJIFILM"
model = "FinePix F600EXR"
clean_make = "Fujifilm"
clean_model = "FinePix F600EXR"
blackpoint = 256
whitepoint = 3900
color_matrix = [13690, -5358, -1474, -3369, 11600, 1998, -132, 1554, 4395]
color_pattern = "RGGB"
crops = [0,32,0,34]
"#,
  text! r#"make = "FUJIFILM"
model = "FinePix F700"
clean_make = "Fujifilm"
clean_model = "FinePix F700"
blackpoint = 0
whitepoint = 16383
color_matrix = [10004, -3219, -1201, -7036, 15047, 2107, -1863, 2565, 7736]
color_pattern = "GBRG"
crops = [0,16,0,16]
hints = ["fuji_rotation", "double_width"]
"#,
  text! r#"make = "FUJIFILM"
model = "FinePix F900EXR"
clean_make = "Fujifilm"
clean_model = "FinePix F900EXR"
blackpoint = 256
whitepoint = 3900
color_matrix = [12085, -4727, -953, -3257, 11489, 2002, -511, 2046, 4592]
color_pattern = "BGGR"
crops = [0,64,0,0]
"#,
  text! r#"make = "FUJIFILM"
model = "GFX 50S"
clean_make = "Fujifilm"
clean_model = "GFX 50S"
blackpoint = 1023
whitepoint = 16383
color_matrix = [11756, -4754, -874, -3056, 11045, 2305, -381, 1457, 6006]
color_pattern = "RGGB"
crops = [0,0,0,0]
"#,
  text! r#"make = "FUJIFILM"
model = "FinePix HS10 HS11"
clean_make = "Fujifilm"
clean_model = "FinePix HS10 HS11"
blackpoint = 50
whitepoint = 3900
color_matrix = [12440, -3954, -1183, -1123, 9674, 1708, -83, 1614, 4086]
color_pattern = "BGGR"
crops = [0,0,0,0]
hints = ["jpeg32"]
"#,
  text! r#"make = "FUJIFILM"
model = "FinePix HS20EXR"
clean_make = "Fujifilm"
clean_model = "FinePix HS20EXR"
blackpoint = 256
whitepoint = 3900
color_matrix = [13690, -5358, -1474, -3369, 11600, 1998, -132, 1554, 4395]
color_pattern = "RGGB"
crops = [0,32,0,34]
"#,
  text! r#"make = "FUJIFILM"
model = "FinePix HS50EXR"
clean_make = "Fujifilm"
clean_model = "FinePix HS50EXR"
blackpoint = 256
whitepoint = 3900
color_matrix = [12085, -4727, -953, -3257, 11489, 2002, -511, 2046, 4592]
color_pattern = "BGGR"
crops = [0,64,0,0]
"#,
  text! r#"make = "FUJIFILM"
model = "FinePix S200EXR"
clean_make = "Fujifilm"
clean_model = "FinePix S200EXR"
blackpoint = 519
whitepoint = 16250
color_matrix = [11401, -4498, -1312, -5088, 12751, 2613, -838, 1568, 5941]
color_pattern = "RGGB"
crops = [0,28,0,28]
"#,
  text! r#"make = "FUJIFILM"
model = "FinePixS2Pro"
clean_make = "Fujifilm"
clean_model = "FinePix S2Pro"
blackpoint = 126
whitepoint = 4095
color_matrix = [12492, -4690, -1402, -7033, 15423, 1647, -1507, 2111, 7697]
color_pattern = "GBRG"
crops = [32,32,32,32]
hints = ["fuji_rotation_alt"]
"#,
  text! r#"make = "FUJIFILM"
model = "FinePix S3Pro"
clean_make = "Fujifilm"
clean_model = "FinePix S3Pro"
blackpoint = 0
whitepoint = 16383
color_matrix = [11807, -4612, -1294, -8927, 16968, 1988, -2120, 2741, 8006]
color_pattern = "GBRG"
crops = [2,32,2,32]
hints = ["fuji_rotation_alt"]
"#,
  text! r#"make = "FUJIFILM"
model = "FinePix S5000"
clean_make = "Fujifilm"
clean_model = "FinePix S5000"
blackpoint = 0
whitepoint = 15866
color_matrix = [8754, -2732, -1019, -7204, 15069, 2276, -1702, 2334, 6982]
color_pattern = "GBRG"
crops = [4,24,4,24]
hints = ["fuji_rotation"]
"#,
  text! r#"make = "FUJIFILM"
model = "FinePix S5600"
clean_make = "Fujifilm"
clean_model = "FinePix S5600"
blackpoint = 0
whitepoint = 15564
color_matrix = [9636, -2804, -988, -7442, 15040, 2589, -1803, 2311, 8621]
color_pattern = "GBRG"
crops = [0,30,0,30]
hints = ["fuji_rotation"]
"#,
  text! r#"make = "FUJIFILM"
model = "FinePix S5Pro"
clean_make = "Fujifilm"
clean_model = "FinePix S5Pro"
blackpoint = 0
whitepoint = 16383
color_matrix = [12300, -5110, -1304, -9117, 17143, 1998, -1947, 2448, 8100]
color_pattern = "GBRG"
crops = [2,32,2,32]
hints = ["fuji_rotation_alt"]
"#,
  text! r#"make = "FUJIFILM"
model = "FinePix S6500fd"
clean_make = "Fujifilm"
clean_model = "FinePix S6500fd"
blackpoint = 0
whitepoint = 15564
color_matrix = [12628, -4887, -1401, -6861, 14996, 1962, -2198, 2782, 7091]
color_pattern = "GBRG"
crops = [0,64,0,64]
hints = ["fuji_rotation_alt"]
"#,
  text! r#"make = "FUJIFILM"
model = "FinePix S9500"
clean_make = "Fujifilm"
clean_model = "FinePix S9500"
blackpoint = 0
whitepoint = 16115
color_matrix = [10491, -3423, -1145, -7385, 15027, 2538, -1809, 2275, 8692]
color_pattern = "GBRG"
crops = [0,32,0,32]
hints = ["fuji_rotation"]
"#,
  text! r#"make = "FUJIFILM"
model = "FinePix S9600"
clean_make = "Fujifilm"
clean_model = "FinePix S9600"
blackpoint = 0
whitepoint = 15564
color_matrix = [12343, -4515, -1285, -7165, 14899, 2435, -1895, 2496, 8800]
color_pattern = "GBRG"
crops = [0,32,0,32]
hints = ["fuji_rotation"]
"#,
  text! r#"make = "FUJIFILM"
model = "X-A1"
clean_make = "Fujifilm"
clean_model = "X-A1"
blackpoint = 256
whitepoint = 4094
color_matrix = [11086, -4555, -839, -3512, 11310, 2517, -815, 1341, 5940]
color_pattern = "RGGB"
crops = [0,168,0,0]
"#,
  text! r#"make = "FUJIFILM"
model = "X-A2"
clean_make = "Fujifilm"
clean_model = "X-A2"
blackpoint = 256
whitepoint = 4094
color_matrix = [10763, -4560, -917, -3346, 11311, 2322, -475, 1135, 5843]
color_pattern = "RGGB"
crops = [0,168,0,0]
"#,
  text! r#"make = "FUJIFILM"
model = "X-A3"
clean_make = "Fujifilm"
clean_model = "X-A3"
blackpoint = 1024
whitepoint = 16383
color_matrix = [12407, -5222, -1086, -2971, 11116, 2120, -294, 1029, 5284]
color_pattern = "RGGB"
crops = [0,0,0,0]
"#,
  text! r#"make = "FUJIFILM"
model = "X-E1"
clean_make = "Fujifilm"
clean_model = "X-E1"
blackpoint = 256
whitepoint = 4094
color_matrix = [10413, -3996, -993, -3721, 11640, 2361, -733, 1540, 6011]
color_pattern = "GGRGGBGGBGGRBRGRBGGGBGGRGGRGGBRBGBRG"
crops = [0,168,0,0]
"#,
  text! r#"make = "FUJIFILM"
model = "X-E2"
clean_make = "Fujifilm"
clean_model = "X-E2"
blackpoint = 1024
whitepoint = 16383
color_matrix = [8458, -2451, -855, -4597, 12447, 2407, -1475, 2482, 6526]
color_pattern = "RBGBRGGGRGGBGGBGGRBRGRBGGGBGGRGGRGGB"
crops = [0,52,0,4]
"#,
  text! r#"make = "FUJIFILM"
model = "X-E2S"
clean_make = "Fujifilm"
clean_model = "X-E2S"
blackpoint = 1024
whitepoint = 16383
color_matrix = [11562, -5118, -961, -3022, 11007, 2311, -525, 1569, 6097]
color_pattern = "RBGBRGGGRGGBGGBGGRBRGRBGGGBGGRGGRGGB"
crops = [0,52,0,4]
"#,
  text! r#"make = "FUJIFILM"
model = "X-M1"
clean_make = "Fujifilm"
clean_model = "X-M1"
blackpoint = 256
whitepoint = 4094
color_matrix = [10413, -3996, -993, -3721, 11640, 2361, -733, 1540, 6011]
color_pattern = "GGRGGBGGBGGRBRGRBGGGBGGRGGRGGBRBGBRG"
crops = [0,168,0,0]
"#,
  text! r#"make = "FUJIFILM"
model = "X-Pro1"
clean_make = "Fujifilm"
clean_model = "X-Pro1"
blackpoint = 256
whitepoint = 4094
color_matrix = [10413, -3996, -993, -3721, 11640, 2361, -733, 1540, 6011]
color_pattern = "GGRGGBGGBGGRBRGRBGGGBGGRGGRGGBRBGBRG"
crops = [0,168,0,0]
"#,
  text! r#"make = "FUJIFILM"
model = "X-Pro2"
clean_make = "Fujifilm"
clean_model = "X-Pro2"
blackpoint = 1024
whitepoint = 16383
color_matrix = [11434, -4948, -1210, -3746, 12042, 1903, -666, 1479, 5235]
color_pattern = "RBGBRGGGRGGBGGBGGRBRGRBGGGBGGRGGRGGB"
crops = [0,128,0,0]
"#,
  text! r#"make = "FUJIFILM"
model = "X-S1"
clean_make = "Fujifilm"
clean_model = "X-S1"
blackpoint = 256
whitepoint = 4000
color_matrix = [13509, -6199, -1254, -4430, 12733, 1865, -331, 1441, 5022]
color_pattern = "BGGR"
crops = [0,48,0,48]
"#,
  text! r#"make = "FUJIFILM"
model = "X-T1"
clean_make = "Fujifilm"
clean_model = "X-T1"
blackpoint = 1024
whitepoint = 16383
color_matrix = [8458, -2451, -855, -4597, 12447, 2407, -1475, 2482, 6526]
color_pattern = "RBGBRGGGRGGBGGBGGRBRGRBGGGBGGRGGRGGB"
crops = [0,52,0,4]
"#,
  text! r#"make = "FUJIFILM"
model = "X-T10"
clean_make = "Fujifilm"
clean_model = "X-T10"
blackpoint = 1024
whitepoint = 16383
color_matrix = [8458, -2451, -855, -4597, 12447, 2407, -1475, 2482, 6526]
color_pattern = "RBGBRGGGRGGBGGBGGRBRGRBGGGBGGRGGRGGB"
crops = [0,52,0,4]
"#,
  text! r#"make = "FUJIFILM"
model = "X-T2"
clean_make = "Fujifilm"
clean_model = "X-T2"
blackpoint = 1024
whitepoint = 16383
color_matrix = [11434, -4948, -1210, -3746, 12042, 1903, -666, 1479, 5235]
color_pattern = "RBGBRGGGRGGBGGBGGRBRGRBGGGBGGRGGRGGB"
crops = [0,128,0,0]
"#,
  text! r#"make = "FUJIFILM"
model = "X-T20"
clean_make = "Fujifilm"
clean_model = "X-T20"
blackpoint = 1024
whitepoint = 16383
color_matrix = [11434, -4948, -1210, -3746, 12042, 1903, -666, 1479, 5235]
color_pattern = "RBGBRGGGRGGBGGBGGRBRGRBGGGBGGRGGRGGB"
crops = [0,128,0,0]
"#,
  text! r#"make = "FUJIFILM"
model = "X10"
clean_make = "Fujifilm"
clean_model = "FinePix X10"
blackpoint = 256
whitepoint = 4000
color_matrix = [13509, -6199, -1254, -4430, 12733, 1865, -331, 1441, 5022]
color_pattern = "BGGR"
crops = [0,48,0,48]
"#,
  text! r#"make = "FUJIFILM"
model = "FinePix X100"
clean_make = "Fujifilm"
clean_model = "FinePix X100"
blackpoint = 254
whitepoint = 4000
color_matrix = [12161, -4457, -1069, -5034, 12874, 2400, -795, 1724, 6904]
color_pattern = "RGGB"
crops = [1,73,1,73]
"#,
  text! r#"make = "FUJIFILM"
model = "X100F"
clean_make = "Fujifilm"
clean_model = "X100F"
blackpoint = 1024
whitepoint = 16383
color_matrix = [11434, -4948, -1210, -3746, 12042, 1903, -666, 1479, 5235]
color_pattern = "RBGBRGGGRGGBGGBGGRBRGRBGGGBGGRGGRGGB"
crops = [0,128,0,0]
"#,
  text! r#"make = "FUJIFILM"
model = "X100S"
clean_make = "Fujifilm"
clean_model = "X100S"
blackpoint = 1024
whitepoint = 16383
color_matrix = [10592, -4262, -1008, -3514, 11355, 2465, -870, 2025, 6386]
color_pattern = "RBGBRGGGRGGBGGBGGRBRGRBGGGBGGRGGRGGB"
crops = [0,52,0,4]
"#,
  text! r#"make = "FUJIFILM"
model = "X100T"
clean_make = "Fujifilm"
clean_model = "X100T"
blackpoint = 1024
whitepoint = 16383
color_matrix = [10592, -4262, -1008, -3514, 11355, 2465, -870, 2025, 6386]
color_pattern = "RBGBRGGGRGGBGGBGGRBRGRBGGGBGGRGGRGGB"
crops = [0,52,0,4]
"#,
  text! r#"make = "FUJIFILM"
model = "X20"
clean_make = "Fujifilm"
clean_model = "X20"
blackpoint = 257
whitepoint = 4094
color_matrix = [11768, -4971, -1133, -4904, 12927, 2183, -480, 1723, 4605]
color_pattern = "GBGGRGRGRBGBGBGGRGGRGGBGBGBRGRGRGGBG"
crops = [0,64,0,0]
"#,
  text! r#"make = "FUJIFILM"
model = "X30"
clean_make = "Fujifilm"
clean_model = "X30"
blackpoint = 257
whitepoint = 4094
color_matrix = [12328, -5256, -1144, -4469, 12927, 1675, -87, 1291, 4351]
color_pattern = "GBGGRGRGRBGBGBGGRGGRGGBGBGBRGRGRGGBG"
crops = [0,64,0,0]
"#,
  text! r#"make = "FUJIFILM"
model = "X70"
clean_make = "Fujifilm"
clean_model = "X70"
blackpoint = 1024
whitepoint = 16383
color_matrix = [10450, -4329, -878, -3217, 11105, 2421, -752, 1758, 6519]
color_pattern = "RBGBRGGGRGGBGGBGGRBRGRBGGGBGGRGGRGGB"
crops = [0,52,0,4]
"#,
  text! r#"make = "FUJIFILM"
model = "XF1"
clean_make = "Fujifilm"
clean_model = "XF1"
blackpoint = 257
whitepoint = 4000
color_matrix = [13509, -6199, -1254, -4430, 12733, 1865, -331, 1441, 5022]
color_pattern = "BGGR"
crops = [0,48,0,48]
"#,
  text! r#"make = "FUJIFILM"
model = "XQ1"
clean_make = "Fujifilm"
clean_model = "XQ1"
blackpoint = 257
whitepoint = 4094
color_matrix = [9252, -2704, -1064, -5893, 14265, 1717, -1101, 2341, 4349]
color_pattern = "GBGGRGRGRBGBGBGGRGGRGGBGBGBRGRGRGGBG"
crops = [0,64,0,0]
"#,
  text! r#"make = "FUJIFILM"
model = "XQ2"
clean_make = "Fujifilm"
clean_model = "XQ2"
blackpoint = 257
whitepoint = 4094
color_matrix = [9252, -2704, -1064, -5893, 14265, 1717, -1101, 2341, 4349]
color_pattern = "GBGGRGRGRBGBGBGGRGGRGGBGBGBRGRGRGGBG"
crops = [0,64,0,0]
"#]

/-- `data/cameras/hasselblad`: `cf132.toml`, `cfv.toml`, `h3d-39ii.toml` -/
def hasselblad : List Nat := [
  text! r#"make = "Hasselblad"
model = "Flash Sync"
clean_make = "Hasselblad"
clean_model = "CF132"
blackpoint = 0
whitepoint = 62914
color_matrix = [8519, -3260, -280, -5081, 13459, 1738, -1449, 2960, 7809]
color_pattern = "RGGB"
crops = [0,0,0,0]
"#,
  text! r#"make = "Hasselblad"
model = "Hasselblad 500 mech."
clean_make = "Hasselblad"
clean_model = "CFV"
blackpoint = 0
whitepoint = 31456
color_matrix = [8519, -3260, -280, -5081, 13459, 1738, -1449, 2960, 7809]
color_pattern = "RGGB"
crops = [0,0,0,0]
"#,
  text! r#"make = "Hasselblad"
model = "Hasselblad H3D"
clean_make = "Hasselblad"
clean_model = "H3D"
blackpoint = 0
whitepoint = 31456
color_matrix = [3857, 452, -46, -6008, 14477, 1596, -2627, 4481, 5718]
color_pattern = "RGGB"
crops = [0,0,0,0]
"#]

/-- `data/cameras/kodak`: `dcs1.toml`, `dcs460d.toml`, `dcs560c.toml`, `dcs760c.toml`, `dcs_pro.toml`, `p880.toml`, `z1015.toml` -/
def kodak : List Nat := [
  text! r#"make = "KODAK"
model = "EOSDCS1B        FILE VERSION 3"
clean_make = "Kodak"
clean_model = "EOS DCS 1"
blackpoint = 19
whitepoint = 7638
color_matrix = [10592, -2206, -967, -1944, 11685, 230, 2206, 670, 1273]
color_pattern = "GRBG"
crops = [3,0,3,0]
"#,
  text! r#"make = "KODAK"
model = "DCS460D         FILE VERSION 3"
clean_make = "Kodak"
clean_model = "DCS460D"
blackpoint = 7
whitepoint = 6664
color_matrix = [10592, -2206, -967, -1944, 11685, 230, 2206, 670, 1273]
color_pattern = "GRBG"
crops = [0,3,0,3]
"#,
  text! r#"make = "Kodak"
model = "DCS560C"
clean_make = "Kodak"
clean_model = "DCS560C"
blackpoint = 0
whitepoint = 4095
color_matrix = [20482, -7172, -3125, -1033, 10410, -285, 2542, 226, 3136]
color_pattern = "GRBG"
crops = [0,0,0,0]
hints = ["linearization"]
"#,
  text! r#"make = "Kodak"
model = "DCS760C"
clean_make = "Kodak"
clean_model = "DCS760C"
blackpoint = 0
whitepoint = 3500
color_matrix = [16623, -6309, -1411, -4344, 13923, 323, 2285, 274, 2926]
color_pattern = "GRBG"
crops = [0,0,0,0]
"#,
  text! r#"make = "Kodak"
model = "DCS Pro SLR/n"
clean_make = "Kodak"
clean_model = "DCS Pro SLR/n"
blackpoint = 0
whitepoint = 3700
color_matrix = [5494, 2393, -232, -6427, 13850, 2846, -1876, 3997, 5445]
color_pattern = "GRBG"
crops = [0,0,0,0]
"#,
  text! r#"make = "EASTMAN KODAK COMPANY"
model = "KODAK P880 ZOOM DIGITAL CAMERA"
clean_make = "Kodak"
clean_model = "P880"
blackpoint = 0
whitepoint = 4095
color_matrix = [12805, -4662, -1376, -7480, 15267, 2360, -1626, 2194, 7904]
color_pattern = "BGGR"
crops = [0,0,0,0]
"#,
  text! r#"make = "EASTMAN KODAK COMPANY"
model = "KODAK EASYSHARE Z1015 IS DIGITAL CAMERA"
clean_make = "Kodak"
clean_model = "Z1015 IS"
blackpoint = 0
whitepoint = 4095
color_matrix = [11265, -4286, -992, -4694, 12343, 2647, -1090, 1523, 5447]
color_pattern = "BGGR"
crops = [0,0,0,0]
hints = ["easyshare_offset_hack"]
"#]

/-- `data/cameras/leaf`: `aptus22.toml`, `aptus75.toml`, `aptusII-10.toml`, `aptusII-10R.toml`, `aptusII-12.toml`, `aptusII-5.toml`, `aptusII-7.toml`, `aptusII-8.toml`, `credo40.toml`, `credo60.toml`, `credo80.toml` -/
def leaf : List Nat := [
  text! r#"make = "Creo/Leaf"
model = "Leaf Aptus 22"
clean_make = "Leaf"
clean_model = "Aptus 22"
blackpoint = 0
whitepoint = 16191
color_matrix = [8236, 1746, -1314, -8251, 15953, 2428, -3673, 5786, 5771]
color_pattern = "RGGB"
crops = [0,0,0,0]
"#,
  text! r#"make = "Leaf"
model = "Leaf Aptus 75"
clean_make = "Leaf"
clean_model = "Aptus 75"
blackpoint = 0
whitepoint = 16191
color_matrix = [7914, 1414, -1190, -8777, 16582, 2280, -2811, 4605, 5562]
color_pattern = "GBRG"
crops = [0,0,0,0]
"#,
  text! r#"make = "Leaf"
model = "Leaf Aptus-II 10"
clean_make = "Leaf"
clean_model = "Leaf Aptus-II 10"
blackpoint = 0
whitepoint = 15000
color_matrix = [7527, 1285, -166, -6929, 14061, 3176, -1995, 3747, 6077]
color_pattern = "RGGB"
crops = [0,0,0,0]
"#,
  text! r#"make = "Leaf"
model = "Leaf Aptus-II 10R"
clean_make = "Leaf"
clean_model = "Leaf Aptus-II 10R"
blackpoint = 0
whitepoint = 15000
color_matrix = [7527, 1285, -166, -6929, 14061, 3176, -1995, 3747, 6077]
color_pattern = "GBRG"
crops = [0,0,0,0]
"#,
  text! r#"make = "Leaf"
model = "Leaf Aptus-II 12"
clean_make = "Leaf"
clean_model = "Leaf Aptus-II 12"
blackpoint = 0
whitepoint = 15000
color_matrix = [7527, 1285, -166, -6929, 14061, 3176, -1995, 3747, 6077]
color_pattern = "RGGB"
crops = [0,0,0,0]
hints = ["interlaced"]
"#,
  text! r#"make = "Leaf"
model = "Leaf Aptus-II 5"
clean_make = "Leaf"
clean_model = "Aptus-II 5"
blackpoint = 0
whitepoint = 15000
color_matrix = [1846, 7955, -1222, -12994, 19563, 3596, -2035, 3340, 5136]
color_pattern = "GRBG"
crops = [0,0,0,0]
"#,
  text! r#"make = "Leaf"
model = "Leaf AFi-II 7"
clean_make = "Leaf"
clean_model = "AFi-II 7"
blackpoint = 0
whitepoint = 15000
color_matrix = [7691, -108, -339, -6185, 13627, 2833, -2046, 3899, 5952]
color_pattern = "RGGB"
crops = [0,0,0,0]
"#,
  text! r#"make = "Leaf"
model = "Leaf Aptus-II 8"
clean_make = "Leaf"
clean_model = "Aptus-II 8"
blackpoint = 0
whitepoint = 15000
color_matrix = [6355, 1085, -140, -6929, 14061, 3176, -2008, 3771, 6117]
color_pattern = "GBRG"
crops = [0,0,0,0]
"#,
  text! r#"make = "Leaf"
model = "Credo 40"
clean_make = "Leaf"
clean_model = "Credo 40"
blackpoint = 0
whitepoint = 16383
color_matrix = [8035, 435, -962, -6001, 13872, 2320, -1159, 3065, 5434]
color_pattern = "RGGB"
crops = [6,16,46,36]
"#,
  text! r#"make = "Leaf"
model = "Credo 60"
clean_make = "Leaf"
clean_model = "Credo 60"
blackpoint = 0
whitepoint = 16383
color_matrix = [8035, 435, -962, -6001, 13872, 2320, -1159, 3065, 5434]
color_pattern = "RGGB"
crops = [6,16,46,36]
"#,
  text! r#"make = "Leaf"
model = "Credo 80"
clean_make = "Leaf"
clean_model = "Credo 80"
blackpoint = 0
whitepoint = 16383
color_matrix = [6294, 686, -712, -5435, 13417, 2211, -1006, 2435, 5042]
color_pattern = "RGGB"
crops = [8,16,48,36]
"#]

/-- `data/cameras/leica`: `digilux2.toml`, `dlux3.toml`, `vlux1.toml`, `vlux4.toml` -/
def leica : List Nat := [
  text! r#"make = "LEICA"
model = "DIGILUX 2"
clean_make = "Leica"
clean_model = "Digilux 2"
blackpoint = 0
whitepoint = 4095
color_matrix = [11340, -4069, -1275, -7555, 15266, 2448, -2960, 3426, 7685]
color_pattern = "RGGB"

[[cameras.modes]]
mode = "4:3"
crops = [0,0,0,0]
"#,
  text! r#"make = "LEICA"
model = "D-LUX 3"
clean_make = "Leica"
clean_model = "D-LUX 3"
blackpoint = 0
whitepoint = 3986
color_matrix = [8048, -2810, -623, -6450, 13519, 3272, -1700, 2146, 7049]
color_pattern = "BGGR"

[[cameras.modes]]
mode = "16:9"
crops = [17,65,24,17]
"#,
  text! r#"make = "LEICA"
model = "V-LUX 1"
clean_make = "Leica"
clean_model = "V-LUX 1"
blackpoint = 0
whitepoint = 3986
color_matrix = [7906, -2709, -594, -6231, 13351, 3220, -1922, 2631, 6537]
color_pattern = "BGGR"

[[cameras.modes]]
mode = "4:3"
crops = [0,14,3,4]

[[cameras.modes]]
mode = "3:2"
crops = [0,14,3,4]
"#,
  text! r#"make = "LEICA"
model = "V-LUX 4"
clean_make = "LEICA"
clean_model = "V-LUX 4"
blackpoint = 143
whitepoint = 3956
color_matrix = [8112, -2563, -740, -3730, 11784, 2197, -941, 2075, 4933]
color_pattern = "GBRG"

[[cameras.modes]]
mode = "4:3"
crops = [0,128,3,0]
"#]

/-- `data/cameras/mamiya`: `zd.toml` -/
def mamiya : List Nat := [
  text! r#"make = "Mamiya-OP Co.,Ltd."
model = "MAMIYA ZD"
clean_make = "Mamiya"
clean_model = "ZD"
blackpoint = 0
whitepoint = 4000
color_matrix = [7645, 2579, -1363, -8689, 16717, 2015, -3712, 5941, 5961]
color_pattern = "RGGB"
crops = [0,0,0,0]
"#]

/-- `data/cameras/minolta`: `5.toml`, `5d.toml`, `7.toml`, `7d.toml`, `7hi.toml`, `7i.toml`, `a1.toml`, `a2.toml`, `a200.toml` -/
def minolta : List Nat := [
  text! r#"make = "Minolta Co., Ltd."
model = "DiMAGE 5"
clean_make = "Minolta"
clean_model = "DiMAGE 5"
blackpoint = 0
whitepoint = 3965
color_matrix = [8983, -2942, -963, -6556, 14476, 2237, -2426, 2887, 8014]
color_pattern = "RGGB"
crops = [0,0,0,0]
"#,
  text! r#"make = "KONICA MINOLTA"
model = "DYNAX 5D"
clean_make = "Minolta"
clean_model = "Dynax 5D"
blackpoint = 0
whitepoint = 4095
color_matrix = [10284, -3283, -1086, -7957, 15762, 2316, -829, 882, 6644]
color_pattern = "RGGB"
crops = [0,0,0,0]
"#,
  text! r#"make = "Minolta Co., Ltd."
model = "DiMAGE 7"
clean_make = "Minolta"
clean_model = "DiMAGE 7"
blackpoint = 0
whitepoint = 3965
color_matrix = [9144, -2777, -998, -6676, 14556, 2281, -2470, 3019, 7744]
color_pattern = "RGGB"
crops = [0,0,0,0]
"#,
  text! r#"make = "KONICA MINOLTA"
model = "DYNAX 7D"
clean_make = "Minolta"
clean_model = "Dynax 7D"
blackpoint = 0
whitepoint = 4095
color_matrix = [10239, -3104, -1099, -8037, 15727, 2451, -927, 925, 6871]
color_pattern = "RGGB"
crops = [0,0,0,0]
"#,
  text! r#"make = "Minolta Co., Ltd."
model = "DiMAGE 7Hi"
clean_make = "Minolta"
clean_model = "DiMAGE 7Hi"
blackpoint = 0
whitepoint = 3965
color_matrix = [11368, -3894, -1242, -6521, 14358, 2339, -2475, 3056, 7285]
color_pattern = "RGGB"
crops = [0,0,0,0]
"#,
  text! r#"make = "Minolta Co., Ltd."
model = "DiMAGE 7i"
clean_make = "Minolta"
clean_model = "DiMAGE 7i"
blackpoint = 0
whitepoint = 3965
color_matrix = [10880, -3638, -1186, -6496, 14313, 2364, -2456, 3092, 7485]
color_pattern = "RGGB"
crops = [0,0,0,0]
"#,
  text! r#"make = "Minolta Co., Ltd."
model = "DiMAGE A1"
clean_make = "Minolta"
clean_model = "DiMAGE A1"
blackpoint = 0
whitepoint = 3965
color_matrix = [9274, -2547, -1167, -8220, 16323, 1943, -2273, 2720, 8340]
color_pattern = "RGGB"
crops = [0,0,0,0]
"#,
  text! r#"make = "Konica Minolta Camera, Inc."
model = "DiMAGE A2"
clean_make = "Minolta"
clean_model = "DiMAGE A2"
blackpoint = 0
whitepoint = 3965
color_matrix = [9097, -2726, -1053, -8073, 15506, 2762, -966, 981, 7763]
color_pattern = "RGGB"
crops = [0,0,0,0]
"#,
  text! r#"make = "KONICA MINOLTA"
model = "DiMAGE A200"
clean_make = "Minolta"
clean_model = "DiMAGE A200"
blackpoint = 0
whitepoint = 3965
color_matrix = [8560, -2487, -986, -8112, 15535, 2771, -1209, 1324, 7743]
color_pattern = "GBRG"
crops = [0,0,0,0]
hints = ["swapped_wb"]
"#]

/-- `data/cameras/nikon`: `1aw1.toml`, `1j1.toml`, `1j2.toml`, `1s2.toml`, `1v3.toml`, `b700.toml`, `d1.toml`, `d100.toml`, `d1x.toml`, `d200.toml`, `d2x.toml`, `d3.toml`, `d300.toml`, `d3000.toml`, `d300s.toml`, `d3100.toml`, `d3200.toml`, `d3300.toml`, `d3400.toml`, `d3x.toml`, `d4.toml`, `d40.toml`, `d40x.toml`, `d4s.toml`, `d5.toml`, `d50.toml`, `d500.toml`, `d5000.toml`, `d5100.toml`, `d5200.toml`, `d5300.toml`, `d5500.toml`, `d5600.toml`, `d60.toml`, `d600.toml`, `d610.toml`, `d70.toml`, `d700.toml`, `d7000.toml`, `d70s.toml`, `d7100.toml`, `d7200.toml`, `d750.toml`, `d80.toml`, `d800.toml`, `d810.toml`, `d90.toml`, `df.toml`, `ds200.toml`, `e5400.toml`, `e5700.toml`, `p330.toml`, `p340.toml`, `p6000.toml`, `p7000.toml`, `p7100.toml`, `v1.toml` -/
def nikon : List Nat := [
  text! r#"make = "NIKON CORPORATION"
model = "NIKON 1 AW1"
clean_make = "Nikon"
clean_model = "1 AW1"
color_matrix = [6588, -1305, -693, -3277, 10987, 2634, -355, 2016, 5106]
color_pattern = "RGGB"
crops = [0,0,0,0]

[[cameras.modes]]
mode = "12bit"
blackpoint = 0
whitepoint = 3300
"#,
  text! r#"make = "NIKON CORPORATION"
model = "NIKON 1 J1"
clean_make = "Nikon"
clean_model = "1 J1"
color_matrix = [8994, -2667, -865, -4594, 12324, 2552, -699, 1786, 6260]
color_pattern = "RGGB"
crops = [0,0,2,0]

[[cameras.modes]]
mode = "12bit"
blackpoint = 0
whitepoint = 3300
"#,
  text! r#"make = "NIKON CORPORATION"
model = "NIKON 1 J2"
clean_make = "Nikon"
clean_model = "1 J2"
color_matrix = [8994, -2667, -865, -4594, 12324, 2552, -699, 1786, 6260]
color_pattern = "RGGB"
crops = [0,0,2,0]

[[cameras.modes]]
mode = "12bit"
blackpoint = 0
whitepoint = 3300
"#,
  text! r#"make = "NIKON CORPORATION"
model = "NIKON 1 S2"
clean_make = "Nikon"
clean_model = "1 S2"
color_matrix = [6612, -1342, -618, -3338, 11055, 2623, -174, 1792, 5075]
color_pattern = "RGGB"
crops = [0,0,0,0]

[[cameras.modes]]
mode = "12bit"
blackpoint = 200
whitepoint = 4095
"#,
  text! r#"make = "NIKON CORPORATION"
model = "NIKON 1 V3"
clean_make = "Nikon"
clean_model = "1 V3"
color_matrix = [5958, -1559, -571, -4021, 11453, 2939, -634, 1548, 5087]
color_pattern = "RGGB"
crops = [0,0,0,0]

[[cameras.modes]]
mode = "12bit"
blackpoint = 200
whitepoint = 4000
"#,
  text! r#"make = "NIKON"
model = "COOLPIX B700"
clean_make = "Nikon"
clean_model = "Coolpix B700"
color_matrix = [14387, -6014, -1299, -1357, 9975, 1616, 467, 1047, 4744]
color_pattern = "RGGB"
crops = [0,0,0,0]

[[cameras.modes]]
mode = "12bit"
blackpoint = 200
whitepoint = 4000
"#,
  text! r#"make = "NIKON CORPORATION"
model = "NIKON D1"
clean_make = "Nikon"
clean_model = "D1"
color_matrix = [7559, -2130, -965, -7611, 15713, 1972, -2478, 3042, 8290]
color_pattern = "BGGR"
crops = [0,12,12,0]

[[cameras.modes]]
mode = "12bit"
blackpoint = 0
whitepoint = 4095
"#,
  text! r#"make = "NIKON CORPORATION"
model = "NIKON D100"
clean_make = "Nikon"
clean_model = "D100"
color_matrix = [5902, -933, -782, -8983, 16719, 2354, -1402, 1455, 6464]
color_pattern = "GRBG"
crops = [0,0,0,2]

[[cameras.modes]]
mode = "12bit"
blackpoint = 0
whitepoint = 4095
"#,
  text! r#"make = "NIKON CORPORATION"
model = "NIKON D1X"
clean_make = "Nikon"
clean_model = "D1X"
color_matrix = [7702, -2245, -975, -9114, 17242, 1875, -2679, 3055, 8521]
color_pattern = "BGGR"
crops = [0,0,0,0]

[[cameras.modes]]
mode = "12bit"
blackpoint = 0
whitepoint = 4095
"#,
  text! r#"make = "NIKON CORPORATION"
model = "NIKON D200"
clean_make = "Nikon"
clean_model = "D200"
color_matrix = [8367, -2248, -763, -8758, 16447, 2422, -1527, 1550, 8053]
color_pattern = "GRBG"
crops = [0,0,0,2]

[[cameras.modes]]
mode = "12bit"
blackpoint = 0
whitepoint = 3880
"#,
  text! r#"make = "NIKON CORPORATION"
model = "NIKON D2X"
clean_make = "Nikon"
clean_model = "D2X"
color_matrix = [10231, -2769, -1255, -8301, 15900, 2552, -797, 680, 7148]
color_pattern = "RGGB"
crops = [0,32,8,0]

[[cameras.modes]]
mode = "12bit"
blackpoint = 0
whitepoint = 3880
"#,
  text! r#"make = "NIKON CORPORATION"
model = "NIKON D3"
clean_make = "Nikon"
clean_model = "D3"
color_matrix = [8139, -2171, -663, -8747, 16541, 2295, -1925, 2008, 8093]
color_pattern = "RGGB"
crops = [0,0,0,2]

[[cameras.modes]]
mode = "14bit"
blackpoint = 0
whitepoint = 15892
"#,
  text! r#"make = "NIKON CORPORATION"
model = "NIKON D300"
clean_make = "Nikon"
clean_model = "D300"
color_matrix = [9030, -1992, -715, -8465, 16302, 2255, -2689, 3217, 8069]
color_pattern = "RGGB"
crops = [0,0,0,0]

[[cameras.modes]]
mode = "12bit"
blackpoint = 0
whitepoint = 3808

[[cameras.modes]]
mode = "14bit"
blackpoint = 0
whitepoint = 15236
"#,
  text! r#"make = "NIKON CORPORATION"
model = "NIKON D3000"
clean_make = "Nikon"
clean_model = "D3000"
color_matrix = [8736, -2458, -935, -9075, 16894, 2251, -1354, 1242, 8263]
color_pattern = "GBRG"
crops = [0,2,3,0]

[[cameras.modes]]
mode = "12bit"
blackpoint = 0
whitepoint = 3880
"#,
  text! r#"make = "NIKON CORPORATION"
model = "NIKON D300S"
clean_make = "Nikon"
clean_model = "D300S"
color_matrix = [9030, -1992, -716, -8465, 16302, 2256, -2689, 3217, 8069]
color_pattern = "RGGB"
crops = [0,0,0,0]

[[cameras.modes]]
mode = "14bit"
blackpoint = 0
whitepoint = 15236
"#,
  text! r#"make = "NIKON CORPORATION"
model = "NIKON D3100"
clean_make = "Nikon"
clean_model = "D3100"
color_matrix = [7911, -2167, -813, -5327, 13150, 2408, -1288, 2483, 7968]
color_pattern = "GBRG"
crops = [2,24,2,8]

[[cameras.modes]]
mode = "12bit"
blackpoint = 0
whitepoint = 3880
"#,
  text! r#"make = "NIKON CORPORATION"
model = "NIKON D3200"
clean_make = "Nikon"
clean_model = "D3200"
color_matrix = [7013, -1408, -635, -5268, 12902, 2640, -1470, 2801, 7379]
color_pattern = "RGGB"
crops = [0,48,0,0]

[[cameras.modes]]
mode = "12bit"
blackpoint = 0
whitepoint = 3880
"#,
  text! r#"make = "NIKON CORPORATION"
model = "NIKON D3300"
clean_make = "Nikon"
clean_model = "D3300"
color_matrix = [6988, -1384, -714, -5631, 13410, 2447, -1485, 2204, 7318]
color_pattern = "RGGB"
crops = [8,8,8,8]

[[cameras.modes]]
mode = "12bit"
blackpoint = 150
whitepoint = 3880
"#,
  text! r#"make = "NIKON CORPORATION"
model = "NIKON D3400"
clean_make = "Nikon"
clean_model = "D3400"
color_matrix = [6988, -1384, -714, -5631, 13410, 2447, -1485, 2204, 7318]
color_pattern = "RGGB"
crops = [0,0,0,0]

[[cameras.modes]]
mode = "12bit"
blackpoint = 150
whitepoint = 3880
"#,
  text! r#"make = "NIKON CORPORATION"
model = "NIKON D3X"
clean_make = "Nikon"
clean_model = "D3X"
color_matrix = [7171, -1986, -648, -8085, 15555, 2718, -2170, 2512, 7457]
color_pattern = "RGGB"
crops = [0,0,0,0]

[[cameras.modes]]
mode = "14bit"
blackpoint = 0
whitepoint = 15892
"#,
  text! r#"make = "NIKON CORPORATION"
model = "NIKON D4"
clean_make = "Nikon"
clean_model = "D4"
color_matrix = [8598, -2848, -857, -5618, 13606, 2195, -1002, 1773, 7137]
color_pattern = "RGGB"
crops = [0,50,0,2]

[[cameras.modes]]
mode = "14bit"
blackpoint = 0
whitepoint = 15520
"#,
  text! r#"make = "NIKON CORPORATION"
model = "NIKON D40"
clean_make = "Nikon"
clean_model = "D40"
color_matrix = [6992, -1668, -806, -8138, 15748, 2543, -874, 850, 7897]
color_pattern = "BGGR"
crops = [0,2,0,0]

[[cameras.modes]]
mode = "12bit"
blackpoint = 0
whitepoint = 3880
"#,
  text! r#"make = "NIKON CORPORATION"
model = "NIKON D40X"
clean_make = "Nikon"
clean_model = "D40X"
color_matrix = [8819, -2543, -911, -9025, 16928, 2151, -1329, 1213, 8449]
color_pattern = "GBRG"
crops = [0,0,0,4]

[[cameras.modes]]
mode = "12bit"
blackpoint = 0
whitepoint = 3880
"#,
  text! r#"make = "NIKON CORPORATION"
model = "NIKON D4S"
clean_make = "Nikon"
clean_model = "D4S"
color_matrix = [8598, -2848, -857, -5618, 13606, 2195, -1002, 1773, 7137]
color_pattern = "RGGB"
crops = [0,0,0,0]

[[cameras.modes]]
mode = "14bit"
blackpoint = 768
whitepoint = 15520

[[cameras.modes]]
mode = "12bit"
blackpoint = 192
whitepoint = 3880
"#,
  text! r#"make = "NIKON CORPORATION"
model = "NIKON D5"
clean_make = "Nikon"
clean_model = "D5"
color_matrix = [9200, -3522, -992, -5755, 13803, 2117, -753, 1486, 6338]
color_pattern = "RGGB"
crops = [0,0,0,0]

[[cameras.modes]]
mode = "14bit"
blackpoint = 400
whitepoint = 15520
"#,
  text! r#"make = "NIKON CORPORATION"
model = "NIKON D50"
clean_make = "Nikon"
clean_model = "D50"
color_matrix = [7732, -2422, -789, -8238, 15884, 2498, -859, 783, 7330]
color_pattern = "BGGR"
crops = [0,2,2,0]

[[cameras.modes]]
mode = "12bit"
blackpoint = 0
whitepoint = 4095
"#,
  text! r#"make = "NIKON CORPORATION"
model = "NIKON D500"
clean_make = "Nikon"
clean_model = "D500"
color_matrix = [8813, -3210, -1036, -4703, 12868, 2021, -1054, 1940, 6129]
color_pattern = "RGGB"
crops = [0,0,0,0]

[[cameras.modes]]
mode = "14bit"
blackpoint = 400
whitepoint = 15520

[[cameras.modes]]
mode = "12bit"
blackpoint = 100
whitepoint = 3880
"#,
  text! r#"make = "NIKON CORPORATION"
model = "NIKON D5000"
clean_make = "Nikon"
clean_model = "D5000"
color_matrix = [7309, -1403, -519, -8474, 16008, 2622, -2433, 2826, 8064]
color_pattern = "GBRG"
crops = [0,0,0,0]

[[cameras.modes]]
mode = "12bit"
blackpoint = 0
whitepoint = 3767
"#,
  text! r#"make = "NIKON CORPORATION"
model = "NIKON D5100"
clean_make = "Nikon"
clean_model = "D5100"
color_matrix = [8198, -2239, -724, -4871, 12389, 2798, -1043, 2050, 7181]
color_pattern = "RGGB"
crops = [0,46,0,0]

[[cameras.modes]]
mode = "14bit"
blackpoint = 0
whitepoint = 15892
"#,
  text! r#"make = "NIKON CORPORATION"
model = "NIKON D5200"
clean_make = "Nikon"
clean_model = "D5200"
color_matrix = [8322, -3112, -1047, -6367, 14342, 2179, -988, 1638, 6394]
color_pattern = "RGGB"
crops = [0,0,0,0]

[[cameras.modes]]
mode = "14bit"
blackpoint = 0
whitepoint = 15892
"#,
  text! r#"make = "NIKON CORPORATION"
model = "NIKON D5300"
clean_make = "Nikon"
clean_model = "D5300"
color_matrix = [6988, -1384, -714, -5631, 13410, 2447, -1485, 2204, 7318]
color_pattern = "RGGB"
crops = [0,0,0,0]

[[cameras.modes]]
mode = "12bit"
blackpoint = 150
whitepoint = 3972

[[cameras.modes]]
mode = "14bit"
blackpoint = 600
whitepoint = 15892
"#,
  text! r#"make = "NIKON CORPORATION"
model = "NIKON D5500"
clean_make = "Nikon"
clean_model = "D5500"
color_matrix = [8821, -2938, -785, -4178, 12142, 2287, -824, 1651, 6860]
color_pattern = "RGGB"
crops = [0,0,0,0]

[[cameras.modes]]
mode = "14bit"
blackpoint = 600
whitepoint = 15892
"#,
  text! r#"make = "NIKON CORPORATION"
model = "NIKON D5600"
clean_make = "Nikon"
clean_model = "D5600"
color_matrix = [8821, -2938, -785, -4178, 12142, 2287, -824, 1651, 6860]
color_pattern = "RGGB"
crops = [0,0,0,0]

[[cameras.modes]]
mode = "14bit"
blackpoint = 600
whitepoint = 15892

[[cameras.modes]]
mode = "12bit"
blackpoint = 150
whitepoint = 3972
"#,
  text! r#"make = "NIKON CORPORATION"
model = "NIKON D60"
clean_make = "Nikon"
clean_model = "D60"
color_matrix = [8736, -2458, -935, -9075, 16894, 2251, -1354, 1242, 8263]
color_pattern = "GBRG"
crops = [0,0,0,0]

[[cameras.modes]]
mode = "12bit"
blackpoint = 0
whitepoint = 3880
"#,
  text! r#"make = "NIKON CORPORATION"
model = "NIKON D600"
clean_make = "Nikon"
clean_model = "D600"
color_matrix = [8178, -2245, -609, -4857, 12394, 2776, -1207, 2086, 7298]
color_pattern = "RGGB"
crops = [0,50,0,0]

[[cameras.modes]]
mode = "14bit"
blackpoint = 0
whitepoint = 15520

[[cameras.modes]]
mode = "12bit"
blackpoint = 0
whitepoint = 3880
"#,
  text! r#"make = "NIKON CORPORATION"
model = "NIKON D610"
clean_make = "Nikon"
clean_model = "D610"
color_matrix = [8178, -2245, -609, -4857, 12394, 2776, -1207, 2086, 7298]
color_pattern = "RGGB"
crops = [0,50,0,0]

[[cameras.modes]]
mode = "14bit"
blackpoint = 0
whitepoint = 15520

[[cameras.modes]]
mode = "12bit"
blackpoint = 0
whitepoint = 3880
"#,
  text! r#"make = "NIKON CORPORATION"
model = "NIKON D70"
clean_make = "Nikon"
clean_model = "D70"
color_matrix = [7732, -2422, -789, -8238, 15884, 2498, -859, 783, 7330]
color_pattern = "BGGR"
crops = [0,2,0,0]

[[cameras.modes]]
mode = "12bit"
blackpoint = 0
whitepoint = 4095
"#,
  text! r#"make = "NIKON CORPORATION"
model = "NIKON D700"
clean_make = "Nikon"
clean_model = "D700"
color_matrix = [8139, -2171, -663, -8747, 16541, 2295, -1925, 2008, 8093]
color_pattern = "RGGB"
crops = [0,0,0,2]

[[cameras.modes]]
mode = "14bit"
blackpoint = 0
whitepoint = 15892
"#,
  text! r#"make = "NIKON CORPORATION"
model = "NIKON D7000"
clean_make = "Nikon"
clean_model = "D7000"
color_matrix = [8198, -2239, -724, -4871, 12389, 2798, -1043, 2050, 7181]
color_pattern = "RGGB"
crops = [0,46,2,0]

[[cameras.modes]]
mode = "14bit"
blackpoint = 0
whitepoint = 15892

[[cameras.modes]]
mode = "12bit"
blackpoint = 0
whitepoint = 3972
"#,
  text! r#"make = "NIKON CORPORATION"
model = "NIKON D70s"
clean_make = "Nikon"
clean_model = "D70s"
color_matrix = [7732, -2422, -789, -8238, 15884, 2498, -859, 783, 7330]
color_pattern = "BGGR"
crops = [0,0,0,0]

[[cameras.modes]]
mode = "12bit"
blackpoint = 0
whitepoint = 4095
"#,
  text! r#"make = "NIKON CORPORATION"
model = "NIKON D7100"
clean_make = "Nikon"
clean_model = "D7100"
color_matrix = [8322, -3112, -1047, -6367, 14342, 2179, -988, 1638, 6394]
color_pattern = "RGGB"
crops = [0,0,0,0]

[[cameras.modes]]
mode = "14bit"
blackpoint = 0
whitepoint = 15892

[[cameras.modes]]
mode = "12bit"
blackpoint = 0
whitepoint = 3972
"#,
  text! r#"make = "NIKON CORPORATION"
model = "NIKON D7200"
clean_make = "Nikon"
clean_model = "D7200"
color_matrix = [8322, -3112, -1047, -6367, 14342, 2179, -988, 1638, 6394]
color_pattern = "RGGB"
crops = [0,0,0,0]

[[cameras.modes]]
mode = "14bit"
blackpoint = 600
whitepoint = 15892

[[cameras.modes]]
mode = "12bit"
blackpoint = 150
whitepoint = 3972
"#,
  text! r#"make = "NIKON CORPORATION"
model = "NIKON D750"
clean_make = "Nikon"
clean_model = "D750"
color_matrix = [9020, -2890, -715, -4535, 12436, 2348, -934, 1919, 7086]
color_pattern = "RGGB"
crops = [0,0,0,0]

[[cameras.modes]]
mode = "14bit"
blackpoint = 600
whitepoint = 15520

[[cameras.modes]]
mode = "12bit"
blackpoint = 150
whitepoint = 3880
"#,
  text! r#"make = "NIKON CORPORATION"
model = "NIKON D80"
clean_make = "Nikon"
clean_model = "D80"
color_matrix = [8629, -2410, -883, -9055, 16940, 2171, -1490, 1363, 8520]
color_pattern = "GBRG"
crops = [0,0,0,0]

[[cameras.modes]]
mode = "12bit"
blackpoint = 0
whitepoint = 3880
"#,
  text! r#"make = "NIKON CORPORATION"
model = "NIKON D800"
clean_make = "Nikon"
clean_model = "D800"

model_aliases = [
  ["NIKON D800E", "D800E"],
]

color_matrix = [7866, -2108, -555, -4869, 12483, 2681, -1176, 2069, 7501]
color_pattern = "RGGB"
crops = [0,48,0,2]

[[cameras.modes]]
mode = "12bit"
blackpoint = 0
whitepoint = 3880

[[cameras.modes]]
mode = "14bit"
blackpoint = 0
whitepoint = 15520
"#,
  text! r#"make = "NIKON CORPORATION"
model = "NIKON D810"
clean_make = "Nikon"
clean_model = "D810"
color_matrix = [9369, -3195, -791, -4488, 12430, 2301, -893, 1796, 6872]
color_pattern = "RGGB"
crops = [0,0,0,0]

[[cameras.modes]]
mode = "12bit"
blackpoint = 150
whitepoint = 3880

[[cameras.modes]]
mode = "14bit"
blackpoint = 600
whitepoint = 15520
"#,
  text! r#"make = "NIKON CORPORATION"
model = "NIKON D90"
clean_make = "Nikon"
clean_model = "D90"
color_matrix = [7309, -1403, -519, -8474, 16008, 2622, -2434, 2826, 8064]
color_pattern = "GBRG"
crops = [0,0,0,0]

[[cameras.modes]]
mode = "12bit"
blackpoint = 0
whitepoint = 3767
"#,
  text! r#"make = "NIKON CORPORATION"
model = "NIKON Df"
clean_make = "Nikon"
clean_model = "Df"
color_matrix = [8598, -2848, -857, -5618, 13606, 2195, -1002, 1773, 7137]
color_pattern = "RGGB"
crops = [0,50,0,2]

[[cameras.modes]]
mode = "14bit"
blackpoint = 0
whitepoint = 15520

[[cameras.modes]]
mode = "12bit"
blackpoint = 0
whitepoint = 3880
"#,
  text! r#"make = "NIKON CORPORATION"
model = "NIKON D5200"
clean_make = "Nikon"
clean_model = "D5200"
color_matrix = [8322, -3112, -1047, -6367, 14342, 2179, -988, 1638, 6394]
color_pattern = "RGGB"
crops = [0,0,0,0]

[[cameras.modes]]
mode = "14bit"
blackpoint = 0
whitepoint = 15892
"#,
  text! r#"make = "NIKON"
model = "E5400"
clean_make = "Nikon"
clean_model = "E5400"
blackpoint = 0
whitepoint = 4095
color_matrix = [9349, -2987, -1001, -7919, 15766, 2266, -2098, 2680, 6839]
color_pattern = "BGGR"
crops = [0,0,0,0]
hints = ["coolpixsplit"]
"#,
  text! r#"make = "NIKON"
model = "E5700"
clean_make = "Nikon"
clean_model = "E5700"
blackpoint = 0
whitepoint = 4095
color_matrix = [-5368, 11478, 2368, 5537, -113, 3148, -4969, 10021, 5782, 778, 9028, 211]
color_pattern = "RGEB"
crops = [0,0,0,0]
hints = ["coolpixsplit", "nowb"]
"#,
  text! r#"make = "NIKON"
model = "COOLPIX P330"
clean_make = "Nikon"
clean_model = "Coolpix P330"
color_matrix = [10321, -3920, -931, -2750, 11146, 1824, -442, 1545, 5539]
color_pattern = "RGGB"
crops = [0,0,0,0]

[[cameras.modes]]
mode = "14bit"
blackpoint = 3210
whitepoint = 65000
"#,
  text! r#"make = "NIKON"
model = "COOLPIX P340"
clean_make = "Nikon"
clean_model = "Coolpix P340"
blackpoint = 200
whitepoint = 3800
color_matrix = [10321, -3920, -931, -2750, 11146, 1824, -442, 1545, 5539]
color_pattern = "RGGB"
crops = [0,0,0,0]
hints = ["msb"]
"#,
  text! r#"make = "NIKON"
model = "COOLPIX P6000"
clean_make = "Nikon"
clean_model = "Coolpix P6000"
blackpoint = 0
whitepoint = 4095
color_matrix = [9698, -3367, -914, -4706, 12584, 2368, -837, 968, 5801]
color_pattern = "RGGB"
crops = [0,0,0,0]
hints = ["msb32"]
"#,
  text! r#"make = "NIKON"
model = "COOLPIX P7000"
clean_make = "Nikon"
clean_model = "Coolpix P7000"
blackpoint = 0
whitepoint = 4095
color_matrix = [11432, -3679, -1111, -3169, 11239, 2202, -791, 1380, 4455]
color_pattern = "RGGB"
crops = [0,0,0,0]
hints = ["msb32"]
"#,
  text! r#"make = "NIKON"
model = "COOLPIX P7100"
clean_make = "Nikon"
clean_model = "Coolpix P7100"
blackpoint = 0
whitepoint = 3800
color_matrix = [11053, -4269, -1024, -1976, 10182, 2088, -526, 1263, 4469]
color_pattern = "RGGB"
crops = [0,0,0,0]
hints = ["msb32"]
"#,
  text! r#"make = "NIKON CORPORATION"
model = "NIKON 1 V1"
clean_make = "Nikon"
clean_model = "1 V1"
color_matrix = [8994, -2667, -865, -4594, 12324, 2552, -699, 1786, 6260]
color_pattern = "RGGB"
crops = [0,0,2,0]

[[cameras.modes]]
mode = "12bit"
blackpoint = 0
whitepoint = 4095
"#]

/-- `data/cameras/olympus`: `c5050z.toml`, `c5060wz.toml`, `c7070wz.toml`, `c8080.toml`, `e-1.toml`, `e-20.toml`, `e-3.toml`, `e-30.toml`, `e-300.toml`, `e-330.toml`, `e-410.toml`, `e-420.toml`, `e-450.toml`, `e-5.toml`, `e-500.toml`, `e-510.toml`, `e-520.toml`, `e-600.toml`, `e-m1.toml`, `e-m10.toml`, `e-m10mk2.toml`, `e-m1mk2.toml`, `e-m5.toml`, `e-m5mk2.toml`, `e-p1.toml`, `e-p2.toml`, `e-p3.toml`, `e-p5.toml`, `e-pl1.toml`, `e-pl3.toml`, `e-pl5.toml`, `e-pl6.toml`, `e-pl7.toml`, `e-pm1.toml`, `e-pm2.toml`, `e620.toml`, `penf.toml`, `sh-2.toml`, `sp320.toml`, `sp350.toml`, `sp500uz.toml`, `stylus1-1.toml`, `stylus1.toml`, `tg-4.toml`, `xz-1.toml`, `xz-2.toml` -/
def olympus : List Nat := [
  text! r#"make = "OLYMPUS OPTICAL CO.,LTD"
model = "C5050Z"
clean_make = "Olympus"
clean_model = "C5050Z"
blackpoint = 0
whitepoint = 4095
color_matrix = [10508, -3124, -1273, -6079, 14294, 1901, -1653, 2306, 6237]
color_pattern = "BGGR"
crops = [0,0,0,0]
"#,
  text! r#"make = "OLYMPUS CORPORATION"
model = "C5060WZ"
clean_make = "Olympus"
clean_model = "C5060WZ"
blackpoint = 0
whitepoint = 4095
color_matrix = [10445, -3362, -1307, -7662, 15690, 2058, -1135, 1176, 7602]
color_pattern = "RGGB"
crops = [0,0,0,0]
"#,
  text! r#"make = "OLYMPUS IMAGING CORP."
model = "C7070WZ"
clean_make = "Olympus"
clean_model = "C7070WZ"
blackpoint = 0
whitepoint = 4095
color_matrix = [10252, -3531, -1095, -7114, 14850, 2436, -1451, 1723, 6365]
color_pattern = "RGGB"
crops = [0,0,0,0]
"#,
  text! r#"make = "OLYMPUS CORPORATION"
model = "C8080WZ"
clean_make = "Olympus"
clean_model = "C8080WZ"
blackpoint = 0
whitepoint = 4095
color_matrix = [8606, -2509, -1014, -8238, 15714, 2703, -942, 979, 7760]
color_pattern = "BGGR"
crops = [0,0,0,0]
"#,
  text! r#"make = "OLYMPUS CORPORATION"
model = "E-1"
clean_make = "Olympus"
clean_model = "E-1"
blackpoint = 65
whitepoint = 4095
color_matrix = [11846, -4767, -945, -7027, 15878, 1089, -2699, 4122, 8311]
color_pattern = "GRBG"
crops = [0,0,0,0]
"#,
  text! r#"make = "OLYMPUS OPTICAL CO.,LTD"
model = "E-20,E-20N,E-20P"
clean_make = "Olympus"
clean_model = "E-20"
blackpoint = 0
whitepoint = 4092
color_matrix = [13173, -4732, -1499, -5807, 14036, 1895, -2045, 2452, 7142]
color_pattern = "RGGB"
crops = [0,0,0,0]
"#,
  text! r#"make = "OLYMPUS IMAGING CORP."
model = "E-3"
clean_make = "Olympus"
clean_model = "E-3"
blackpoint = 53
whitepoint = 4015
color_matrix = [9487, -2875, -1115, -7533, 15606, 2010, -1618, 2100, 7389]
color_pattern = "RGGB"
crops = [0,0,0,0]
"#,
  text! r#"make = "OLYMPUS IMAGING CORP."
model = "E-30"
clean_make = "Olympus"
clean_model = "E-30"
blackpoint = 64
whitepoint = 4015
color_matrix = [8144, -1861, -1111, -7763, 15894, 1929, -1865, 2542, 7607]
color_pattern = "BGGR"
crops = [0,6,2,0]
"#,
  text! r#"make = "OLYMPUS IMAGING CORP."
model = "E-300"
clean_make = "Olympus"
clean_model = "E-300"
blackpoint = 63
whitepoint = 4095
color_matrix = [7828, -1761, -348, -5788, 14071, 1830, -2853, 4518, 6557]
color_pattern = "RGGB"
crops = [0,20,0,0]
"#,
  text! r#"make = "OLYMPUS IMAGING CORP."
model = "E-330"
clean_make = "Olympus"
clean_model = "E-330"
blackpoint = 70
whitepoint = 4095
color_matrix = [8961, -2473, -1084, -7979, 15990, 2067, -2319, 3035, 8249]
color_pattern = "RGGB"
crops = [0,30,0,0]
"#,
  text! r#"make = "OLYMPUS IMAGING CORP."
model = "E-410"
clean_make = "Olympus"
clean_model = "E-410"
blackpoint = 72
whitepoint = 3601
color_matrix = [8856, -2582, -1026, -7761, 15766, 2082, -2009, 2575, 7469]
color_pattern = "RGGB"
crops = [0,0,0,0]
"#,
  text! r#"make = "OLYMPUS IMAGING CORP."
model = "E-420"
clean_make = "Olympus"
clean_model = "E-420"
blackpoint = 0
whitepoint = 4015
color_matrix = [8746, -2425, -1095, -7594, 15612, 2073, -1780, 2309, 7416]
color_pattern = "RGGB"
crops = [0,0,0,0]
"#,
  text! r#"make = "OLYMPUS IMAGING CORP."
model = "E-450"
clean_make = "Olympus"
clean_model = "E-450"
blackpoint = 69
whitepoint = 4015
color_matrix = [8745, -2425, -1095, -7594, 15613, 2073, -1780, 2309, 7416]
color_pattern = "RGGB"
crops = [0,0,0,0]
"#,
  text! r#"make = "OLYMPUS IMAGING CORP."
model = "E-5"
clean_make = "Olympus"
clean_model = "E-5"
blackpoint = 64
whitepoint = 3604
color_matrix = [11200, -3783, -1325, -4576, 12593, 2206, -695, 1742, 7504]
color_pattern = "BGGR"
crops = [0,4,0,0]
"#,
  text! r#"make = "OLYMPUS IMAGING CORP."
model = "E-500"
clean_make = "Olympus"
clean_model = "E-500"
blackpoint = 63
whitepoint = 3967
color_matrix = [8136, -1968, -299, -5481, 13742, 1871, -2556, 4205, 6630]
color_pattern = "RGGB"
crops = [0,20,0,0]
"#,
  text! r#"make = "OLYMPUS IMAGING CORP."
model = "E-510"
clean_make = "Olympus"
clean_model = "E-510"
blackpoint = 73
whitepoint = 3500
color_matrix = [8785, -2529, -1033, -7639, 15624, 2112, -1783, 2300, 7817]
color_pattern = "RGGB"
crops = [0,0,0,0]
"#,
  text! r#"make = "OLYMPUS IMAGING CORP."
model = "E-520"
clean_make = "Olympus"
clean_model = "E-520"
blackpoint = 69
whitepoint = 4015
color_matrix = [8344, -2322, -1020, -7596, 15635, 2048, -1748, 2269, 7287]
color_pattern = "RGGB"
crops = [0,0,0,0]
"#,
  text! r#"make = "OLYMPUS IMAGING CORP."
model = "E-600"
clean_make = "Olympus"
clean_model = "E-600"
blackpoint = 65
whitepoint = 4015
color_matrix = [8453, -2198, -1092, -7609, 15681, 2008, -1725, 2337, 7824]
color_pattern = "BGGR"
crops = [0,4,12,0]
"#,
  text! r#"make = "OLYMPUS IMAGING CORP."
model = "E-M1"
clean_make = "Olympus"
clean_model = "E-M1"
blackpoint = 255
whitepoint = 4000
color_matrix = [7687, -1984, -606, -4327, 11928, 2721, -1381, 2339, 6452]
color_pattern = "BGGR"
crops = [0,0,0,0]
"#,
  text! r#"make = "OLYMPUS IMAGING CORP."
model = "E-M10"
clean_make = "Olympus"
clean_model = "E-M10"
blackpoint = 252
whitepoint = 4000
color_matrix = [8380, -2630, -639, -2887, 10725, 2496, -627, 1427, 5438]
color_pattern = "RGGB"
crops = [8,24,8,8]
"#,
  text! r#"make = "OLYMPUS CORPORATION"
model = "E-M10MarkII"
clean_make = "Olympus"
clean_model = "E-M10 Mark II"
blackpoint = 254
whitepoint = 4000
color_matrix = [8380, -2630, -639, -2887, 10725, 2496, -627, 1427, 5438]
color_pattern = "RGGB"
crops = [0,0,0,0]
"#,
  text! r#"make = "OLYMPUS CORPORATION"
model = "E-M1MarkII"
clean_make = "OLYMPUS CORPORATION"
clean_model = "E-M1MarkII"
blackpoint = 254
whitepoint = 4000
color_matrix = [9383, -3170, -763, -2457, 10702, 2020, -384, 1236, 5552]
color_pattern = "RGGB"
crops = [0,0,0,0]
"#,
  text! r#"make = "OLYMPUS IMAGING CORP."
model = "E-M5"
clean_make = "Olympus"
clean_model = "E-M5"
blackpoint = 254
whitepoint = 4000
color_matrix = [8380, -2630, -639, -2887, 10725, 2496, -627, 1427, 5438]
color_pattern = "RGGB"
crops = [8,24,8,8]
"#,
  text! r#"make = "OLYMPUS IMAGING CORP."
model = "E-M5MarkII"
clean_make = "Olympus"
clean_model = "E-M5 Mark II"
blackpoint = 253
whitepoint = 4000
color_matrix = [9422, -3258, -711, -2655, 10898, 2015, -512, 1354, 5512]
color_pattern = "RGGB"
crops = [0,0,0,0]
"#,
  text! r#"make = "OLYMPUS IMAGING CORP."
model = "E-P1"
clean_make = "Olympus"
clean_model = "E-P1"
blackpoint = 64
whitepoint = 4095
color_matrix = [8343, -2050, -1021, -7715, 15705, 2103, -1831, 2380, 8235]
color_pattern = "RGGB"
crops = [0,6,2,0]
"#,
  text! r#"make = "OLYMPUS IMAGING CORP."
model = "E-P2"
clean_make = "Olympus"
clean_model = "E-P2"
blackpoint = 64
whitepoint = 4095
color_matrix = [8343, -2050, -1021, -7715, 15705, 2103, -1831, 2380, 8235]
color_pattern = "RGGB"
crops = [0,0,0,0]
"#,
  text! r#"make = "OLYMPUS IMAGING CORP."
model = "E-P3"
clean_make = "Olympus"
clean_model = "E-P3"
blackpoint = 64
whitepoint = 3843
color_matrix = [7575, -2159, -571, -3722, 11341, 2725, -1434, 2819, 6271]
color_pattern = "RGGB"
crops = [0,26,0,0]
"#,
  text! r#"make = "OLYMPUS IMAGING CORP."
model = "E-P5"
clean_make = "Olympus"
clean_model = "E-P5"
blackpoint = 255
whitepoint = 4000
color_matrix = [8380, -2630, -639, -2887, 10725, 2496, -627, 1427, 5438]
color_pattern = "RGGB"
crops = [8,24,8,8]
"#,
  text! r#"make = "OLYMPUS IMAGING CORP."
model = "E-PL1"
clean_make = "Olympus"
clean_model = "E-PL1"
blackpoint = 64
whitepoint = 3604
color_matrix = [11408, -4289, -1215, -4286, 12385, 2118, -387, 1467, 7787]
color_pattern = "RGGB"
crops = [0,6,2,0]
"#,
  text! r#"make = "OLYMPUS IMAGING CORP."
model = "E-PL3"
clean_make = "Olympus"
clean_model = "E-PL3"
blackpoint = 64
whitepoint = 3700
color_matrix = [7575, -2159, -571, -3722, 11341, 2725, -1434, 2819, 6271]
color_pattern = "RGGB"
crops = [0,30,0,0]
"#,
  text! r#"make = "OLYMPUS IMAGING CORP."
model = "E-PL5"
clean_make = "Olympus"
clean_model = "E-PL5"
blackpoint = 0
whitepoint = 4000
color_matrix = [8380, -2630, -639, -2887, 10725, 2496, -627, 1427, 5438]
color_pattern = "RGGB"
crops = [8,24,8,8]
"#,
  text! r#"make = "OLYMPUS IMAGING CORP."
model = "E-PL6"
clean_make = "Olympus"
clean_model = "E-PL6"
blackpoint = 254
whitepoint = 4000
color_matrix = [8380, -2630, -639, -2887, 10725, 2496, -627, 1427, 5438]
color_pattern = "RGGB"
crops = [8,24,8,8]
"#,
  text! r#"make = "OLYMPUS IMAGING CORP."
model = "E-PL7"
clean_make = "Olympus"
clean_model = "E-PL7"
blackpoint = 254
whitepoint = 4000
color_matrix = [9197, -3190, -659, -2606, 10830, 2039, -458, 1250, 5458]
color_pattern = "RGGB"
crops = [8,24,8,8]
"#,
  text! r#"make = "OLYMPUS IMAGING CORP."
model = "E-PM1"
clean_make = "Olympus"
clean_model = "E-PM1"
blackpoint = 64
whitepoint = 4011
color_matrix = [7575, -2159, -571, -3722, 11341, 2725, -1434, 2819, 6271]
color_pattern = "RGGB"
crops = [0,24,0,0]
"#,
  text! r#"make = "OLYMPUS IMAGING CORP."
model = "E-PM2"
clean_make = "Olympus"
clean_model = "E-PM2"
blackpoint = 0
whitepoint = 4000
color_matrix = [8380, -2630, -639, -2887, 10725, 2496, -627, 1427, 5438]
color_pattern = "RGGB"
crops = [8,24,8,8]
"#,
  text! r#"make = "OLYMPUS IMAGING CORP."
model = "E-620"
clean_make = "Olympus"
clean_model = "E-620"
blackpoint = 65
whitepoint = 4015
color_matrix = [8453, -2198, -1092, -7609, 15681, 2008, -1725, 2337, 7824]
color_pattern = "BGGR"
crops = [0,4,12,0]
"#,
  text! r#"make = "OLYMPUS CORPORATION"
model = "PEN-F"
clean_make = "Olympus"
clean_model = "PEN-F"
blackpoint = 242
whitepoint = 4000
color_matrix = [9476, -3182, -765, -2613, 10958, 1893, -449, 1315, 5268]
color_pattern = "RGGB"
crops = [0,0,0,0]
"#,
  text! r#"make = "OLYMPUS IMAGING CORP."
model = "SH-2"
clean_make = "OLYMPUS IMAGING CORP."
clean_model = "SH-2"
blackpoint = 200
whitepoint = 4000
color_matrix = [10156, -3425, -1077, -2611, 11177, 1624, -385, 1592, 5080]
color_pattern = "GRBG"
crops = [0,0,0,0]
"#,
  text! r#"make = "OLYMPUS IMAGING CORP."
model = "SP320"
clean_make = "Olympus"
clean_model = "SP320"
blackpoint = 0
whitepoint = 4095
color_matrix = [11766, -4445, -1067, -6901, 14421, 2707, -1029, 1217, 7572]
color_pattern = "RGGB"
crops = [0,0,0,0]
"#,
  text! r#"make = "OLYMPUS IMAGING CORP."
model = "SP350"
clean_make = "Olympus"
clean_model = "SP350"
blackpoint = 0
whitepoint = 4095
color_matrix = [12078, -4836, -1069, -6671, 14306, 2578, -786, 939, 7418]
color_pattern = "RGGB"
crops = [0,0,0,0]
"#,
  text! r#"make = "OLYMPUS IMAGING CORP."
model = "SP500UZ"
clean_make = "Olympus"
clean_model = "SP500UZ"
blackpoint = 0
whitepoint = 4095
color_matrix = [9493, -3415, -666, -5211, 12334, 3260, -1548, 2262, 6482]
color_pattern = "GBRG"
crops = [0,0,0,0]
"#,
  text! r#"make = "OLYMPUS IMAGING CORP."
model = "STYLUS1,1s"
clean_make = "Olympus"
clean_model = "Stylus1"
blackpoint = 200
whitepoint = 3900
color_matrix = [8360, -2420, -880, -3928, 12353, 1739, -1381, 2416, 5173]
color_pattern = "RGGB"
crops = [0,14,0,0]
"#,
  text! r#"make = "OLYMPUS IMAGING CORP."
model = "STYLUS1"
clean_make = "Olympus"
clean_model = "Stylus1"
blackpoint = 200
whitepoint = 3900
color_matrix = [8360, -2420, -880, -3928, 12353, 1739, -1381, 2416, 5173]
color_pattern = "RGGB"
crops = [0,14,0,0]
"#,
  text! r#"make = "OLYMPUS CORPORATION"
model = "TG-4"
clean_make = "Olympus"
clean_model = "TG-4"
blackpoint = 302
whitepoint = 4000
color_matrix = [11426, -4159, -1126, -2066, 10678, 1593, -120, 1327, 4998]
color_pattern = "GRBG"
crops = [8,16,8,16]
"#,
  text! r#"make = "OLYMPUS IMAGING CORP."
model = "XZ-1"
clean_make = "Olympus"
clean_model = "XZ-1"
blackpoint = 67
whitepoint = 3900
color_matrix = [10901, -4095, -1074, -1141, 9208, 2293, -62, 1417, 5158]
color_pattern = "RGGB"
crops = [0,0,2,0]
"#,
  text! r#"make = "OLYMPUS IMAGING CORP."
model = "XZ-2"
clean_make = "Olympus"
clean_model = "XZ-2"
blackpoint = 200
whitepoint = 3900
color_matrix = [9777, -3483, -925, -2886, 11297, 1800, -602, 1663, 5134]
color_pattern = "RGGB"
crops = [0,0,2,0]
"#]

/-- `data/cameras/panasonic`: `fz1000.toml`, `fz150.toml`, `fz18.toml`, `fz200.toml`, `fz28.toml`, `fz30.toml`, `fz300.toml`, `fz330.toml`, `fz38.toml`, `fz45.toml`, `fz50.toml`, `fz70.toml`, `fz72.toml`, `fz8.toml`, `fz82.toml`, `g1.toml`, `g10.toml`, `g3.toml`, `g6.toml`, `g7.toml`, `g70.toml`, `g80.toml`, `gf1.toml`, `gf3.toml`, `gf5.toml`, `gf6.toml`, `gf7.toml`, `gh1.toml`, `gh2.toml`, `gh3.toml`, `gh4.toml`, `gh5.toml`, `gm1.toml`, `gm1s.toml`, `gm5.toml`, `gx1.toml`, `gx7.toml`, `gx8.toml`, `gx80.toml`, `gx800.toml`, `l1.toml`, `l10.toml`, `lf1.toml`, `lx1.toml`, `lx10.toml`, `lx100.toml`, `lx2.toml`, `lx3.toml`, `lx5.toml`, `lx7.toml`, `tz100.toml`, `tz60.toml`, `tz61.toml`, `tz70.toml`, `tz71.toml` -/
def panasonic : List Nat := [
  text! r#"make = "Panasonic"
model = "DMC-FZ1000"
clean_make = "Panasonic"
clean_model = "DMC-FZ1000"
blackpoint = 143
whitepoint = 4095
color_matrix = [7830, -2696, -763, -3325, 11667, 1866, -641, 1712, 4824]
color_pattern = "GBRG"

[[cameras.modes]]
mode = "1:1"
crops = [0,32,0,0]

[[cameras.modes]]
mode = "4:3"
crops = [0,160,0,0]

[[cameras.modes]]
mode = "3:2"
crops = [0,0,0,0]

[[cameras.modes]]
mode = "16:9"
crops = [0,0,0,0]
"#,
  text! r#"make = "Panasonic"
model = "DMC-FZ150"
clean_make = "Panasonic"
clean_model = "DMC-FZ150"
blackpoint = 142
whitepoint = 3971
color_matrix = [11904, -4541, -1189, -2355, 10899, 1662, -296, 1586, 4289]
color_pattern = "GBRG"

[[cameras.modes]]
mode = "1:1"
crops = [0,16,0,0]

[[cameras.modes]]
mode = "4:3"
crops = [0,128,0,0]

[[cameras.modes]]
mode = "3:2"
crops = [0,128,0,0]

[[cameras.modes]]
mode = "16:9"
crops = [0,128,0,0]
"#,
  text! r#"make = "Panasonic"
model = "DMC-FZ18"
clean_make = "Panasonic"
clean_model = "DMC-FZ18"
blackpoint = 0
whitepoint = 3986
color_matrix = [9932, -3060, -935, -5809, 13331, 2753, -1267, 2155, 5575]
color_pattern = "BGGR"

[[cameras.modes]]
mode = "4:3"
crops = [0,30,1,10]

[[cameras.modes]]
mode = "3:2"
crops = [0,31,0,9]

[[cameras.modes]]
mode = "16:9"
crops = [0,31,0,9]
"#,
  text! r#"make = "Panasonic"
model = "DMC-FZ200"
clean_make = "Panasonic"
clean_model = "DMC-FZ200"
blackpoint = 142
whitepoint = 3971
color_matrix = [8112, -2563, -740, -3730, 11784, 2197, -941, 2075, 4933]
color_pattern = "GBRG"

[[cameras.modes]]
mode = "1:1"
crops = [0,16,0,0]

[[cameras.modes]]
mode = "4:3"
crops = [0,128,4,0]

[[cameras.modes]]
mode = "3:2"
crops = [0,128,0,0]

[[cameras.modes]]
mode = "16:9"
crops = [0,128,0,0]
"#,
  text! r#"make = "Panasonic"
model = "DMC-FZ28"
clean_make = "Panasonic"
clean_model = "DMC-FZ28"
blackpoint = 15
whitepoint = 3986
color_matrix = [10109, -3488, -993, -5412, 12812, 2916, -1305, 2140, 5543]
color_pattern = "BGGR"

[[cameras.modes]]
mode = "4:3"
crops = [0,56,0,0]
"#,
  text! r#"make = "Panasonic"
model = "DMC-FZ30"
clean_make = "Panasonic"
clean_model = "DMC-FZ30"
blackpoint = 0
whitepoint = 3971
color_matrix = [10976, -4029, -1141, -7918, 15491, 2600, -1670, 2071, 8246]
color_pattern = "RGGB"

[[cameras.modes]]
mode = "4:3"
crops = [0,16,0,0]
"#,
  text! r#"make = "Panasonic"
model = "DMC-FZ300"
clean_make = "Panasonic"
clean_model = "DMC-FZ300"
blackpoint = 143
whitepoint = 4095
color_matrix = [8378, -2798, -769, -3068, 11410, 1877, -538, 1792, 4623]
color_pattern = "GBRG"

[[cameras.modes]]
mode = "4:3"
crops = [0,128,0,0]
"#,
  text! r#"make = "Panasonic"
model = "DMC-FZ330"
clean_make = "Panasonic"
clean_model = "DMC-FZ330"
blackpoint = 142
whitepoint = 4095
color_matrix = [8378, -2798, -769, -3068, 11410, 1877, -538, 1792, 4623]
color_pattern = "GBRG"

[[cameras.modes]]
mode = "4:3"
crops = [0,126,0,0]
"#,
  text! r#"make = "Panasonic"
model = "DMC-FZ38"
clean_make = "Panasonic"
clean_model = "DMC-FZ38"
blackpoint = 143
whitepoint = 3986
color_matrix = [9938, -2780, -890, -4604, 12393, 2480, -1117, 2304, 4620]
color_pattern = "BGGR"

[[cameras.modes]]
mode = "4:3"
crops = [0,44,0,0]
"#,
  text! r#"make = "Panasonic"
model = "DMC-FZ45"
clean_make = "Panasonic"
clean_model = "DMC-FZ45"
blackpoint = 143
whitepoint = 3986
color_matrix = [13639, -5535, -1371, -1698, 9633, 2430, 316, 1152, 4108]
color_pattern = "GBRG"

[[cameras.modes]]
mode = "4:3"
crops = [0,58,10,0]

[[cameras.modes]]
mode = "3:2"
crops = [0,62,0,0]
"#,
  text! r#"make = "Panasonic"
model = "DMC-FZ50"
clean_make = "Panasonic"
clean_model = "DMC-FZ50"
blackpoint = 0
whitepoint = 3986
color_matrix = [7906, -2709, -594, -6231, 13351, 3220, -1922, 2631, 6537]
color_pattern = "BGGR"

[[cameras.modes]]
mode = "4:3"
crops = [18,16,5,20]

[[cameras.modes]]
mode = "3:2"
crops = [0,17,5,3]

[[cameras.modes]]
mode = "16:9"
crops = [0,15,5,3]
"#,
  text! r#"make = "Panasonic"
model = "DMC-FZ70"
clean_make = "Panasonic"
clean_model = "DMC-FZ70"
blackpoint = 163
whitepoint = 3941
color_matrix = [11532, -4324, -1066, -2375, 10847, 1749, -564, 1699, 4351]
color_pattern = "RGGB"

[[cameras.modes]]
mode = "1:1"
crops = [0,0,0,0]

[[cameras.modes]]
mode = "4:3"
crops = [0,182,0,0]

[[cameras.modes]]
mode = "3:2"
crops = [0,182,0,0]

[[cameras.modes]]
mode = "16:9"
crops = [0,182,0,0]
"#,
  text! r#"make = "Panasonic"
model = "DMC-FZ72"
clean_make = "Panasonic"
clean_model = "DMC-FZ72"
blackpoint = 144
whitepoint = 3956
color_matrix = [11532, -4324, -1066, -2375, 10847, 1749, -564, 1699, 4351]
color_pattern = "RGGB"

[[cameras.modes]]
mode = "1:1"
crops = [0,0,0,0]

[[cameras.modes]]
mode = "4:3"
crops = [0,182,0,0]

[[cameras.modes]]
mode = "3:2"
crops = [0,182,0,0]

[[cameras.modes]]
mode = "16:9"
crops = [0,182,0,0]
"#,
  text! r#"make = "Panasonic"
model = "DMC-FZ8"
clean_make = "Panasonic"
clean_model = "DMC-FZ8"
blackpoint = 0
whitepoint = 3986
color_matrix = [8986, -2755, -802, -6341, 13575, 3077, -1476, 2144, 6379]
color_pattern = "RGGB"

[[cameras.modes]]
mode = "4:3"
crops = [0,31,1,5]
"#,
  text! r#"make = "Panasonic"
model = "DC-FZ82"
clean_make = "Panasonic"
clean_model = "DC-FZ82"
blackpoint = 142
whitepoint = 4095
color_matrix = [8550, -2908, -842, -3195, 11529, 1881, -338, 1603, 4631]
color_pattern = "GBRG"

[[cameras.modes]]
mode = "4:3"
crops = [0,128,0,0]
"#,
  text! r#"make = "Panasonic"
model = "DMC-G1"
clean_make = "Panasonic"
clean_model = "DMC-G1"
blackpoint = 15
whitepoint = 3986
color_matrix = [8199, -2065, -1056, -8124, 16156, 2033, -2458, 3022, 7220]
color_pattern = "GBRG"

[[cameras.modes]]
mode = "3:2"
crops = [0,44,0,0]

[[cameras.modes]]
mode = "16:9"
crops = [0,32,0,0]

[[cameras.modes]]
mode = "4:3"
crops = [0,42,0,0]
"#,
  text! r#"make = "Panasonic"
model = "DMC-G10"
clean_make = "Panasonic"
clean_model = "DMC-G10"
blackpoint = 15
whitepoint = 3900
color_matrix = [10113, -3400, -1114, -4765, 12683, 2317, -377, 1437, 6710]
color_pattern = "GBRG"

[[cameras.modes]]
mode = "4:3"
crops = [0,44,0,0]
"#,
  text! r#"make = "Panasonic"
model = "DMC-G3"
clean_make = "Panasonic"
clean_model = "DMC-G3"
blackpoint = 143
whitepoint = 3956
color_matrix = [6763, -1919, -863, -3868, 11515, 2684, -1216, 2387, 5879]
color_pattern = "GRBG"

[[cameras.modes]]
mode = "1:1"
crops = [0,200,0,0]

[[cameras.modes]]
mode = "4:3"
crops = [0,152,0,0]

[[cameras.modes]]
mode = "3:2"
crops = [0,168,0,0]

[[cameras.modes]]
mode = "16:9"
crops = [0,168,0,0]
"#,
  text! r#"make = "Panasonic"
model = "DMC-G6"
clean_make = "Panasonic"
clean_model = "DMC-G6"
blackpoint = 142
whitepoint = 3971
color_matrix = [8294, -2891, -651, -3869, 11590, 2595, -1183, 2267, 5352]
color_pattern = "BGGR"

[[cameras.modes]]
mode = "1:1"
crops = [0,0,0,0]

[[cameras.modes]]
mode = "4:3"
crops = [0,194,0,0]

[[cameras.modes]]
mode = "3:2"
crops = [0,194,0,0]

[[cameras.modes]]
mode = "16:9"
crops = [0,194,0,0]
"#,
  text! r#"make = "Panasonic"
model = "DMC-G7"
clean_make = "Panasonic"
clean_model = "DMC-G7"
blackpoint = 143
whitepoint = 4095
color_matrix = [7610, -2780, -576, -4614, 12195, 2733, -1375, 2393, 6490]
color_pattern = "BGGR"

[[cameras.modes]]
mode = "1:1"
crops = [0,32,0,0]

[[cameras.modes]]
mode = "4:3"
crops = [0,208,0,0]

[[cameras.modes]]
mode = "3:2"
crops = [0,208,0,0]

[[cameras.modes]]
mode = "16:9"
crops = [0,208,0,0]
"#,
  text! r#"make = "Panasonic"
model = "DMC-G70"
clean_make = "Panasonic"
clean_model = "DMC-G70"
blackpoint = 143
whitepoint = 4095
color_matrix = [7610, -2780, -576, -4614, 12195, 2733, -1375, 2393, 6490]
color_pattern = "BGGR"

[[cameras.modes]]
mode = "1:1"
crops = [0,32,0,0]

[[cameras.modes]]
mode = "4:3"
crops = [0,208,0,0]

[[cameras.modes]]
mode = "3:2"
crops = [0,208,0,0]

[[cameras.modes]]
mode = "16:9"
crops = [0,208,0,0]
"#,
  text! r#"make = "Panasonic"
model = "DMC-G80"
clean_make = "Panasonic"
clean_model = "DMC-G80"
blackpoint = 143
whitepoint = 4095
color_matrix = [7610, -2780, -576, -4614, 12195, 2733, -1375, 2393, 6490]
color_pattern = "BGGR"

[[cameras.modes]]
mode = "4:3"
crops = [0,208,0,0]
"#,
  text! r#"make = "Panasonic"
model = "DMC-GF1"
clean_make = "Panasonic"
clean_model = "DMC-GF1"
blackpoint = 15
whitepoint = 3986
color_matrix = [7888, -1902, -1011, -8106, 16085, 2099, -2353, 2866, 7330]
color_pattern = "GBRG"

[[cameras.modes]]
mode = "1:1"
crops = [0,44,0,0]

[[cameras.modes]]
mode = "4:3"
crops = [0,44,0,0]

[[cameras.modes]]
mode = "3:2"
crops = [0,44,0,0]

[[cameras.modes]]
mode = "16:9"
crops = [0,44,0,0]
"#,
  text! r#"make = "Panasonic"
model = "DMC-GF3"
clean_make = "Panasonic"
clean_model = "DMC-GF3"
blackpoint = 143
whitepoint = 3956
color_matrix = [9051, -2468, -1204, -5212, 13276, 2121, -1197, 2510, 6890]
color_pattern = "GBRG"

[[cameras.modes]]
mode = "1:1"
crops = [0,184,0,0]

[[cameras.modes]]
mode = "4:3"
crops = [0,72,0,0]

[[cameras.modes]]
mode = "3:2"
crops = [0,72,0,0]

[[cameras.modes]]
mode = "16:9"
crops = [0,72,0,0]
"#,
  text! r#"make = "Panasonic"
model = "DMC-GF5"
clean_make = "Panasonic"
clean_model = "DMC-GF5"
blackpoint = 143
whitepoint = 3956
color_matrix = [8228, -2945, -660, -3938, 11792, 2430, -1094, 2278, 5793]
color_pattern = "GBRG"

[[cameras.modes]]
mode = "1:1"
crops = [0,16,0,0]

[[cameras.modes]]
mode = "4:3"
crops = [0,128,0,0]

[[cameras.modes]]
mode = "3:2"
crops = [0,128,0,0]

[[cameras.modes]]
mode = "16:9"
crops = [0,128,0,0]
"#,
  text! r#"make = "Panasonic"
model = "DMC-GF6"
clean_make = "Panasonic"
clean_model = "DMC-GF6"
blackpoint = 143
whitepoint = 3956
color_matrix = [8130, -2801, -946, -3520, 11289, 2552, -1314, 2511, 5791]
color_pattern = "GRBG"

[[cameras.modes]]
mode = "1:1"
crops = [0,32,0,0]

[[cameras.modes]]
mode = "4:3"
crops = [0,208,0,0]

[[cameras.modes]]
mode = "3:2"
crops = [0,208,0,0]

[[cameras.modes]]
mode = "16:9"
crops = [0,208,0,0]
"#,
  text! r#"make = "Panasonic"
model = "DMC-GF7"
clean_make = "Panasonic"
clean_model = "DMC-GF7"
blackpoint = 143
whitepoint = 4095
color_matrix = [7610, -2780, -576, -4614, 12195, 2733, -1375, 2393, 6490]
color_pattern = "BGGR"

[[cameras.modes]]
mode = "1:1"
crops = [0,32,0,0]

[[cameras.modes]]
mode = "4:3"
crops = [0,208,0,0]

[[cameras.modes]]
mode = "3:2"
crops = [0,208,0,0]

[[cameras.modes]]
mode = "16:9"
crops = [0,208,0,0]
"#,
  text! r#"make = "Panasonic"
model = "DMC-GH1"
clean_make = "Panasonic"
clean_model = "DMC-GH1"
blackpoint = 15
whitepoint = 3986
color_matrix = [6299, -1466, -532, -6535, 13852, 2969, -2331, 3112, 5984]
color_pattern = "GBRG"

[[cameras.modes]]
mode = "4:3"
crops = [0,44,0,0]

[[cameras.modes]]
mode = "3:2"
crops = [0,28,0,0]

[[cameras.modes]]
mode = "16:9"
crops = [0,28,0,0]

[[cameras.modes]]
mode = "1:1"
crops = [0,44,0,0]
"#,
  text! r#"make = "Panasonic"
model = "DMC-GH2"
clean_make = "Panasonic"
clean_model = "DMC-GH2"
blackpoint = 15
whitepoint = 3800
color_matrix = [7780, -2410, -806, -3913, 11724, 2484, -1018, 2390, 5298]
color_pattern = "BGGR"

[[cameras.modes]]
mode = "1:1"
crops = [0,168,0,0]

[[cameras.modes]]
mode = "4:3"
crops = [0,136,0,0]

[[cameras.modes]]
mode = "3:2"
crops = [0,216,0,0]

[[cameras.modes]]
mode = "16:9"
crops = [0,216,0,0]
"#,
  text! r#"make = "Panasonic"
model = "DMC-GH3"
clean_make = "Panasonic"
clean_model = "DMC-GH3"
blackpoint = 142
whitepoint = 3971
color_matrix = [6559, -1752, -491, -3672, 11407, 2586, -962, 1875, 5130]
color_pattern = "GBRG"

[[cameras.modes]]
mode = "1:1"
crops = [0,0,0,0]

[[cameras.modes]]
mode = "4:3"
crops = [0,194,0,0]

[[cameras.modes]]
mode = "3:2"
crops = [0,194,0,0]

[[cameras.modes]]
mode = "16:9"
crops = [0,194,0,0]
"#,
  text! r#"make = "Panasonic"
model = "DMC-GH4"
clean_make = "Panasonic"
clean_model = "DMC-GH4"
blackpoint = 143
whitepoint = 4095
color_matrix = [7122, -2108, -512, -3155, 11201, 2231, -541, 1423, 5045]
color_pattern = "BGGR"

[[cameras.modes]]
mode = "1:1"
crops = [0,0,0,0]

[[cameras.modes]]
mode = "4:3"
crops = [8,200,8,8]

[[cameras.modes]]
mode = "3:2"
crops = [8,200,8,8]

[[cameras.modes]]
mode = "16:9"
crops = [8,200,8,8]
"#,
  text! r#"make = "Panasonic"
model = "DC-GH5"
clean_make = "Panasonic"
clean_model = "DC-GH5"
blackpoint = 144
whitepoint = 4095
color_matrix = [7641, -2336, -605, -3218, 11299, 2187, -485, 1338, 5121]
color_pattern = "RGGB"

[[cameras.modes]]
mode = "4:3"
crops = [0,56,0,0]
"#,
  text! r#"make = "Panasonic"
model = "DMC-GM1"
clean_make = "Panasonic"
clean_model = "DMC-GM1"
blackpoint = 143
whitepoint = 3956
color_matrix = [6770, -1895, -744, -5232, 13145, 2303, -1664, 2691, 5703]
color_pattern = "BGGR"

[[cameras.modes]]
mode = "1:1"
crops = [0,0,0,0]

[[cameras.modes]]
mode = "4:3"
crops = [0,206,0,0]

[[cameras.modes]]
mode = "3:2"
crops = [0,206,0,0]

[[cameras.modes]]
mode = "16:9"
crops = [0,206,0,0]
"#,
  text! r#"make = "Panasonic"
model = "DMC-GM1S"
clean_make = "Panasonic"
clean_model = "DMC-GM1S"
blackpoint = 143
whitepoint = 4095
color_matrix = [6770, -1895, -744, -5232, 13145, 2303, -1664, 2691, 5703]
color_pattern = "BGGR"

[[cameras.modes]]
mode = "4:3"
crops = [0,208,0,0]
"#,
  text! r#"make = "Panasonic"
model = "DMC-GM5"
clean_make = "Panasonic"
clean_model = "DMC-GM5"
blackpoint = 143
whitepoint = 4095
color_matrix = [8238, -3244, -679, -3921, 11814, 2384, -836, 2022, 5852]
color_pattern = "BGGR"

[[cameras.modes]]
mode = "4:3"
crops = [0,224,16,0]
"#,
  text! r#"make = "Panasonic"
model = "DMC-GX1"
clean_make = "Panasonic"
clean_model = "DMC-GX1"
blackpoint = 143
whitepoint = 3956
color_matrix = [6763, -1919, -863, -3868, 11515, 2684, -1216, 2387, 5879]
color_pattern = "GRBG"

[[cameras.modes]]
mode = "1:1"
crops = [0,198,0,0]

[[cameras.modes]]
mode = "4:3"
crops = [0,154,0,0]

[[cameras.modes]]
mode = "3:2"
crops = [0,170,0,0]

[[cameras.modes]]
mode = "16:9"
crops = [0,170,0,0]
"#,
  text! r#"make = "Panasonic"
model = "DMC-GX7"
clean_make = "Panasonic"
clean_model = "DMC-GX7"
blackpoint = 143
whitepoint = 3956
color_matrix = [7610, -2780, -576, -4614, 12195, 2733, -1375, 2393, 6490]
color_pattern = "BGGR"

[[cameras.modes]]
mode = "1:1"
crops = [0,32,0,0]

[[cameras.modes]]
mode = "4:3"
crops = [0,208,0,0]

[[cameras.modes]]
mode = "3:2"
crops = [0,208,0,0]

[[cameras.modes]]
mode = "16:9"
crops = [0,208,0,0]
"#,
  text! r#"make = "Panasonic"
model = "DMC-GX8"
clean_make = "Panasonic"
clean_model = "DMC-GX8"
blackpoint = 144
whitepoint = 4095
color_matrix = [7564, -2263, -606, -3148, 11239, 2177, -540, 1435, 4853]
color_pattern = "GBRG"

[[cameras.modes]]
mode = "4:3"
crops = [0,64,0,0]
"#,
  text! r#"make = "Panasonic"
model = "DMC-GX80"
clean_make = "Panasonic"
clean_model = "DMC-GX80"
blackpoint = 143
whitepoint = 4095
color_matrix = [7771, -3020, -629, -4029, 11950, 2345, -821, 1977, 6119]
color_pattern = "BGGR"

[[cameras.modes]]
mode = "4:3"
crops = [0,126,0,0]
"#,
  text! r#"make = "Panasonic"
model = "DC-GX800"
clean_make = "Panasonic"
clean_model = "DC-GX800"
blackpoint = 143
whitepoint = 4095
color_matrix = [7610, -2780, -576, -4614, 12195, 2733, -1375, 2393, 6490]
color_pattern = "BGGR"

[[cameras.modes]]
mode = "4:3"
crops = [0,208,0,0]
"#,
  text! r#"make = "Panasonic"
model = "DMC-L1"
clean_make = "Panasonic"
clean_model = "DMC-L1"
blackpoint = 0
whitepoint = 3986
color_matrix = [8054, -1885, -1025, -8349, 16367, 2040, -2805, 3542, 7629]
color_pattern = "GBRG"

[[cameras.modes]]
mode = "4:3"
crops = [0,11,1,0]
"#,
  text! r#"make = "Panasonic"
model = "DMC-L10"
clean_make = "Panasonic"
clean_model = "DMC-L10"
blackpoint = 0
whitepoint = 3986
color_matrix = [8025, -1942, -1050, -7920, 15904, 2100, -2456, 3005, 7039]
color_pattern = "GBRG"

[[cameras.modes]]
mode = "4:3"
crops = [0,28,1,0]
"#,
  text! r#"make = "Panasonic"
model = "DMC-LF1"
clean_make = "Panasonic"
clean_model = "DMC-LF1"
blackpoint = 143
whitepoint = 3971
color_matrix = [9379, -3267, -816, -3227, 11560, 1881, -926, 1928, 5340]
color_pattern = "RGGB"

[[cameras.modes]]
mode = "1:1"
crops = [0,16,0,0]

[[cameras.modes]]
mode = "4:3"
crops = [0,126,0,0]

[[cameras.modes]]
mode = "3:2"
crops = [0,126,0,0]

[[cameras.modes]]
mode = "16:9"
crops = [0,126,0,0]
"#,
  text! r#"make = "Panasonic"
model = "DMC-LX1"
clean_make = "Panasonic"
clean_model = "DMC-LX1"
blackpoint = 0
whitepoint = 3971
color_matrix = [10704, -4187, -1230, -8314, 15952, 2501, -920, 945, 8927]
color_pattern = "RGGB"

[[cameras.modes]]
mode = "16:9"
crops = [0,16,0,6]
"#,
  text! r#"make = "Panasonic"
model = "DMC-LX10"
clean_make = "Panasonic"
clean_model = "DMC-LX10"
blackpoint = 143
whitepoint = 4095
color_matrix = [7790, -2736, -755, -3452, 11870, 1769, -628, 1647, 4898]
color_pattern = "GBRG"

[[cameras.modes]]
mode = "3:2"
crops = [0,0,0,0]
"#,
  text! r#"make = "Panasonic"
model = "DMC-LX100"
clean_make = "Panasonic"
clean_model = "DMC-LX100"
blackpoint = 143
whitepoint = 4095
color_matrix = [8844, -3538, -768, -3709, 11762, 2200, -698, 1792, 5220]
color_pattern = "BGGR"

[[cameras.modes]]
mode = "1:1"
crops = [0,144,0,0]

[[cameras.modes]]
mode = "4:3"
crops = [0,16,0,0]

[[cameras.modes]]
mode = "3:2"
crops = [0,80,0,0]

[[cameras.modes]]
mode = "16:9"
crops = [0,96,0,0]
"#,
  text! r#"make = "Panasonic"
model = "DMC-LX2"
clean_make = "Panasonic"
clean_model = "DMC-LX2"
blackpoint = 0
whitepoint = 3986
color_matrix = [8048, -2810, -623, -6450, 13519, 3272, -1700, 2146, 7049]
color_pattern = "BGGR"

[[cameras.modes]]
mode = "16:9"
crops = [0,38,3,4]
"#,
  text! r#"make = "Panasonic"
model = "DMC-LX3"
clean_make = "Panasonic"
clean_model = "DMC-LX3"
blackpoint = 15
whitepoint = 3986
color_matrix = [8128, -2668, -655, -6134, 13307, 3161, -1782, 2568, 6083]
color_pattern = "BGGR"

[[cameras.modes]]
mode = "1:1"
crops = [0,74,0,0]

[[cameras.modes]]
mode = "4:3"
crops = [0,58,0,0]

[[cameras.modes]]
mode = "3:2"
crops = [0,44,0,0]

[[cameras.modes]]
mode = "16:9"
crops = [0,70,0,0]
"#,
  text! r#"make = "Panasonic"
model = "DMC-LX5"
clean_make = "Panasonic"
clean_model = "DMC-LX5"
blackpoint = 143
whitepoint = 3986
color_matrix = [10909, -4295, -948, -1333, 9306, 2399, 22, 1738, 4582]
color_pattern = "GRBG"

[[cameras.modes]]
mode = "1:1"
crops = [0,220,4,0]

[[cameras.modes]]
mode = "4:3"
crops = [0,200,4,0]

[[cameras.modes]]
mode = "3:2"
crops = [0,74,4,0]

[[cameras.modes]]
mode = "16:9"
crops = [0,104,4,0]
"#,
  text! r#"make = "Panasonic"
model = "DMC-LX7"
clean_make = "Panasonic"
clean_model = "DMC-LX7"
blackpoint = 142
whitepoint = 3971
color_matrix = [10148, -3743, -991, -2837, 11366, 1659, -701, 1893, 4899]
color_pattern = "GRBG"

[[cameras.modes]]
mode = "1:1"
crops = [0,48,0,0]

[[cameras.modes]]
mode = "4:3"
crops = [0,34,0,0]

[[cameras.modes]]
mode = "3:2"
crops = [0,128,0,0]

[[cameras.modes]]
mode = "16:9"
crops = [0,160,0,0]
"#,
  text! r#"make = "Panasonic"
model = "DMC-TZ100"
clean_make = "Panasonic"
clean_model = "DMC-TZ100"
blackpoint = 141
whitepoint = 4095
color_matrix = [7790, -2736, -755, -3452, 11870, 1769, -628, 1647, 4898]
color_pattern = "GBRG"

[[cameras.modes]]
mode = "3:2"
crops = [0,0,0,0]
"#,
  text! r#"make = "Panasonic"
model = "DMC-TZ60"
clean_make = "Panasonic"
clean_model = "DMC-TZ60"
blackpoint = 145
whitepoint = 3956
color_matrix = [8607, -2822, -808, -3755, 11930, 2049, -820, 2060, 5224]
color_pattern = "RGGB"

[[cameras.modes]]
mode = "1:1"
crops = [0,8,0,0]

[[cameras.modes]]
mode = "4:3"
crops = [0,128,0,0]

[[cameras.modes]]
mode = "3:2"
crops = [0,128,0,0]

[[cameras.modes]]
mode = "16:9"
crops = [0,128,0,0]
"#,
  text! r#"make = "Panasonic"
model = "DMC-TZ61"
clean_make = "Panasonic"
clean_model = "DMC-TZ61"
blackpoint = 145
whitepoint = 3971
color_matrix = [8607, -2822, -808, -3755, 11930, 2049, -820, 2060, 5224]
color_pattern = "RGGB"

[[cameras.modes]]
mode = "1:1"
crops = [0,8,0,0]

[[cameras.modes]]
mode = "4:3"
crops = [0,126,0,0]

[[cameras.modes]]
mode = "3:2"
crops = [0,126,0,0]

[[cameras.modes]]
mode = "16:9"
crops = [0,126,0,0]
"#,
  text! r#"make = "Panasonic"
model = "DMC-TZ70"
clean_make = "Panasonic"
clean_model = "DMC-TZ70"
blackpoint = 143
whitepoint = 3971
color_matrix = [8802, -3135, -789, -3151, 11468, 1904, -550, 1745, 4810]
color_pattern = "RGGB"

[[cameras.modes]]
mode = "1:1"
crops = [0,16,0,0]

[[cameras.modes]]
mode = "4:3"
crops = [0,128,0,0]

[[cameras.modes]]
mode = "3:2"
crops = [0,128,0,0]

[[cameras.modes]]
mode = "16:9"
crops = [0,128,0,0]
"#,
  text! r#"make = "Panasonic"
model = "DMC-TZ71"
clean_make = "Panasonic"
clean_model = "DMC-TZ71"
blackpoint = 142
whitepoint = 3971
color_matrix = [8802, -3135, -789, -3151, 11468, 1904, -550, 1745, 4810]
color_pattern = "RGGB"

[[cameras.modes]]
mode = "1:1"
crops = [0,16,0,0]

[[cameras.modes]]
mode = "4:3"
crops = [0,128,0,0]

[[cameras.modes]]
mode = "3:2"
crops = [0,128,0,0]

[[cameras.modes]]
mode = "16:9"
crops = [0,128,0,0]
"#]

/-- `data/cameras/pentax`: `istD.toml`, `istDL.toml`, `istDL2.toml`, `istDS.toml`, `k-1.toml`, `k-3.toml`, `k-3II.toml`, `k-5.toml`, `k-5II.toml`, `k-5IIs.toml`, `k-7.toml`, `k-70.toml`, `k-m.toml`, `k-r.toml`, `k-s1.toml`, `k-s2.toml`, `k-x.toml`, `k100.toml`, `k100dsuper.toml`, `k10d.toml`, `k110d.toml`, `k200d.toml`, `k20d.toml`, `optios4.toml` -/
def pentax : List Nat := [
  text! r#"make = "PENTAX Corporation"
model = "PENTAX *ist D"
clean_make = "Pentax"
clean_model = "*ist D"
blackpoint = 128
whitepoint = 4095
color_matrix = [9651, -2059, -1189, -8881, 16512, 2487, -1460, 1345, 10687]
color_pattern = "RGGB"
crops = [0,0,0,0]
"#,
  text! r#"make = "PENTAX Corporation"
model = "PENTAX *ist DL"
clean_make = "Pentax"
clean_model = "*ist DL"
blackpoint = 128
whitepoint = 4095
color_matrix = [10829, -2838, -1115, -8339, 15817, 2696, -837, 680, 11939]
color_pattern = "RGGB"
crops = [0,0,0,0]
"#,
  text! r#"make = "PENTAX Corporation"
model = "PENTAX *ist DL2"
clean_make = "Pentax"
clean_model = "*ist DL2"
blackpoint = 127
whitepoint = 3950
color_matrix = [10504, -2438, -1189, -8603, 16207, 2531, -1022, 863, 12242]
color_pattern = "RGGB"
crops = [0,0,0,0]
"#,
  text! r#"make = "PENTAX Corporation"
model = "PENTAX *ist DS"
clean_make = "Pentax"
clean_model = "*ist DS"
blackpoint = 128
whitepoint = 3950
color_matrix = [10371, -2333, -1206, -8688, 16231, 2602, -1230, 1116, 11282]
color_pattern = "RGGB"
crops = [0,0,2,0]
"#,
  text! r#"make = "RICOH IMAGING COMPANY, LTD."
model = "PENTAX K-1"
clean_make = "RICOH IMAGING COMPANY, LTD."
clean_model = "PENTAX K-1"
blackpoint = 64
whitepoint = 16315
color_matrix = [8596, -2981, -639, -4202, 12046, 2431, -685, 1424, 6122]
color_pattern = "RGGB"
crops = [0,0,0,0]
"#,
  text! r#"make = "RICOH IMAGING COMPANY, LTD."
model = "PENTAX K-3"
clean_make = "Pentax"
clean_model = "K-3"
blackpoint = 1
whitepoint = 16315
color_matrix = [7415, -2052, -721, -5186, 12788, 2682, -1446, 2157, 6773]
color_pattern = "RGGB"
crops = [0,36,0,4]
"#,
  text! r#"make = "RICOH IMAGING COMPANY, LTD."
model = "PENTAX K-3 II"
clean_make = "Pentax"
clean_model = "K-3 II"
blackpoint = 0
whitepoint = 16253
color_matrix = [7415, -2052, -721, -5186, 12788, 2682, -1446, 2157, 6773]
color_pattern = "RGGB"
crops = [0,36,0,4]
"#,
  text! r#"make = "PENTAX"
model = "PENTAX K-5"
clean_make = "Pentax"
clean_model = "K-5"
blackpoint = 512
whitepoint = 15866
color_matrix = [8713, -2833, -743, -4342, 11900, 2772, -722, 1543, 6247]
color_pattern = "BGGR"
crops = [0,34,0,12]
"#,
  text! r#"make = "PENTAX"
model = "PENTAX K-5 II"
clean_make = "Pentax"
clean_model = "K-5 II"
blackpoint = 256
whitepoint = 16124
color_matrix = [8170, -2725, -639, -4440, 12017, 2744, -771, 1465, 6599]
color_pattern = "BGGR"
crops = [0,34,0,12]
"#,
  text! r#"make = "PENTAX"
model = "PENTAX K-5 II s"
clean_make = "Pentax"
clean_model = "K-5 II s"
blackpoint = 129
whitepoint = 16253
color_matrix = [8170, -2725, -639, -4440, 12017, 2744, -771, 1465, 6599]
color_pattern = "BGGR"
crops = [0,34,0,12]
"#,
  text! r#"make = "PENTAX"
model = "PENTAX K-7"
clean_make = "Pentax"
clean_model = "K-7"
blackpoint = 0
whitepoint = 4095
color_matrix = [9142, -2947, -678, -8648, 16967, 1663, -2224, 2898, 8615]
color_pattern = "BGGR"
crops = [0,64,32,0]
"#,
  text! r#"make = "RICOH IMAGING COMPANY, LTD."
model = "PENTAX K-70"
clean_make = "RICOH IMAGING COMPANY, LTD."
clean_model = "PENTAX K-70"
blackpoint = 64
whitepoint = 16315
color_matrix = [8766, -3149, -747, -3976, 11943, 2292, -517, 1259, 5552]
color_pattern = "RGGB"
crops = [0,0,0,0]
"#,
  text! r#"make = "PENTAX"
model = "PENTAX K-m"
clean_make = "Pentax"
clean_model = "K-m"
blackpoint = 0
whitepoint = 4095
color_matrix = [11057, -3604, -1155, -5152, 13046, 2329, -282, 375, 8104]
color_pattern = "RGGB"
crops = [0,36,8,0]
"#,
  text! r#"make = "PENTAX"
model = "PENTAX K-r"
clean_make = "Pentax"
clean_model = "K-r"
blackpoint = 129
whitepoint = 3964
color_matrix = [9895, -3077, -850, -5304, 13035, 2521, -883, 1768, 6936]
color_pattern = "BGGR"
crops = [2,44,0,2]
"#,
  text! r#"make = "RICOH IMAGING COMPANY, LTD."
model = "PENTAX K-S1"
clean_make = "Pentax"
clean_model = "K-S1"
blackpoint = 32
whitepoint = 4062
color_matrix = [8512, -3211, -787, -4167, 11966, 2487, -638, 1288, 6054]
color_pattern = "RGGB"
crops = [0,0,0,0]
"#,
  text! r#"make = "RICOH IMAGING COMPANY, LTD."
model = "PENTAX K-S2"
clean_make = "Pentax"
clean_model = "K-S2"
blackpoint = 16
whitepoint = 4079
color_matrix = [52900, -16627, -7529, -25443, 80936, 11071, -5585, 9879, 41775]
color_pattern = "RGGB"
crops = [0,0,0,0]
"#,
  text! r#"make = "PENTAX"
model = "PENTAX K-x"
clean_make = "Pentax"
clean_model = "K-x"
blackpoint = 48
whitepoint = 4095
color_matrix = [8843, -2837, -625, -5025, 12644, 2668, -411, 1234, 7410]
color_pattern = "BGGR"
crops = [0,44,2,0]
"#,
  text! r#"make = "PENTAX Corporation"
model = "PENTAX K100D"
clean_make = "Pentax"
clean_model = "K100D"
blackpoint = 128
whitepoint = 3950
color_matrix = [11095, -3157, -1324, -8377, 15834, 2720, -1108, 947, 11688]
color_pattern = "RGGB"
crops = [0,0,0,0]
"#,
  text! r#"make = "PENTAX Corporation"
model = "PENTAX K100D Super"
clean_make = "Pentax"
clean_model = "K100D Super"
blackpoint = 127
whitepoint = 4095
color_matrix = [11095, -3157, -1324, -8377, 15834, 2720, -1108, 947, 11688]
color_pattern = "RGGB"
crops = [0,0,0,0]
"#,
  text! r#"make = "PENTAX Corporation"
model = "PENTAX K10D"
clean_make = "Pentax"
clean_model = "K10D"
blackpoint = 0
whitepoint = 4095
color_matrix = [9566, -2863, -803, -7170, 15172, 2112, -818, 803, 9705]
color_pattern = "RGGB"
crops = [0,48,16,0]
"#,
  text! r#"make = "PENTAX Corporation"
model = "PENTAX K110D"
clean_make = "Pentax"
clean_model = "K110D"
blackpoint = 127
whitepoint = 4095
color_matrix = [11095, -3157, -1324, -8377, 15834, 2720, -1108, 947, 11688]
color_pattern = "RGGB"
crops = [0,0,0,0]
"#,
  text! r#"make = "PENTAX Corporation"
model = "PENTAX K200D"
clean_make = "Pentax"
clean_model = "K200D"
blackpoint = 0
whitepoint = 4095
color_matrix = [9186, -2678, -907, -8693, 16517, 2260, -1129, 1094, 8524]
color_pattern = "RGGB"
crops = [0,56,20,0]
"#,
  text! r#"make = "PENTAX Corporation"
model = "PENTAX K20D"
clean_make = "Pentax"
clean_model = "K20D"
blackpoint = 0
whitepoint = 4095
color_matrix = [9427, -2714, -868, -7493, 16092, 1373, -2199, 3264, 7180]
color_pattern = "BGGR"
crops = [0,176,12,0]
"#,
  text! r#"make = "Pentax"
model = "Optio S4"
clean_make = "Pentax"
clean_model = "Optio S4"
blackpoint = 0
whitepoint = 3968
# Matrix stolen from Canon A610 because it looks ok...
color_matrix = [15591, -6402, -1592, -5365, 13198, 2168, -1300, 1824, 5075]
color_pattern = "RGGB"
crops = [0,22,0,0]
filesize = 6114240
raw_width = 2346
raw_height = 1737
hints = ["12le_16bitaligned"]
"#]

/-- `data/cameras/phase_one`: `iq250.toml`, `p30.toml`, `p65.toml` -/
def phase_one : List Nat := [
  text! r#"make = "Phase One A/S"
model = "IQ250"
clean_make = "Phase One"
clean_model = "IQ250"
blackpoint = 1024
whitepoint = 65535
color_matrix = [3984, 0, 0, 0, 10000, 0, 0, 0, 7666]
color_pattern = "RGGB"
crops = [108,0,0,92]
"#,
  text! r#"make = "Phase One A/S"
model = "P30"
clean_make = "Phase One A/S"
clean_model = "P30"
blackpoint = 0
whitepoint = 65535
color_matrix = [4516, -245, -37, -7020, 14976, 2173, -3206, 4671, 7087]
color_pattern = "GRBG"
crops = [22,20,28,40]
"#,
  text! r#"make = "Phase One A/S"
model = "P65+"
clean_make = "Phase One A/S"
clean_model = "P65+"
blackpoint = 0
whitepoint = 65535
color_matrix = [8035, 435, -962, -6001, 13872, 2320, -1159, 3065, 5434]
color_pattern = "RGGB"
crops = [6,16,32,46]
"#]

/-- `data/cameras/samsung`: `ex1.toml`, `ex2f.toml`, `galaxy_nx.toml`, `nx1.toml`, `nx10.toml`, `nx100.toml`, `nx1000.toml`, `nx11.toml`, `nx20.toml`, `nx200.toml`, `nx2000.toml`, `nx210.toml`, `nx30.toml`, `nx300.toml`, `nx3000.toml`, `nx300m.toml`, `nx500.toml` -/
def samsung : List Nat := [
  text! r#"make = "SAMSUNG"
model = "EX1"
clean_make = "Samsung"
clean_model = "EX1"
blackpoint = 0
whitepoint = 15600
color_matrix = [8898, -2498, -994, -3144, 11328, 2066, -760, 1381, 4576]
color_pattern = "RGGB"
crops = [2,8,22,0]
"#,
  text! r#"make = "SAMSUNG"
model = "EX2F"
clean_make = "Samsung"
clean_model = "EX2F"
blackpoint = 0
whitepoint = 4095
color_matrix = [10648, -3897, -1055, -2022, 10573, 1668, -492, 1611, 4742]
color_pattern = "RGGB"
crops = [12,148,18,22]
"#,
  text! r#"make = "SAMSUNG"
model = "EK-GN120"
clean_make = "Samsung"
clean_model = "EK-GN120"
blackpoint = 0
whitepoint = 4095
color_matrix = [7557, -2522, -739, -4679, 12949, 1894, -840, 1777, 5311]
color_pattern = "GRBG"
crops = [25,11,29,45]
"#,
  text! r#"make = "SAMSUNG"
model = "NX1"
clean_make = "Samsung"
clean_model = "NX1"
blackpoint = 128
whitepoint = 16100
color_matrix = [10686, -4042, -1052, -3595, 13238, 276, -464, 1259, 5931]
color_pattern = "GRBG"
crops = [0,0,0,0]
"#,
  text! r#"make = "SAMSUNG"
model = "NX10"
clean_make = "Samsung"
clean_model = "NX10"
blackpoint = 3
whitepoint = 3750
color_matrix = [10332, -3234, -1168, -6111, 14639, 1520, -1352, 2647, 8331]
color_pattern = "BGGR"
crops = [8,85,48,17]
"#,
  text! r#"make = "SAMSUNG"
model = "NX100"
clean_make = "Samsung"
clean_model = "NX100"
blackpoint = 3
whitepoint = 3750
color_matrix = [10332, -3234, -1168, -6111, 14639, 1520, -1352, 2647, 8331]
color_pattern = "BGGR"
crops = [8,85,48,17]
"#,
  text! r#"make = "SAMSUNG"
model = "NX1000"
clean_make = "Samsung"
clean_model = "NX1000"
blackpoint = 0
whitepoint = 3750
color_matrix = [6933, -2268, -753, -4921, 13387, 1647, -803, 1641, 6096]
color_pattern = "GRBG"
crops = [17,71,55,89]
hints = ["little_endian"]
"#,
  text! r#"make = "SAMSUNG"
model = "NX11"
clean_make = "Samsung"
clean_model = "NX11"
blackpoint = 3
whitepoint = 3750
color_matrix = [10332, -3234, -1168, -6111, 14639, 1520, -1352, 2647, 8331]
color_pattern = "BGGR"
crops = [8,85,48,17]
"#,
  text! r#"make = "SAMSUNG"
model = "NX20"
clean_make = "Samsung"
clean_model = "NX20"
blackpoint = 0
whitepoint = 3750
color_matrix = [6933, -2268, -753, -4921, 13387, 1647, -803, 1641, 6096]
color_pattern = "GRBG"
crops = [17,71,55,89]
hints = ["little_endian"]
"#,
  text! r#"make = "SAMSUNG"
model = "NX200"
clean_make = "Samsung"
clean_model = "NX200"
blackpoint = 0
whitepoint = 3750
color_matrix = [6933, -2268, -753, -4921, 13387, 1647, -803, 1641, 6096]
color_pattern = "GRBG"
crops = [17,71,55,89]
"#,
  text! r#"make = "SAMSUNG"
model = "NX2000"
clean_make = "Samsung"
clean_model = "NX2000"
blackpoint = 0
whitepoint = 4095
color_matrix = [7557, -2522, -739, -4679, 12949, 1894, -840, 1777, 5311]
color_pattern = "GRBG"
crops = [25,11,29,45]
"#,
  text! r#"make = "SAMSUNG"
model = "NX210"
clean_make = "Samsung"
clean_model = "NX210"
blackpoint = 0
whitepoint = 3750
color_matrix = [6933, -2268, -753, -4921, 13387, 1647, -803, 1641, 6096]
color_pattern = "GRBG"
crops = [17,71,55,89]
hints = ["little_endian"]
"#,
  text! r#"make = "SAMSUNG"
model = "NX30"
clean_make = "Samsung"
clean_model = "NX30"
blackpoint = 0
whitepoint = 4095
color_matrix = [7557, -2522, -739, -4679, 12949, 1894, -840, 1777, 5311]
color_pattern = "GRBG"
crops = [25,11,29,45]
"#,
  text! r#"make = "SAMSUNG"
model = "NX300"
clean_make = "Samsung"
clean_model = "NX300"
blackpoint = 0
whitepoint = 4095
color_matrix = [7557, -2522, -739, -4679, 12949, 1894, -840, 1777, 5311]
color_pattern = "GRBG"
crops = [25,11,29,45]
"#,
  text! r#"make = "SAMSUNG"
model = "NX3000"
clean_make = "Samsung"
clean_model = "NX3000"
blackpoint = 0
whitepoint = 4095
color_matrix = [8060, -2933, -761, -4504, 12890, 1762, -630, 1489, 5227]
color_pattern = "GRBG"
crops = [42,32,24,96]
"#,
  text! r#"make = "SAMSUNG"
model = "NX300M"
clean_make = "Samsung"
clean_model = "NX300M"
blackpoint = 0
whitepoint = 4095
color_matrix = [7557, -2522, -739, -4679, 12949, 1894, -840, 1777, 5311]
color_pattern = "GRBG"
crops = [25,11,29,45]
"#,
  text! r#"make = "SAMSUNG"
model = "NX500"
clean_make = "Samsung"
clean_model = "NX500"
blackpoint = 128
whitepoint = 16100
color_matrix = [10686, -4042, -1052, -3595, 13238, 276, -464, 1259, 5931]
color_pattern = "GRBG"
crops = [0,0,0,0]
"#]

/-- `data/cameras/sony`: `a100.toml`, `a200.toml`, `a300.toml`, `a3000.toml`, `a33.toml`, `a330.toml`, `a35.toml`, `a350.toml`, `a37.toml`, `a390.toml`, `a500.toml`, `a5000.toml`, `a5100.toml`, `a55.toml`, `a550.toml`, `a57.toml`, `a58.toml`, `a580.toml`, `a6000.toml`, `a6300.toml`, `a65.toml`, `a6500.toml`, `a68.toml`, `a7.toml`, `a700.toml`, `a77.toml`, `a77m2.toml`, `a7m2.toml`, `a7r.toml`, `a7rm2.toml`, `a7s.toml`, `a7sm2.toml`, `a850.toml`, `a900.toml`, `a99.toml`, `f828.toml`, `nex3.toml`, `nex3n.toml`, `nex5r.toml`, `nex5t.toml`, `nex6.toml`, `nex7.toml`, `nexf3.toml`, `r1.toml`, `rx1.toml`, `rx10.toml`, `rx100.toml`, `rx100m2.toml`, `rx100m3.toml`, `rx100m4.toml`, `rx100m5.toml`, `rx10m2.toml`, `rx10m3.toml`, `rx1r.toml` -/
def sony : List Nat := [
  text! r#"make = "SONY"
model = "DSLR-A100"
clean_make = "Sony"
clean_model = "DSLR-A100"
blackpoint = 0
whitepoint = 4095
color_matrix = [9437, -2811, -774, -8405, 16215, 2290, -710, 596, 7181]
color_pattern = "GRBG"
crops = [0,0,0,0]
bps = 8
"#,
  text! r#"make = "SONY"
model = "DSLR-A200"
clean_make = "Sony"
clean_model = "DSLR-A200"
blackpoint = 0
whitepoint = 4095
color_matrix = [9847, -3091, -928, -8485, 16345, 2225, -715, 595, 7103]
color_pattern = "RGGB"
crops = [0,0,0,0]
bps = 8
"#,
  text! r#"make = "SONY"
model = "DSLR-A300"
clean_make = "Sony"
clean_model = "DSLR-A300"
blackpoint = 0
whitepoint = 4095
color_matrix = [9847, -3091, -928, -8485, 16345, 2225, -715, 595, 7103]
color_pattern = "RGGB"
crops = [0,0,0,0]
"#,
  text! r#"make = "SONY"
model = "ILCE-3000"
clean_make = "Sony"
clean_model = "ILCE-3000"
blackpoint = 512
whitepoint = 16300
color_matrix = [5991, -1456, -455, -4764, 12135, 2980, -707, 1425, 6701]
color_pattern = "RGGB"
crops = [0,34,0,0]
bps = 8
"#,
  text! r#"make = "SONY"
model = "SLT-A33"
clean_make = "Sony"
clean_model = "SLT-A33"
blackpoint = 512
whitepoint = 16300
color_matrix = [6069, -1221, -366, -5221, 12779, 2734, -1024, 2066, 6834]
color_pattern = "RGGB"
crops = [0,0,0,0]
bps = 8
"#,
  text! r#"make = "SONY"
model = "DSLR-A330"
clean_make = "Sony"
clean_model = "DSLR-A330"
blackpoint = 0
whitepoint = 4095
color_matrix = [9847, -3091, -929, -8485, 16346, 2225, -714, 595, 7103]
color_pattern = "RGGB"
crops = [0,0,0,0]
bps = 8
"#,
  text! r#"make = "SONY"
model = "SLT-A35"
clean_make = "Sony"
clean_model = "SLT-A35"
blackpoint = 512
whitepoint = 16300
color_matrix = [5986, -1618, -415, -4557, 11820, 3120, -681, 1404, 6971]
color_pattern = "RGGB"
crops = [0,0,0,0]
bps = 8
"#,
  text! r#"make = "SONY"
model = "DSLR-A350"
clean_make = "Sony"
clean_model = "DSLR-A350"
blackpoint = 0
whitepoint = 4095
color_matrix = [6038, -1484, -578, -9146, 16746, 2513, -875, 746, 7217]
color_pattern = "RGGB"
crops = [0,0,0,0]
bps = 8
"#,
  text! r#"make = "SONY"
model = "SLT-A37"
clean_make = "Sony"
clean_model = "SLT-A37"
blackpoint = 512
whitepoint = 16300
color_matrix = [5991, -1456, -455, -4764, 12135, 2980, -707, 1425, 6701]
color_pattern = "RGGB"
crops = [0,0,0,0]
bps = 8
"#,
  text! r#"make = "SONY"
model = "DSLR-A390"
clean_make = "Sony"
clean_model = "DSLR-A390"
blackpoint = 0
whitepoint = 4095
color_matrix = [6038, -1484, -579, -9145, 16746, 2512, -875, 746, 7218]
color_pattern = "RGGB"
crops = [0,0,0,0]
bps = 8
"#,
  text! r#"make = "SONY"
model = "DSLR-A500"
clean_make = "Sony"
clean_model = "DSLR-A500"
blackpoint = 512
whitepoint = 16300
color_matrix = [6046, -1127, -278, -5574, 13076, 2786, -691, 1419, 7625]
color_pattern = "RGGB"
crops = [0,0,0,0]
bps = 8
"#,
  text! r#"make = "SONY"
model = "ILCE-5000"
clean_make = "Sony"
clean_model = "ILCE-5000"
blackpoint = 512
whitepoint = 16300
color_matrix = [5991, -1456, -455, -4764, 12135, 2980, -707, 1425, 6701]
color_pattern = "RGGB"
crops = [0,34,0,0]
bps = 8
"#,
  text! r#"make = "SONY"
model = "ILCE-5100"
clean_make = "Sony"
clean_model = "ILCE-5100"
blackpoint = 512
whitepoint = 16300
color_matrix = [5991, -1456, -455, -4764, 12135, 2980, -707, 1425, 6701]
color_pattern = "RGGB"
crops = [0,26,0,0]
bps = 8
"#,
  text! r#"make = "SONY"
model = "SLT-A55"
clean_make = "Sony"
clean_model = "SLT-A55"

model_aliases = [
  ["SLT-A55V", "SLT-A55V"],
]

blackpoint = 512
whitepoint = 16300
color_matrix = [5932, -1492, -411, -4813, 12285, 2856, -741, 1524, 6739]
color_pattern = "RGGB"
crops = [0,0,0,0]
bps = 8
"#,
  text! r#"make = "SONY"
model = "DSLR-A550"
clean_make = "Sony"
clean_model = "DSLR-A550"
blackpoint = 512
whitepoint = 16300
color_matrix = [4950, -580, -103, -5228, 12542, 3029, -709, 1435, 7371]
color_pattern = "RGGB"
crops = [0,0,0,0]
bps = 8
"#,
  text! r#"make = "SONY"
model = "SLT-A57"
clean_make = "Sony"
clean_model = "SLT-A57"
blackpoint = 512
whitepoint = 16300
color_matrix = [5991, -1456, -455, -4764, 12135, 2980, -707, 1425, 6701]
color_pattern = "RGGB"
crops = [0,0,0,0]
bps = 8
"#,
  text! r#"make = "SONY"
model = "SLT-A58"
clean_make = "Sony"
clean_model = "SLT-A58"
blackpoint = 512
whitepoint = 16300
color_matrix = [5991, -1456, -455, -4764, 12135, 2980, -707, 1425, 6701]
color_pattern = "RGGB"
crops = [0,36,0,0]
bps = 8
"#,
  text! r#"make = "SONY"
model = "DSLR-A580"
clean_make = "Sony"
clean_model = "DSLR-A580"
blackpoint = 512
whitepoint = 16300
color_matrix = [5932, -1492, -411, -4813, 12285, 2856, -741, 1524, 6739]
color_pattern = "RGGB"
crops = [0,2,2,0]
bps = 8
"#,
  text! r#"make = "SONY"
model = "ILCE-6000"
clean_make = "Sony"
clean_model = "ILCE-6000"
blackpoint = 512
whitepoint = 16300
color_matrix = [5991, -1456, -455, -4764, 12135, 2980, -707, 1425, 6701]
color_pattern = "RGGB"
crops = [0,28,0,0]
bps = 8
"#,
  text! r#"make = "SONY"
model = "ILCE-6300"
clean_make = "SONY"
clean_model = "ILCE-6300"
blackpoint = 512
whitepoint = 16300
color_matrix = [5973, -1695, -419, -3826, 11797, 2293, -639, 1398, 5789]
color_pattern = "RGGB"
crops = [0,0,0,0]
bps = 8
"#,
  text! r#"make = "SONY"
model = "SLT-A65"
clean_make = "Sony"
clean_model = "SLT-A65"

model_aliases = [
  ["SLT-A65V", "SLT-A65V"],
]

blackpoint = 512
whitepoint = 16300
color_matrix = [5491, -1192, -363, -4951, 12342, 2948, -911, 1722, 7192]
color_pattern = "RGGB"
crops = [0,30,0,0]
bps = 8
"#,
  text! r#"make = "SONY"
model = "ILCE-6500"
clean_make = "SONY"
clean_model = "ILCE-6500"
blackpoint = 512
whitepoint = 16300
color_matrix = [5973, -1695, -419, -3826, 11797, 2293, -639, 1398, 5789]
color_pattern = "RGGB"
crops = [0,0,0,0]
bps = 8
"#,
  text! r#"make = "SONY"
model = "ILCA-68"
clean_make = "Sony"
clean_model = "ILCA-68"
blackpoint = 512
whitepoint = 16300
color_matrix = [6435, -1903, -536, -4722, 12449, 2550, -663, 1363, 6517]
color_pattern = "RGGB"
crops = [0,32,0,0]
bps = 8
"#,
  text! r#"make = "SONY"
model = "ILCE-7"
clean_make = "Sony"
clean_model = "ILCE-7"
blackpoint = 512
whitepoint = 16300
color_matrix = [5271, -712, -347, -6153, 13653, 2763, -1601, 2366, 7242]
color_pattern = "RGGB"
crops = [0,26,0,0]
bps = 8
"#,
  text! r#"make = "SONY"
model = "DSLR-A700"
clean_make = "Sony"
clean_model = "DSLR-A700"
blackpoint = 512
whitepoint = 16383
color_matrix = [5775, -805, -359, -8574, 16295, 2391, -1943, 2341, 7249]
color_pattern = "RGGB"
crops = [0,0,0,0]
"#,
  text! r#"make = "SONY"
model = "SLT-A77"
clean_make = "Sony"
clean_model = "SLT-A77"

model_aliases = [
  ["SLT-A77V", "SLT-A77V"],
]

blackpoint = 512
whitepoint = 16300
color_matrix = [5491, -1192, -363, -4951, 12342, 2948, -911, 1722, 7192]
color_pattern = "RGGB"
crops = [0,28,0,0]
bps = 8
"#,
  text! r#"make = "SONY"
model = "ILCA-77M2"
clean_make = "Sony"
clean_model = "ILCA-77M2"
blackpoint = 512
whitepoint = 16300
color_matrix = [5991, -1732, -443, -4100, 11989, 2381, -704, 1467, 5992]
color_pattern = "RGGB"
crops = [0,26,0,0]
bps = 8
"#,
  text! r#"make = "SONY"
model = "ILCE-7M2"
clean_make = "Sony"
clean_model = "ILCE-7M2"
blackpoint = 512
whitepoint = 16300
color_matrix = [5271, -712, -347, -6153, 13653, 2763, -1601, 2366, 7242]
color_pattern = "RGGB"
crops = [0,26,0,0]
bps = 8
"#,
  text! r#"make = "SONY"
model = "ILCE-7R"
clean_make = "Sony"
clean_model = "ILCE-7R"
blackpoint = 512
whitepoint = 16300
color_matrix = [4913, -541, -202, -6130, 13513, 2906, -1564, 2151, 7183]
color_pattern = "RGGB"
crops = [0,26,0,0]
bps = 8
"#,
  text! r#"make = "SONY"
model = "ILCE-7RM2"
clean_make = "Sony"
clean_model = "ILCE-7RM2"
blackpoint = 512
whitepoint = 16300
color_matrix = [6629, -1900, -483, -4618, 12349, 2550, -622, 1381, 6514]
color_pattern = "RGGB"
crops = [0,32,0,0]
bps = 8
"#,
  text! r#"make = "SONY"
model = "ILCE-7S"
clean_make = "Sony"
clean_model = "ILCE-7S"
blackpoint = 512
whitepoint = 16300
color_matrix = [5838, -1430, -246, -3497, 11477, 2297, -748, 1885, 5778]
color_pattern = "RGGB"
crops = [0,32,0,0]
bps = 8
"#,
  text! r#"make = "SONY"
model = "ILCE-7SM2"
clean_make = "Sony"
clean_model = "ILCE-7SM2"
blackpoint = 512
whitepoint = 16300
color_matrix = [5838, -1430, -246, -3497, 11477, 2297, -748, 1885, 5778]
color_pattern = "RGGB"
crops = [0,32,0,0]
bps = 8
"#,
  text! r#"make = "SONY"
model = "DSLR-A850"
clean_make = "Sony"
clean_model = "DSLR-A850"
blackpoint = 128
whitepoint = 4095
color_matrix = [5413, -1162, -365, -5665, 13098, 2866, -608, 1179, 8440]
color_pattern = "RGGB"
crops = [0,0,0,0]
"#,
  text! r#"make = "SONY"
model = "DSLR-A900"
clean_make = "Sony"
clean_model = "DSLR-A900"
blackpoint = 128
whitepoint = 4095
color_matrix = [5209, -1072, -397, -8845, 16120, 2919, -1618, 1803, 8654]
color_pattern = "RGGB"
crops = [0,0,0,0]
"#,
  text! r#"make = "SONY"
model = "SLT-A99"
clean_make = "Sony"
clean_model = "SLT-A99"

model_aliases = [
  ["SLT-A99V", "SLT-A99V"],
]

blackpoint = 512
whitepoint = 16300
color_matrix = [6344, -1612, -462, -4863, 12477, 2681, -865, 1786, 6899]
color_pattern = "RGGB"
crops = [0,28,0,0]
bps = 8
"#,
  text! r#"make = "SONY"
model = "DSC-F828"
clean_make = "Sony"
clean_model = "DSC-F828"
blackpoint = 495
whitepoint = 16383
color_matrix = [7924, -1910, -777, -8226, 15459, 2998, -1517, 2199, 6818, -7242, 11401, 3481]
color_pattern = "ERBG"
crops = [0,67,0,5]
"#,
  text! r#"make = "SONY"
model = "NEX-3"
clean_make = "Sony"
clean_model = "NEX-3"
blackpoint = 512
whitepoint = 16300
color_matrix = [6549, -1550, -436, -4880, 12435, 2753, -854, 1868, 6976]
color_pattern = "RGGB"
crops = [0,0,0,0]
bps = 8
"#,
  text! r#"make = "SONY"
model = "NEX-3N"
clean_make = "Sony"
clean_model = "NEX-3N"
blackpoint = 512
whitepoint = 16300
color_matrix = [6129, -1545, -418, -4930, 12490, 2743, -977, 1693, 6615]
color_pattern = "RGGB"
crops = [0,10,0,0]
bps = 8
"#,
  text! r#"make = "SONY"
model = "NEX-5R"
clean_make = "Sony"
clean_model = "NEX-5R"
blackpoint = 512
whitepoint = 16300
color_matrix = [6129, -1545, -418, -4930, 12490, 2743, -977, 1693, 6615]
color_pattern = "RGGB"
crops = [0,12,0,0]
bps = 8
"#,
  text! r#"make = "SONY"
model = "NEX-5T"
clean_make = "Sony"
clean_model = "NEX-5T"
blackpoint = 512
whitepoint = 16300
color_matrix = [6129, -1545, -418, -4930, 12490, 2743, -977, 1693, 6615]
color_pattern = "RGGB"
crops = [0,12,0,0]
bps = 8
"#,
  text! r#"make = "SONY"
model = "NEX-6"
clean_make = "Sony"
clean_model = "NEX-6"
blackpoint = 512
whitepoint = 16300
color_matrix = [6129, -1545, -418, -4930, 12490, 2743, -977, 1693, 6615]
color_pattern = "RGGB"
crops = [0,16,0,0]
bps = 8
"#,
  text! r#"make = "SONY"
model = "NEX-7"
clean_make = "Sony"
clean_model = "NEX-7"
blackpoint = 512
whitepoint = 16300
color_matrix = [5491, -1192, -363, -4951, 12342, 2948, -911, 1722, 7192]
color_pattern = "RGGB"
crops = [0,26,0,0]
bps = 8
"#,
  text! r#"make = "SONY"
model = "NEX-F3"
clean_make = "Sony"
clean_model = "NEX-F3"
blackpoint = 512
whitepoint = 16300
color_matrix = [5991, -1456, -455, -4764, 12135, 2980, -707, 1425, 6701]
color_pattern = "RGGB"
crops = [0,0,0,0]
bps = 8
"#,
  text! r#"make = "SONY"
model = "DSC-R1"
clean_make = "Sony"
clean_model = "DSC-R1"
blackpoint = 511
whitepoint = 16383
color_matrix = [8512, -2641, -694, -8042, 15670, 2526, -1821, 2117, 7414]
color_pattern = "GRBG"
crops = [0,60,0,0]
bps = 8
"#,
  text! r#"make = "SONY"
model = "DSC-RX1"
clean_make = "Sony"
clean_model = "DSC-RX1"
blackpoint = 512
whitepoint = 16300
color_matrix = [6344, -1612, -462, -4863, 12477, 2681, -865, 1786, 6899]
color_pattern = "RGGB"
crops = [0,18,0,0]
bps = 8
"#,
  text! r#"make = "SONY"
model = "DSC-RX10"
clean_make = "Sony"
clean_model = "DSC-RX10"
blackpoint = 800
whitepoint = 16300
color_matrix = [6679, -1825, -745, -5047, 13256, 1953, -1580, 2422, 5183]
color_pattern = "RGGB"
crops = [0,8,0,0]
bps = 8
"#,
  text! r#"make = "SONY"
model = "DSC-RX100"
clean_make = "Sony"
clean_model = "DSC-RX100"
blackpoint = 800
whitepoint = 16300
color_matrix = [8651, -2754, -1057, -3464, 12207, 1373, -568, 1398, 4434]
color_pattern = "RGGB"
crops = [0,12,0,0]
bps = 8
"#,
  text! r#"make = "SONY"
model = "DSC-RX100M2"
clean_make = "Sony"
clean_model = "DSC-RX100M2"
blackpoint = 800
whitepoint = 16300
color_matrix = [6596, -2079, -562, -4782, 13016, 1933, -970, 1581, 5181]
color_pattern = "RGGB"
crops = [0,12,0,0]
bps = 8
"#,
  text! r#"make = "SONY"
model = "DSC-RX100M3"
clean_make = "Sony"
clean_model = "DSC-RX100M3"
blackpoint = 800
whitepoint = 16300
color_matrix = [6596, -2079, -562, -4782, 13016, 1933, -970, 1581, 5181]
color_pattern = "RGGB"
crops = [0,12,0,0]
bps = 8
"#,
  text! r#"make = "SONY"
model = "DSC-RX100M4"
clean_make = "Sony"
clean_model = "DSC-RX100M4"
blackpoint = 800
whitepoint = 16300
color_matrix = [6596, -2079, -562, -4782, 13016, 1933, -970, 1581, 5181]
color_pattern = "RGGB"
crops = [0,0,0,0]
bps = 8
"#,
  text! r#"make = "SONY"
model = "DSC-RX100M5"
clean_make = "SONY"
clean_model = "DSC-RX100M5"
blackpoint = 800
whitepoint = 16300
color_matrix = [6596, -2079, -562, -4782, 13016, 1933, -970, 1581, 5181]
color_pattern = "RGGB"
crops = [0,0,0,0]
bps = 8
"#,
  text! r#"make = "SONY"
model = "DSC-RX10M2"
clean_make = "Sony"
clean_model = "DSC-RX10M2"
blackpoint = 800
whitepoint = 16300
color_matrix = [6679, -1825, -745, -5047, 13256, 1953, -1580, 2422, 5183]
color_pattern = "RGGB"
crops = [0,8,0,0]
bps = 8
"#,
  text! r#"make = "SONY"
model = "DSC-RX10M3"
clean_make = "SONY"
clean_model = "DSC-RX10M3"
blackpoint = 800
whitepoint = 16300
color_matrix = [6679, -1825, -745, -5047, 13256, 1953, -1580, 2422, 5183]
color_pattern = "RGGB"
crops = [0,0,0,0]
bps = 8
"#,
  text! r#"make = "SONY"
model = "DSC-RX1R"
clean_make = "Sony"
clean_model = "DSC-RX1R"
blackpoint = 512
whitepoint = 16300
color_matrix = [6344, -1612, -462, -4863, 12477, 2681, -865, 1786, 6899]
color_pattern = "RGGB"
crops = [0,16,0,0]
bps = 8
"#]

/-- All files. -/
def files : List Nat := arri ++ canon ++ epson ++ fuji ++ hasselblad ++ kodak ++ leaf ++ leica ++ mamiya ++ minolta ++ nikon ++ olympus ++ panasonic ++ pentax ++ phase_one ++ samsung ++ sony

end Model.Shipped

import Verif.Types

/-!
# GAMESS ordering tables

Literal data transcribed from `generator/Ordering_GAMESS.cpp`
(`gorder_map` and `gindex_map`), by a script; one list per angular momentum.
-/

namespace Simint.Tables

def gamessOrder0 : List (List ℕ) := [
  [0,0,0]
]

def gamessIndex0 : List ℕ := [
  0
]

def gamessOrder1 : List (List ℕ) := [
  [1,0,0], [0,1,0], [0,0,1]
]

def gamessIndex1 : List ℕ := [
  1, 256, 65536
]

def gamessOrder2 : List (List ℕ) := [
  [2,0,0], [0,2,0], [0,0,2], [1,1,0], [1,0,1], [0,1,1]
]

def gamessIndex2 : List ℕ := [
  2, 512, 131072, 257, 65537, 65792
]

def gamessOrder3 : List (List ℕ) := [
  [3,0,0], [0,3,0], [0,0,3], [2,1,0], [2,0,1], [1,2,0], [0,2,1], [1,0,2], [0,1,2], [1,1,1]
]

def gamessIndex3 : List ℕ := [
  3, 768, 196608, 258, 65538, 513, 66048, 131073, 131328, 65793
]

def gamessOrder4 : List (List ℕ) := [
  [4,0,0], [3,1,0], [3,0,1], [2,2,0], [2,1,1], [2,0,2], [1,3,0], [1,2,1], [1,1,2], [1,0,3],
  [0,4,0], [0,3,1], [0,2,2], [0,1,3], [0,0,4]
]

def gamessIndex4 : List ℕ := [
  4, 259, 65539, 514, 65794, 131074, 769, 66049, 131329, 196609, 1024, 66304,
  131584, 196864, 262144
]

def gamessOrder5 : List (List ℕ) := [
  [5,0,0], [4,1,0], [4,0,1], [3,2,0], [3,1,1], [3,0,2], [2,3,0], [2,2,1], [2,1,2], [2,0,3],
  [1,4,0], [1,3,1], [1,2,2], [1,1,3], [1,0,4], [0,5,0], [0,4,1], [0,3,2], [0,2,3], [0,1,4],
  [0,0,5]
]

def gamessIndex5 : List ℕ := [
  5, 260, 65540, 515, 65795, 131075, 770, 66050, 131330, 196610, 1025, 66305,
  131585, 196865, 262145, 1280, 66560, 131840, 197120, 262400, 327680
]

def gamessOrder6 : List (List ℕ) := [
  [6,0,0], [5,1,0], [5,0,1], [4,2,0], [4,1,1], [4,0,2], [3,3,0], [3,2,1], [3,1,2], [3,0,3],
  [2,4,0], [2,3,1], [2,2,2], [2,1,3], [2,0,4], [1,5,0], [1,4,1], [1,3,2], [1,2,3], [1,1,4],
  [1,0,5], [0,6,0], [0,5,1], [0,4,2], [0,3,3], [0,2,4], [0,1,5], [0,0,6]
]

def gamessIndex6 : List ℕ := [
  6, 261, 65541, 516, 65796, 131076, 771, 66051, 131331, 196611, 1026, 66306,
  131586, 196866, 262146, 1281, 66561, 131841, 197121, 262401, 327681, 1536, 66816, 132096,
  197376, 262656, 327936, 393216
]

def gamessOrder7 : List (List ℕ) := [
  [7,0,0], [6,1,0], [6,0,1], [5,2,0], [5,1,1], [5,0,2], [4,3,0], [4,2,1], [4,1,2], [4,0,3],
  [3,4,0], [3,3,1], [3,2,2], [3,1,3], [3,0,4], [2,5,0], [2,4,1], [2,3,2], [2,2,3], [2,1,4],
  [2,0,5], [1,6,0], [1,5,1], [1,4,2], [1,3,3], [1,2,4], [1,1,5], [1,0,6], [0,7,0], [0,6,1],
  [0,5,2], [0,4,3], [0,3,4], [0,2,5], [0,1,6], [0,0,7]
]

def gamessIndex7 : List ℕ := [
  7, 262, 65542, 517, 65797, 131077, 772, 66052, 131332, 196612, 1027, 66307,
  131587, 196867, 262147, 1282, 66562, 131842, 197122, 262402, 327682, 1537, 66817, 132097,
  197377, 262657, 327937, 393217, 1792, 67072, 132352, 197632, 262912, 328192, 393472, 458752
]

def gamessOrder8 : List (List ℕ) := [
  [8,0,0], [7,1,0], [7,0,1], [6,2,0], [6,1,1], [6,0,2], [5,3,0], [5,2,1], [5,1,2], [5,0,3],
  [4,4,0], [4,3,1], [4,2,2], [4,1,3], [4,0,4], [3,5,0], [3,4,1], [3,3,2], [3,2,3], [3,1,4],
  [3,0,5], [2,6,0], [2,5,1], [2,4,2], [2,3,3], [2,2,4], [2,1,5], [2,0,6], [1,7,0], [1,6,1],
  [1,5,2], [1,4,3], [1,3,4], [1,2,5], [1,1,6], [1,0,7], [0,8,0], [0,7,1], [0,6,2], [0,5,3],
  [0,4,4], [0,3,5], [0,2,6], [0,1,7], [0,0,8]
]

def gamessIndex8 : List ℕ := [
  8, 263, 65543, 518, 65798, 131078, 773, 66053, 131333, 196613, 1028, 66308,
  131588, 196868, 262148, 1283, 66563, 131843, 197123, 262403, 327683, 1538, 66818, 132098,
  197378, 262658, 327938, 393218, 1793, 67073, 132353, 197633, 262913, 328193, 393473, 458753,
  2048, 67328, 132608, 197888, 263168, 328448, 393728, 459008, 524288
]

def gamessOrder9 : List (List ℕ) := [
  [9,0,0], [8,1,0], [8,0,1], [7,2,0], [7,1,1], [7,0,2], [6,3,0], [6,2,1], [6,1,2], [6,0,3],
  [5,4,0], [5,3,1], [5,2,2], [5,1,3], [5,0,4], [4,5,0], [4,4,1], [4,3,2], [4,2,3], [4,1,4],
  [4,0,5], [3,6,0], [3,5,1], [3,4,2], [3,3,3], [3,2,4], [3,1,5], [3,0,6], [2,7,0], [2,6,1],
  [2,5,2], [2,4,3], [2,3,4], [2,2,5], [2,1,6], [2,0,7], [1,8,0], [1,7,1], [1,6,2], [1,5,3],
  [1,4,4], [1,3,5], [1,2,6], [1,1,7], [1,0,8], [0,9,0], [0,8,1], [0,7,2], [0,6,3], [0,5,4],
  [0,4,5], [0,3,6], [0,2,7], [0,1,8], [0,0,9]
]

def gamessIndex9 : List ℕ := [
  9, 264, 65544, 519, 65799, 131079, 774, 66054, 131334, 196614, 1029, 66309,
  131589, 196869, 262149, 1284, 66564, 131844, 197124, 262404, 327684, 1539, 66819, 132099,
  197379, 262659, 327939, 393219, 1794, 67074, 132354, 197634, 262914, 328194, 393474, 458754,
  2049, 67329, 132609, 197889, 263169, 328449, 393729, 459009, 524289, 2304, 67584, 132864,
  198144, 263424, 328704, 393984, 459264, 524544, 589824
]

def gamessOrder10 : List (List ℕ) := [
  [10,0,0], [9,1,0], [9,0,1], [8,2,0], [8,1,1], [8,0,2], [7,3,0], [7,2,1], [7,1,2], [7,0,3],
  [6,4,0], [6,3,1], [6,2,2], [6,1,3], [6,0,4], [5,5,0], [5,4,1], [5,3,2], [5,2,3], [5,1,4],
  [5,0,5], [4,6,0], [4,5,1], [4,4,2], [4,3,3], [4,2,4], [4,1,5], [4,0,6], [3,7,0], [3,6,1],
  [3,5,2], [3,4,3], [3,3,4], [3,2,5], [3,1,6], [3,0,7], [2,8,0], [2,7,1], [2,6,2], [2,5,3],
  [2,4,4], [2,3,5], [2,2,6], [2,1,7], [2,0,8], [1,9,0], [1,8,1], [1,7,2], [1,6,3], [1,5,4],
  [1,4,5], [1,3,6], [1,2,7], [1,1,8], [1,0,9], [0,10,0], [0,9,1], [0,8,2], [0,7,3], [0,6,4],
  [0,5,5], [0,4,6], [0,3,7], [0,2,8], [0,1,9], [0,0,10]
]

def gamessIndex10 : List ℕ := [
  10, 265, 65545, 520, 65800, 131080, 775, 66055, 131335, 196615, 1030, 66310,
  131590, 196870, 262150, 1285, 66565, 131845, 197125, 262405, 327685, 1540, 66820, 132100,
  197380, 262660, 327940, 393220, 1795, 67075, 132355, 197635, 262915, 328195, 393475, 458755,
  2050, 67330, 132610, 197890, 263170, 328450, 393730, 459010, 524290, 2305, 67585, 132865,
  198145, 263425, 328705, 393985, 459265, 524545, 589825, 2560, 67840, 133120, 198400, 263680,
  328960, 394240, 459520, 524800, 590080, 655360
]

def gamessOrder11 : List (List ℕ) := [
  [11,0,0], [10,1,0], [10,0,1], [9,2,0], [9,1,1], [9,0,2], [8,3,0], [8,2,1], [8,1,2], [8,0,3],
  [7,4,0], [7,3,1], [7,2,2], [7,1,3], [7,0,4], [6,5,0], [6,4,1], [6,3,2], [6,2,3], [6,1,4],
  [6,0,5], [5,6,0], [5,5,1], [5,4,2], [5,3,3], [5,2,4], [5,1,5], [5,0,6], [4,7,0], [4,6,1],
  [4,5,2], [4,4,3], [4,3,4], [4,2,5], [4,1,6], [4,0,7], [3,8,0], [3,7,1], [3,6,2], [3,5,3],
  [3,4,4], [3,3,5], [3,2,6], [3,1,7], [3,0,8], [2,9,0], [2,8,1], [2,7,2], [2,6,3], [2,5,4],
  [2,4,5], [2,3,6], [2,2,7], [2,1,8], [2,0,9], [1,10,0], [1,9,1], [1,8,2], [1,7,3], [1,6,4],
  [1,5,5], [1,4,6], [1,3,7], [1,2,8], [1,1,9], [1,0,10], [0,11,0], [0,10,1], [0,9,2], [0,8,3],
  [0,7,4], [0,6,5], [0,5,6], [0,4,7], [0,3,8], [0,2,9], [0,1,10], [0,0,11]
]

def gamessIndex11 : List ℕ := [
  11, 266, 65546, 521, 65801, 131081, 776, 66056, 131336, 196616, 1031, 66311,
  131591, 196871, 262151, 1286, 66566, 131846, 197126, 262406, 327686, 1541, 66821, 132101,
  197381, 262661, 327941, 393221, 1796, 67076, 132356, 197636, 262916, 328196, 393476, 458756,
  2051, 67331, 132611, 197891, 263171, 328451, 393731, 459011, 524291, 2306, 67586, 132866,
  198146, 263426, 328706, 393986, 459266, 524546, 589826, 2561, 67841, 133121, 198401, 263681,
  328961, 394241, 459521, 524801, 590081, 655361, 2816, 68096, 133376, 198656, 263936, 329216,
  394496, 459776, 525056, 590336, 655616, 720896
]

def gamessOrder12 : List (List ℕ) := [
  [12,0,0], [11,1,0], [11,0,1], [10,2,0], [10,1,1], [10,0,2], [9,3,0], [9,2,1], [9,1,2], [9,0,3],
  [8,4,0], [8,3,1], [8,2,2], [8,1,3], [8,0,4], [7,5,0], [7,4,1], [7,3,2], [7,2,3], [7,1,4],
  [7,0,5], [6,6,0], [6,5,1], [6,4,2], [6,3,3], [6,2,4], [6,1,5], [6,0,6], [5,7,0], [5,6,1],
  [5,5,2], [5,4,3], [5,3,4], [5,2,5], [5,1,6], [5,0,7], [4,8,0], [4,7,1], [4,6,2], [4,5,3],
  [4,4,4], [4,3,5], [4,2,6], [4,1,7], [4,0,8], [3,9,0], [3,8,1], [3,7,2], [3,6,3], [3,5,4],
  [3,4,5], [3,3,6], [3,2,7], [3,1,8], [3,0,9], [2,10,0], [2,9,1], [2,8,2], [2,7,3], [2,6,4],
  [2,5,5], [2,4,6], [2,3,7], [2,2,8], [2,1,9], [2,0,10], [1,11,0], [1,10,1], [1,9,2], [1,8,3],
  [1,7,4], [1,6,5], [1,5,6], [1,4,7], [1,3,8], [1,2,9], [1,1,10], [1,0,11], [0,12,0], [0,11,1],
  [0,10,2], [0,9,3], [0,8,4], [0,7,5], [0,6,6], [0,5,7], [0,4,8], [0,3,9], [0,2,10], [0,1,11],
  [0,0,12]
]

def gamessIndex12 : List ℕ := [
  12, 267, 65547, 522, 65802, 131082, 777, 66057, 131337, 196617, 1032, 66312,
  131592, 196872, 262152, 1287, 66567, 131847, 197127, 262407, 327687, 1542, 66822, 132102,
  197382, 262662, 327942, 393222, 1797, 67077, 132357, 197637, 262917, 328197, 393477, 458757,
  2052, 67332, 132612, 197892, 263172, 328452, 393732, 459012, 524292, 2307, 67587, 132867,
  198147, 263427, 328707, 393987, 459267, 524547, 589827, 2562, 67842, 133122, 198402, 263682,
  328962, 394242, 459522, 524802, 590082, 655362, 2817, 68097, 133377, 198657, 263937, 329217,
  394497, 459777, 525057, 590337, 655617, 720897, 3072, 68352, 133632, 198912, 264192, 329472,
  394752, 460032, 525312, 590592, 655872, 721152, 786432
]

def gamessOrder13 : List (List ℕ) := [
  [13,0,0], [12,1,0], [12,0,1], [11,2,0], [11,1,1], [11,0,2], [10,3,0], [10,2,1], [10,1,2], [10,0,3],
  [9,4,0], [9,3,1], [9,2,2], [9,1,3], [9,0,4], [8,5,0], [8,4,1], [8,3,2], [8,2,3], [8,1,4],
  [8,0,5], [7,6,0], [7,5,1], [7,4,2], [7,3,3], [7,2,4], [7,1,5], [7,0,6], [6,7,0], [6,6,1],
  [6,5,2], [6,4,3], [6,3,4], [6,2,5], [6,1,6], [6,0,7], [5,8,0], [5,7,1], [5,6,2], [5,5,3],
  [5,4,4], [5,3,5], [5,2,6], [5,1,7], [5,0,8], [4,9,0], [4,8,1], [4,7,2], [4,6,3], [4,5,4],
  [4,4,5], [4,3,6], [4,2,7], [4,1,8], [4,0,9], [3,10,0], [3,9,1], [3,8,2], [3,7,3], [3,6,4],
  [3,5,5], [3,4,6], [3,3,7], [3,2,8], [3,1,9], [3,0,10], [2,11,0], [2,10,1], [2,9,2], [2,8,3],
  [2,7,4], [2,6,5], [2,5,6], [2,4,7], [2,3,8], [2,2,9], [2,1,10], [2,0,11], [1,12,0], [1,11,1],
  [1,10,2], [1,9,3], [1,8,4], [1,7,5], [1,6,6], [1,5,7], [1,4,8], [1,3,9], [1,2,10], [1,1,11],
  [1,0,12], [0,13,0], [0,12,1], [0,11,2], [0,10,3], [0,9,4], [0,8,5], [0,7,6], [0,6,7], [0,5,8],
  [0,4,9], [0,3,10], [0,2,11], [0,1,12], [0,0,13]
]

def gamessIndex13 : List ℕ := [
  13, 268, 65548, 523, 65803, 131083, 778, 66058, 131338, 196618, 1033, 66313,
  131593, 196873, 262153, 1288, 66568, 131848, 197128, 262408, 327688, 1543, 66823, 132103,
  197383, 262663, 327943, 393223, 1798, 67078, 132358, 197638, 262918, 328198, 393478, 458758,
  2053, 67333, 132613, 197893, 263173, 328453, 393733, 459013, 524293, 2308, 67588, 132868,
  198148, 263428, 328708, 393988, 459268, 524548, 589828, 2563, 67843, 133123, 198403, 263683,
  328963, 394243, 459523, 524803, 590083, 655363, 2818, 68098, 133378, 198658, 263938, 329218,
  394498, 459778, 525058, 590338, 655618, 720898, 3073, 68353, 133633, 198913, 264193, 329473,
  394753, 460033, 525313, 590593, 655873, 721153, 786433, 3328, 68608, 133888, 199168, 264448,
  329728, 395008, 460288, 525568, 590848, 656128, 721408, 786688, 851968
]

def gamessOrder14 : List (List ℕ) := [
  [14,0,0], [13,1,0], [13,0,1], [12,2,0], [12,1,1], [12,0,2], [11,3,0], [11,2,1], [11,1,2], [11,0,3],
  [10,4,0], [10,3,1], [10,2,2], [10,1,3], [10,0,4], [9,5,0], [9,4,1], [9,3,2], [9,2,3], [9,1,4],
  [9,0,5], [8,6,0], [8,5,1], [8,4,2], [8,3,3], [8,2,4], [8,1,5], [8,0,6], [7,7,0], [7,6,1],
  [7,5,2], [7,4,3], [7,3,4], [7,2,5], [7,1,6], [7,0,7], [6,8,0], [6,7,1], [6,6,2], [6,5,3],
  [6,4,4], [6,3,5], [6,2,6], [6,1,7], [6,0,8], [5,9,0], [5,8,1], [5,7,2], [5,6,3], [5,5,4],
  [5,4,5], [5,3,6], [5,2,7], [5,1,8], [5,0,9], [4,10,0], [4,9,1], [4,8,2], [4,7,3], [4,6,4],
  [4,5,5], [4,4,6], [4,3,7], [4,2,8], [4,1,9], [4,0,10], [3,11,0], [3,10,1], [3,9,2], [3,8,3],
  [3,7,4], [3,6,5], [3,5,6], [3,4,7], [3,3,8], [3,2,9], [3,1,10], [3,0,11], [2,12,0], [2,11,1],
  [2,10,2], [2,9,3], [2,8,4], [2,7,5], [2,6,6], [2,5,7], [2,4,8], [2,3,9], [2,2,10], [2,1,11],
  [2,0,12], [1,13,0], [1,12,1], [1,11,2], [1,10,3], [1,9,4], [1,8,5], [1,7,6], [1,6,7], [1,5,8],
  [1,4,9], [1,3,10], [1,2,11], [1,1,12], [1,0,13], [0,14,0], [0,13,1], [0,12,2], [0,11,3], [0,10,4],
  [0,9,5], [0,8,6], [0,7,7], [0,6,8], [0,5,9], [0,4,10], [0,3,11], [0,2,12], [0,1,13], [0,0,14]
]

def gamessIndex14 : List ℕ := [
  14, 269, 65549, 524, 65804, 131084, 779, 66059, 131339, 196619, 1034, 66314,
  131594, 196874, 262154, 1289, 66569, 131849, 197129, 262409, 327689, 1544, 66824, 132104,
  197384, 262664, 327944, 393224, 1799, 67079, 132359, 197639, 262919, 328199, 393479, 458759,
  2054, 67334, 132614, 197894, 263174, 328454, 393734, 459014, 524294, 2309, 67589, 132869,
  198149, 263429, 328709, 393989, 459269, 524549, 589829, 2564, 67844, 133124, 198404, 263684,
  328964, 394244, 459524, 524804, 590084, 655364, 2819, 68099, 133379, 198659, 263939, 329219,
  394499, 459779, 525059, 590339, 655619, 720899, 3074, 68354, 133634, 198914, 264194, 329474,
  394754, 460034, 525314, 590594, 655874, 721154, 786434, 3329, 68609, 133889, 199169, 264449,
  329729, 395009, 460289, 525569, 590849, 656129, 721409, 786689, 851969, 3584, 68864, 134144,
  199424, 264704, 329984, 395264, 460544, 525824, 591104, 656384, 721664, 786944, 852224, 917504
]

def gamessOrder15 : List (List ℕ) := [
  [15,0,0], [14,1,0], [14,0,1], [13,2,0], [13,1,1], [13,0,2], [12,3,0], [12,2,1], [12,1,2], [12,0,3],
  [11,4,0], [11,3,1], [11,2,2], [11,1,3], [11,0,4], [10,5,0], [10,4,1], [10,3,2], [10,2,3], [10,1,4],
  [10,0,5], [9,6,0], [9,5,1], [9,4,2], [9,3,3], [9,2,4], [9,1,5], [9,0,6], [8,7,0], [8,6,1],
  [8,5,2], [8,4,3], [8,3,4], [8,2,5], [8,1,6], [8,0,7], [7,8,0], [7,7,1], [7,6,2], [7,5,3],
  [7,4,4], [7,3,5], [7,2,6], [7,1,7], [7,0,8], [6,9,0], [6,8,1], [6,7,2], [6,6,3], [6,5,4],
  [6,4,5], [6,3,6], [6,2,7], [6,1,8], [6,0,9], [5,10,0], [5,9,1], [5,8,2], [5,7,3], [5,6,4],
  [5,5,5], [5,4,6], [5,3,7], [5,2,8], [5,1,9], [5,0,10], [4,11,0], [4,10,1], [4,9,2], [4,8,3],
  [4,7,4], [4,6,5], [4,5,6], [4,4,7], [4,3,8], [4,2,9], [4,1,10], [4,0,11], [3,12,0], [3,11,1],
  [3,10,2], [3,9,3], [3,8,4], [3,7,5], [3,6,6], [3,5,7], [3,4,8], [3,3,9], [3,2,10], [3,1,11],
  [3,0,12], [2,13,0], [2,12,1], [2,11,2], [2,10,3], [2,9,4], [2,8,5], [2,7,6], [2,6,7], [2,5,8],
  [2,4,9], [2,3,10], [2,2,11], [2,1,12], [2,0,13], [1,14,0], [1,13,1], [1,12,2], [1,11,3], [1,10,4],
  [1,9,5], [1,8,6], [1,7,7], [1,6,8], [1,5,9], [1,4,10], [1,3,11], [1,2,12], [1,1,13], [1,0,14],
  [0,15,0], [0,14,1], [0,13,2], [0,12,3], [0,11,4], [0,10,5], [0,9,6], [0,8,7], [0,7,8], [0,6,9],
  [0,5,10], [0,4,11], [0,3,12], [0,2,13], [0,1,14], [0,0,15]
]

def gamessIndex15 : List ℕ := [
  15, 270, 65550, 525, 65805, 131085, 780, 66060, 131340, 196620, 1035, 66315,
  131595, 196875, 262155, 1290, 66570, 131850, 197130, 262410, 327690, 1545, 66825, 132105,
  197385, 262665, 327945, 393225, 1800, 67080, 132360, 197640, 262920, 328200, 393480, 458760,
  2055, 67335, 132615, 197895, 263175, 328455, 393735, 459015, 524295, 2310, 67590, 132870,
  198150, 263430, 328710, 393990, 459270, 524550, 589830, 2565, 67845, 133125, 198405, 263685,
  328965, 394245, 459525, 524805, 590085, 655365, 2820, 68100, 133380, 198660, 263940, 329220,
  394500, 459780, 525060, 590340, 655620, 720900, 3075, 68355, 133635, 198915, 264195, 329475,
  394755, 460035, 525315, 590595, 655875, 721155, 786435, 3330, 68610, 133890, 199170, 264450,
  329730, 395010, 460290, 525570, 590850, 656130, 721410, 786690, 851970, 3585, 68865, 134145,
  199425, 264705, 329985, 395265, 460545, 525825, 591105, 656385, 721665, 786945, 852225, 917505,
  3840, 69120, 134400, 199680, 264960, 330240, 395520, 460800, 526080, 591360, 656640, 721920,
  787200, 852480, 917760, 983040
]

def gamessOrder16 : List (List ℕ) := [
  [16,0,0], [15,1,0], [15,0,1], [14,2,0], [14,1,1], [14,0,2], [13,3,0], [13,2,1], [13,1,2], [13,0,3],
  [12,4,0], [12,3,1], [12,2,2], [12,1,3], [12,0,4], [11,5,0], [11,4,1], [11,3,2], [11,2,3], [11,1,4],
  [11,0,5], [10,6,0], [10,5,1], [10,4,2], [10,3,3], [10,2,4], [10,1,5], [10,0,6], [9,7,0], [9,6,1],
  [9,5,2], [9,4,3], [9,3,4], [9,2,5], [9,1,6], [9,0,7], [8,8,0], [8,7,1], [8,6,2], [8,5,3],
  [8,4,4], [8,3,5], [8,2,6], [8,1,7], [8,0,8], [7,9,0], [7,8,1], [7,7,2], [7,6,3], [7,5,4],
  [7,4,5], [7,3,6], [7,2,7], [7,1,8], [7,0,9], [6,10,0], [6,9,1], [6,8,2], [6,7,3], [6,6,4],
  [6,5,5], [6,4,6], [6,3,7], [6,2,8], [6,1,9], [6,0,10], [5,11,0], [5,10,1], [5,9,2], [5,8,3],
  [5,7,4], [5,6,5], [5,5,6], [5,4,7], [5,3,8], [5,2,9], [5,1,10], [5,0,11], [4,12,0], [4,11,1],
  [4,10,2], [4,9,3], [4,8,4], [4,7,5], [4,6,6], [4,5,7], [4,4,8], [4,3,9], [4,2,10], [4,1,11],
  [4,0,12], [3,13,0], [3,12,1], [3,11,2], [3,10,3], [3,9,4], [3,8,5], [3,7,6], [3,6,7], [3,5,8],
  [3,4,9], [3,3,10], [3,2,11], [3,1,12], [3,0,13], [2,14,0], [2,13,1], [2,12,2], [2,11,3], [2,10,4],
  [2,9,5], [2,8,6], [2,7,7], [2,6,8], [2,5,9], [2,4,10], [2,3,11], [2,2,12], [2,1,13], [2,0,14],
  [1,15,0], [1,14,1], [1,13,2], [1,12,3], [1,11,4], [1,10,5], [1,9,6], [1,8,7], [1,7,8], [1,6,9],
  [1,5,10], [1,4,11], [1,3,12], [1,2,13], [1,1,14], [1,0,15], [0,16,0], [0,15,1], [0,14,2], [0,13,3],
  [0,12,4], [0,11,5], [0,10,6], [0,9,7], [0,8,8], [0,7,9], [0,6,10], [0,5,11], [0,4,12], [0,3,13],
  [0,2,14], [0,1,15], [0,0,16]
]

def gamessIndex16 : List ℕ := [
  16, 271, 65551, 526, 65806, 131086, 781, 66061, 131341, 196621, 1036, 66316,
  131596, 196876, 262156, 1291, 66571, 131851, 197131, 262411, 327691, 1546, 66826, 132106,
  197386, 262666, 327946, 393226, 1801, 67081, 132361, 197641, 262921, 328201, 393481, 458761,
  2056, 67336, 132616, 197896, 263176, 328456, 393736, 459016, 524296, 2311, 67591, 132871,
  198151, 263431, 328711, 393991, 459271, 524551, 589831, 2566, 67846, 133126, 198406, 263686,
  328966, 394246, 459526, 524806, 590086, 655366, 2821, 68101, 133381, 198661, 263941, 329221,
  394501, 459781, 525061, 590341, 655621, 720901, 3076, 68356, 133636, 198916, 264196, 329476,
  394756, 460036, 525316, 590596, 655876, 721156, 786436, 3331, 68611, 133891, 199171, 264451,
  329731, 395011, 460291, 525571, 590851, 656131, 721411, 786691, 851971, 3586, 68866, 134146,
  199426, 264706, 329986, 395266, 460546, 525826, 591106, 656386, 721666, 786946, 852226, 917506,
  3841, 69121, 134401, 199681, 264961, 330241, 395521, 460801, 526081, 591361, 656641, 721921,
  787201, 852481, 917761, 983041, 4096, 69376, 134656, 199936, 265216, 330496, 395776, 461056,
  526336, 591616, 656896, 722176, 787456, 852736, 918016, 983296, 1048576
]

def gamessOrder17 : List (List ℕ) := [
  [17,0,0], [16,1,0], [16,0,1], [15,2,0], [15,1,1], [15,0,2], [14,3,0], [14,2,1], [14,1,2], [14,0,3],
  [13,4,0], [13,3,1], [13,2,2], [13,1,3], [13,0,4], [12,5,0], [12,4,1], [12,3,2], [12,2,3], [12,1,4],
  [12,0,5], [11,6,0], [11,5,1], [11,4,2], [11,3,3], [11,2,4], [11,1,5], [11,0,6], [10,7,0], [10,6,1],
  [10,5,2], [10,4,3], [10,3,4], [10,2,5], [10,1,6], [10,0,7], [9,8,0], [9,7,1], [9,6,2], [9,5,3],
  [9,4,4], [9,3,5], [9,2,6], [9,1,7], [9,0,8], [8,9,0], [8,8,1], [8,7,2], [8,6,3], [8,5,4],
  [8,4,5], [8,3,6], [8,2,7], [8,1,8], [8,0,9], [7,10,0], [7,9,1], [7,8,2], [7,7,3], [7,6,4],
  [7,5,5], [7,4,6], [7,3,7], [7,2,8], [7,1,9], [7,0,10], [6,11,0], [6,10,1], [6,9,2], [6,8,3],
  [6,7,4], [6,6,5], [6,5,6], [6,4,7], [6,3,8], [6,2,9], [6,1,10], [6,0,11], [5,12,0], [5,11,1],
  [5,10,2], [5,9,3], [5,8,4], [5,7,5], [5,6,6], [5,5,7], [5,4,8], [5,3,9], [5,2,10], [5,1,11],
  [5,0,12], [4,13,0], [4,12,1], [4,11,2], [4,10,3], [4,9,4], [4,8,5], [4,7,6], [4,6,7], [4,5,8],
  [4,4,9], [4,3,10], [4,2,11], [4,1,12], [4,0,13], [3,14,0], [3,13,1], [3,12,2], [3,11,3], [3,10,4],
  [3,9,5], [3,8,6], [3,7,7], [3,6,8], [3,5,9], [3,4,10], [3,3,11], [3,2,12], [3,1,13], [3,0,14],
  [2,15,0], [2,14,1], [2,13,2], [2,12,3], [2,11,4], [2,10,5], [2,9,6], [2,8,7], [2,7,8], [2,6,9],
  [2,5,10], [2,4,11], [2,3,12], [2,2,13], [2,1,14], [2,0,15], [1,16,0], [1,15,1], [1,14,2], [1,13,3],
  [1,12,4], [1,11,5], [1,10,6], [1,9,7], [1,8,8], [1,7,9], [1,6,10], [1,5,11], [1,4,12], [1,3,13],
  [1,2,14], [1,1,15], [1,0,16], [0,17,0], [0,16,1], [0,15,2], [0,14,3], [0,13,4], [0,12,5], [0,11,6],
  [0,10,7], [0,9,8], [0,8,9], [0,7,10], [0,6,11], [0,5,12], [0,4,13], [0,3,14], [0,2,15], [0,1,16],
  [0,0,17]
]

def gamessIndex17 : List ℕ := [
  17, 272, 65552, 527, 65807, 131087, 782, 66062, 131342, 196622, 1037, 66317,
  131597, 196877, 262157, 1292, 66572, 131852, 197132, 262412, 327692, 1547, 66827, 132107,
  197387, 262667, 327947, 393227, 1802, 67082, 132362, 197642, 262922, 328202, 393482, 458762,
  2057, 67337, 132617, 197897, 263177, 328457, 393737, 459017, 524297, 2312, 67592, 132872,
  198152, 263432, 328712, 393992, 459272, 524552, 589832, 2567, 67847, 133127, 198407, 263687,
  328967, 394247, 459527, 524807, 590087, 655367, 2822, 68102, 133382, 198662, 263942, 329222,
  394502, 459782, 525062, 590342, 655622, 720902, 3077, 68357, 133637, 198917, 264197, 329477,
  394757, 460037, 525317, 590597, 655877, 721157, 786437, 3332, 68612, 133892, 199172, 264452,
  329732, 395012, 460292, 525572, 590852, 656132, 721412, 786692, 851972, 3587, 68867, 134147,
  199427, 264707, 329987, 395267, 460547, 525827, 591107, 656387, 721667, 786947, 852227, 917507,
  3842, 69122, 134402, 199682, 264962, 330242, 395522, 460802, 526082, 591362, 656642, 721922,
  787202, 852482, 917762, 983042, 4097, 69377, 134657, 199937, 265217, 330497, 395777, 461057,
  526337, 591617, 656897, 722177, 787457, 852737, 918017, 983297, 1048577, 4352, 69632, 134912,
  200192, 265472, 330752, 396032, 461312, 526592, 591872, 657152, 722432, 787712, 852992, 918272,
  983552, 1048832, 1114112
]

def gamessOrder18 : List (List ℕ) := [
  [18,0,0], [17,1,0], [17,0,1], [16,2,0], [16,1,1], [16,0,2], [15,3,0], [15,2,1], [15,1,2], [15,0,3],
  [14,4,0], [14,3,1], [14,2,2], [14,1,3], [14,0,4], [13,5,0], [13,4,1], [13,3,2], [13,2,3], [13,1,4],
  [13,0,5], [12,6,0], [12,5,1], [12,4,2], [12,3,3], [12,2,4], [12,1,5], [12,0,6], [11,7,0], [11,6,1],
  [11,5,2], [11,4,3], [11,3,4], [11,2,5], [11,1,6], [11,0,7], [10,8,0], [10,7,1], [10,6,2], [10,5,3],
  [10,4,4], [10,3,5], [10,2,6], [10,1,7], [10,0,8], [9,9,0], [9,8,1], [9,7,2], [9,6,3], [9,5,4],
  [9,4,5], [9,3,6], [9,2,7], [9,1,8], [9,0,9], [8,10,0], [8,9,1], [8,8,2], [8,7,3], [8,6,4],
  [8,5,5], [8,4,6], [8,3,7], [8,2,8], [8,1,9], [8,0,10], [7,11,0], [7,10,1], [7,9,2], [7,8,3],
  [7,7,4], [7,6,5], [7,5,6], [7,4,7], [7,3,8], [7,2,9], [7,1,10], [7,0,11], [6,12,0], [6,11,1],
  [6,10,2], [6,9,3], [6,8,4], [6,7,5], [6,6,6], [6,5,7], [6,4,8], [6,3,9], [6,2,10], [6,1,11],
  [6,0,12], [5,13,0], [5,12,1], [5,11,2], [5,10,3], [5,9,4], [5,8,5], [5,7,6], [5,6,7], [5,5,8],
  [5,4,9], [5,3,10], [5,2,11], [5,1,12], [5,0,13], [4,14,0], [4,13,1], [4,12,2], [4,11,3], [4,10,4],
  [4,9,5], [4,8,6], [4,7,7], [4,6,8], [4,5,9], [4,4,10], [4,3,11], [4,2,12], [4,1,13], [4,0,14],
  [3,15,0], [3,14,1], [3,13,2], [3,12,3], [3,11,4], [3,10,5], [3,9,6], [3,8,7], [3,7,8], [3,6,9],
  [3,5,10], [3,4,11], [3,3,12], [3,2,13], [3,1,14], [3,0,15], [2,16,0], [2,15,1], [2,14,2], [2,13,3],
  [2,12,4], [2,11,5], [2,10,6], [2,9,7], [2,8,8], [2,7,9], [2,6,10], [2,5,11], [2,4,12], [2,3,13],
  [2,2,14], [2,1,15], [2,0,16], [1,17,0], [1,16,1], [1,15,2], [1,14,3], [1,13,4], [1,12,5], [1,11,6],
  [1,10,7], [1,9,8], [1,8,9], [1,7,10], [1,6,11], [1,5,12], [1,4,13], [1,3,14], [1,2,15], [1,1,16],
  [1,0,17], [0,18,0], [0,17,1], [0,16,2], [0,15,3], [0,14,4], [0,13,5], [0,12,6], [0,11,7], [0,10,8],
  [0,9,9], [0,8,10], [0,7,11], [0,6,12], [0,5,13], [0,4,14], [0,3,15], [0,2,16], [0,1,17], [0,0,18]
]

def gamessIndex18 : List ℕ := [
  18, 273, 65553, 528, 65808, 131088, 783, 66063, 131343, 196623, 1038, 66318,
  131598, 196878, 262158, 1293, 66573, 131853, 197133, 262413, 327693, 1548, 66828, 132108,
  197388, 262668, 327948, 393228, 1803, 67083, 132363, 197643, 262923, 328203, 393483, 458763,
  2058, 67338, 132618, 197898, 263178, 328458, 393738, 459018, 524298, 2313, 67593, 132873,
  198153, 263433, 328713, 393993, 459273, 524553, 589833, 2568, 67848, 133128, 198408, 263688,
  328968, 394248, 459528, 524808, 590088, 655368, 2823, 68103, 133383, 198663, 263943, 329223,
  394503, 459783, 525063, 590343, 655623, 720903, 3078, 68358, 133638, 198918, 264198, 329478,
  394758, 460038, 525318, 590598, 655878, 721158, 786438, 3333, 68613, 133893, 199173, 264453,
  329733, 395013, 460293, 525573, 590853, 656133, 721413, 786693, 851973, 3588, 68868, 134148,
  199428, 264708, 329988, 395268, 460548, 525828, 591108, 656388, 721668, 786948, 852228, 917508,
  3843, 69123, 134403, 199683, 264963, 330243, 395523, 460803, 526083, 591363, 656643, 721923,
  787203, 852483, 917763, 983043, 4098, 69378, 134658, 199938, 265218, 330498, 395778, 461058,
  526338, 591618, 656898, 722178, 787458, 852738, 918018, 983298, 1048578, 4353, 69633, 134913,
  200193, 265473, 330753, 396033, 461313, 526593, 591873, 657153, 722433, 787713, 852993, 918273,
  983553, 1048833, 1114113, 4608, 69888, 135168, 200448, 265728, 331008, 396288, 461568, 526848,
  592128, 657408, 722688, 787968, 853248, 918528, 983808, 1049088, 1114368, 1179648
]

def gamessOrder19 : List (List ℕ) := [
  [19,0,0], [18,1,0], [18,0,1], [17,2,0], [17,1,1], [17,0,2], [16,3,0], [16,2,1], [16,1,2], [16,0,3],
  [15,4,0], [15,3,1], [15,2,2], [15,1,3], [15,0,4], [14,5,0], [14,4,1], [14,3,2], [14,2,3], [14,1,4],
  [14,0,5], [13,6,0], [13,5,1], [13,4,2], [13,3,3], [13,2,4], [13,1,5], [13,0,6], [12,7,0], [12,6,1],
  [12,5,2], [12,4,3], [12,3,4], [12,2,5], [12,1,6], [12,0,7], [11,8,0], [11,7,1], [11,6,2], [11,5,3],
  [11,4,4], [11,3,5], [11,2,6], [11,1,7], [11,0,8], [10,9,0], [10,8,1], [10,7,2], [10,6,3], [10,5,4],
  [10,4,5], [10,3,6], [10,2,7], [10,1,8], [10,0,9], [9,10,0], [9,9,1], [9,8,2], [9,7,3], [9,6,4],
  [9,5,5], [9,4,6], [9,3,7], [9,2,8], [9,1,9], [9,0,10], [8,11,0], [8,10,1], [8,9,2], [8,8,3],
  [8,7,4], [8,6,5], [8,5,6], [8,4,7], [8,3,8], [8,2,9], [8,1,10], [8,0,11], [7,12,0], [7,11,1],
  [7,10,2], [7,9,3], [7,8,4], [7,7,5], [7,6,6], [7,5,7], [7,4,8], [7,3,9], [7,2,10], [7,1,11],
  [7,0,12], [6,13,0], [6,12,1], [6,11,2], [6,10,3], [6,9,4], [6,8,5], [6,7,6], [6,6,7], [6,5,8],
  [6,4,9], [6,3,10], [6,2,11], [6,1,12], [6,0,13], [5,14,0], [5,13,1], [5,12,2], [5,11,3], [5,10,4],
  [5,9,5], [5,8,6], [5,7,7], [5,6,8], [5,5,9], [5,4,10], [5,3,11], [5,2,12], [5,1,13], [5,0,14],
  [4,15,0], [4,14,1], [4,13,2], [4,12,3], [4,11,4], [4,10,5], [4,9,6], [4,8,7], [4,7,8], [4,6,9],
  [4,5,10], [4,4,11], [4,3,12], [4,2,13], [4,1,14], [4,0,15], [3,16,0], [3,15,1], [3,14,2], [3,13,3],
  [3,12,4], [3,11,5], [3,10,6], [3,9,7], [3,8,8], [3,7,9], [3,6,10], [3,5,11], [3,4,12], [3,3,13],
  [3,2,14], [3,1,15], [3,0,16], [2,17,0], [2,16,1], [2,15,2], [2,14,3], [2,13,4], [2,12,5], [2,11,6],
  [2,10,7], [2,9,8], [2,8,9], [2,7,10], [2,6,11], [2,5,12], [2,4,13], [2,3,14], [2,2,15], [2,1,16],
  [2,0,17], [1,18,0], [1,17,1], [1,16,2], [1,15,3], [1,14,4], [1,13,5], [1,12,6], [1,11,7], [1,10,8],
  [1,9,9], [1,8,10], [1,7,11], [1,6,12], [1,5,13], [1,4,14], [1,3,15], [1,2,16], [1,1,17], [1,0,18],
  [0,19,0], [0,18,1], [0,17,2], [0,16,3], [0,15,4], [0,14,5], [0,13,6], [0,12,7], [0,11,8], [0,10,9],
  [0,9,10], [0,8,11], [0,7,12], [0,6,13], [0,5,14], [0,4,15], [0,3,16], [0,2,17], [0,1,18], [0,0,19]
]

def gamessIndex19 : List ℕ := [
  19, 274, 65554, 529, 65809, 131089, 784, 66064, 131344, 196624, 1039, 66319,
  131599, 196879, 262159, 1294, 66574, 131854, 197134, 262414, 327694, 1549, 66829, 132109,
  197389, 262669, 327949, 393229, 1804, 67084, 132364, 197644, 262924, 328204, 393484, 458764,
  2059, 67339, 132619, 197899, 263179, 328459, 393739, 459019, 524299, 2314, 67594, 132874,
  198154, 263434, 328714, 393994, 459274, 524554, 589834, 2569, 67849, 133129, 198409, 263689,
  328969, 394249, 459529, 524809, 590089, 655369, 2824, 68104, 133384, 198664, 263944, 329224,
  394504, 459784, 525064, 590344, 655624, 720904, 3079, 68359, 133639, 198919, 264199, 329479,
  394759, 460039, 525319, 590599, 655879, 721159, 786439, 3334, 68614, 133894, 199174, 264454,
  329734, 395014, 460294, 525574, 590854, 656134, 721414, 786694, 851974, 3589, 68869, 134149,
  199429, 264709, 329989, 395269, 460549, 525829, 591109, 656389, 721669, 786949, 852229, 917509,
  3844, 69124, 134404, 199684, 264964, 330244, 395524, 460804, 526084, 591364, 656644, 721924,
  787204, 852484, 917764, 983044, 4099, 69379, 134659, 199939, 265219, 330499, 395779, 461059,
  526339, 591619, 656899, 722179, 787459, 852739, 918019, 983299, 1048579, 4354, 69634, 134914,
  200194, 265474, 330754, 396034, 461314, 526594, 591874, 657154, 722434, 787714, 852994, 918274,
  983554, 1048834, 1114114, 4609, 69889, 135169, 200449, 265729, 331009, 396289, 461569, 526849,
  592129, 657409, 722689, 787969, 853249, 918529, 983809, 1049089, 1114369, 1179649, 4864, 70144,
  135424, 200704, 265984, 331264, 396544, 461824, 527104, 592384, 657664, 722944, 788224, 853504,
  918784, 984064, 1049344, 1114624, 1179904, 1245184
]

def gamessOrder20 : List (List ℕ) := [
  [20,0,0], [19,1,0], [19,0,1], [18,2,0], [18,1,1], [18,0,2], [17,3,0], [17,2,1], [17,1,2], [17,0,3],
  [16,4,0], [16,3,1], [16,2,2], [16,1,3], [16,0,4], [15,5,0], [15,4,1], [15,3,2], [15,2,3], [15,1,4],
  [15,0,5], [14,6,0], [14,5,1], [14,4,2], [14,3,3], [14,2,4], [14,1,5], [14,0,6], [13,7,0], [13,6,1],
  [13,5,2], [13,4,3], [13,3,4], [13,2,5], [13,1,6], [13,0,7], [12,8,0], [12,7,1], [12,6,2], [12,5,3],
  [12,4,4], [12,3,5], [12,2,6], [12,1,7], [12,0,8], [11,9,0], [11,8,1], [11,7,2], [11,6,3], [11,5,4],
  [11,4,5], [11,3,6], [11,2,7], [11,1,8], [11,0,9], [10,10,0], [10,9,1], [10,8,2], [10,7,3], [10,6,4],
  [10,5,5], [10,4,6], [10,3,7], [10,2,8], [10,1,9], [10,0,10], [9,11,0], [9,10,1], [9,9,2], [9,8,3],
  [9,7,4], [9,6,5], [9,5,6], [9,4,7], [9,3,8], [9,2,9], [9,1,10], [9,0,11], [8,12,0], [8,11,1],
  [8,10,2], [8,9,3], [8,8,4], [8,7,5], [8,6,6], [8,5,7], [8,4,8], [8,3,9], [8,2,10], [8,1,11],
  [8,0,12], [7,13,0], [7,12,1], [7,11,2], [7,10,3], [7,9,4], [7,8,5], [7,7,6], [7,6,7], [7,5,8],
  [7,4,9], [7,3,10], [7,2,11], [7,1,12], [7,0,13], [6,14,0], [6,13,1], [6,12,2], [6,11,3], [6,10,4],
  [6,9,5], [6,8,6], [6,7,7], [6,6,8], [6,5,9], [6,4,10], [6,3,11], [6,2,12], [6,1,13], [6,0,14],
  [5,15,0], [5,14,1], [5,13,2], [5,12,3], [5,11,4], [5,10,5], [5,9,6], [5,8,7], [5,7,8], [5,6,9],
  [5,5,10], [5,4,11], [5,3,12], [5,2,13], [5,1,14], [5,0,15], [4,16,0], [4,15,1], [4,14,2], [4,13,3],
  [4,12,4], [4,11,5], [4,10,6], [4,9,7], [4,8,8], [4,7,9], [4,6,10], [4,5,11], [4,4,12], [4,3,13],
  [4,2,14], [4,1,15], [4,0,16], [3,17,0], [3,16,1], [3,15,2], [3,14,3], [3,13,4], [3,12,5], [3,11,6],
  [3,10,7], [3,9,8], [3,8,9], [3,7,10], [3,6,11], [3,5,12], [3,4,13], [3,3,14], [3,2,15], [3,1,16],
  [3,0,17], [2,18,0], [2,17,1], [2,16,2], [2,15,3], [2,14,4], [2,13,5], [2,12,6], [2,11,7], [2,10,8],
  [2,9,9], [2,8,10], [2,7,11], [2,6,12], [2,5,13], [2,4,14], [2,3,15], [2,2,16], [2,1,17], [2,0,18],
  [1,19,0], [1,18,1], [1,17,2], [1,16,3], [1,15,4], [1,14,5], [1,13,6], [1,12,7], [1,11,8], [1,10,9],
  [1,9,10], [1,8,11], [1,7,12], [1,6,13], [1,5,14], [1,4,15], [1,3,16], [1,2,17], [1,1,18], [1,0,19],
  [0,20,0], [0,19,1], [0,18,2], [0,17,3], [0,16,4], [0,15,5], [0,14,6], [0,13,7], [0,12,8], [0,11,9],
  [0,10,10], [0,9,11], [0,8,12], [0,7,13], [0,6,14], [0,5,15], [0,4,16], [0,3,17], [0,2,18], [0,1,19],
  [0,0,20]
]

def gamessIndex20 : List ℕ := [
  20, 275, 65555, 530, 65810, 131090, 785, 66065, 131345, 196625, 1040, 66320,
  131600, 196880, 262160, 1295, 66575, 131855, 197135, 262415, 327695, 1550, 66830, 132110,
  197390, 262670, 327950, 393230, 1805, 67085, 132365, 197645, 262925, 328205, 393485, 458765,
  2060, 67340, 132620, 197900, 263180, 328460, 393740, 459020, 524300, 2315, 67595, 132875,
  198155, 263435, 328715, 393995, 459275, 524555, 589835, 2570, 67850, 133130, 198410, 263690,
  328970, 394250, 459530, 524810, 590090, 655370, 2825, 68105, 133385, 198665, 263945, 329225,
  394505, 459785, 525065, 590345, 655625, 720905, 3080, 68360, 133640, 198920, 264200, 329480,
  394760, 460040, 525320, 590600, 655880, 721160, 786440, 3335, 68615, 133895, 199175, 264455,
  329735, 395015, 460295, 525575, 590855, 656135, 721415, 786695, 851975, 3590, 68870, 134150,
  199430, 264710, 329990, 395270, 460550, 525830, 591110, 656390, 721670, 786950, 852230, 917510,
  3845, 69125, 134405, 199685, 264965, 330245, 395525, 460805, 526085, 591365, 656645, 721925,
  787205, 852485, 917765, 983045, 4100, 69380, 134660, 199940, 265220, 330500, 395780, 461060,
  526340, 591620, 656900, 722180, 787460, 852740, 918020, 983300, 1048580, 4355, 69635, 134915,
  200195, 265475, 330755, 396035, 461315, 526595, 591875, 657155, 722435, 787715, 852995, 918275,
  983555, 1048835, 1114115, 4610, 69890, 135170, 200450, 265730, 331010, 396290, 461570, 526850,
  592130, 657410, 722690, 787970, 853250, 918530, 983810, 1049090, 1114370, 1179650, 4865, 70145,
  135425, 200705, 265985, 331265, 396545, 461825, 527105, 592385, 657665, 722945, 788225, 853505,
  918785, 984065, 1049345, 1114625, 1179905, 1245185, 5120, 70400, 135680, 200960, 266240, 331520,
  396800, 462080, 527360, 592640, 657920, 723200, 788480, 853760, 919040, 984320, 1049600, 1114880,
  1180160, 1245440, 1310720
]

def gamessOrder21 : List (List ℕ) := [
  [21,0,0], [20,1,0], [20,0,1], [19,2,0], [19,1,1], [19,0,2], [18,3,0], [18,2,1], [18,1,2], [18,0,3],
  [17,4,0], [17,3,1], [17,2,2], [17,1,3], [17,0,4], [16,5,0], [16,4,1], [16,3,2], [16,2,3], [16,1,4],
  [16,0,5], [15,6,0], [15,5,1], [15,4,2], [15,3,3], [15,2,4], [15,1,5], [15,0,6], [14,7,0], [14,6,1],
  [14,5,2], [14,4,3], [14,3,4], [14,2,5], [14,1,6], [14,0,7], [13,8,0], [13,7,1], [13,6,2], [13,5,3],
  [13,4,4], [13,3,5], [13,2,6], [13,1,7], [13,0,8], [12,9,0], [12,8,1], [12,7,2], [12,6,3], [12,5,4],
  [12,4,5], [12,3,6], [12,2,7], [12,1,8], [12,0,9], [11,10,0], [11,9,1], [11,8,2], [11,7,3], [11,6,4],
  [11,5,5], [11,4,6], [11,3,7], [11,2,8], [11,1,9], [11,0,10], [10,11,0], [10,10,1], [10,9,2], [10,8,3],
  [10,7,4], [10,6,5], [10,5,6], [10,4,7], [10,3,8], [10,2,9], [10,1,10], [10,0,11], [9,12,0], [9,11,1],
  [9,10,2], [9,9,3], [9,8,4], [9,7,5], [9,6,6], [9,5,7], [9,4,8], [9,3,9], [9,2,10], [9,1,11],
  [9,0,12], [8,13,0], [8,12,1], [8,11,2], [8,10,3], [8,9,4], [8,8,5], [8,7,6], [8,6,7], [8,5,8],
  [8,4,9], [8,3,10], [8,2,11], [8,1,12], [8,0,13], [7,14,0], [7,13,1], [7,12,2], [7,11,3], [7,10,4],
  [7,9,5], [7,8,6], [7,7,7], [7,6,8], [7,5,9], [7,4,10], [7,3,11], [7,2,12], [7,1,13], [7,0,14],
  [6,15,0], [6,14,1], [6,13,2], [6,12,3], [6,11,4], [6,10,5], [6,9,6], [6,8,7], [6,7,8], [6,6,9],
  [6,5,10], [6,4,11], [6,3,12], [6,2,13], [6,1,14], [6,0,15], [5,16,0], [5,15,1], [5,14,2], [5,13,3],
  [5,12,4], [5,11,5], [5,10,6], [5,9,7], [5,8,8], [5,7,9], [5,6,10], [5,5,11], [5,4,12], [5,3,13],
  [5,2,14], [5,1,15], [5,0,16], [4,17,0], [4,16,1], [4,15,2], [4,14,3], [4,13,4], [4,12,5], [4,11,6],
  [4,10,7], [4,9,8], [4,8,9], [4,7,10], [4,6,11], [4,5,12], [4,4,13], [4,3,14], [4,2,15], [4,1,16],
  [4,0,17], [3,18,0], [3,17,1], [3,16,2], [3,15,3], [3,14,4], [3,13,5], [3,12,6], [3,11,7], [3,10,8],
  [3,9,9], [3,8,10], [3,7,11], [3,6,12], [3,5,13], [3,4,14], [3,3,15], [3,2,16], [3,1,17], [3,0,18],
  [2,19,0], [2,18,1], [2,17,2], [2,16,3], [2,15,4], [2,14,5], [2,13,6], [2,12,7], [2,11,8], [2,10,9],
  [2,9,10], [2,8,11], [2,7,12], [2,6,13], [2,5,14], [2,4,15], [2,3,16], [2,2,17], [2,1,18], [2,0,19],
  [1,20,0], [1,19,1], [1,18,2], [1,17,3], [1,16,4], [1,15,5], [1,14,6], [1,13,7], [1,12,8], [1,11,9],
  [1,10,10], [1,9,11], [1,8,12], [1,7,13], [1,6,14], [1,5,15], [1,4,16], [1,3,17], [1,2,18], [1,1,19],
  [1,0,20], [0,21,0], [0,20,1], [0,19,2], [0,18,3], [0,17,4], [0,16,5], [0,15,6], [0,14,7], [0,13,8],
  [0,12,9], [0,11,10], [0,10,11], [0,9,12], [0,8,13], [0,7,14], [0,6,15], [0,5,16], [0,4,17], [0,3,18],
  [0,2,19], [0,1,20], [0,0,21]
]

def gamessIndex21 : List ℕ := [
  21, 276, 65556, 531, 65811, 131091, 786, 66066, 131346, 196626, 1041, 66321,
  131601, 196881, 262161, 1296, 66576, 131856, 197136, 262416, 327696, 1551, 66831, 132111,
  197391, 262671, 327951, 393231, 1806, 67086, 132366, 197646, 262926, 328206, 393486, 458766,
  2061, 67341, 132621, 197901, 263181, 328461, 393741, 459021, 524301, 2316, 67596, 132876,
  198156, 263436, 328716, 393996, 459276, 524556, 589836, 2571, 67851, 133131, 198411, 263691,
  328971, 394251, 459531, 524811, 590091, 655371, 2826, 68106, 133386, 198666, 263946, 329226,
  394506, 459786, 525066, 590346, 655626, 720906, 3081, 68361, 133641, 198921, 264201, 329481,
  394761, 460041, 525321, 590601, 655881, 721161, 786441, 3336, 68616, 133896, 199176, 264456,
  329736, 395016, 460296, 525576, 590856, 656136, 721416, 786696, 851976, 3591, 68871, 134151,
  199431, 264711, 329991, 395271, 460551, 525831, 591111, 656391, 721671, 786951, 852231, 917511,
  3846, 69126, 134406, 199686, 264966, 330246, 395526, 460806, 526086, 591366, 656646, 721926,
  787206, 852486, 917766, 983046, 4101, 69381, 134661, 199941, 265221, 330501, 395781, 461061,
  526341, 591621, 656901, 722181, 787461, 852741, 918021, 983301, 1048581, 4356, 69636, 134916,
  200196, 265476, 330756, 396036, 461316, 526596, 591876, 657156, 722436, 787716, 852996, 918276,
  983556, 1048836, 1114116, 4611, 69891, 135171, 200451, 265731, 331011, 396291, 461571, 526851,
  592131, 657411, 722691, 787971, 853251, 918531, 983811, 1049091, 1114371, 1179651, 4866, 70146,
  135426, 200706, 265986, 331266, 396546, 461826, 527106, 592386, 657666, 722946, 788226, 853506,
  918786, 984066, 1049346, 1114626, 1179906, 1245186, 5121, 70401, 135681, 200961, 266241, 331521,
  396801, 462081, 527361, 592641, 657921, 723201, 788481, 853761, 919041, 984321, 1049601, 1114881,
  1180161, 1245441, 1310721, 5376, 70656, 135936, 201216, 266496, 331776, 397056, 462336, 527616,
  592896, 658176, 723456, 788736, 854016, 919296, 984576, 1049856, 1115136, 1180416, 1245696, 1310976,
  1376256
]

def gamessOrder22 : List (List ℕ) := [
  [22,0,0], [21,1,0], [21,0,1], [20,2,0], [20,1,1], [20,0,2], [19,3,0], [19,2,1], [19,1,2], [19,0,3],
  [18,4,0], [18,3,1], [18,2,2], [18,1,3], [18,0,4], [17,5,0], [17,4,1], [17,3,2], [17,2,3], [17,1,4],
  [17,0,5], [16,6,0], [16,5,1], [16,4,2], [16,3,3], [16,2,4], [16,1,5], [16,0,6], [15,7,0], [15,6,1],
  [15,5,2], [15,4,3], [15,3,4], [15,2,5], [15,1,6], [15,0,7], [14,8,0], [14,7,1], [14,6,2], [14,5,3],
  [14,4,4], [14,3,5], [14,2,6], [14,1,7], [14,0,8], [13,9,0], [13,8,1], [13,7,2], [13,6,3], [13,5,4],
  [13,4,5], [13,3,6], [13,2,7], [13,1,8], [13,0,9], [12,10,0], [12,9,1], [12,8,2], [12,7,3], [12,6,4],
  [12,5,5], [12,4,6], [12,3,7], [12,2,8], [12,1,9], [12,0,10], [11,11,0], [11,10,1], [11,9,2], [11,8,3],
  [11,7,4], [11,6,5], [11,5,6], [11,4,7], [11,3,8], [11,2,9], [11,1,10], [11,0,11], [10,12,0], [10,11,1],
  [10,10,2], [10,9,3], [10,8,4], [10,7,5], [10,6,6], [10,5,7], [10,4,8], [10,3,9], [10,2,10], [10,1,11],
  [10,0,12], [9,13,0], [9,12,1], [9,11,2], [9,10,3], [9,9,4], [9,8,5], [9,7,6], [9,6,7], [9,5,8],
  [9,4,9], [9,3,10], [9,2,11], [9,1,12], [9,0,13], [8,14,0], [8,13,1], [8,12,2], [8,11,3], [8,10,4],
  [8,9,5], [8,8,6], [8,7,7], [8,6,8], [8,5,9], [8,4,10], [8,3,11], [8,2,12], [8,1,13], [8,0,14],
  [7,15,0], [7,14,1], [7,13,2], [7,12,3], [7,11,4], [7,10,5], [7,9,6], [7,8,7], [7,7,8], [7,6,9],
  [7,5,10], [7,4,11], [7,3,12], [7,2,13], [7,1,14], [7,0,15], [6,16,0], [6,15,1], [6,14,2], [6,13,3],
  [6,12,4], [6,11,5], [6,10,6], [6,9,7], [6,8,8], [6,7,9], [6,6,10], [6,5,11], [6,4,12], [6,3,13],
  [6,2,14], [6,1,15], [6,0,16], [5,17,0], [5,16,1], [5,15,2], [5,14,3], [5,13,4], [5,12,5], [5,11,6],
  [5,10,7], [5,9,8], [5,8,9], [5,7,10], [5,6,11], [5,5,12], [5,4,13], [5,3,14], [5,2,15], [5,1,16],
  [5,0,17], [4,18,0], [4,17,1], [4,16,2], [4,15,3], [4,14,4], [4,13,5], [4,12,6], [4,11,7], [4,10,8],
  [4,9,9], [4,8,10], [4,7,11], [4,6,12], [4,5,13], [4,4,14], [4,3,15], [4,2,16], [4,1,17], [4,0,18],
  [3,19,0], [3,18,1], [3,17,2], [3,16,3], [3,15,4], [3,14,5], [3,13,6], [3,12,7], [3,11,8], [3,10,9],
  [3,9,10], [3,8,11], [3,7,12], [3,6,13], [3,5,14], [3,4,15], [3,3,16], [3,2,17], [3,1,18], [3,0,19],
  [2,20,0], [2,19,1], [2,18,2], [2,17,3], [2,16,4], [2,15,5], [2,14,6], [2,13,7], [2,12,8], [2,11,9],
  [2,10,10], [2,9,11], [2,8,12], [2,7,13], [2,6,14], [2,5,15], [2,4,16], [2,3,17], [2,2,18], [2,1,19],
  [2,0,20], [1,21,0], [1,20,1], [1,19,2], [1,18,3], [1,17,4], [1,16,5], [1,15,6], [1,14,7], [1,13,8],
  [1,12,9], [1,11,10], [1,10,11], [1,9,12], [1,8,13], [1,7,14], [1,6,15], [1,5,16], [1,4,17], [1,3,18],
  [1,2,19], [1,1,20], [1,0,21], [0,22,0], [0,21,1], [0,20,2], [0,19,3], [0,18,4], [0,17,5], [0,16,6],
  [0,15,7], [0,14,8], [0,13,9], [0,12,10], [0,11,11], [0,10,12], [0,9,13], [0,8,14], [0,7,15], [0,6,16],
  [0,5,17], [0,4,18], [0,3,19], [0,2,20], [0,1,21], [0,0,22]
]

def gamessIndex22 : List ℕ := [
  22, 277, 65557, 532, 65812, 131092, 787, 66067, 131347, 196627, 1042, 66322,
  131602, 196882, 262162, 1297, 66577, 131857, 197137, 262417, 327697, 1552, 66832, 132112,
  197392, 262672, 327952, 393232, 1807, 67087, 132367, 197647, 262927, 328207, 393487, 458767,
  2062, 67342, 132622, 197902, 263182, 328462, 393742, 459022, 524302, 2317, 67597, 132877,
  198157, 263437, 328717, 393997, 459277, 524557, 589837, 2572, 67852, 133132, 198412, 263692,
  328972, 394252, 459532, 524812, 590092, 655372, 2827, 68107, 133387, 198667, 263947, 329227,
  394507, 459787, 525067, 590347, 655627, 720907, 3082, 68362, 133642, 198922, 264202, 329482,
  394762, 460042, 525322, 590602, 655882, 721162, 786442, 3337, 68617, 133897, 199177, 264457,
  329737, 395017, 460297, 525577, 590857, 656137, 721417, 786697, 851977, 3592, 68872, 134152,
  199432, 264712, 329992, 395272, 460552, 525832, 591112, 656392, 721672, 786952, 852232, 917512,
  3847, 69127, 134407, 199687, 264967, 330247, 395527, 460807, 526087, 591367, 656647, 721927,
  787207, 852487, 917767, 983047, 4102, 69382, 134662, 199942, 265222, 330502, 395782, 461062,
  526342, 591622, 656902, 722182, 787462, 852742, 918022, 983302, 1048582, 4357, 69637, 134917,
  200197, 265477, 330757, 396037, 461317, 526597, 591877, 657157, 722437, 787717, 852997, 918277,
  983557, 1048837, 1114117, 4612, 69892, 135172, 200452, 265732, 331012, 396292, 461572, 526852,
  592132, 657412, 722692, 787972, 853252, 918532, 983812, 1049092, 1114372, 1179652, 4867, 70147,
  135427, 200707, 265987, 331267, 396547, 461827, 527107, 592387, 657667, 722947, 788227, 853507,
  918787, 984067, 1049347, 1114627, 1179907, 1245187, 5122, 70402, 135682, 200962, 266242, 331522,
  396802, 462082, 527362, 592642, 657922, 723202, 788482, 853762, 919042, 984322, 1049602, 1114882,
  1180162, 1245442, 1310722, 5377, 70657, 135937, 201217, 266497, 331777, 397057, 462337, 527617,
  592897, 658177, 723457, 788737, 854017, 919297, 984577, 1049857, 1115137, 1180417, 1245697, 1310977,
  1376257, 5632, 70912, 136192, 201472, 266752, 332032, 397312, 462592, 527872, 593152, 658432,
  723712, 788992, 854272, 919552, 984832, 1050112, 1115392, 1180672, 1245952, 1311232, 1376512, 1441792
]

def gamessOrder23 : List (List ℕ) := [
  [23,0,0], [22,1,0], [22,0,1], [21,2,0], [21,1,1], [21,0,2], [20,3,0], [20,2,1], [20,1,2], [20,0,3],
  [19,4,0], [19,3,1], [19,2,2], [19,1,3], [19,0,4], [18,5,0], [18,4,1], [18,3,2], [18,2,3], [18,1,4],
  [18,0,5], [17,6,0], [17,5,1], [17,4,2], [17,3,3], [17,2,4], [17,1,5], [17,0,6], [16,7,0], [16,6,1],
  [16,5,2], [16,4,3], [16,3,4], [16,2,5], [16,1,6], [16,0,7], [15,8,0], [15,7,1], [15,6,2], [15,5,3],
  [15,4,4], [15,3,5], [15,2,6], [15,1,7], [15,0,8], [14,9,0], [14,8,1], [14,7,2], [14,6,3], [14,5,4],
  [14,4,5], [14,3,6], [14,2,7], [14,1,8], [14,0,9], [13,10,0], [13,9,1], [13,8,2], [13,7,3], [13,6,4],
  [13,5,5], [13,4,6], [13,3,7], [13,2,8], [13,1,9], [13,0,10], [12,11,0], [12,10,1], [12,9,2], [12,8,3],
  [12,7,4], [12,6,5], [12,5,6], [12,4,7], [12,3,8], [12,2,9], [12,1,10], [12,0,11], [11,12,0], [11,11,1],
  [11,10,2], [11,9,3], [11,8,4], [11,7,5], [11,6,6], [11,5,7], [11,4,8], [11,3,9], [11,2,10], [11,1,11],
  [11,0,12], [10,13,0], [10,12,1], [10,11,2], [10,10,3], [10,9,4], [10,8,5], [10,7,6], [10,6,7], [10,5,8],
  [10,4,9], [10,3,10], [10,2,11], [10,1,12], [10,0,13], [9,14,0], [9,13,1], [9,12,2], [9,11,3], [9,10,4],
  [9,9,5], [9,8,6], [9,7,7], [9,6,8], [9,5,9], [9,4,10], [9,3,11], [9,2,12], [9,1,13], [9,0,14],
  [8,15,0], [8,14,1], [8,13,2], [8,12,3], [8,11,4], [8,10,5], [8,9,6], [8,8,7], [8,7,8], [8,6,9],
  [8,5,10], [8,4,11], [8,3,12], [8,2,13], [8,1,14], [8,0,15], [7,16,0], [7,15,1], [7,14,2], [7,13,3],
  [7,12,4], [7,11,5], [7,10,6], [7,9,7], [7,8,8], [7,7,9], [7,6,10], [7,5,11], [7,4,12], [7,3,13],
  [7,2,14], [7,1,15], [7,0,16], [6,17,0], [6,16,1], [6,15,2], [6,14,3], [6,13,4], [6,12,5], [6,11,6],
  [6,10,7], [6,9,8], [6,8,9], [6,7,10], [6,6,11], [6,5,12], [6,4,13], [6,3,14], [6,2,15], [6,1,16],
  [6,0,17], [5,18,0], [5,17,1], [5,16,2], [5,15,3], [5,14,4], [5,13,5], [5,12,6], [5,11,7], [5,10,8],
  [5,9,9], [5,8,10], [5,7,11], [5,6,12], [5,5,13], [5,4,14], [5,3,15], [5,2,16], [5,1,17], [5,0,18],
  [4,19,0], [4,18,1], [4,17,2], [4,16,3], [4,15,4], [4,14,5], [4,13,6], [4,12,7], [4,11,8], [4,10,9],
  [4,9,10], [4,8,11], [4,7,12], [4,6,13], [4,5,14], [4,4,15], [4,3,16], [4,2,17], [4,1,18], [4,0,19],
  [3,20,0], [3,19,1], [3,18,2], [3,17,3], [3,16,4], [3,15,5], [3,14,6], [3,13,7], [3,12,8], [3,11,9],
  [3,10,10], [3,9,11], [3,8,12], [3,7,13], [3,6,14], [3,5,15], [3,4,16], [3,3,17], [3,2,18], [3,1,19],
  [3,0,20], [2,21,0], [2,20,1], [2,19,2], [2,18,3], [2,17,4], [2,16,5], [2,15,6], [2,14,7], [2,13,8],
  [2,12,9], [2,11,10], [2,10,11], [2,9,12], [2,8,13], [2,7,14], [2,6,15], [2,5,16], [2,4,17], [2,3,18],
  [2,2,19], [2,1,20], [2,0,21], [1,22,0], [1,21,1], [1,20,2], [1,19,3], [1,18,4], [1,17,5], [1,16,6],
  [1,15,7], [1,14,8], [1,13,9], [1,12,10], [1,11,11], [1,10,12], [1,9,13], [1,8,14], [1,7,15], [1,6,16],
  [1,5,17], [1,4,18], [1,3,19], [1,2,20], [1,1,21], [1,0,22], [0,23,0], [0,22,1], [0,21,2], [0,20,3],
  [0,19,4], [0,18,5], [0,17,6], [0,16,7], [0,15,8], [0,14,9], [0,13,10], [0,12,11], [0,11,12], [0,10,13],
  [0,9,14], [0,8,15], [0,7,16], [0,6,17], [0,5,18], [0,4,19], [0,3,20], [0,2,21], [0,1,22], [0,0,23]
]

def gamessIndex23 : List ℕ := [
  23, 278, 65558, 533, 65813, 131093, 788, 66068, 131348, 196628, 1043, 66323,
  131603, 196883, 262163, 1298, 66578, 131858, 197138, 262418, 327698, 1553, 66833, 132113,
  197393, 262673, 327953, 393233, 1808, 67088, 132368, 197648, 262928, 328208, 393488, 458768,
  2063, 67343, 132623, 197903, 263183, 328463, 393743, 459023, 524303, 2318, 67598, 132878,
  198158, 263438, 328718, 393998, 459278, 524558, 589838, 2573, 67853, 133133, 198413, 263693,
  328973, 394253, 459533, 524813, 590093, 655373, 2828, 68108, 133388, 198668, 263948, 329228,
  394508, 459788, 525068, 590348, 655628, 720908, 3083, 68363, 133643, 198923, 264203, 329483,
  394763, 460043, 525323, 590603, 655883, 721163, 786443, 3338, 68618, 133898, 199178, 264458,
  329738, 395018, 460298, 525578, 590858, 656138, 721418, 786698, 851978, 3593, 68873, 134153,
  199433, 264713, 329993, 395273, 460553, 525833, 591113, 656393, 721673, 786953, 852233, 917513,
  3848, 69128, 134408, 199688, 264968, 330248, 395528, 460808, 526088, 591368, 656648, 721928,
  787208, 852488, 917768, 983048, 4103, 69383, 134663, 199943, 265223, 330503, 395783, 461063,
  526343, 591623, 656903, 722183, 787463, 852743, 918023, 983303, 1048583, 4358, 69638, 134918,
  200198, 265478, 330758, 396038, 461318, 526598, 591878, 657158, 722438, 787718, 852998, 918278,
  983558, 1048838, 1114118, 4613, 69893, 135173, 200453, 265733, 331013, 396293, 461573, 526853,
  592133, 657413, 722693, 787973, 853253, 918533, 983813, 1049093, 1114373, 1179653, 4868, 70148,
  135428, 200708, 265988, 331268, 396548, 461828, 527108, 592388, 657668, 722948, 788228, 853508,
  918788, 984068, 1049348, 1114628, 1179908, 1245188, 5123, 70403, 135683, 200963, 266243, 331523,
  396803, 462083, 527363, 592643, 657923, 723203, 788483, 853763, 919043, 984323, 1049603, 1114883,
  1180163, 1245443, 1310723, 5378, 70658, 135938, 201218, 266498, 331778, 397058, 462338, 527618,
  592898, 658178, 723458, 788738, 854018, 919298, 984578, 1049858, 1115138, 1180418, 1245698, 1310978,
  1376258, 5633, 70913, 136193, 201473, 266753, 332033, 397313, 462593, 527873, 593153, 658433,
  723713, 788993, 854273, 919553, 984833, 1050113, 1115393, 1180673, 1245953, 1311233, 1376513, 1441793,
  5888, 71168, 136448, 201728, 267008, 332288, 397568, 462848, 528128, 593408, 658688, 723968,
  789248, 854528, 919808, 985088, 1050368, 1115648, 1180928, 1246208, 1311488, 1376768, 1442048, 1507328
]

def gamessOrder24 : List (List ℕ) := [
  [24,0,0], [23,1,0], [23,0,1], [22,2,0], [22,1,1], [22,0,2], [21,3,0], [21,2,1], [21,1,2], [21,0,3],
  [20,4,0], [20,3,1], [20,2,2], [20,1,3], [20,0,4], [19,5,0], [19,4,1], [19,3,2], [19,2,3], [19,1,4],
  [19,0,5], [18,6,0], [18,5,1], [18,4,2], [18,3,3], [18,2,4], [18,1,5], [18,0,6], [17,7,0], [17,6,1],
  [17,5,2], [17,4,3], [17,3,4], [17,2,5], [17,1,6], [17,0,7], [16,8,0], [16,7,1], [16,6,2], [16,5,3],
  [16,4,4], [16,3,5], [16,2,6], [16,1,7], [16,0,8], [15,9,0], [15,8,1], [15,7,2], [15,6,3], [15,5,4],
  [15,4,5], [15,3,6], [15,2,7], [15,1,8], [15,0,9], [14,10,0], [14,9,1], [14,8,2], [14,7,3], [14,6,4],
  [14,5,5], [14,4,6], [14,3,7], [14,2,8], [14,1,9], [14,0,10], [13,11,0], [13,10,1], [13,9,2], [13,8,3],
  [13,7,4], [13,6,5], [13,5,6], [13,4,7], [13,3,8], [13,2,9], [13,1,10], [13,0,11], [12,12,0], [12,11,1],
  [12,10,2], [12,9,3], [12,8,4], [12,7,5], [12,6,6], [12,5,7], [12,4,8], [12,3,9], [12,2,10], [12,1,11],
  [12,0,12], [11,13,0], [11,12,1], [11,11,2], [11,10,3], [11,9,4], [11,8,5], [11,7,6], [11,6,7], [11,5,8],
  [11,4,9], [11,3,10], [11,2,11], [11,1,12], [11,0,13], [10,14,0], [10,13,1], [10,12,2], [10,11,3], [10,10,4],
  [10,9,5], [10,8,6], [10,7,7], [10,6,8], [10,5,9], [10,4,10], [10,3,11], [10,2,12], [10,1,13], [10,0,14],
  [9,15,0], [9,14,1], [9,13,2], [9,12,3], [9,11,4], [9,10,5], [9,9,6], [9,8,7], [9,7,8], [9,6,9],
  [9,5,10], [9,4,11], [9,3,12], [9,2,13], [9,1,14], [9,0,15], [8,16,0], [8,15,1], [8,14,2], [8,13,3],
  [8,12,4], [8,11,5], [8,10,6], [8,9,7], [8,8,8], [8,7,9], [8,6,10], [8,5,11], [8,4,12], [8,3,13],
  [8,2,14], [8,1,15], [8,0,16], [7,17,0], [7,16,1], [7,15,2], [7,14,3], [7,13,4], [7,12,5], [7,11,6],
  [7,10,7], [7,9,8], [7,8,9], [7,7,10], [7,6,11], [7,5,12], [7,4,13], [7,3,14], [7,2,15], [7,1,16],
  [7,0,17], [6,18,0], [6,17,1], [6,16,2], [6,15,3], [6,14,4], [6,13,5], [6,12,6], [6,11,7], [6,10,8],
  [6,9,9], [6,8,10], [6,7,11], [6,6,12], [6,5,13], [6,4,14], [6,3,15], [6,2,16], [6,1,17], [6,0,18],
  [5,19,0], [5,18,1], [5,17,2], [5,16,3], [5,15,4], [5,14,5], [5,13,6], [5,12,7], [5,11,8], [5,10,9],
  [5,9,10], [5,8,11], [5,7,12], [5,6,13], [5,5,14], [5,4,15], [5,3,16], [5,2,17], [5,1,18], [5,0,19],
  [4,20,0], [4,19,1], [4,18,2], [4,17,3], [4,16,4], [4,15,5], [4,14,6], [4,13,7], [4,12,8], [4,11,9],
  [4,10,10], [4,9,11], [4,8,12], [4,7,13], [4,6,14], [4,5,15], [4,4,16], [4,3,17], [4,2,18], [4,1,19],
  [4,0,20], [3,21,0], [3,20,1], [3,19,2], [3,18,3], [3,17,4], [3,16,5], [3,15,6], [3,14,7], [3,13,8],
  [3,12,9], [3,11,10], [3,10,11], [3,9,12], [3,8,13], [3,7,14], [3,6,15], [3,5,16], [3,4,17], [3,3,18],
  [3,2,19], [3,1,20], [3,0,21], [2,22,0], [2,21,1], [2,20,2], [2,19,3], [2,18,4], [2,17,5], [2,16,6],
  [2,15,7], [2,14,8], [2,13,9], [2,12,10], [2,11,11], [2,10,12], [2,9,13], [2,8,14], [2,7,15], [2,6,16],
  [2,5,17], [2,4,18], [2,3,19], [2,2,20], [2,1,21], [2,0,22], [1,23,0], [1,22,1], [1,21,2], [1,20,3],
  [1,19,4], [1,18,5], [1,17,6], [1,16,7], [1,15,8], [1,14,9], [1,13,10], [1,12,11], [1,11,12], [1,10,13],
  [1,9,14], [1,8,15], [1,7,16], [1,6,17], [1,5,18], [1,4,19], [1,3,20], [1,2,21], [1,1,22], [1,0,23],
  [0,24,0], [0,23,1], [0,22,2], [0,21,3], [0,20,4], [0,19,5], [0,18,6], [0,17,7], [0,16,8], [0,15,9],
  [0,14,10], [0,13,11], [0,12,12], [0,11,13], [0,10,14], [0,9,15], [0,8,16], [0,7,17], [0,6,18], [0,5,19],
  [0,4,20], [0,3,21], [0,2,22], [0,1,23], [0,0,24]
]

def gamessIndex24 : List ℕ := [
  24, 279, 65559, 534, 65814, 131094, 789, 66069, 131349, 196629, 1044, 66324,
  131604, 196884, 262164, 1299, 66579, 131859, 197139, 262419, 327699, 1554, 66834, 132114,
  197394, 262674, 327954, 393234, 1809, 67089, 132369, 197649, 262929, 328209, 393489, 458769,
  2064, 67344, 132624, 197904, 263184, 328464, 393744, 459024, 524304, 2319, 67599, 132879,
  198159, 263439, 328719, 393999, 459279, 524559, 589839, 2574, 67854, 133134, 198414, 263694,
  328974, 394254, 459534, 524814, 590094, 655374, 2829, 68109, 133389, 198669, 263949, 329229,
  394509, 459789, 525069, 590349, 655629, 720909, 3084, 68364, 133644, 198924, 264204, 329484,
  394764, 460044, 525324, 590604, 655884, 721164, 786444, 3339, 68619, 133899, 199179, 264459,
  329739, 395019, 460299, 525579, 590859, 656139, 721419, 786699, 851979, 3594, 68874, 134154,
  199434, 264714, 329994, 395274, 460554, 525834, 591114, 656394, 721674, 786954, 852234, 917514,
  3849, 69129, 134409, 199689, 264969, 330249, 395529, 460809, 526089, 591369, 656649, 721929,
  787209, 852489, 917769, 983049, 4104, 69384, 134664, 199944, 265224, 330504, 395784, 461064,
  526344, 591624, 656904, 722184, 787464, 852744, 918024, 983304, 1048584, 4359, 69639, 134919,
  200199, 265479, 330759, 396039, 461319, 526599, 591879, 657159, 722439, 787719, 852999, 918279,
  983559, 1048839, 1114119, 4614, 69894, 135174, 200454, 265734, 331014, 396294, 461574, 526854,
  592134, 657414, 722694, 787974, 853254, 918534, 983814, 1049094, 1114374, 1179654, 4869, 70149,
  135429, 200709, 265989, 331269, 396549, 461829, 527109, 592389, 657669, 722949, 788229, 853509,
  918789, 984069, 1049349, 1114629, 1179909, 1245189, 5124, 70404, 135684, 200964, 266244, 331524,
  396804, 462084, 527364, 592644, 657924, 723204, 788484, 853764, 919044, 984324, 1049604, 1114884,
  1180164, 1245444, 1310724, 5379, 70659, 135939, 201219, 266499, 331779, 397059, 462339, 527619,
  592899, 658179, 723459, 788739, 854019, 919299, 984579, 1049859, 1115139, 1180419, 1245699, 1310979,
  1376259, 5634, 70914, 136194, 201474, 266754, 332034, 397314, 462594, 527874, 593154, 658434,
  723714, 788994, 854274, 919554, 984834, 1050114, 1115394, 1180674, 1245954, 1311234, 1376514, 1441794,
  5889, 71169, 136449, 201729, 267009, 332289, 397569, 462849, 528129, 593409, 658689, 723969,
  789249, 854529, 919809, 985089, 1050369, 1115649, 1180929, 1246209, 1311489, 1376769, 1442049, 1507329,
  6144, 71424, 136704, 201984, 267264, 332544, 397824, 463104, 528384, 593664, 658944, 724224,
  789504, 854784, 920064, 985344, 1050624, 1115904, 1181184, 1246464, 1311744, 1377024, 1442304, 1507584,
  1572864
]

/-- `gorder_map` -/
def gamessOrder : List (List (List ℕ)) := [
  gamessOrder0, gamessOrder1, gamessOrder2, gamessOrder3, gamessOrder4, gamessOrder5, gamessOrder6, gamessOrder7, gamessOrder8, gamessOrder9, gamessOrder10, gamessOrder11, gamessOrder12, gamessOrder13, gamessOrder14, gamessOrder15, gamessOrder16, gamessOrder17, gamessOrder18, gamessOrder19, gamessOrder20, gamessOrder21, gamessOrder22, gamessOrder23, gamessOrder24]

/-- `gindex_map` -/
def gamessIndex : List (List ℕ) := [
  gamessIndex0, gamessIndex1, gamessIndex2, gamessIndex3, gamessIndex4, gamessIndex5, gamessIndex6, gamessIndex7, gamessIndex8, gamessIndex9, gamessIndex10, gamessIndex11, gamessIndex12, gamessIndex13, gamessIndex14, gamessIndex15, gamessIndex16, gamessIndex17, gamessIndex18, gamessIndex19, gamessIndex20, gamessIndex21, gamessIndex22, gamessIndex23, gamessIndex24]

end Simint.Tables

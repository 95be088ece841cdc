/-!
# The aerodynamic data

The F-16 wind tunnel data as printed in the source, in thousandths (the thrusts in pounds). One line for each elevator deflection
(-24, -12, 0, 12, 24 degrees), absolute sideslip (0 to 30 degrees) or sideslip (-30 to 30 degrees); one column for each angle of attack from
-10 to 45 degrees. Thrust: one line for each Mach number (0 to 1), one column for each altitude (0 to 50 000 ft). Generated from the Python
syntax tree of `/repo`, separately from the tables of the model.
-/

namespace SAD.Spec

/-- `lowlevel/cx.py` 25-34 -/
def cxData : List (List Int) := [
  [-99, -81, -81, -63, -25, 44, 97, 113, 145, 167, 174, 166],
  [-48, -38, -40, -21, 16, 83, 127, 137, 162, 177, 179, 167],
  [-22, -20, -21, -4, 32, 94, 128, 130, 154, 161, 155, 138],
  [-40, -38, -39, -25, 6, 62, 87, 85, 100, 110, 104, 91],
  [-83, -73, -76, -72, -46, 12, 24, 25, 43, 53, 47, 40]]

/-- `lowlevel/cm.py` 24-33 -/
def cmData : List (List Int) := [
  [205, 168, 186, 196, 213, 251, 245, 238, 252, 231, 198, 192],
  [81, 77, 107, 110, 110, 141, 127, 119, 133, 108, 81, 93],
  [-46, -20, -9, -5, -6, 10, 6, -1, 14, 0, -13, 32],
  [-174, -145, -121, -127, -129, -102, -97, -113, -87, -84, -69, -6],
  [-259, -202, -184, -193, -199, -150, -160, -167, -104, -76, -41, -5]]

/-- `lowlevel/cz.py` 25-25 -/
def czData : List Int := [770, 241, -100, -415, -731, -1053, -1355, -1646, -1917, -2120, -2248, -2229]

/-- `lowlevel/cl.py` 25-35 -/
def clData : List (List Int) := [
  [0, 0, 0, 0, 0, 0, 0, 0, 0, 0, 0, 0],
  [-1, -4, -8, -12, -16, -22, -22, -21, -15, -8, -13, -15],
  [-3, -9, -17, -24, -30, -41, -45, -40, -16, -2, -10, -19],
  [-1, -10, -20, -30, -39, -54, -57, -54, -23, -6, -14, -27],
  [0, -10, -22, -34, -47, -60, -69, -67, -33, -36, -35, -35],
  [7, -10, -23, -34, -49, -63, -81, -79, -60, -58, -62, -59],
  [9, -11, -23, -37, -50, -68, -89, -88, -91, -76, -77, -76]]

/-- `lowlevel/cn.py` 25-35 -/
def cnData : List (List Int) := [
  [0, 0, 0, 0, 0, 0, 0, 0, 0, 0, 0, 0],
  [18, 19, 18, 19, 19, 18, 13, 7, 4, -14, -17, -33],
  [38, 42, 42, 42, 43, 39, 30, 17, 4, -35, -47, -57],
  [56, 57, 59, 58, 58, 53, 32, 12, 2, -46, -71, -73],
  [64, 77, 76, 74, 73, 57, 29, 7, 12, -34, -65, -41],
  [74, 86, 93, 89, 80, 62, 49, 22, 28, -12, -2, -13],
  [79, 90, 106, 106, 96, 80, 68, 30, 64, 15, 11, -1]]

/-- `lowlevel/dlda.py` 25-36 -/
def dldaData : List (List Int) := [
  [-41, -52, -53, -56, -50, -56, -82, -59, -42, -38, -27, -17],
  [-41, -53, -53, -53, -50, -51, -66, -43, -38, -27, -23, -16],
  [-42, -53, -52, -51, -49, -49, -43, -35, -26, -16, -18, -14],
  [-40, -52, -51, -52, -48, -48, -42, -37, -31, -26, -17, -12],
  [-43, -49, -48, -49, -43, -42, -42, -36, -25, -21, -16, -11],
  [-44, -48, -48, -47, -42, -41, -20, -28, -13, -14, -11, -10],
  [-43, -49, -47, -45, -42, -37, -3, -13, -10, -3, -7, -8]]

/-- `lowlevel/dldr.py` 25-36 -/
def dldrData : List (List Int) := [
  [5, 17, 14, 10, -5, 9, 19, 5, 0, -5, -11, 8],
  [7, 16, 14, 14, 13, 9, 12, 5, 0, 4, 9, 7],
  [13, 13, 11, 12, 11, 9, 8, 5, -2, 5, 3, 5],
  [18, 15, 15, 14, 14, 14, 14, 15, 13, 11, 6, 1],
  [15, 14, 13, 13, 12, 11, 11, 10, 8, 8, 7, 3],
  [21, 11, 10, 11, 10, 9, 8, 10, 6, 5, 0, 1],
  [23, 10, 11, 11, 11, 10, 8, 10, 6, 14, 20, 0]]

/-- `lowlevel/dnda.py` 25-36 -/
def dndaData : List (List Int) := [
  [1, -27, -17, -13, -12, -16, 1, 17, 11, 17, 8, 16],
  [2, -14, -16, -16, -14, -19, -21, 2, 12, 16, 15, 11],
  [-6, -8, -6, -6, -5, -8, -5, 7, 4, 7, 6, 6],
  [-11, -11, -10, -9, -8, -6, 0, 4, 7, 10, 4, 10],
  [-15, -15, -14, -12, -11, -8, -2, 2, 6, 12, 11, 11],
  [-24, -10, -4, -2, -1, 3, 14, 6, -1, 4, 4, 6],
  [-22, 2, -3, -5, -3, -1, -9, -9, -1, 3, -2, 1]]

/-- `lowlevel/dndr.py` 25-36 -/
def dndrData : List (List Int) := [
  [-18, -52, -52, -52, -54, -49, -59, -51, -30, -37, -26, -13],
  [-28, -51, -43, -46, -45, -49, -57, -52, -30, -33, -30, -8],
  [-37, -41, -38, -40, -40, -38, -37, -30, -27, -24, -19, -13],
  [-48, -45, -45, -45, -44, -45, -47, -48, -49, -45, -33, -16],
  [-43, -44, -41, -41, -40, -38, -34, -35, -35, -29, -22, -9],
  [-52, -34, -36, -36, -35, -28, -24, -23, -20, -16, -10, -14],
  [-62, -34, -27, -28, -27, -27, -23, -23, -19, -9, -25, -10]]

/-- `lowlevel/dampp.py` 25-38 -/
def damppData : List (List Int) := [
  [-267, -110, 308, 1340, 2080, 2910, 2760, 2050, 1500, 1490, 1830, 1210],
  [882, 852, 876, 958, 962, 974, 819, 483, 590, 1210, -493, -1040],
  [-108, -108, -188, 110, 258, 226, 344, 362, 611, 529, 298, -2270],
  [-8800, -25800, -28900, -31400, -31200, -30700, -27700, -28200, -29000, -29800, -38300, -35300],
  [-126, -26, 63, 113, 208, 230, 319, 437, 680, 100, 447, -330],
  [-360, -359, -443, -420, -383, -375, -329, -294, -230, -210, -120, -100],
  [-7210, -540, -5230, -5260, -6110, -6640, -5690, -6000, -6200, -6400, -6600, -6000],
  [-380, -363, -378, -386, -370, -453, -550, -582, -595, -637, -1020, -840],
  [61, 52, 52, -12, -13, -24, 50, 150, 130, 158, 240, 150]]

/-- `lowlevel/thrust.py` 25-31 -/
def idleData : List (List Int) := [
  [1060, 670, 880, 1140, 1500, 1860],
  [635, 425, 690, 1010, 1330, 1700],
  [60, 25, 345, 755, 1130, 1525],
  [-1020, -170, -300, 350, 910, 1360],
  [-2700, -1900, -1300, -247, 600, 1100],
  [-3600, -1400, -595, -342, -200, 700]]

/-- `lowlevel/thrust.py` 33-39 -/
def milData : List (List Int) := [
  [12680, 9150, 6200, 3950, 2450, 1400],
  [12680, 9150, 6313, 4040, 2470, 1400],
  [12610, 9312, 6610, 4290, 2600, 1560],
  [12640, 9839, 7090, 4660, 2840, 1660],
  [12390, 10176, 7750, 5320, 3250, 1930],
  [11680, 9848, 8050, 6100, 3800, 2310]]

/-- `lowlevel/thrust.py` 41-47 -/
def maxData : List (List Int) := [
  [20000, 15000, 10800, 7000, 4000, 2500],
  [21420, 15700, 11225, 7323, 4435, 2600],
  [22700, 16860, 12250, 8154, 5000, 2835],
  [24240, 18910, 13760, 9285, 5700, 3215],
  [26070, 21075, 15975, 11115, 6860, 3950],
  [28886, 23319, 18300, 13484, 8642, 5057]]

end SAD.Spec

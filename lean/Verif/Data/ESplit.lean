import Verif.Data.Tok

set_option autoImplicit false

/-! Generated by `tools/tables.py` from `Tables/e_split.table` in the repository. -/

namespace QED
namespace Shipped

/-- Row 0 of `e_split.table`. -/
def split0 : List Tok := [
  n 0, n 0, n 0, n 0, n 0, n 0, n 0, n 0, n 0, n 0, n 0, n 0, n 0, n 0, n 0, n 0, n 0, n 0, n 0, n 0, n 0,
  n 0, n 0, n 0, n 0, n 0, n 0, n 0, n 0, n 0, n 0, n 0, n 0, x 1 14 15, x 2 949 14, x 4 45332 12,
  x 4 15336 10, x 5 375522 9, x 5 678666 8, x 5 921099 7, x 4 95347 6, x 5 763288 5, f 9 478531,
  f 8 237679, f 8 945478, f 7 304431, f 6 80205, f 6 174939, f 6 320206, f 1 5, f 6 679794, f 6 825061,
  f 6 919795, f 6 969557, f 6 990545, f 6 997623, f 6 999521, f 6 999924, f 5 99999, f 6 999999, n 1, n 1,
  n 1, n 1, n 1, n 1, n 1, n 1, n 1, n 1, n 1, n 1, n 1, n 1, n 1, n 1, n 1, n 1, n 1, n 1, n 1, n 1, n 1,
  n 1, n 1, n 1, n 1, n 1, n 1, n 1, n 1, n 1, n 1, n 1, n 1, n 1, n 1, n 1, n 1, n 1]

/-- Row 1 of `e_split.table`. -/
def split1 : List Tok := [
  n 0, n 0, n 0, n 0, n 0, n 0, n 0, n 0, n 0, n 0, n 0, n 0, n 0, n 0, n 0, n 0, n 0, n 0, n 0, n 0, n 0,
  n 0, n 0, n 0, n 0, n 0, n 0, n 0, n 0, n 0, n 0, n 0, ⟨false, 1, 9, none, some (2, 16), 'e'⟩,
  x 2 569 14, x 4 24141 12, x 5 738762 11, x 5 166736 9, x 5 283023 8, x 5 367626 7, x 5 371088 6,
  x 5 295126 5, f 9 187226, f 9 958138, f 8 399645, f 7 137193, f 7 391304, f 7 936296, f 6 189906,
  f 6 330386, f 1 5, f 6 669614, f 6 810094, f 5 90637, f 5 96087, f 6 986281, f 6 996004, f 6 999042,
  f 6 999813, f 5 99997, f 6 999996, n 1, n 1, n 1, n 1, n 1, n 1, n 1, n 1, n 1, n 1, n 1, n 1, n 1, n 1,
  n 1, n 1, n 1, n 1, n 1, n 1, n 1, n 1, n 1, n 1, n 1, n 1, n 1, n 1, n 1, n 1, n 1, n 1, n 1, n 1, n 1,
  n 1, n 1, n 1, n 1, n 1]

/-- Row 2 of `e_split.table`. -/
def split2 : List Tok := [
  n 0, n 0, n 0, n 0, n 0, n 0, n 0, n 0, n 0, n 0, n 0, n 0, n 0, n 0, n 0, n 0, n 0, n 0, n 0, n 0, n 0,
  n 0, n 0, n 0, n 0, n 0, n 0, n 0, n 0, n 0, n 0, ⟨false, 1, 8, none, some (2, 16), 'e'⟩, x 2 407 14,
  x 4 15286 12, x 5 421094 11, x 5 869794 10, x 5 137375 8, x 3 1688 7, x 5 163865 6, x 5 127405 5,
  x 5 803126 5, f 9 415003, f 8 177555, f 8 634787, f 7 191301, f 7 490086, f 6 107653, f 6 204624,
  f 5 34004, f 1 5, f 5 65996, f 6 795376, f 6 892347, f 6 950991, f 5 98087, f 6 993652, f 6 998224,
  f 6 999585, f 5 99992, f 6 999987, f 6 999998, n 1, n 1, n 1, n 1, n 1, n 1, n 1, n 1, n 1, n 1, n 1,
  n 1, n 1, n 1, n 1, n 1, n 1, n 1, n 1, n 1, n 1, n 1, n 1, n 1, n 1, n 1, n 1, n 1, n 1, n 1, n 1, n 1,
  n 1, n 1, n 1, n 1, n 1, n 1, n 1]

/-- Row 3 of `e_split.table`. -/
def split3 : List Tok := [
  n 0, n 0, n 0, n 0, n 0, n 0, n 0, n 0, n 0, n 0, n 0, n 0, n 0, n 0, n 0, n 0, n 0, n 0, n 0, n 0, n 0,
  n 0, n 0, n 0, n 0, n 0, n 0, n 0, n 0, n 0, ⟨false, 1, 7, none, some (2, 16), 'e'⟩, x 1 34 14,
  x 4 11306 12, x 4 27977 11, x 5 526639 10, x 5 769112 9, x 5 886664 8, x 5 819377 7, x 5 615283 6,
  x 5 380014 5, f 9 195151, f 9 841459, f 8 307364, f 8 958961, f 7 257542, f 7 599887, f 6 122118,
  f 5 21902, f 6 349188, f 1 5, f 6 650812, f 5 78098, f 6 877882, f 6 940011, f 6 974246, f 5 99041,
  f 6 996926, f 6 999159, f 6 999805, f 6 999962, f 6 999994, f 6 999999, n 1, n 1, n 1, n 1, n 1, n 1,
  n 1, n 1, n 1, n 1, n 1, n 1, n 1, n 1, n 1, n 1, n 1, n 1, n 1, n 1, n 1, n 1, n 1, n 1, n 1, n 1, n 1,
  n 1, n 1, n 1, n 1, n 1, n 1, n 1, n 1, n 1, n 1, n 1]

/-- Row 4 of `e_split.table`. -/
def split4 : List Tok := [
  n 0, n 0, n 0, n 0, n 0, n 0, n 0, n 0, n 0, n 0, n 0, n 0, n 0, n 0, n 0, n 0, n 0, n 0, n 0, n 0, n 0,
  n 0, n 0, n 0, n 0, n 0, n 0, n 0, n 0, ⟨false, 1, 8, none, some (2, 16), 'e'⟩, x 2 325 14, x 3 9597 13,
  x 5 213296 11, x 5 365205 10, x 5 491348 9, x 5 528548 8, x 5 461619 7, x 5 331804 6, x 5 198661 5,
  f 9 100149, f 9 429206, f 7 15774, f 7 50109, f 7 138602, f 7 336128, f 7 719521, f 6 136874, f 6 233032,
  f 6 357845, f 1 5, f 6 642155, f 6 766968, f 6 863126, f 6 928048, f 6 966387, f 5 98614, f 6 994989,
  f 6 998423, f 6 999571, f 4 9999, f 5 99998, f 6 999997, n 1, n 1, n 1, n 1, n 1, n 1, n 1, n 1, n 1,
  n 1, n 1, n 1, n 1, n 1, n 1, n 1, n 1, n 1, n 1, n 1, n 1, n 1, n 1, n 1, n 1, n 1, n 1, n 1, n 1, n 1,
  n 1, n 1, n 1, n 1, n 1, n 1, n 1, n 1]

/-- Row 5 of `e_split.table`. -/
def split5 : List Tok := [
  n 0, n 0, n 0, n 0, n 0, n 0, n 0, n 0, n 0, n 0, n 0, n 0, n 0, n 0, n 0, n 0, n 0, n 0, n 0, n 0, n 0,
  n 0, n 0, n 0, n 0, n 0, n 0, n 0, ⟨false, 1, 1, none, some (2, 15), 'e'⟩, x 1 35 14, x 3 9188 13,
  x 5 183699 11, x 5 286075 10, x 5 353983 9, x 5 354157 8, x 5 290929 7, x 5 198905 6, x 5 114548 5,
  x 5 561626 5, f 8 23668, f 9 864645, f 7 27595, f 8 774821, f 7 192655, f 7 426822, f 7 847602,
  f 5 15178, f 6 246614, f 6 366032, f 1 5, f 6 633968, f 6 753386, f 5 84822, f 5 91524, f 6 957318,
  f 6 980734, f 6 992252, f 5 99724, f 6 999135, f 6 999763, f 6 999944, f 6 999989, f 6 999998, n 1, n 1,
  n 1, n 1, n 1, n 1, n 1, n 1, n 1, n 1, n 1, n 1, n 1, n 1, n 1, n 1, n 1, n 1, n 1, n 1, n 1, n 1, n 1,
  n 1, n 1, n 1, n 1, n 1, n 1, n 1, n 1, n 1, n 1, n 1, n 1, n 1, n 1]

/-- Row 6 of `e_split.table`. -/
def split6 : List Tok := [
  n 0, n 0, n 0, n 0, n 0, n 0, n 0, n 0, n 0, n 0, n 0, n 0, n 0, n 0, n 0, n 0, n 0, n 0, n 0, n 0, n 0,
  n 0, n 0, n 0, n 0, n 0, n 0, x 1 13 15, x 2 416 14, x 3 9757 13, x 5 175995 11, x 5 249636 10,
  x 5 284085 9, x 5 263967 8, x 5 203379 7, x 5 131706 6, x 5 725537 6, x 5 343618 5, f 9 141241,
  f 9 508129, f 8 161217, f 8 454201, f 7 114342, f 7 258707, f 7 528975, f 7 982624, f 5 16671,
  f 6 259732, f 6 373768, f 1 5, f 6 626232, f 6 740268, f 5 83329, f 6 901738, f 6 947103, f 6 974129,
  f 6 988566, f 6 995458, f 6 998388, f 6 999492, f 6 999859, f 6 999966, f 6 999993, f 6 999999, n 1, n 1,
  n 1, n 1, n 1, n 1, n 1, n 1, n 1, n 1, n 1, n 1, n 1, n 1, n 1, n 1, n 1, n 1, n 1, n 1, n 1, n 1, n 1,
  n 1, n 1, n 1, n 1, n 1, n 1, n 1, n 1, n 1, n 1, n 1, n 1, n 1]

/-- Row 7 of `e_split.table`. -/
def split7 : List Tok := [
  n 0, n 0, n 0, n 0, n 0, n 0, n 0, n 0, n 0, n 0, n 0, n 0, n 0, n 0, n 0, n 0, n 0, n 0, n 0, n 0, n 0,
  n 0, n 0, n 0, n 0, n 0, x 1 19 15, x 2 536 14, x 4 11311 12, x 5 184817 11, x 5 239393 10, x 5 250867 9,
  x 5 216487 8, x 5 156246 7, x 5 956057 7, x 5 501952 6, x 4 22853 5, x 4 91077 5, f 9 320397, f 8 100237,
  f 7 28077, f 8 708435, f 7 161918, f 7 336959, f 7 641598, f 6 112304, f 5 18155, f 6 272358, f 6 381073,
  f 1 5, f 6 618927, f 6 727642, f 5 81845, f 6 887696, f 5 93584, f 6 966304, f 6 983808, f 6 992916,
  f 6 997192, f 6 998998, f 5 99968, f 6 999909, f 6 999977, f 6 999995, f 6 999999, n 1, n 1, n 1, n 1,
  n 1, n 1, n 1, n 1, n 1, n 1, n 1, n 1, n 1, n 1, n 1, n 1, n 1, n 1, n 1, n 1, n 1, n 1, n 1, n 1, n 1,
  n 1, n 1, n 1, n 1, n 1, n 1, n 1, n 1, n 1, n 1]

/-- Row 8 of `e_split.table`. -/
def split8 : List Tok := [
  n 0, n 0, n 0, n 0, n 0, n 0, n 0, n 0, n 0, n 0, n 0, n 0, n 0, n 0, n 0, n 0, n 0, n 0, n 0, n 0, n 0,
  n 0, n 0, n 0, ⟨false, 1, 1, none, some (2, 16), 'e'⟩, x 1 29 15, x 2 739 14, x 4 14105 12,
  x 5 209766 11, x 5 249002 10, x 5 240841 9, x 5 193243 8, x 5 130651 7, x 5 754565 7, x 5 376767 6,
  x 5 164377 5, x 5 632508 5, f 8 21645, f 9 663633, f 8 183509, f 6 4604, f 7 105368, f 7 221072,
  f 7 427165, f 7 763446, f 6 126732, f 6 196204, f 6 284476, f 6 387966, f 1 5, f 6 612034, f 6 715524,
  f 6 803796, f 6 873268, f 6 923655, f 6 957283, f 6 977893, f 6 989463, f 6 995396, f 6 998165,
  f 6 999336, f 6 999784, f 6 999937, f 6 999984, f 6 999996, f 6 999999, n 1, n 1, n 1, n 1, n 1, n 1,
  n 1, n 1, n 1, n 1, n 1, n 1, n 1, n 1, n 1, n 1, n 1, n 1, n 1, n 1, n 1, n 1, n 1, n 1, n 1, n 1, n 1,
  n 1, n 1, n 1, n 1, n 1, n 1, n 1]

/-- Row 9 of `e_split.table`. -/
def split9 : List Tok := [
  n 0, n 0, n 0, n 0, n 0, n 0, n 0, n 0, n 0, n 0, n 0, n 0, n 0, n 0, n 0, n 0, n 0, n 0, n 0, n 0, n 0,
  n 0, n 0, ⟨false, 1, 2, none, some (2, 16), 'e'⟩, x 1 47 15, x 3 1074 13, x 4 18657 12, x 5 253954 11,
  x 5 277451 10, x 4 24847 9, x 4 18575 8, x 5 117765 7, x 5 641991 7, x 5 304585 6, x 5 127105 5,
  x 5 470925 5, f 9 156197, f 9 467213, f 8 126861, f 8 314529, f 8 715834, f 7 150269, f 7 292239,
  f 7 528681, f 7 893099, f 6 141402, f 6 210587, f 6 296078, f 6 394467, f 1 5, f 6 605533, f 6 703922,
  f 6 789413, f 6 858598, f 5 91069, f 6 947132, f 6 970776, f 6 984973, f 6 992842, f 6 996855,
  f 6 998731, f 6 999533, f 6 999844, f 6 999953, f 6 999987, f 6 999997, f 6 999999, n 1, n 1, n 1, n 1,
  n 1, n 1, n 1, n 1, n 1, n 1, n 1, n 1, n 1, n 1, n 1, n 1, n 1, n 1, n 1, n 1, n 1, n 1, n 1, n 1, n 1,
  n 1, n 1, n 1, n 1, n 1, n 1, n 1, n 1]

/-- Row 10 of `e_split.table`. -/
def split10 : List Tok := [
  n 0, n 0, n 0, n 0, n 0, n 0, n 0, n 0, n 0, n 0, n 0, n 0, n 0, n 0, n 0, n 0, n 0, n 0, n 0, n 0, n 0,
  n 0, ⟨false, 1, 3, none, some (2, 16), 'e'⟩, x 1 78 15, x 3 1621 13, x 4 25845 12, x 5 323947 11,
  x 5 327333 10, x 5 272451 9, x 5 190299 8, x 5 113346 7, x 5 583786 7, x 5 263188 6, x 5 104972 5,
  x 5 373884 5, f 9 119909, f 9 348816, f 8 92639, f 8 225926, f 8 508599, f 7 106184, f 7 206477,
  f 6 37541, f 7 640524, f 6 102905, f 6 156179, f 6 224632, f 5 30716, f 6 400595, f 1 5, f 6 599405,
  f 5 69284, f 6 775368, f 6 843821, f 6 897095, f 6 935948, f 6 962459, f 6 979352, f 6 989382,
  f 6 994914, f 6 997741, f 6 999074, f 6 999651, f 5 99988, f 6 999963, f 5 99999, f 6 999997, f 6 999999,
  n 1, n 1, n 1, n 1, n 1, n 1, n 1, n 1, n 1, n 1, n 1, n 1, n 1, n 1, n 1, n 1, n 1, n 1, n 1, n 1, n 1,
  n 1, n 1, n 1, n 1, n 1, n 1, n 1, n 1, n 1, n 1, n 1]

/-- Row 11 of `e_split.table`. -/
def split11 : List Tok := [
  n 0, n 0, n 0, n 0, n 0, n 0, n 0, n 0, n 0, n 0, n 0, n 0, n 0, n 0, n 0, n 0, n 0, n 0, n 0, n 0, n 0,
  ⟨false, 1, 5, none, some (2, 16), 'e'⟩, x 1 13 14, x 3 2513 13, x 4 37052 12, x 5 430476 11,
  x 5 404471 10, x 5 314254 9, x 5 205772 8, x 5 115429 7, x 5 562623 7, x 5 241232 6, x 5 919669 6,
  x 5 314698 5, x 5 974575 5, f 8 27515, f 9 712797, f 8 170415, f 8 377944, f 8 781145, f 7 151087,
  f 7 274512, f 7 470148, f 7 761457, f 6 116977, f 6 170941, f 6 238285, f 6 317723, f 6 406369, f 1 5,
  f 6 593631, f 6 682277, f 6 761715, f 6 829059, f 6 883023, f 6 923854, f 6 952985, f 6 972549,
  f 6 984891, f 6 992189, f 6 996221, f 6 998296, f 6 999287, f 6 999725, f 6 999903, f 6 999969,
  f 6 999991, f 6 999998, f 6 999999, n 1, n 1, n 1, n 1, n 1, n 1, n 1, n 1, n 1, n 1, n 1, n 1, n 1, n 1,
  n 1, n 1, n 1, n 1, n 1, n 1, n 1, n 1, n 1, n 1, n 1, n 1, n 1, n 1, n 1, n 1, n 1]

/-- Row 12 of `e_split.table`. -/
def split12 : List Tok := [
  n 0, n 0, n 0, n 0, n 0, n 0, n 0, n 0, n 0, n 0, n 0, n 0, n 0, n 0, n 0, n 0, n 0, n 0, n 0, n 0,
  ⟨false, 1, 9, none, some (2, 16), 'e'⟩, x 1 22 14, x 3 3955 13, x 4 54378 12, x 5 589684 11,
  x 5 518205 10, x 5 377623 9, x 5 232698 8, x 5 123306 7, x 5 570036 7, x 5 232792 6, x 4 84898 6,
  x 4 27913 5, x 5 834264 5, f 9 228331, f 9 575965, f 8 134674, f 8 293391, f 7 59822, f 7 114632,
  f 7 207197, f 6 35445, f 7 575649, f 7 890075, f 6 131377, f 6 185582, f 4 2515, f 6 327774, f 6 411807,
  f 1 5, f 6 588193, f 6 672226, f 4 7485, f 6 814418, f 6 868623, f 6 910992, f 6 942435, f 6 964555,
  f 5 97928, f 6 988537, f 6 994018, f 6 997066, f 6 998653, f 6 999424, f 6 999772, f 6 999917,
  f 6 999972, f 6 999992, f 6 999998, f 6 999999, n 1, n 1, n 1, n 1, n 1, n 1, n 1, n 1, n 1, n 1, n 1,
  n 1, n 1, n 1, n 1, n 1, n 1, n 1, n 1, n 1, n 1, n 1, n 1, n 1, n 1, n 1, n 1, n 1, n 1, n 1]

/-- Row 13 of `e_split.table`. -/
def split13 : List Tok := [
  n 0, n 0, n 0, n 0, n 0, n 0, n 0, n 0, n 0, n 0, n 0, n 0, n 0, n 0, n 0, n 0, n 0, n 0, n 0, x 1 16 15,
  x 2 368 14, x 3 6252 13, x 4 80876 12, x 5 824665 11, x 5 682002 10, x 5 468533 9, x 4 27286 8,
  x 4 13705 7, x 5 602518 7, x 5 234825 6, x 5 820323 6, x 4 25933 5, x 5 748143 5, f 9 198411, f 9 486864,
  f 7 11117, f 8 237418, f 8 476369, f 8 901638, f 7 161568, f 7 275005, f 7 445944, f 7 690811,
  f 6 102488, f 6 145964, f 6 200008, f 6 264247, f 6 337322, f 6 416925, f 1 5, f 6 583075, f 6 662678,
  f 6 735753, f 6 799992, f 6 854036, f 6 897512, f 6 930919, f 6 955406, f 6 972499, f 6 983843,
  f 6 990984, f 6 995236, f 6 997626, f 6 998888, f 6 999513, f 6 999802, f 6 999925, f 6 999974,
  f 6 999992, f 6 999998, f 6 999999, n 1, n 1, n 1, n 1, n 1, n 1, n 1, n 1, n 1, n 1, n 1, n 1, n 1, n 1,
  n 1, n 1, n 1, n 1, n 1, n 1, n 1, n 1, n 1, n 1, n 1, n 1, n 1, n 1, n 1]

/-- Row 14 of `e_split.table`. -/
def split14 : List Tok := [
  n 0, n 0, n 0, n 0, n 0, n 0, n 0, n 0, n 0, n 0, n 0, n 0, n 0, n 0, n 0, n 0, n 0,
  ⟨false, 1, 1, none, some (2, 16), 'e'⟩, x 1 27 15, x 2 607 14, x 3 9831 13, x 5 120758 11, x 4 11669 10,
  x 5 914128 10, x 5 595299 9, x 5 329139 8, x 5 157287 7, x 5 659597 7, x 5 245921 6, x 5 824361 6,
  x 5 250882 5, x 5 699075 5, f 9 179677, f 9 428741, f 9 955239, f 7 19973, f 8 393672, f 8 734391,
  f 6 13013, f 7 219725, f 7 354569, f 7 548263, f 7 814317, f 6 116436, f 5 16061, f 6 214143, f 6 276502,
  f 6 346379, f 6 421742, f 1 5, f 6 578258, f 6 653621, f 6 723498, f 6 785857, f 5 83939, f 6 883564,
  f 6 918568, f 6 945174, f 6 964543, f 6 978027, f 6 986987, f 6 992656, f 6 996063, f 6 998003,
  f 6 999045, f 6 999571, f 5 99982, f 5 99993, f 6 999975, f 6 999992, f 6 999998, f 6 999999, n 1, n 1,
  n 1, n 1, n 1, n 1, n 1, n 1, n 1, n 1, n 1, n 1, n 1, n 1, n 1, n 1, n 1, n 1, n 1, n 1, n 1, n 1, n 1,
  n 1, n 1, n 1, n 1, n 1]

/-- Row 15 of `e_split.table`. -/
def split15 : List Tok := [
  n 0, n 0, n 0, n 0, n 0, n 0, n 0, n 0, n 0, n 0, n 0, n 0, n 0, n 0, n 0, n 0,
  ⟨false, 1, 1, none, some (2, 16), 'e'⟩, x 1 45 15, x 2 974 14, x 4 15229 12, x 5 179433 11,
  x 5 165682 10, x 5 123798 9, x 5 768652 9, x 5 405439 8, x 5 185085 7, x 5 742846 7, x 5 265663 6,
  x 5 856365 6, x 5 251296 5, x 5 677076 5, f 9 168757, f 8 39165, f 9 851208, f 7 17413, f 8 336788,
  f 8 618317, f 7 108138, f 7 180733, f 7 289486, f 7 445523, f 7 660367, f 7 944721, f 6 130703,
  f 6 175197, f 6 227921, f 6 288251, f 5 35496, f 6 426273, f 1 5, f 6 573727, f 5 64504, f 6 711749,
  f 6 772079, f 6 824803, f 6 869297, f 6 905528, f 6 933963, f 6 955448, f 6 971051, f 6 981927,
  f 6 989186, f 6 993817, f 6 996632, f 6 998259, f 6 999149, f 6 999608, f 6 999831, f 6 999932,
  f 6 999975, f 6 999991, f 6 999997, f 6 999999, n 1, n 1, n 1, n 1, n 1, n 1, n 1, n 1, n 1, n 1, n 1,
  n 1, n 1, n 1, n 1, n 1, n 1, n 1, n 1, n 1, n 1, n 1, n 1, n 1, n 1, n 1, n 1]

/-- Row 16 of `e_split.table`. -/
def split16 : List Tok := [
  n 0, n 0, n 0, n 0, n 0, n 0, n 0, n 0, n 0, n 0, n 0, n 0, n 0, n 0, n 0,
  ⟨false, 1, 2, none, some (2, 16), 'e'⟩, ⟨false, 1, 7, none, some (2, 15), 'e'⟩, x 3 1506 13,
  x 4 23032 12, x 5 263114 11, x 5 234213 10, x 4 16815 9, x 5 100152 8, x 5 506564 8, x 5 221861 7,
  x 5 855287 7, x 5 294272 6, x 5 914384 6, x 5 259212 5, x 5 676281 5, f 9 163621, f 9 369537, f 9 783602,
  f 8 156804, f 8 297429, f 7 53691, f 8 925636, f 7 152885, f 7 242604, f 7 370802, f 7 547129,
  f 7 780988, f 6 108052, f 6 145149, f 6 189626, f 6 241291, f 6 299485, f 6 363079, f 6 430534, f 1 5,
  f 6 569466, f 6 636921, f 6 700515, f 6 758709, f 6 810374, f 6 854851, f 6 891948, f 6 921901,
  f 6 945287, f 5 96292, f 5 97574, f 6 984712, f 6 990744, f 6 994631, f 6 997026, f 6 998432, f 6 999216,
  f 5 99963, f 6 999836, f 6 999932, f 6 999974, f 6 999991, f 6 999997, f 6 999999, n 1, n 1, n 1, n 1,
  n 1, n 1, n 1, n 1, n 1, n 1, n 1, n 1, n 1, n 1, n 1, n 1, n 1, n 1, n 1, n 1, n 1, n 1, n 1, n 1, n 1,
  n 1]

/-- Row 17 of `e_split.table`. -/
def split17 : List Tok := [
  n 0, n 0, n 0, n 0, n 0, n 0, n 0, n 0, n 0, n 0, n 0, n 0, n 0, n 0,
  ⟨false, 1, 3, none, some (2, 16), 'e'⟩, x 2 102 14, x 3 2218 13, x 4 33698 12, x 5 377668 11,
  x 3 3272 10, x 5 227481 9, x 5 130819 8, x 5 637946 8, x 5 269284 7, x 5 100093 6, x 5 332378 6,
  x 5 998187 6, x 5 273951 5, x 5 693275 5, f 9 163029, f 9 358642, f 8 74239, f 8 145344, f 7 27034,
  f 8 479614, f 8 814457, f 7 132799, f 6 20849, f 7 315954, f 7 463217, f 7 658341, f 7 908708,
  f 6 122022, f 6 159647, f 6 203808, f 6 254214, f 6 310202, f 6 370754, f 6 434539, f 1 5, f 6 565461,
  f 6 629246, f 6 689798, f 6 745786, f 6 796192, f 6 840353, f 6 877978, f 6 909129, f 6 934166,
  f 6 953678, f 6 968405, f 6 979151, f 5 98672, f 6 991855, f 6 995204, f 6 997297, f 6 998547,
  f 6 999258, f 6 999641, f 6 999837, f 6 999931, f 6 999973, f 5 99999, f 6 999997, f 6 999999, n 1, n 1,
  n 1, n 1, n 1, n 1, n 1, n 1, n 1, n 1, n 1, n 1, n 1, n 1, n 1, n 1, n 1, n 1, n 1, n 1, n 1, n 1, n 1,
  n 1, n 1]

/-- Row 18 of `e_split.table`. -/
def split18 : List Tok := [
  n 0, n 0, n 0, n 0, n 0, n 0, n 0, n 0, n 0, n 0, n 0, n 0, n 0, ⟨false, 1, 4, none, some (2, 16), 'e'⟩,
  x 2 136 14, x 2 308 13, x 4 47247 12, x 5 526354 11, x 5 448483 10, x 5 304502 9, x 5 170251 8,
  x 5 805078 8, x 5 329105 7, x 5 118426 6, x 5 380842 6, x 5 110856 5, x 5 295244 5, x 5 726121 5,
  f 9 166219, f 9 356583, f 9 721148, f 8 138203, f 8 252116, f 8 439549, f 8 734955, f 7 118226,
  f 7 183472, f 7 275362, f 7 400568, f 7 565919, f 7 777893, f 6 104204, f 6 136238, f 6 174081,
  f 6 217671, f 6 266659, f 6 320406, f 6 378001, f 6 438302, f 1 5, f 6 561698, f 6 621999, f 6 679594,
  f 6 733341, f 6 782329, f 6 825919, f 6 863762, f 6 895796, f 6 922211, f 6 943408, f 6 959943,
  f 6 972464, f 6 981653, f 6 988177, f 5 99265, f 6 995605, f 6 997479, f 6 998618, f 6 999279,
  f 6 999643, f 6 999834, f 6 999927, f 5 99997, f 6 999989, f 6 999996, f 6 999999, n 1, n 1, n 1, n 1,
  n 1, n 1, n 1, n 1, n 1, n 1, n 1, n 1, n 1, n 1, n 1, n 1, n 1, n 1, n 1, n 1, n 1, n 1, n 1, n 1]

/-- Row 19 of `e_split.table`. -/
def split19 : List Tok := [
  n 0, n 0, n 0, n 0, n 0, n 0, n 0, n 0, n 0, n 0, n 0, n 0, ⟨false, 1, 4, none, some (2, 16), 'e'⟩,
  x 2 166 14, x 3 3977 13, x 4 62839 12, x 5 706332 11, x 3 5988 10, x 5 400723 9, x 5 219465 8,
  x 5 101255 7, x 5 402902 7, x 5 140958 6, x 5 440573 6, x 5 124676 5, x 5 323046 5, x 5 773755 5,
  f 9 172717, f 9 361825, f 9 715672, f 8 134357, f 8 240505, f 8 412142, f 8 678513, f 7 107649,
  f 7 165046, f 7 245136, f 7 353484, f 7 495847, f 7 677811, f 7 904374, f 6 117949, f 6 150566,
  f 6 188351, f 6 231156, f 6 278606, f 6 330102, f 6 384838, f 6 441837, f 1 5, f 6 558163, f 6 615162,
  f 6 669898, f 6 721394, f 6 768844, f 6 811649, f 6 849434, f 6 882051, f 6 909563, f 6 932219,
  f 6 950415, f 6 964652, f 6 975486, f 6 983495, f 6 989235, f 6 993215, f 6 995879, f 6 997595,
  f 6 998656, f 6 999284, f 6 999638, f 6 999827, f 6 999923, f 6 999968, f 6 999988, f 6 999996,
  f 6 999999, n 1, n 1, n 1, n 1, n 1, n 1, n 1, n 1, n 1, n 1, n 1, n 1, n 1, n 1, n 1, n 1, n 1, n 1,
  n 1, n 1, n 1, n 1, n 1]

/-- Row 20 of `e_split.table`. -/
def split20 : List Tok := [
  n 0, n 0, n 0, n 0, n 0, n 0, n 0, n 0, n 0, n 0, n 0, ⟨false, 1, 4, none, some (2, 16), 'e'⟩,
  x 2 179 14, x 3 4706 13, x 4 78388 12, x 5 904481 11, x 5 773018 10, x 5 515142 9, x 5 278623 8,
  x 5 126255 7, x 5 491685 7, x 5 168005 6, x 4 51231 6, x 5 141396 5, x 5 357399 5, x 5 835578 5,
  f 9 182221, f 8 37335, f 8 72314, f 8 133119, f 8 233984, f 8 394293, f 8 639266, f 6 10003, f 7 151483,
  f 7 222561, f 7 317929, f 7 442439, f 7 600865, f 7 797596, f 6 103631, f 6 131963, f 6 164885,
  f 6 202369, f 6 244215, f 6 290042, f 4 3393, f 6 391283, f 6 445157, f 1 5, f 6 554843, f 6 608717,
  f 4 6607, f 6 709958, f 6 755785, f 6 797631, f 6 835115, f 6 868037, f 6 896369, f 5 92024, f 6 939913,
  f 6 955756, f 6 968207, f 6 977744, f 6 984852, f 6 989997, f 6 993607, f 6 996057, f 5 99766,
  f 6 998669, f 6 999277, f 6 999627, f 6 999818, f 6 999916, f 6 999964, f 6 999986, f 6 999995,
  f 6 999998, n 1, n 1, n 1, n 1, n 1, n 1, n 1, n 1, n 1, n 1, n 1, n 1, n 1, n 1, n 1, n 1, n 1, n 1,
  n 1, n 1, n 1, n 1]

/-- Row 21 of `e_split.table`. -/
def split21 : List Tok := [
  n 0, n 0, n 0, n 0, n 0, n 0, n 0, n 0, n 0, n 0, ⟨false, 1, 3, none, some (2, 16), 'e'⟩, x 2 167 14,
  x 3 5009 13, x 4 90496 12, x 5 109414 10, x 5 957201 10, x 5 642636 9, x 5 346393 8, x 5 155284 7,
  x 5 595353 7, x 5 199645 6, x 5 596353 6, x 5 161072 5, x 5 398295 5, x 5 911129 5, f 9 194514,
  f 9 390442, f 8 74158, f 8 134009, f 8 231495, f 8 383852, f 8 613142, f 8 946456, f 7 141575,
  f 7 205723, f 7 291026, f 7 401583, f 7 541457, f 7 714448, f 7 923852, f 6 117221, f 6 146108,
  f 6 179087, f 6 216065, f 6 256812, f 6 300961, f 6 348013, f 6 397353, f 6 448273, f 1 5, f 6 551727,
  f 6 602647, f 6 651987, f 6 699039, f 6 743188, f 6 783935, f 6 820913, f 6 853892, f 6 882779,
  f 6 907615, f 6 928555, f 6 945854, f 6 959842, f 6 970897, f 6 979428, f 6 985843, f 6 990535,
  f 6 993869, f 6 996161, f 6 997685, f 5 99866, f 6 999258, f 5 99961, f 6 999805, f 6 999909, f 5 99996,
  f 6 999984, f 6 999994, f 6 999998, f 6 999999, n 1, n 1, n 1, n 1, n 1, n 1, n 1, n 1, n 1, n 1, n 1,
  n 1, n 1, n 1, n 1, n 1, n 1, n 1, n 1, n 1]

/-- Row 22 of `e_split.table`. -/
def split22 : List Tok := [
  n 0, n 0, n 0, n 0, n 0, n 0, n 0, n 0, n 0, ⟨false, 1, 2, none, some (2, 16), 'e'⟩, x 1 13 14,
  x 3 4683 13, x 3 9512 12, x 5 123567 10, x 5 112678 9, x 5 772465 9, x 5 419243 8, x 5 187433 7,
  x 5 712023 7, x 5 235557 6, x 5 692222 6, x 5 183625 5, x 5 445553 5, x 5 999816 5, f 9 209405,
  f 8 41254, f 9 769524, f 8 136679, f 8 232279, f 8 379286, f 7 59725, f 8 909832, f 6 13446, f 7 193251,
  f 7 270701, f 7 370284, f 7 495456, f 7 649481, f 7 835252, f 6 105511, f 6 131065, f 6 160263,
  f 6 193077, f 6 229377, f 6 268922, f 6 311362, f 6 356254, f 6 403066, f 6 451197, f 1 5, f 6 548803,
  f 6 596934, f 6 643746, f 6 688638, f 6 731078, f 6 770623, f 6 806923, f 6 839737, f 6 868935,
  f 6 894489, f 6 916475, f 6 935052, f 6 950454, f 6 962972, f 5 97293, f 6 980675, f 6 986554,
  f 6 990902, f 6 994027, f 6 996207, f 6 997677, f 6 998633, f 5 99923, f 6 999587, f 6 999791, f 4 9999,
  f 6 999955, f 6 999982, f 6 999993, f 6 999998, f 6 999999, n 1, n 1, n 1, n 1, n 1, n 1, n 1, n 1, n 1,
  n 1, n 1, n 1, n 1, n 1, n 1, n 1, n 1, n 1, n 1]

/-- Row 23 of `e_split.table`. -/
def split23 : List Tok := [
  n 0, n 0, n 0, n 0, n 0, n 0, n 0, n 0, ⟨false, 1, 1, none, some (2, 16), 'e'⟩,
  ⟨false, 1, 8, none, some (2, 15), 'e'⟩, x 3 3725 13, x 4 89138 12, x 5 128413 10, x 5 124784 9,
  x 5 887606 9, x 4 49087 8, x 5 220866 7, x 5 837296 7, x 4 27484 6, x 5 798273 6, x 5 208772 5,
  x 4 49867 5, f 9 110065, f 9 226672, f 9 439127, f 9 805761, f 8 140858, f 8 235766, f 8 379466,
  f 8 589482, f 8 886702, f 7 129515, f 7 184153, f 7 255443, f 7 346347, f 7 459802, f 7 598602,
  f 7 765253, f 7 961839, f 5 11899, f 5 14503, f 6 174316, f 6 206778, f 6 242261, f 6 280525, f 6 321249,
  f 5 36404, f 6 408439, f 5 45394, f 1 5, f 5 54606, f 6 591561, f 5 63596, f 6 678751, f 6 719475,
  f 6 757739, f 6 793222, f 6 825684, f 5 85497, f 5 88101, f 6 903816, f 6 923475, f 5 94014, f 5 95402,
  f 6 965365, f 6 974456, f 6 981585, f 6 987048, f 6 991133, f 6 994105, f 6 996205, f 6 997642,
  f 6 998591, f 6 999194, f 6 999561, f 6 999773, f 5 99989, f 5 99995, f 6 999979, f 6 999992, f 6 999997,
  f 6 999999, n 1, n 1, n 1, n 1, n 1, n 1, n 1, n 1, n 1, n 1, n 1, n 1, n 1, n 1, n 1, n 1, n 1, n 1]

/-- Row 24 of `e_split.table`. -/
def split24 : List Tok := [
  n 0, n 0, n 0, n 0, n 0, n 0, n 0, n 0, x 1 36 15, x 3 2411 13, x 4 72419 12, x 5 120548 10,
  x 5 128352 9, x 5 965959 9, x 5 552082 8, x 5 252658 7, x 5 963602 7, x 4 31583 6, x 5 911283 6,
  x 5 235943 5, x 4 55668 5, f 9 121199, f 9 246022, f 9 469637, f 9 849158, f 8 146316, f 8 241501,
  f 7 38352, f 8 588243, f 8 874292, f 7 126279, f 7 177694, f 7 244138, f 6 32814, f 7 432208, f 7 558724,
  f 6 70984, f 7 887383, f 6 109275, f 6 132683, f 6 158993, f 6 188172, f 6 220123, f 5 25468, f 6 291612,
  f 6 330629, f 6 371386, f 6 413489, f 6 456512, f 1 5, f 6 543488, f 6 586511, f 6 628614, f 6 669371,
  f 6 708388, f 5 74532, f 6 779877, f 6 811828, f 6 841007, f 6 867317, f 6 890725, f 6 911262,
  f 6 929016, f 6 944128, f 6 956779, f 6 967186, f 6 975586, f 6 982231, f 6 987372, f 6 991257,
  f 6 994118, f 6 996165, f 6 997585, f 6 998537, f 6 999151, f 5 99953, f 6 999754, f 6 999879,
  f 6 999944, f 6 999976, f 6 999991, f 6 999997, f 6 999999, n 1, n 1, n 1, n 1, n 1, n 1, n 1, n 1, n 1,
  n 1, n 1, n 1, n 1, n 1, n 1, n 1, n 1]

/-- Row 25 of `e_split.table`. -/
def split25 : List Tok := [
  n 0, n 0, n 0, n 0, n 0, n 0, n 0, x 1 11 15, x 3 1191 13, x 4 49054 12, x 5 997334 11, x 5 120635 9,
  x 5 984395 9, x 5 591557 8, x 5 278821 7, x 5 107987 6, x 4 35596 6, x 5 102608 5, x 5 264201 5,
  x 5 618007 5, f 9 133128, f 9 267043, f 9 503385, f 9 898521, f 8 152839, f 7 24909, f 8 390739,
  f 8 592281, f 8 870461, f 5 1244, f 7 173321, f 7 235943, f 7 314438, f 7 410948, f 7 527502, f 6 66594,
  f 7 827837, f 6 101443, f 6 122656, f 5 14646, f 6 172846, f 5 20175, f 5 23306, f 6 266608, f 6 302179,
  f 6 339513, f 6 378309, f 6 418232, f 6 458922, f 1 5, f 6 541078, f 6 581768, f 6 621691, f 6 660487,
  f 6 697821, f 6 733392, f 5 76694, f 5 79825, f 6 827154, f 5 85354, f 6 877344, f 6 898557, f 6 917216,
  f 6 933406, f 5 94725, f 6 958905, f 6 968556, f 6 976406, f 6 982668, f 5 98756, f 6 991295, f 6 994077,
  f 6 996093, f 6 997509, f 6 998472, f 6 999101, f 6 999497, f 6 999733, f 6 999867, f 6 999938,
  f 6 999974, f 5 99999, f 6 999996, f 6 999999, n 1, n 1, n 1, n 1, n 1, n 1, n 1, n 1, n 1, n 1, n 1,
  n 1, n 1, n 1, n 1, n 1]

/-- Row 26 of `e_split.table`. -/
def split26 : List Tok := [
  n 0, n 0, n 0, n 0, n 0, n 0, ⟨false, 1, 2, none, some (2, 16), 'e'⟩, x 2 406 14, x 4 26172 12,
  x 5 702653 11, x 5 101373 9, x 5 925922 9, x 5 597824 8, x 4 29466 7, x 5 117182 6, x 5 391721 6,
  x 5 113531 5, x 5 292179 5, x 5 680333 5, f 9 145483, f 9 289164, f 9 539496, f 9 952481, f 8 160205,
  f 8 258166, f 6 4005, f 8 600553, f 8 873494, f 7 123603, f 7 170605, f 7 230213, f 7 304301, f 5 3947,
  f 7 503138, f 6 63118, f 7 780171, f 7 951181, f 6 114496, f 6 136191, f 6 160203, f 6 186494,
  f 6 214982, f 6 245547, f 6 278027, f 6 312227, f 6 347914, f 6 384828, f 6 422685, f 6 461181, f 1 5,
  f 6 538819, f 6 577315, f 6 615172, f 6 652086, f 6 687773, f 6 721973, f 6 754453, f 6 785018,
  f 6 813506, f 6 839797, f 6 863809, f 6 885504, f 6 904882, f 6 921983, f 6 936882, f 6 949686,
  f 5 96053, f 5 96957, f 6 976979, f 6 982939, f 5 98764, f 6 991265, f 6 993994, f 6 995995, f 6 997418,
  f 6 998398, f 6 999048, f 6 999461, f 6 999711, f 6 999855, f 6 999932, f 6 999971, f 6 999989,
  f 6 999996, f 6 999999, n 1, n 1, n 1, n 1, n 1, n 1, n 1, n 1, n 1, n 1, n 1, n 1, n 1, n 1, n 1]

/-- Row 27 of `e_split.table`. -/
def split27 : List Tok := [
  n 0, n 0, n 0, n 0, n 0, n 0, x 1 82 15, x 3 1008 12, x 5 401012 11, x 5 738972 10, x 4 78855 9,
  x 5 562563 8, x 5 295551 7, x 5 122329 6, x 5 418798 6, x 5 122944 5, x 5 318053 5, x 5 740513 5,
  f 9 157762, f 9 311629, f 9 576854, f 7 10094, f 7 16817, f 8 268357, f 8 412225, f 8 612145, f 8 881948,
  f 7 123664, f 7 169205, f 7 226443, f 7 296997, f 7 382438, f 7 484234, f 7 603712, f 7 742009,
  f 7 900036, f 6 107844, f 5 12776, f 6 149757, f 6 173808, f 6 199857, f 6 227813, f 6 257553,
  f 6 288929, f 5 32176, f 6 355845, f 6 390959, f 6 426862, f 6 463296, f 1 5, f 6 536704, f 6 573138,
  f 6 609041, f 6 644155, f 5 67824, f 6 711071, f 6 742447, f 6 772187, f 6 800143, f 6 826192,
  f 6 850243, f 5 87224, f 6 892156, f 6 909996, f 6 925799, f 6 939629, f 6 951577, f 6 961756, f 4 9703,
  f 6 977356, f 6 983079, f 6 987634, f 6 991181, f 6 993879, f 6 995878, f 6 997316, f 6 998318,
  f 6 998991, f 6 999423, f 6 999688, f 6 999842, f 6 999926, f 6 999968, f 6 999988, f 6 999996,
  f 6 999999, n 1, n 1, n 1, n 1, n 1, n 1, n 1, n 1, n 1, n 1, n 1, n 1, n 1, n 1]

/-- Row 28 of `e_split.table`. -/
def split28 : List Tok := [
  n 0, n 0, n 0, n 0, n 0, ⟨false, 1, 7, none, some (2, 16), 'e'⟩, x 3 2433 13, x 4 17174 11,
  x 5 447221 10, x 5 592063 9, x 5 484628 8, x 5 278176 7, x 5 121875 6, x 4 43246 6, x 5 129723 5,
  x 5 339564 5, x 5 794553 5, f 9 169322, f 9 333465, f 9 614059, f 8 106731, f 8 176457, f 8 279266,
  f 8 425338, f 8 626206, f 8 894551, f 7 124392, f 7 168838, f 6 22422, f 7 291942, f 7 373349, f 6 46969,
  f 7 582081, f 7 711478, f 7 858644, f 6 102413, f 6 120824, f 6 141107, f 6 163242, f 6 187186,
  f 6 212869, f 6 240199, f 6 269059, f 6 299308, f 6 330789, f 6 363324, f 6 396722, f 6 430777,
  f 6 465277, f 1 5, f 6 534723, f 6 569223, f 6 603278, f 6 636676, f 6 669211, f 6 700692, f 6 730941,
  f 6 759801, f 6 787131, f 6 812814, f 6 836758, f 6 858893, f 6 879176, f 6 897587, f 6 914136,
  f 6 928852, f 6 941792, f 6 953031, f 6 962665, f 6 970806, f 6 977578, f 6 983116, f 6 987561,
  f 6 991054, f 6 993738, f 6 995747, f 6 997207, f 6 998235, f 6 998933, f 6 999386, f 6 999667,
  f 6 999831, f 6 999921, f 6 999966, f 6 999987, f 6 999996, f 6 999999, n 1, n 1, n 1, n 1, n 1, n 1,
  n 1, n 1, n 1, n 1, n 1, n 1, n 1]

/-- Row 29 of `e_split.table`. -/
def split29 : List Tok := [
  n 0, n 0, n 0, n 0, n 0, x 2 288 14, x 4 48749 12, x 5 210122 10, x 5 377074 9, x 5 373316 8,
  x 5 242015 7, x 5 114715 6, x 5 428265 6, x 5 132669 5, x 5 354137 5, x 5 837703 5, f 9 179379,
  f 9 353484, f 9 649405, f 8 112384, f 8 184744, f 7 29046, f 8 439242, f 8 641903, f 8 910123,
  f 7 125618, f 7 169264, f 7 223205, f 7 288658, f 7 366778, f 7 458622, f 7 565126, f 7 687084,
  f 7 825124, f 7 979696, f 6 115106, f 6 133927, f 5 15442, f 6 176549, f 6 200259, f 6 225477,
  f 6 252111, f 6 280049, f 6 309167, f 6 339324, f 6 370367, f 6 402132, f 6 434446, f 5 46713, f 1 5,
  f 5 53287, f 6 565554, f 6 597868, f 6 629633, f 6 660676, f 6 690833, f 6 719951, f 6 747889,
  f 6 774523, f 6 799741, f 6 823451, f 5 84558, f 6 866073, f 6 884894, f 5 90203, f 6 917488, f 6 931292,
  f 6 943487, f 6 954138, f 6 963322, f 6 971134, f 5 97768, f 6 983074, f 6 987438, f 6 990899,
  f 6 993581, f 6 995608, f 6 997095, f 6 998153, f 6 998876, f 6 999351, f 6 999647, f 6 999821,
  f 6 999916, f 6 999965, f 6 999987, f 6 999996, f 6 999999, n 1, n 1, n 1, n 1, n 1, n 1, n 1, n 1, n 1,
  n 1, n 1, n 1]

/-- Row 30 of `e_split.table`. -/
def split30 : List Tok := [
  n 0, n 0, n 0, n 0, ⟨false, 1, 1, none, some (2, 15), 'e'⟩, x 3 7387 13, x 5 687417 11, x 5 192065 9,
  x 5 248552 8, x 5 190622 7, x 5 100656 6, x 5 403078 6, x 5 130678 5, x 5 359097 5, x 5 864705 5,
  f 9 187033, f 9 370289, f 9 680878, f 8 117624, f 8 192665, f 8 301454, f 8 453302, f 7 65839,
  f 8 927527, f 7 127188, f 6 17027, f 7 223102, f 7 286744, f 7 362182, f 7 450308, f 7 551903,
  f 7 667617, f 7 797959, f 7 943286, f 5 11038, f 6 127952, f 6 147034, f 6 167597, f 6 189594,
  f 6 212966, f 6 237639, f 6 263523, f 6 290519, f 6 318512, f 5 34738, f 6 376992, f 6 407208,
  f 6 437881, f 6 468863, f 1 5, f 6 531137, f 6 562119, f 6 592792, f 6 623008, f 5 65262, f 6 681488,
  f 6 709481, f 6 736477, f 6 762361, f 6 787034, f 6 810406, f 6 832403, f 6 852966, f 6 872048,
  f 5 88962, f 6 905671, f 6 920204, f 6 933238, f 5 94481, f 6 954969, f 6 963782, f 6 971326, f 5 97769,
  f 6 982973, f 6 987281, f 6 990725, f 6 993416, f 6 995467, f 6 996985, f 6 998073, f 6 998824,
  f 6 999319, f 5 99963, f 6 999813, f 6 999914, f 6 999964, f 6 999987, f 6 999996, f 6 999999, n 1, n 1,
  n 1, n 1, n 1, n 1, n 1, n 1, n 1, n 1, n 1]

/-- Row 31 of `e_split.table`. -/
def split31 : List Tok := [
  n 0, n 0, n 0, n 0, x 2 396 14, x 5 129507 11, x 5 711306 10, x 5 135828 8, x 5 131916 7, x 5 808304 7,
  x 5 356293 6, x 5 122976 5, x 5 352024 5, x 5 870217 5, f 9 191313, f 9 382322, f 8 70619, f 8 122134,
  f 8 199802, f 8 311711, f 8 466831, f 8 674791, f 8 945628, f 7 128953, f 7 171658, f 7 223653,
  f 7 285853, f 7 359102, f 7 444147, f 7 541633, f 7 652086, f 7 775907, f 7 913369, f 6 106461,
  f 6 122963, f 6 140831, f 6 160039, f 6 180549, f 6 202309, f 6 225258, f 6 249324, f 6 274424,
  f 6 300466, f 6 327351, f 6 354973, f 6 383217, f 6 411965, f 6 441096, f 6 470484, f 1 5, f 6 529516,
  f 6 558904, f 6 588035, f 6 616783, f 6 645027, f 6 672649, f 6 699534, f 6 725576, f 6 750676,
  f 6 774742, f 6 797691, f 6 819451, f 6 839961, f 6 859169, f 6 877037, f 6 893539, f 6 908663,
  f 6 922409, f 6 934791, f 6 945837, f 6 955585, f 5 96409, f 6 971415, f 6 977635, f 6 982834,
  f 6 987105, f 6 990544, f 6 993252, f 6 995332, f 6 996883, f 6 998002, f 6 998779, f 6 999294,
  f 6 999618, f 6 999809, f 6 999913, f 6 999965, f 6 999988, f 6 999996, f 6 999999, n 1, n 1, n 1, n 1,
  n 1, n 1, n 1, n 1, n 1, n 1]

/-- Row 32 of `e_split.table`. -/
def split32 : List Tok := [
  n 0, n 0, n 0, ⟨false, 1, 3, none, some (2, 16), 'e'⟩, x 3 9772 13, x 5 162192 10, x 5 560491 9,
  x 4 76645 8, x 5 578527 7, x 5 290983 6, x 5 109401 5, x 5 331225 5, x 5 849472 5, f 9 191251,
  f 9 387941, f 9 722852, f 8 125566, f 8 205692, f 8 320639, f 8 479088, f 8 690181, f 8 963273,
  f 7 130768, f 7 173245, f 7 224617, f 7 285677, f 7 357139, f 7 439627, f 7 533664, f 7 639667,
  f 7 757943, f 7 888686, f 6 103198, f 5 11878, f 4 1356, f 6 153634, f 6 172849, f 6 193201, f 6 214637,
  f 6 237096, f 6 260511, f 6 284804, f 6 309896, f 6 335698, f 6 362118, f 6 389059, f 6 416422,
  f 6 444103, f 6 471998, f 1 5, f 6 528002, f 6 555897, f 6 583578, f 6 610941, f 6 637882, f 6 664302,
  f 6 690104, f 6 715196, f 6 739489, f 6 762904, f 6 785363, f 6 806799, f 6 827151, f 6 846366, f 4 8644,
  f 5 88122, f 6 896802, f 6 911131, f 6 924206, f 6 936033, f 6 946634, f 6 956037, f 6 964286,
  f 6 971432, f 6 977538, f 6 982676, f 6 986923, f 6 990367, f 6 993098, f 6 995209, f 6 996794,
  f 6 997943, f 6 998744, f 6 999277, f 6 999612, f 6 999809, f 6 999915, f 6 999967, f 6 999989,
  f 6 999997, f 6 999999, n 1, n 1, n 1, n 1, n 1, n 1, n 1, n 1, n 1]

/-- Row 33 of `e_split.table`. -/
def split33 : List Tok := [
  n 0, n 0, n 0, x 2 135 14, x 4 16549 11, x 5 151014 9, x 5 347528 8, x 5 354575 7, x 5 214478 6,
  x 5 906732 6, x 4 29631 5, x 5 799148 5, f 9 185994, f 9 385535, f 9 728288, f 8 127549, f 8 209837,
  f 8 327598, f 8 489276, f 8 703587, f 8 979273, f 7 132487, f 6 17485, f 7 225772, f 7 285935,
  f 7 355941, f 7 436302, f 7 527435, f 7 629662, f 7 743204, f 7 868188, f 6 100464, f 6 115251,
  f 6 131164, f 6 148179, f 6 166266, f 6 185386, f 6 205493, f 6 226534, f 6 248453, f 6 271186,
  f 6 294664, f 6 318816, f 6 343566, f 6 368834, f 6 394538, f 6 420593, f 6 446914, f 6 473413, f 1 5,
  f 6 526587, f 6 553086, f 6 579407, f 6 605462, f 6 631166, f 6 656434, f 6 681184, f 6 705336,
  f 6 728814, f 6 751547, f 6 773466, f 6 794507, f 6 814614, f 6 833734, f 6 851821, f 6 868836,
  f 6 884749, f 6 899536, f 6 913181, f 5 92568, f 6 937034, f 6 947256, f 5 95637, f 6 964406, f 6 971407,
  f 6 977423, f 6 982515, f 6 986751, f 6 990207, f 6 992964, f 6 995107, f 6 996724, f 6 997902,
  f 6 998725, f 6 999272, f 6 999614, f 6 999814, f 5 99992, f 5 99997, f 6 999991, f 6 999998, n 1, n 1,
  n 1, n 1, n 1, n 1, n 1, n 1, n 1]

/-- Row 34 of `e_split.table`. -/
def split34 : List Tok := [
  n 0, n 0, n 0, x 3 3785 13, x 5 200862 10, x 5 108309 8, x 5 174531 7, x 5 137725 6, x 5 685733 6,
  x 5 248775 5, x 5 718414 5, f 9 174949, f 9 373703, f 9 720019, f 8 127706, f 8 211716, f 8 331914,
  f 8 496555, f 8 713987, f 8 992407, f 7 133964, f 7 176298, f 7 226904, f 7 286367, f 7 355186,
  f 7 433775, f 7 522457, f 7 621469, f 7 730957, f 7 850986, f 7 981538, f 6 112252, f 6 127377,
  f 6 143505, f 6 160607, f 6 178647, f 6 197585, f 6 217375, f 6 237968, f 5 25931, f 6 281343,
  f 6 304007, f 6 327239, f 6 350972, f 6 375139, f 5 39967, f 6 424495, f 5 44954, f 6 474733, f 1 5,
  f 6 525267, f 5 55046, f 6 575505, f 5 60033, f 6 624861, f 6 649028, f 6 672761, f 6 695993, f 6 718657,
  f 5 74069, f 6 762032, f 6 782625, f 6 802415, f 6 821353, f 6 839393, f 6 856495, f 6 872623,
  f 6 887748, f 6 901846, f 6 914901, f 6 926904, f 6 937853, f 6 947754, f 6 956623, f 6 964481,
  f 6 971363, f 5 97731, f 5 98237, f 6 986604, f 6 990076, f 5 99286, f 6 995034, f 6 996681, f 6 997883,
  f 6 998723, f 5 99928, f 6 999626, f 6 999825, f 6 999928, f 6 999975, f 6 999993, f 6 999999, n 1, n 1,
  n 1, n 1, n 1, n 1, n 1, n 1]

/-- Row 35 of `e_split.table`. -/
def split35 : List Tok := [
  n 0, n 0, ⟨false, 1, 3, none, some (2, 16), 'e'⟩, x 4 71679 12, x 4 18173 9, x 5 617487 8, x 5 728221 7,
  x 5 458644 6, x 5 192425 5, x 5 610035 5, f 9 157953, f 9 351464, f 9 695897, f 8 125679, f 8 210809,
  f 8 332894, f 8 500055, f 8 720325, f 7 100141, f 7 135051, f 7 177414, f 7 227808, f 7 286726,
  f 7 354578, f 7 431689, f 7 518298, f 7 614565, f 7 720569, f 6 83632, f 7 961758, f 6 109676,
  f 6 124114, f 6 139467, f 6 155706, f 6 172799, f 6 190708, f 6 209393, f 6 228811, f 6 248915,
  f 6 269656, f 6 290982, f 6 312841, f 6 335176, f 6 357933, f 6 381052, f 6 404474, f 6 428141,
  f 6 451992, f 6 475965, f 1 5, f 6 524035, f 6 548008, f 6 571859, f 6 595526, f 6 618948, f 6 642067,
  f 6 664824, f 6 687159, f 6 709018, f 6 730344, f 6 751085, f 6 771189, f 6 790607, f 6 809292,
  f 6 827201, f 6 844294, f 6 860533, f 6 875886, f 6 890324, f 6 903824, f 6 916368, f 6 927943,
  f 6 938544, f 5 94817, f 6 956831, f 6 964542, f 6 971327, f 6 977219, f 6 982259, f 6 986495,
  f 6 989986, f 6 992797, f 6 994999, f 6 996671, f 6 997892, f 6 998743, f 6 999304, f 6 999649,
  f 6 999842, f 6 999939, f 6 999981, f 6 999995, f 6 999999, n 1, n 1, n 1, n 1, n 1, n 1, n 1]

/-- Row 36 of `e_split.table`. -/
def split36 : List Tok := [
  n 0, n 0, x 1 14 14, x 5 960161 11, x 5 126916 8, x 5 287724 7, x 5 258141 6, x 5 133373 5, x 5 481273 5,
  f 9 135468, f 9 318529, f 9 654417, f 8 121159, f 8 206627, f 8 329858, f 8 498898, f 8 721526,
  f 7 100502, f 7 135598, f 7 178025, f 6 22828, f 7 286777, f 7 353841, f 7 429717, f 7 514568,
  f 7 608484, f 7 711486, f 7 823534, f 7 944528, f 6 107432, f 5 12127, f 6 135944, f 6 151427,
  f 6 167686, f 6 184688, f 6 202396, f 6 220772, f 6 239774, f 6 259361, f 6 279487, f 6 300108,
  f 6 321177, f 6 342646, f 6 364467, f 5 38659, f 6 408967, f 6 431547, f 5 45428, f 6 477114, f 1 5,
  f 6 522886, f 5 54572, f 6 568453, f 6 591033, f 5 61341, f 6 635533, f 6 657354, f 6 678823, f 6 699892,
  f 6 720513, f 6 740639, f 6 760226, f 6 779228, f 6 797604, f 6 815312, f 6 832314, f 6 848573,
  f 6 864056, f 5 87873, f 6 892568, f 6 905547, f 6 917647, f 6 928851, f 6 939152, f 6 948543,
  f 6 957028, f 6 964616, f 6 971322, f 6 977172, f 6 982197, f 5 98644, f 5 98995, f 6 992785, f 6 995011,
  f 6 996701, f 6 997934, f 6 998788, f 6 999346, f 6 999681, f 6 999865, f 6 999952, f 6 999987,
  f 6 999997, n 1, n 1, n 1, n 1, n 1, n 1, n 1]

/-- Row 37 of `e_split.table`. -/
def split37 : List Tok := [
  n 0, n 0, x 3 3912 13, x 5 947157 10, x 5 705745 8, x 4 11229 6, x 5 792794 6, x 5 344175 5, f 9 108748,
  f 9 275599, f 9 595098, f 7 11393, f 8 198753, f 7 32217, f 7 49223, f 8 716518, f 7 100193, f 7 135456,
  f 7 177958, f 7 228124, f 7 286293, f 7 352713, f 7 427553, f 7 510909, f 7 602809, f 7 703218,
  f 7 812051, f 7 929173, f 6 105441, f 6 118754, f 6 132832, f 6 147648, f 6 163173, f 6 179374,
  f 6 196217, f 6 213668, f 5 23169, f 6 250246, f 6 269298, f 6 288805, f 6 308729, f 6 329029,
  f 6 349664, f 6 370593, f 6 391774, f 6 413166, f 6 434727, f 6 456414, f 6 478186, f 1 5, f 6 521814,
  f 6 543586, f 6 565273, f 6 586834, f 6 608226, f 6 629407, f 6 650336, f 6 670971, f 6 691271,
  f 6 711195, f 6 730702, f 6 749754, f 5 76831, f 6 786332, f 6 803783, f 6 820626, f 6 836827,
  f 6 852352, f 6 867168, f 6 881246, f 6 894559, f 6 907083, f 6 918795, f 6 929678, f 6 939719,
  f 6 948909, f 6 957245, f 6 964729, f 6 971371, f 6 977188, f 6 982204, f 6 986454, f 6 989981,
  f 6 992835, f 6 995078, f 6 996778, f 6 998012, f 6 998861, f 6 999405, f 6 999724, f 6 999891,
  f 6 999966, f 6 999992, f 6 999999, n 1, n 1, n 1, n 1, n 1, n 1]

/-- Row 38 of `e_split.table`. -/
def split38 : List Tok := [
  n 0, n 0, x 1 74 12, x 5 713161 9, x 5 321218 7, x 5 375025 6, x 5 214599 5, x 5 799357 5, f 9 224655,
  f 9 518915, f 8 103915, f 8 186887, f 8 309289, f 8 479261, f 8 704272, f 8 990906, f 7 134476,
  f 7 177042, f 7 227146, f 7 285053, f 7 350942, f 7 424912, f 7 506995, f 6 59716, f 7 695325,
  f 7 801362, f 7 915102, f 6 103635, f 6 116487, f 6 130041, f 5 14427, f 6 159146, f 6 174637,
  f 6 190714, f 6 207343, f 6 224493, f 6 242129, f 6 260217, f 6 278725, f 6 297616, f 6 316857,
  f 6 336413, f 6 356249, f 5 37633, f 6 396621, f 6 417086, f 6 437692, f 6 458403, f 6 479184, f 1 5,
  f 6 520816, f 6 541597, f 6 562308, f 6 582914, f 6 603379, f 5 62367, f 6 643751, f 6 663587,
  f 6 683143, f 6 702384, f 6 721275, f 6 739783, f 6 757871, f 6 775507, f 6 792657, f 6 809286,
  f 6 825363, f 6 840854, f 5 85573, f 6 869959, f 6 883513, f 6 896365, f 5 90849, f 6 919864, f 6 930467,
  f 6 940284, f 6 949301, f 6 957509, f 6 964906, f 6 971495, f 6 977285, f 6 982296, f 6 986552,
  f 6 990091, f 6 992957, f 6 995207, f 6 996907, f 6 998131, f 6 998961, f 6 999481, f 6 999775,
  f 5 99992, f 6 999979, f 6 999996, n 1, n 1, n 1, n 1, n 1, n 1]

/-- Row 39 of `e_split.table`. -/
def split39 : List Tok := [
  n 0, ⟨false, 1, 1, none, some (2, 16), 'e'⟩, x 5 990489 11, x 5 423121 8, x 5 122625 6, x 5 109224 5,
  x 5 519745 5, f 9 169175, f 9 428756, f 9 912391, f 8 170918, f 8 290825, f 8 459319, f 8 683842,
  f 7 97073, f 7 132515, f 7 175111, f 7 225156, f 7 282846, f 6 34829, f 7 421525, f 7 502519, f 7 591191,
  f 6 68741, f 6 79101, f 7 901793, f 6 101954, f 4 1144, f 6 127492, f 6 141203, f 6 155504, f 6 170368,
  f 6 185763, f 6 201662, f 6 218034, f 6 234848, f 6 252075, f 6 269684, f 6 287646, f 5 30593,
  f 6 324507, f 6 343347, f 5 36242, f 6 381697, f 6 401148, f 6 420745, f 6 440457, f 6 460256,
  f 6 480114, f 1 5, f 6 519886, f 6 539744, f 6 559543, f 6 579255, f 6 598852, f 6 618303, f 5 63758,
  f 6 656653, f 6 675493, f 5 69407, f 6 712354, f 6 730316, f 6 747925, f 6 765152, f 6 781966,
  f 6 798338, f 6 814237, f 6 829632, f 6 844496, f 6 858797, f 6 872508, f 4 8856, f 6 898046, f 6 909821,
  f 6 920899, f 6 931259, f 6 940881, f 6 949748, f 6 957848, f 6 965171, f 6 971715, f 6 977484,
  f 6 982489, f 6 986749, f 6 990293, f 6 993162, f 6 995407, f 6 997092, f 6 998291, f 6 999088,
  f 6 999571, f 6 999831, f 6 999948, f 6 999989, f 6 999999, n 1, n 1, n 1, n 1, n 1]

/-- Row 40 of `e_split.table`. -/
def split40 : List Tok := [
  n 0, x 1 34 15, x 4 97659 10, x 5 203497 7, x 4 40117 6, x 4 28202 5, f 9 114123, f 9 329828, f 9 762947,
  f 8 150992, f 8 266617, f 8 431914, f 8 654422, f 7 94031, f 7 129436, f 7 172006, f 7 221973,
  f 7 279466, f 6 34453, f 7 417136, f 7 497197, f 7 584579, f 6 67911, f 7 780585, f 7 888779, f 6 100345,
  f 6 112434, f 6 125118, f 5 13837, f 6 152163, f 6 166469, f 6 181259, f 6 196507, f 6 212185,
  f 6 228265, f 5 24472, f 6 261523, f 6 278648, f 6 296069, f 5 31376, f 6 331695, f 6 349849, f 6 368196,
  f 6 386713, f 6 405374, f 6 424156, f 6 443033, f 6 461982, f 6 480979, f 1 5, f 6 519021, f 6 538018,
  f 6 556967, f 6 575844, f 6 594626, f 6 613287, f 6 631804, f 6 650151, f 6 668305, f 5 68624,
  f 6 703931, f 6 721352, f 6 738477, f 5 75528, f 6 771735, f 6 787815, f 6 803493, f 6 818741,
  f 6 833531, f 6 847837, f 5 86163, f 6 874882, f 6 887566, f 6 899655, f 6 911122, f 6 921942,
  f 6 932089, f 6 941542, f 5 95028, f 6 958286, f 6 965547, f 6 972053, f 6 977803, f 6 982799,
  f 6 987056, f 6 990597, f 6 993456, f 6 995681, f 6 997334, f 5 99849, f 6 999237, f 5 99967, f 6 999886,
  f 6 999972, f 6 999996, n 1, n 1, n 1, n 1, n 1]

/-- Row 41 of `e_split.table`. -/
def split41 : List Tok := [
  n 0, x 3 1123 13, x 5 734984 9, x 5 813655 7, x 5 114619 5, x 5 654959 5, f 9 229824, f 9 598065,
  f 8 127607, f 8 236825, f 8 396824, f 8 615415, f 8 898708, f 7 125116, f 7 167577, f 7 217422,
  f 7 274717, f 7 339441, f 7 411504, f 7 490761, f 7 577029, f 7 670093, f 7 769714, f 7 875641,
  f 7 987609, f 6 110535, f 6 122859, f 6 135705, f 6 149047, f 6 162857, f 6 177109, f 6 191777,
  f 6 206835, f 6 222259, f 6 238022, f 6 254102, f 6 270475, f 6 287117, f 6 304007, f 6 321121,
  f 6 338438, f 6 355938, f 6 373597, f 6 391397, f 6 409316, f 6 427334, f 6 445432, f 6 463588,
  f 6 481784, f 1 5, f 6 518216, f 6 536412, f 6 554568, f 6 572666, f 6 590684, f 6 608603, f 6 626403,
  f 6 644062, f 6 661562, f 6 678879, f 6 695993, f 6 712883, f 6 729525, f 6 745898, f 6 761978,
  f 6 777741, f 6 793165, f 6 808223, f 6 822891, f 6 837143, f 6 850953, f 6 864295, f 6 877141,
  f 6 889465, f 6 901239, f 6 912436, f 6 923029, f 6 932991, f 6 942297, f 6 950924, f 5 95885,
  f 6 966056, f 6 972528, f 6 978258, f 6 983242, f 6 987488, f 6 991013, f 6 993846, f 6 996032,
  f 6 997632, f 6 998724, f 6 999402, f 5 99977, f 6 999935, f 6 999989, f 6 999999, n 1, n 1, n 1, n 1]

/-- Row 42 of `e_split.table`. -/
def split42 : List Tok := [
  n 0, x 4 24774 12, x 5 435732 8, x 5 276622 6, x 5 290764 5, f 8 13855, f 9 428804, f 8 101711,
  f 8 202043, f 8 354206, f 7 56653, f 8 845218, f 7 119449, f 7 161685, f 7 211341, f 7 268415,
  f 7 332819, f 7 404401, f 7 482961, f 7 568264, f 7 660054, f 7 758059, f 7 862001, f 7 971595,
  f 6 108656, f 6 120661, f 6 133148, f 5 14609, f 5 15946, f 6 173232, f 6 187383, f 6 201888, f 6 216724,
  f 6 231868, f 6 247298, f 6 262994, f 6 278935, f 6 295101, f 6 311472, f 5 32803, f 6 344756,
  f 6 361633, f 6 378642, f 6 395767, f 5 41299, f 6 430295, f 6 447664, f 6 465083, f 6 482533, f 1 5,
  f 6 517467, f 6 534917, f 6 552336, f 6 569705, f 5 58701, f 6 604233, f 6 621358, f 6 638367,
  f 6 655244, f 5 67197, f 6 688528, f 6 704899, f 6 721065, f 6 737006, f 6 752702, f 6 768132,
  f 6 783276, f 6 798112, f 6 812617, f 6 826768, f 5 84054, f 5 85391, f 6 866852, f 6 879339, f 6 891344,
  f 6 902841, f 4 9138, f 6 924194, f 6 933995, f 6 943174, f 6 951704, f 5 95956, f 6 966718, f 6 973159,
  f 6 978866, f 6 983831, f 6 988055, f 6 991548, f 6 994335, f 6 996458, f 5 99798, f 6 998983,
  f 6 999571, f 6 999861, f 6 999971, f 6 999997, n 1, n 1, n 1, n 1]

/-- Row 43 of `e_split.table`. -/
def split43 : List Tok := [
  n 0, x 5 380116 11, x 5 209238 7, x 5 815808 6, x 5 664415 5, f 9 269934, f 9 747872, f 8 163435,
  f 8 304729, f 8 507897, f 8 779466, f 7 112352, f 7 154214, f 7 203582, f 7 260385, f 7 324467,
  f 7 395611, f 7 473558, f 7 558024, f 7 648709, f 7 745308, f 7 847515, f 7 955027, f 6 106755,
  f 6 118479, f 6 130648, f 6 143234, f 6 156212, f 6 169558, f 6 183247, f 6 197258, f 6 211568,
  f 6 226157, f 6 241004, f 6 256092, f 4 2714, f 6 286913, f 6 302612, f 6 318482, f 6 334506, f 6 350668,
  f 6 366955, f 5 38335, f 6 399841, f 6 416412, f 5 43305, f 6 449741, f 6 466472, f 6 483229, f 1 5,
  f 6 516771, f 6 533528, f 6 550259, f 5 56695, f 6 583588, f 6 600159, f 5 61665, f 6 633045, f 6 649332,
  f 6 665494, f 6 681518, f 6 697388, f 6 713087, f 4 7286, f 6 743908, f 6 758996, f 6 773843, f 6 788432,
  f 6 802742, f 6 816753, f 6 830442, f 6 843788, f 6 856766, f 6 869352, f 6 881521, f 6 893245,
  f 6 904497, f 6 915249, f 6 925469, f 6 935129, f 6 944198, f 6 952644, f 6 960439, f 6 967553,
  f 6 973961, f 6 979642, f 6 984579, f 6 988765, f 6 992205, f 6 994921, f 6 996953, f 6 998366,
  f 6 999252, f 5 99973, f 6 999934, f 6 999992, n 1, n 1, n 1, n 1]

/-- Row 44 of `e_split.table`. -/
def split44 : List Tok := [
  n 0, x 5 423054 10, x 5 834195 7, x 5 212433 5, f 9 138491, f 9 489072, f 8 122884, f 8 249752,
  f 8 440231, f 8 701535, f 6 10378, f 7 145072, f 7 194017, f 7 250471, f 7 314206, f 7 384934,
  f 7 462334, f 6 54607, f 7 635797, f 7 731175, f 7 831871, f 7 937561, f 6 104794, f 5 11627, f 6 128157,
  f 6 140429, f 6 153059, f 6 166025, f 6 179302, f 6 192871, f 6 206711, f 6 220802, f 6 235126,
  f 6 249667, f 6 264406, f 5 27933, f 6 294421, f 6 309667, f 6 325054, f 6 340567, f 6 356194,
  f 6 371922, f 5 38774, f 6 403635, f 6 419596, f 6 435612, f 6 451671, f 6 467763, f 6 483876, f 1 5,
  f 6 516124, f 6 532237, f 6 548329, f 6 564388, f 6 580404, f 6 596365, f 5 61226, f 6 628078,
  f 6 643806, f 6 659433, f 6 674946, f 6 690333, f 6 705579, f 5 72067, f 6 735594, f 6 750333,
  f 6 764874, f 6 779198, f 6 793289, f 6 807129, f 6 820698, f 6 833975, f 6 846941, f 6 859571,
  f 6 871843, f 5 88373, f 6 895206, f 6 906244, f 6 916813, f 6 926882, f 5 93642, f 6 945393, f 6 953767,
  f 6 961507, f 6 968579, f 6 974953, f 6 980598, f 6 985493, f 6 989622, f 6 992985, f 6 995598,
  f 6 997502, f 6 998771, f 6 999511, f 6 999862, f 6 999979, f 6 999999, n 1, n 1, n 1]

/-- Row 45 of `e_split.table`. -/
def split45 : List Tok := [
  n 0, x 5 354542 9, x 5 282253 6, x 5 496051 5, f 9 266238, f 9 831069, f 7 19153, f 8 365037, f 8 612142,
  f 8 937329, f 7 134201, f 7 182542, f 7 238535, f 7 301869, f 6 37218, f 7 449081, f 7 532176,
  f 7 621074, f 7 715397, f 7 814781, f 7 918884, f 6 102738, f 6 113997, f 6 125636, f 6 137629,
  f 5 14995, f 6 162578, f 6 175489, f 6 188663, f 6 202082, f 6 215727, f 6 229582, f 6 243631,
  f 6 257858, f 5 27225, f 6 286793, f 6 301475, f 6 316283, f 6 331206, f 6 346233, f 6 361352,
  f 6 376555, f 6 391829, f 6 407167, f 6 422559, f 6 437994, f 6 453465, f 6 468962, f 6 484477, f 1 5,
  f 6 515523, f 6 531038, f 6 546535, f 6 562006, f 6 577441, f 6 592833, f 6 608171, f 6 623445,
  f 6 638648, f 6 653767, f 6 668794, f 6 683717, f 6 698525, f 6 713207, f 5 72775, f 6 742142,
  f 6 756369, f 6 770418, f 6 784273, f 6 797918, f 6 811337, f 6 824511, f 6 837422, f 5 85005,
  f 6 862371, f 6 874364, f 6 886003, f 6 897262, f 6 908112, f 6 918522, f 5 92846, f 6 937893,
  f 6 946782, f 6 955092, f 6 962782, f 6 969813, f 6 976146, f 6 981746, f 5 98658, f 6 990627,
  f 6 993879, f 5 99635, f 6 998085, f 6 999169, f 6 999734, f 5 99995, f 6 999997, n 1, n 1, n 1]

/-- Row 46 of `e_split.table`. -/
def split46 : List Tok := [
  n 0, x 5 231248 8, x 5 826525 6, f 9 105284, f 9 476604, f 8 133439, f 8 284893, f 8 512882, f 8 822787,
  f 7 121593, f 7 169091, f 7 224465, f 7 287311, f 6 35718, f 7 433607, f 7 516133, f 7 604313,
  f 7 697729, f 7 795984, f 7 898713, f 6 100557, f 6 111626, f 6 123046, f 6 134793, f 6 146842,
  f 6 159169, f 6 171753, f 6 184576, f 6 197619, f 6 210865, f 6 224299, f 6 237906, f 6 251672,
  f 6 265586, f 6 279634, f 6 293806, f 6 308091, f 6 322478, f 6 336959, f 6 351524, f 6 366164,
  f 6 380871, f 6 395636, f 6 410453, f 6 425312, f 6 440207, f 6 455131, f 6 470076, f 6 485034, f 1 5,
  f 6 514966, f 6 529924, f 6 544869, f 6 559793, f 6 574688, f 6 589547, f 6 604364, f 6 619129,
  f 6 633836, f 6 648476, f 6 663041, f 6 677522, f 6 691909, f 6 706194, f 6 720366, f 6 734414,
  f 6 748328, f 6 762094, f 6 775701, f 6 789135, f 6 802381, f 6 815424, f 6 828247, f 6 840831,
  f 6 853158, f 6 865207, f 6 876954, f 6 888374, f 6 899443, f 6 910129, f 6 920402, f 6 930227,
  f 6 939569, f 6 948387, f 6 956639, f 6 964282, f 6 971269, f 6 977554, f 6 983091, f 6 987841,
  f 6 991772, f 6 994871, f 6 997151, f 6 998666, f 6 999523, f 6 999895, f 6 999992, n 1, n 1, n 1]

/-- Row 47 of `e_split.table`. -/
def split47 : List Tok := [
  n 0, x 5 120866 7, x 5 213174 5, f 7 2055, f 9 801188, f 8 203775, f 8 406564, f 8 695783, f 7 107306,
  f 7 153642, f 6 20818, f 6 27041, f 7 339781, f 7 415738, f 7 497747, f 7 585305, f 7 677945, f 7 775236,
  f 7 876786, f 7 982236, f 6 109126, f 6 120356, f 6 131887, f 6 143695, f 6 155756, f 6 168051,
  f 5 18056, f 6 193267, f 6 206157, f 6 219213, f 6 232424, f 6 245776, f 6 259259, f 6 272861,
  f 6 286572, f 6 300383, f 6 314286, f 6 328271, f 6 342332, f 5 35646, f 6 370648, f 6 384889,
  f 6 399178, f 6 413507, f 6 427871, f 6 442263, f 6 456677, f 6 471109, f 6 485552, f 1 5, f 6 514448,
  f 6 528891, f 6 543323, f 6 557737, f 6 572129, f 6 586493, f 6 600822, f 6 615111, f 6 629352,
  f 5 64354, f 6 657668, f 6 671729, f 6 685714, f 6 699617, f 6 713428, f 6 727139, f 6 740741,
  f 6 754224, f 6 767576, f 6 780787, f 6 793843, f 6 806733, f 5 81944, f 6 831949, f 6 844244,
  f 6 856305, f 6 868113, f 6 879644, f 6 890874, f 6 901776, f 6 912321, f 6 922476, f 6 932206,
  f 6 941469, f 6 950225, f 6 958426, f 6 966022, f 6 972959, f 6 979182, f 6 984636, f 6 989269,
  f 6 993042, f 6 995934, f 6 997962, f 6 999199, f 6 999795, f 6 999979, n 1, n 1, n 1]

/-- Row 48 of `e_split.table`. -/
def split48 : List Tok := [
  n 0, x 5 519466 7, x 5 491923 5, f 9 372612, f 8 127405, f 8 297665, f 8 559254, f 8 914963, f 7 136242,
  f 7 189648, f 7 251075, f 7 319851, f 7 395313, f 7 476839, f 7 563854, f 7 655835, f 7 752313,
  f 7 852863, f 7 957107, f 6 106471, f 6 117535, f 6 128878, f 6 140474, f 6 152301, f 6 164339,
  f 6 176571, f 6 188979, f 5 20155, f 6 214269, f 6 227125, f 6 240106, f 6 253201, f 6 266401,
  f 6 279696, f 5 29308, f 6 306544, f 5 32008, f 6 333682, f 6 347344, f 6 361059, f 6 374822, f 6 388628,
  f 5 40247, f 6 416345, f 6 430246, f 6 444171, f 6 458112, f 6 472068, f 6 486032, f 1 5, f 6 513968,
  f 6 527932, f 6 541888, f 6 555829, f 6 569754, f 6 583655, f 5 59753, f 6 611372, f 6 625178,
  f 6 638941, f 6 652656, f 6 666318, f 5 67992, f 6 693456, f 5 70692, f 6 720304, f 6 733599, f 6 746799,
  f 6 759894, f 6 772875, f 6 785731, f 5 79845, f 6 811021, f 6 823429, f 6 835661, f 6 847699,
  f 6 859526, f 6 871122, f 6 882465, f 6 893529, f 6 904289, f 6 914714, f 6 924769, f 6 934416,
  f 6 943615, f 6 952316, f 6 960469, f 6 968015, f 6 974892, f 6 981035, f 6 986376, f 5 99085,
  f 6 994407, f 6 997023, f 6 998726, f 6 999627, f 6 999951, f 6 999999, n 1, n 1]

/-- Row 49 of `e_split.table`. -/
def split49 : List Tok := [
  x 1 21 15, x 5 187821 6, f 9 103006, f 8 63316, f 8 192884, f 8 418022, f 7 74457, f 7 117031,
  f 7 168895, f 7 229257, f 7 297288, f 7 372195, f 7 453245, f 7 539777, f 7 631204, f 7 727005,
  f 7 826723, f 7 929953, f 6 103634, f 6 114557, f 6 125737, f 6 137148, f 5 14877, f 6 160583,
  f 6 172569, f 6 184712, f 6 196999, f 6 209418, f 6 221956, f 6 234603, f 6 247351, f 6 260189,
  f 6 273111, f 6 286108, f 6 299175, f 6 312305, f 6 325491, f 5 33873, f 6 352015, f 6 365342,
  f 6 378706, f 6 392103, f 6 405529, f 5 41898, f 6 432451, f 5 44594, f 6 459443, f 6 472957, f 6 486477,
  f 1 5, f 6 513523, f 6 527043, f 6 540557, f 5 55406, f 6 567549, f 5 58102, f 6 594471, f 6 607897,
  f 6 621294, f 6 634658, f 6 647985, f 5 66127, f 6 674509, f 6 687695, f 6 700825, f 6 713892,
  f 6 726889, f 6 739811, f 6 752649, f 6 765397, f 6 778044, f 6 790582, f 6 803001, f 6 815288,
  f 6 827431, f 6 839417, f 5 85123, f 6 862852, f 6 874263, f 6 885443, f 6 896366, f 6 907005,
  f 6 917328, f 6 927299, f 5 93688, f 6 946022, f 6 954676, f 5 96278, f 6 970271, f 6 977074, f 5 98311,
  f 6 988297, f 6 992554, f 5 99582, f 6 998071, f 6 999367, f 6 999897, f 6 999998, n 1, n 1]

/-- Row 50 of `e_split.table`. -/
def split50 : List Tok := [
  x 2 762 14, x 5 582937 6, f 9 198185, f 8 101604, f 7 27958, f 8 566872, f 8 962918, f 7 146044,
  f 7 204962, f 7 272025, f 7 346267, f 7 426817, f 7 512907, f 7 603867, f 7 699118, f 7 798159,
  f 7 900556, f 6 100593, f 6 111397, f 6 122437, f 5 13369, f 6 145134, f 6 156749, f 6 168519,
  f 6 180428, f 6 192464, f 6 204615, f 5 21687, f 5 22922, f 6 241655, f 6 254169, f 6 266754, f 6 279404,
  f 6 292113, f 6 304875, f 6 317685, f 5 33054, f 6 343434, f 6 356364, f 6 369326, f 6 382316,
  f 6 395331, f 6 408369, f 6 421425, f 6 434497, f 6 447582, f 6 460677, f 6 473781, f 6 486889, f 1 5,
  f 6 513111, f 6 526219, f 6 539323, f 6 552418, f 6 565503, f 6 578575, f 6 591631, f 6 604669,
  f 6 617684, f 6 630674, f 6 643636, f 6 656566, f 5 66946, f 6 682315, f 6 695125, f 6 707887,
  f 6 720596, f 6 733246, f 6 745831, f 6 758345, f 5 77078, f 5 78313, f 6 795385, f 6 807536, f 6 819572,
  f 6 831481, f 6 843251, f 6 854866, f 5 86631, f 6 877563, f 6 888603, f 6 899407, f 6 909944,
  f 6 920184, f 6 930088, f 6 939613, f 6 948709, f 6 957318, f 6 965373, f 6 972797, f 6 979504,
  f 6 985396, f 6 990371, f 6 994331, f 6 997204, f 6 998984, f 6 999802, f 6 999994, n 1, n 1]

/-- Row 51 of `e_split.table`. -/
def split51 : List Tok := [
  x 4 18031 12, x 3 1581 5, f 9 354262, f 8 155021, f 8 389915, f 8 745212, f 7 121352, f 7 178285,
  f 7 244047, f 7 317445, f 7 397428, f 7 483088, f 7 573652, f 7 668466, f 7 766975, f 6 86871,
  f 7 973271, f 6 108032, f 6 118955, f 6 130074, f 6 141364, f 6 152808, f 5 16439, f 6 176094,
  f 6 187909, f 6 199823, f 6 211826, f 5 22391, f 6 236067, f 6 248291, f 6 260574, f 6 272911,
  f 6 285297, f 6 297727, f 6 310198, f 6 322705, f 6 335245, f 6 347814, f 5 36041, f 5 37303, f 5 38567,
  f 6 398329, f 6 411004, f 6 423692, f 6 436393, f 6 449103, f 6 461821, f 6 474544, f 6 487271, f 1 5,
  f 6 512729, f 6 525456, f 6 538179, f 6 550897, f 6 563607, f 6 576308, f 6 588996, f 6 601671,
  f 5 61433, f 5 62697, f 5 63959, f 6 652186, f 6 664755, f 6 677295, f 6 689802, f 6 702273, f 6 714703,
  f 6 727089, f 6 739426, f 6 751709, f 6 763933, f 5 77609, f 6 788174, f 6 800177, f 6 812091,
  f 6 823906, f 5 83561, f 6 847192, f 6 858636, f 6 869926, f 6 881045, f 6 891968, f 6 902673,
  f 6 913129, f 6 923302, f 6 933153, f 6 942635, f 6 951691, f 6 960257, f 6 968255, f 6 975595,
  f 6 982171, f 6 987865, f 6 992548, f 6 996101, f 5 99845, f 6 999646, f 6 999984, n 1, n 1]

/-- Row 52 of `e_split.table`. -/
def split52 : List Tok := [
  x 5 294709 11, x 5 380644 5, f 9 594002, f 8 226223, f 8 525519, f 8 952979, f 7 149454, f 7 213417,
  f 7 285691, f 7 364978, f 7 450183, f 7 540399, f 7 634875, f 7 732988, f 7 834224, f 7 938151,
  f 6 104441, f 5 11527, f 6 126276, f 6 137437, f 6 148735, f 6 160154, f 5 17168, f 6 183301, f 6 195006,
  f 6 206787, f 6 218636, f 6 230546, f 6 242509, f 6 254522, f 6 266579, f 6 278675, f 6 290807,
  f 6 302971, f 6 315164, f 6 327383, f 6 339626, f 6 351889, f 6 364171, f 5 37647, f 6 388784, f 5 40111,
  f 6 413448, f 6 425795, f 5 43815, f 6 450512, f 5 46288, f 6 475251, f 6 487625, f 1 5, f 6 512375,
  f 6 524749, f 5 53712, f 6 549488, f 5 56185, f 6 574205, f 6 586552, f 5 59889, f 6 611216, f 5 62353,
  f 6 635829, f 6 648111, f 6 660374, f 6 672617, f 6 684836, f 6 697029, f 6 709193, f 6 721325,
  f 6 733421, f 6 745478, f 6 757491, f 6 769454, f 6 781364, f 6 793213, f 6 804994, f 6 816699,
  f 5 82832, f 6 839846, f 6 851265, f 6 862563, f 6 873724, f 5 88473, f 6 895559, f 6 906185, f 6 916578,
  f 6 926701, f 6 936513, f 5 94596, f 6 954982, f 6 963502, f 6 971431, f 6 978658, f 6 985055, f 5 99047,
  f 6 994745, f 6 997738, f 6 999406, f 6 999962, n 1, n 1]

/-- Row 53 of `e_split.table`. -/
def split53 : List Tok := [
  x 5 347153 10, x 5 824954 5, f 9 941921, f 8 317416, f 8 687146, f 7 118912, f 7 180327, f 7 251039,
  f 7 329406, f 7 414078, f 7 503963, f 7 598182, f 7 696025, f 7 796917, f 7 900389, f 6 100606,
  f 5 11136, f 6 122276, f 5 13333, f 6 144506, f 6 155787, f 6 167159, f 6 178612, f 6 190136, f 6 201722,
  f 6 213363, f 6 225053, f 6 236786, f 6 248558, f 6 260364, f 6 272201, f 6 284064, f 6 295953,
  f 6 307862, f 6 319792, f 6 331739, f 6 343701, f 6 355677, f 6 367665, f 6 379664, f 6 391672,
  f 6 403689, f 6 415713, f 6 427743, f 6 439778, f 6 451818, f 5 46386, f 6 475906, f 6 487952, f 1 5,
  f 6 512048, f 6 524094, f 5 53614, f 6 548182, f 6 560222, f 6 572257, f 6 584287, f 6 596311,
  f 6 608328, f 6 620336, f 6 632335, f 6 644323, f 6 656299, f 6 668261, f 6 680208, f 6 692138,
  f 6 704047, f 6 715936, f 6 727799, f 6 739636, f 6 751442, f 6 763214, f 6 774947, f 6 786637,
  f 6 798278, f 6 809864, f 6 821388, f 6 832841, f 6 844213, f 6 855494, f 5 86667, f 6 877724, f 5 88864,
  f 6 899394, f 6 909961, f 6 920308, f 6 930397, f 6 940182, f 6 949604, f 6 958592, f 6 967059,
  f 6 974896, f 6 981967, f 6 988109, f 6 993129, f 6 996826, f 6 999058, f 6 999918, n 1, n 1]

/-- Row 54 of `e_split.table`. -/
def split54 : List Tok := [
  x 5 306154 9, f 9 162935, f 7 14223, f 8 430184, f 8 874648, f 7 145172, f 7 213636, f 7 290715,
  f 7 374691, f 7 464217, f 7 558236, f 7 655921, f 7 756618, f 7 859807, f 7 965071, f 6 107207,
  f 6 118054, f 6 129024, f 4 1401, f 6 151266, f 6 162509, f 6 173819, f 6 185185, f 6 196602, f 6 208061,
  f 6 219558, f 6 231087, f 6 242645, f 6 254228, f 6 265832, f 6 277456, f 6 289097, f 6 300752,
  f 5 31242, f 4 3241, f 5 33579, f 6 347489, f 6 359195, f 6 370908, f 6 382627, f 6 394351, f 5 40608,
  f 6 417812, f 6 429548, f 6 441286, f 6 453026, f 6 464768, f 6 476511, f 6 488255, f 1 5, f 6 511745,
  f 6 523489, f 6 535232, f 6 546974, f 6 558714, f 6 570452, f 6 582188, f 5 59392, f 6 605649,
  f 6 617373, f 6 629092, f 6 640805, f 6 652511, f 5 66421, f 4 6759, f 5 68758, f 6 699248, f 6 710903,
  f 6 722544, f 6 734168, f 6 745772, f 6 757355, f 6 768913, f 6 780442, f 6 791939, f 6 803398,
  f 6 814815, f 6 826181, f 6 837491, f 6 848734, f 4 8599, f 6 870976, f 6 881946, f 6 892793, f 6 903493,
  f 6 914019, f 6 924338, f 6 934408, f 6 944176, f 6 953578, f 6 962531, f 6 970929, f 6 978636,
  f 6 985483, f 6 991254, f 6 995698, f 6 998578, f 6 999837, n 1, n 1]

/-- Row 55 of `e_split.table`. -/
def split55 : List Tok := [
  x 4 20906 8, f 9 296489, f 8 205687, f 8 565353, f 7 108701, f 7 173816, f 4 249, f 7 331989, f 7 421056,
  f 7 514896, f 7 612517, f 7 713159, f 7 816234, f 7 921283, f 6 102794, f 6 113593, f 4 1245, f 6 135498,
  f 6 146572, f 6 157708, f 6 168897, f 6 180131, f 6 191401, f 6 202703, f 6 214031, f 6 225382,
  f 6 236751, f 6 248136, f 6 259534, f 6 270944, f 6 282363, f 5 29379, f 6 305224, f 6 316664,
  f 6 328108, f 6 339556, f 6 351007, f 6 362461, f 6 373917, f 6 385375, f 6 396834, f 6 408295,
  f 6 419756, f 6 431218, f 6 442681, f 6 454145, f 6 465608, f 6 477072, f 6 488536, f 1 5, f 6 511464,
  f 6 522928, f 6 534392, f 6 545855, f 6 557319, f 6 568782, f 6 580244, f 6 591705, f 6 603166,
  f 6 614625, f 6 626083, f 6 637539, f 6 648993, f 6 660444, f 6 671892, f 6 683336, f 6 694776,
  f 5 70621, f 6 717637, f 6 729056, f 6 740466, f 6 751864, f 6 763249, f 6 774618, f 6 785969,
  f 6 797297, f 6 808599, f 6 819869, f 6 831103, f 6 842292, f 6 853428, f 6 864502, f 4 8755, f 6 886407,
  f 6 897206, f 6 907872, f 6 918377, f 6 928684, f 6 938748, f 5 94851, f 6 957894, f 6 966801, f 4 9751,
  f 6 982618, f 5 98913, f 6 994346, f 6 997943, f 6 999704, n 1, n 1]

/-- Row 56 of `e_split.table`. -/
def split56 : List Tok := [
  x 5 113877 7, f 9 501901, f 8 286237, f 8 722904, f 7 132242, f 7 204522, f 6 28601, f 7 374404,
  f 7 468028, f 7 565653, f 7 666369, f 7 769496, f 7 874516, f 7 981035, f 6 108874, f 5 11974,
  f 6 130682, f 6 141685, f 6 152737, f 6 163828, f 5 17495, f 6 186098, f 6 197265, f 6 208448,
  f 6 219643, f 6 230847, f 6 242058, f 6 253275, f 6 264494, f 6 275716, f 5 28694, f 6 298164,
  f 6 309388, f 6 320611, f 6 331833, f 6 343054, f 6 354273, f 6 365491, f 6 376707, f 6 387922,
  f 6 399135, f 6 410346, f 6 421556, f 6 432765, f 6 443973, f 6 455179, f 6 466385, f 6 477591,
  f 6 488795, f 1 5, f 6 511205, f 6 522409, f 6 533615, f 6 544821, f 6 556027, f 6 567235, f 6 578444,
  f 6 589654, f 6 600865, f 6 612078, f 6 623293, f 6 634509, f 6 645727, f 6 656946, f 6 668167,
  f 6 679389, f 6 690612, f 6 701836, f 5 71306, f 6 724284, f 6 735506, f 6 746725, f 6 757942,
  f 6 769153, f 6 780357, f 6 791552, f 6 802735, f 6 813902, f 5 82505, f 6 836172, f 6 847263,
  f 6 858315, f 6 869318, f 5 88026, f 6 891126, f 6 901897, f 6 912548, f 5 92305, f 6 933363, f 6 943435,
  f 6 953197, f 5 96256, f 6 971399, f 6 979548, f 6 986776, f 6 992771, f 6 997138, f 6 999498, n 1, n 1]

/-- Row 57 of `e_split.table`. -/
def split57 : List Tok := [
  x 5 507993 7, f 9 797261, f 7 38485, f 8 901934, f 7 157833, f 7 236924, f 7 324236, f 6 41751,
  f 7 515161, f 7 616063, f 7 719401, f 7 824582, f 6 93116, f 5 10388, f 6 114726, f 6 125633, f 6 136587,
  f 6 147576, f 6 158591, f 6 169624, f 6 180671, f 6 191725, f 6 202784, f 6 213846, f 6 224907,
  f 6 235967, f 6 247024, f 6 258076, f 6 269124, f 6 280166, f 6 291203, f 6 302234, f 6 313259,
  f 6 324279, f 6 335292, f 4 3463, f 6 357303, f 4 3683, f 6 379293, f 6 390281, f 6 401265, f 6 412245,
  f 6 423222, f 6 434196, f 6 445167, f 6 456137, f 6 467104, f 5 47807, f 6 489035, f 1 5, f 6 510965,
  f 5 52193, f 6 532896, f 6 543863, f 6 554833, f 6 565804, f 6 576778, f 6 587755, f 6 598735,
  f 6 609719, f 6 620707, f 4 6317, f 6 642697, f 4 6537, f 6 664708, f 6 675721, f 6 686741, f 6 697766,
  f 6 708797, f 6 719834, f 6 730876, f 6 741924, f 6 752976, f 6 764033, f 6 775093, f 6 786154,
  f 6 797216, f 6 808275, f 6 819329, f 6 830376, f 6 841409, f 6 852424, f 6 863413, f 6 874367,
  f 6 885274, f 5 89612, f 6 906884, f 6 917542, f 5 92806, f 6 938394, f 6 948484, f 6 958249, f 6 967576,
  f 6 976308, f 6 984217, f 6 990981, f 6 996151, f 6 999203, f 6 999999, n 1]

/-- Row 58 of `e_split.table`. -/
def split58 : List Tok := [
  x 5 189949 6, f 8 119769, f 8 501661, f 7 110069, f 7 185155, f 7 270622, f 7 363244, f 7 460867,
  f 7 562034, f 7 665737, f 7 771265, f 7 878112, f 7 985906, f 6 109438, f 6 120332, f 6 131259,
  f 6 142207, f 6 153167, f 6 164132, f 6 175098, f 6 186061, f 6 197018, f 6 207968, f 6 218907,
  f 6 229837, f 6 240755, f 6 251661, f 6 262556, f 6 273439, f 5 28431, f 5 29517, f 6 306018, f 6 316856,
  f 6 327684, f 6 338502, f 6 349311, f 6 360111, f 6 370903, f 6 381687, f 6 392465, f 6 403237,
  f 6 414002, f 6 424763, f 6 435519, f 6 446272, f 6 457021, f 6 467768, f 6 478513, f 6 489257, f 1 5,
  f 6 510743, f 6 521487, f 6 532232, f 6 542979, f 6 553728, f 6 564481, f 6 575237, f 6 585998,
  f 6 596763, f 6 607535, f 6 618313, f 6 629097, f 6 639889, f 6 650689, f 6 661498, f 6 672316,
  f 6 683144, f 6 693982, f 5 70483, f 5 71569, f 6 726561, f 6 737444, f 6 748339, f 6 759245, f 6 770163,
  f 6 781093, f 6 792032, f 6 802982, f 6 813939, f 6 824902, f 6 835868, f 6 846833, f 6 857793,
  f 6 868741, f 6 879668, f 6 890562, f 6 901409, f 6 912189, f 6 922873, f 6 933426, f 6 943797,
  f 6 953913, f 6 963676, f 6 972938, f 6 981484, f 6 988993, f 6 994983, f 6 998802, f 6 999998, n 1]

/-- Row 59 of `e_split.table`. -/
def split59 : List Tok := [
  x 5 607722 6, f 8 171376, f 8 635966, f 7 131668, f 7 213849, f 5 3052, f 7 402602, f 7 504057,
  f 7 608258, f 7 714324, f 7 821653, f 7 929824, f 6 103854, f 6 114758, f 5 12568, f 6 136608,
  f 6 147535, f 6 158453, f 5 16936, f 6 180253, f 6 191128, f 6 201985, f 6 212824, f 6 223643,
  f 6 234442, f 6 245223, f 6 255984, f 6 266728, f 6 277453, f 6 288162, f 6 298854, f 6 309531,
  f 6 320193, f 6 330841, f 6 341476, f 6 352099, f 5 36271, f 6 373311, f 6 383902, f 6 394485,
  f 6 405059, f 6 415626, f 6 426187, f 6 436742, f 6 447292, f 6 457838, f 6 468382, f 6 478922,
  f 6 489462, f 1 5, f 6 510538, f 6 521078, f 6 531618, f 6 542162, f 6 552708, f 6 563258, f 6 573813,
  f 6 584374, f 6 594941, f 6 605515, f 6 616098, f 6 626689, f 5 63729, f 6 647901, f 6 658524,
  f 6 669159, f 6 679807, f 6 690469, f 6 701146, f 6 711838, f 6 722547, f 6 733272, f 6 744016,
  f 6 754777, f 6 765558, f 6 776357, f 6 787176, f 6 798015, f 6 808872, f 6 819747, f 5 83064,
  f 6 841547, f 6 852465, f 6 863392, f 5 87432, f 6 885242, f 6 896146, f 6 907018, f 6 917835,
  f 6 928568, f 6 939174, f 6 949594, f 5 95974, f 5 96948, f 6 978615, f 6 986833, f 5 99364, f 6 998286,
  f 6 999994, n 1]

/-- Row 60 of `e_split.table`. -/
def split60 : List Tok := [
  x 5 169416 5, f 7 23511, f 8 786367, f 7 154696, f 7 243533, f 7 340247, f 7 441903, f 7 546698,
  f 7 653486, f 7 761521, f 7 870305, f 7 979501, f 6 108888, f 6 119828, f 6 130759, f 6 141674,
  f 6 152568, f 6 163436, f 6 174278, f 6 185092, f 6 195877, f 6 206634, f 6 217362, f 6 228063,
  f 6 238737, f 6 249384, f 6 260007, f 6 270607, f 6 281183, f 6 291738, f 6 302272, f 6 312788,
  f 6 323285, f 6 333765, f 6 344229, f 6 354679, f 6 365114, f 6 375538, f 6 385949, f 6 396351,
  f 6 406742, f 6 417125, f 6 427501, f 5 43787, f 6 448234, f 6 458592, f 6 468948, f 4 4793, f 5 48965,
  f 1 5, f 5 51035, f 4 5207, f 6 531052, f 6 541408, f 6 551766, f 5 56213, f 6 572499, f 6 582875,
  f 6 593258, f 6 603649, f 6 614051, f 6 624462, f 6 634886, f 6 645321, f 6 655771, f 6 666235,
  f 6 676715, f 6 687212, f 6 697728, f 6 708262, f 6 718817, f 6 729393, f 6 739993, f 6 750616,
  f 6 761263, f 6 771937, f 6 782638, f 6 793366, f 6 804123, f 6 814908, f 6 825722, f 6 836564,
  f 6 847432, f 6 858326, f 6 869241, f 6 880172, f 6 891112, f 5 90205, f 5 91297, f 6 923848, f 6 934651,
  f 5 94533, f 5 95581, f 6 965975, f 6 975647, f 5 98453, f 6 992136, f 6 997649, f 6 999983, n 1]

/-- Row 61 of `e_split.table`. -/
def split61 : List Tok := [
  x 5 418179 5, f 8 311144, f 8 951032, f 7 178839, f 7 273838, f 7 375382, f 7 480787, f 7 588461,
  f 6 69743, f 7 807081, f 7 917017, f 6 102698, f 6 113681, f 6 124639, f 6 135565, f 6 146455,
  f 6 157307, f 6 168119, f 6 178891, f 6 189623, f 6 200317, f 6 210974, f 6 221594, f 5 23218,
  f 6 242732, f 6 253253, f 6 263744, f 6 274206, f 6 284642, f 6 295052, f 6 305438, f 6 315802,
  f 6 326145, f 6 336468, f 6 346773, f 6 357062, f 6 367335, f 6 377593, f 6 387839, f 6 398072,
  f 6 408295, f 6 418508, f 6 428713, f 5 43891, f 6 449101, f 6 459287, f 6 469469, f 6 479648,
  f 6 489824, f 1 5, f 6 510176, f 6 520352, f 6 530531, f 6 540713, f 6 550899, f 5 56109, f 6 571287,
  f 6 581492, f 6 591705, f 6 601928, f 6 612161, f 6 622407, f 6 632665, f 6 642938, f 6 653227,
  f 6 663532, f 6 673855, f 6 684198, f 6 694562, f 6 704948, f 6 715358, f 6 725794, f 6 736256,
  f 6 746747, f 6 757268, f 5 76782, f 6 778406, f 6 789026, f 6 799683, f 6 810377, f 6 821109,
  f 6 831881, f 6 842693, f 6 853545, f 6 864435, f 6 875361, f 6 886319, f 6 897302, f 6 908298,
  f 6 919292, f 6 930257, f 6 941154, f 6 951921, f 6 962462, f 6 972616, f 6 982116, f 5 99049,
  f 6 996889, f 6 999958, n 1]

/-- Row 62 of `e_split.table`. -/
def split62 : List Tok := [
  x 4 92704 5, f 8 399449, f 7 112804, f 7 203804, f 7 304437, f 7 410287, f 7 518959, f 6 62909,
  f 7 739876, f 7 850831, f 7 961658, f 6 107217, f 6 118227, f 6 129188, f 6 140097, f 6 150953,
  f 6 161756, f 6 172507, f 6 183206, f 6 193857, f 5 20446, f 6 215018, f 6 225534, f 6 236009,
  f 6 246445, f 6 256844, f 5 26721, f 6 277543, f 6 287845, f 6 298119, f 6 308367, f 6 318589,
  f 6 328788, f 6 338966, f 6 349123, f 6 359262, f 6 369383, f 6 379489, f 6 389581, f 6 399659,
  f 6 409726, f 6 419783, f 5 42983, f 6 439869, f 6 449901, f 6 459928, f 5 46995, f 6 479968, f 6 489985,
  f 1 5, f 6 510015, f 6 520032, f 5 53005, f 6 540072, f 6 550099, f 6 560131, f 5 57017, f 6 580217,
  f 6 590274, f 6 600341, f 6 610419, f 6 620511, f 6 630617, f 6 640738, f 6 650877, f 6 661034,
  f 6 671212, f 6 681411, f 6 691633, f 6 701881, f 6 712155, f 6 722457, f 5 73279, f 6 743156,
  f 6 753555, f 6 763991, f 6 774466, f 6 784982, f 5 79554, f 6 806143, f 6 816794, f 6 827493,
  f 6 838244, f 6 849047, f 6 859903, f 6 870812, f 6 881773, f 6 892783, f 6 903834, f 6 914917,
  f 6 926012, f 6 937091, f 6 948104, f 6 958971, f 6 969556, f 5 97962, f 5 98872, f 6 996006, f 6 999907,
  n 1]

/-- Row 63 of `e_split.table`. -/
def split63 : List Tok := [
  f 9 186899, f 8 500001, f 7 131565, f 7 229345, f 7 335071, f 7 444721, f 7 556214, f 7 668417,
  f 7 780695, f 7 892683, f 6 100417, f 6 111506, f 6 122527, f 6 133479, f 6 144362, f 6 155177,
  f 6 165927, f 6 176613, f 6 187239, f 6 197807, f 6 208321, f 6 218783, f 6 229197, f 6 239565,
  f 5 24989, f 6 260175, f 6 270422, f 6 280633, f 6 290811, f 6 300957, f 6 311075, f 6 321165, f 5 33123,
  f 6 341272, f 6 351292, f 6 361292, f 6 371273, f 6 381238, f 6 391187, f 6 401123, f 6 411045,
  f 6 420957, f 6 430859, f 6 440752, f 6 450637, f 6 460517, f 6 470392, f 6 480263, f 6 490132, f 1 5,
  f 6 509868, f 6 519737, f 6 529608, f 6 539483, f 6 549363, f 6 559248, f 6 569141, f 6 579043,
  f 6 588955, f 6 598877, f 6 608813, f 6 618762, f 6 628727, f 6 638708, f 6 648708, f 6 658728,
  f 5 66877, f 6 678835, f 6 688925, f 6 699043, f 6 709189, f 6 719367, f 6 729578, f 6 739825, f 5 75011,
  f 6 760435, f 6 770803, f 6 781217, f 6 791679, f 6 802193, f 6 812761, f 6 823387, f 6 834073,
  f 6 844823, f 6 855638, f 6 866521, f 6 877473, f 6 888494, f 6 899583, f 6 910732, f 6 921931,
  f 6 933158, f 6 944379, f 6 955528, f 6 966493, f 6 977066, f 6 986844, f 3 995, f 6 999813, n 1]

/-- Row 64 of `e_split.table`. -/
def split64 : List Tok := [
  f 9 346498, f 8 612906, f 7 151254, f 6 25528, f 7 365563, f 7 478531, f 7 592433, f 7 706363,
  f 7 819845, f 7 932628, f 6 104459, f 6 115568, f 6 126589, f 6 137522, f 6 148372, f 6 159141,
  f 6 169833, f 6 180453, f 6 191005, f 6 201492, f 6 211918, f 6 222288, f 6 232604, f 5 24287,
  f 6 253089, f 6 263265, f 4 2734, f 6 283496, f 6 293557, f 6 303584, f 5 31358, f 6 323547, f 6 333487,
  f 6 343403, f 6 353295, f 6 363167, f 6 373018, f 6 382852, f 5 39267, f 6 402472, f 6 412262, f 5 42204,
  f 6 431807, f 6 441566, f 6 451316, f 6 461061, f 4 4708, f 6 480535, f 6 490268, f 1 5, f 6 509732,
  f 6 519465, f 4 5292, f 6 538939, f 6 548684, f 6 558434, f 6 568193, f 5 57796, f 6 587738, f 6 597528,
  f 5 60733, f 6 617148, f 6 626982, f 6 636833, f 6 646705, f 6 656597, f 6 666513, f 6 676453, f 5 68642,
  f 6 696416, f 6 706443, f 6 716504, f 4 7266, f 6 736735, f 6 746911, f 5 75713, f 6 767396, f 6 777712,
  f 6 788082, f 6 798508, f 6 808995, f 6 819547, f 6 830167, f 6 840859, f 6 851628, f 6 862478,
  f 6 873411, f 6 884432, f 6 895541, f 6 906737, f 6 918016, f 6 929364, f 6 940757, f 6 952147,
  f 6 963444, f 6 974472, f 6 984875, f 6 993871, f 6 999654, n 1]

/-- Row 65 of `e_split.table`. -/
def split65 : List Tok := [
  f 9 596519, f 8 738404, f 7 171779, f 7 281492, f 7 395807, f 7 511645, f 6 62758, f 7 742927,
  f 7 857359, f 7 970733, f 4 1083, f 6 119416, f 6 130426, f 6 141333, f 6 152143, f 6 162862, f 6 173495,
  f 6 184048, f 6 194525, f 6 204932, f 6 215273, f 6 225553, f 6 235775, f 6 245944, f 6 256063,
  f 6 266136, f 6 276164, f 6 286153, f 6 296103, f 6 306018, f 6 315901, f 6 325753, f 6 335577,
  f 6 345375, f 6 355149, f 4 3649, f 6 374632, f 6 384344, f 5 39404, f 5 40372, f 6 413386, f 5 42304,
  f 6 432683, f 6 442317, f 6 451943, f 6 461562, f 6 471176, f 6 480786, f 6 490394, f 1 5, f 6 509606,
  f 6 519214, f 6 528824, f 6 538438, f 6 548057, f 6 557683, f 6 567317, f 5 57696, f 6 586614, f 5 59628,
  f 5 60596, f 6 615656, f 6 625368, f 4 6351, f 6 644851, f 6 654625, f 6 664423, f 6 674247, f 6 684099,
  f 6 693982, f 6 703897, f 6 713847, f 6 723836, f 6 733864, f 6 743937, f 6 754056, f 6 764225,
  f 6 774447, f 6 784727, f 6 795068, f 6 805475, f 6 815952, f 6 826505, f 6 837138, f 6 847857,
  f 6 858667, f 6 869574, f 6 880584, f 4 8917, f 6 902927, f 6 914264, f 6 925707, f 6 937242, f 6 948835,
  f 6 960419, f 6 971851, f 6 982822, f 6 992616, f 6 999403, n 1]

/-- Row 66 of `e_split.table`. -/
def split66 : List Tok := [
  f 9 961896, f 8 876736, f 7 193077, f 6 30791, f 7 425758, f 7 544048, f 7 661676, f 7 778163,
  f 7 893323, f 6 100711, f 6 111954, f 6 123066, f 6 134056, f 5 14493, f 6 155696, f 6 166362,
  f 6 176934, f 6 187419, f 6 197823, f 6 208151, f 6 218409, f 6 228602, f 6 238735, f 6 248811,
  f 6 258834, f 6 268809, f 6 278737, f 6 288624, f 6 298471, f 6 308281, f 6 318057, f 6 327802,
  f 6 337517, f 6 347205, f 6 356868, f 6 366508, f 6 376127, f 6 385727, f 6 395309, f 6 404876,
  f 6 414428, f 6 423967, f 6 433495, f 6 443014, f 6 452524, f 6 462027, f 6 471525, f 6 481019,
  f 5 49051, f 1 5, f 5 50949, f 6 518981, f 6 528475, f 6 537973, f 6 547476, f 6 556986, f 6 566505,
  f 6 576033, f 6 585572, f 6 595124, f 6 604691, f 6 614273, f 6 623873, f 6 633492, f 6 643132,
  f 6 652795, f 6 662483, f 6 672198, f 6 681943, f 6 691719, f 6 701529, f 6 711376, f 6 721263,
  f 6 731191, f 6 741166, f 6 751189, f 6 761265, f 6 771398, f 6 781591, f 6 791849, f 6 802177,
  f 6 812581, f 6 823066, f 6 833638, f 6 844304, f 5 85507, f 6 865944, f 6 876934, f 6 888046,
  f 6 899289, f 6 910668, f 6 922184, f 6 933832, f 6 945595, f 6 957424, f 6 969209, f 6 980692,
  f 6 991233, f 6 999038, n 1]

/-- Row 67 of `e_split.table`. -/
def split67 : List Tok := [
  f 8 146395, f 7 102794, f 7 215092, f 7 334485, f 7 455394, f 7 575754, f 7 694769, f 7 812153,
  f 7 927844, f 6 104188, f 6 115435, f 6 126535, f 6 137497, f 6 148333, f 6 159052, f 6 169662,
  f 6 180171, f 6 190588, f 6 200919, f 6 211171, f 6 221349, f 6 231458, f 6 241504, f 6 251491,
  f 6 261424, f 6 271305, f 6 281139, f 6 290929, f 6 300679, f 5 31039, f 6 320066, f 5 32971, f 6 339323,
  f 6 348908, f 6 358468, f 6 368004, f 6 377519, f 6 387013, f 5 39649, f 5 40595, f 6 415395, f 6 424828,
  f 6 434249, f 5 44366, f 6 453063, f 6 462459, f 6 471849, f 6 481235, f 6 490618, f 1 5, f 6 509382,
  f 6 518765, f 6 528151, f 6 537541, f 6 546937, f 5 55634, f 6 565751, f 6 575172, f 6 584605, f 5 59405,
  f 5 60351, f 6 612987, f 6 622481, f 6 631996, f 6 641532, f 6 651092, f 6 660677, f 5 67029, f 6 679934,
  f 5 68961, f 6 699321, f 6 709071, f 6 718861, f 6 728695, f 6 738576, f 6 748509, f 6 758496,
  f 6 768542, f 6 778651, f 6 788829, f 6 799081, f 6 809412, f 6 819829, f 6 830338, f 6 840948,
  f 6 851667, f 6 862503, f 6 873465, f 6 884565, f 6 895812, f 6 907216, f 6 918785, f 6 930523,
  f 6 942425, f 6 954461, f 6 966552, f 6 978491, f 6 989721, f 6 998536, n 1]

/-- Row 68 of `e_split.table`. -/
def split68 : List Tok := [
  f 8 211715, f 7 119162, f 7 237752, f 7 361161, f 7 484694, f 7 606778, f 7 726906, f 6 84497,
  f 7 961023, f 6 107518, f 6 118758, f 6 129837, f 6 140766, f 6 151559, f 6 162227, f 5 17278,
  f 6 183227, f 6 193576, f 6 203836, f 6 214012, f 6 224112, f 6 234141, f 6 244104, f 6 254006,
  f 6 263851, f 6 273644, f 6 283388, f 6 293087, f 6 302744, f 6 312362, f 6 321944, f 6 331492,
  f 5 34101, f 6 350499, f 6 359962, f 6 369401, f 6 378817, f 6 388213, f 6 397591, f 6 406952,
  f 6 416298, f 6 425631, f 6 434952, f 6 444263, f 6 453566, f 6 462861, f 6 472151, f 6 481436,
  f 6 490719, f 1 5, f 6 509281, f 6 518564, f 6 527849, f 6 537139, f 6 546434, f 6 555737, f 6 565048,
  f 6 574369, f 6 583702, f 6 593048, f 6 602409, f 6 611787, f 6 621183, f 6 630599, f 6 640038,
  f 6 649501, f 5 65899, f 6 668508, f 6 678056, f 6 687638, f 6 697256, f 6 706913, f 6 716612,
  f 6 726356, f 6 736149, f 6 745994, f 6 755896, f 6 765859, f 6 775888, f 6 785988, f 6 796164,
  f 6 806424, f 6 816773, f 5 82722, f 6 837773, f 6 848441, f 6 859234, f 6 870163, f 6 881242,
  f 6 892482, f 6 903898, f 6 915503, f 6 927309, f 6 939322, f 6 951531, f 6 963884, f 6 976225,
  f 6 988084, f 6 997883, n 1]

/-- Row 69 of `e_split.table`. -/
def split69 : List Tok := [
  f 8 292683, f 7 136678, f 7 260945, f 7 387858, f 7 513612, f 6 63711, f 7 758109, f 7 876664,
  f 7 992931, f 5 11071, f 6 121935, f 6 132985, f 6 143876, f 6 154623, f 6 165238, f 6 175733,
  f 6 186117, f 6 196399, f 6 206588, f 6 216691, f 6 226715, f 6 236666, f 6 246549, f 6 256369,
  f 6 266132, f 5 27584, f 6 285499, f 6 295111, f 6 304681, f 6 314211, f 6 323704, f 6 333163, f 5 34259,
  f 6 351989, f 5 36136, f 6 370707, f 6 380032, f 6 389336, f 6 398621, f 6 407889, f 6 417142,
  f 6 426382, f 5 43561, f 6 444827, f 6 454036, f 6 463237, f 6 472433, f 6 481624, f 6 490813, f 1 5,
  f 6 509187, f 6 518376, f 6 527567, f 6 536763, f 6 545964, f 6 555173, f 5 56439, f 6 573618,
  f 6 582858, f 6 592111, f 6 601379, f 6 610664, f 6 619968, f 6 629293, f 5 63864, f 6 648011, f 5 65741,
  f 6 666837, f 6 676296, f 6 685789, f 6 695319, f 6 704889, f 6 714501, f 5 72416, f 6 733868,
  f 6 743631, f 6 753451, f 6 763334, f 6 773285, f 6 783309, f 6 793412, f 6 803601, f 6 813883,
  f 6 824267, f 6 834762, f 6 845377, f 6 856124, f 6 867015, f 6 878065, f 5 88929, f 6 900707,
  f 6 912334, f 6 924189, f 6 936289, f 6 948639, f 6 961214, f 6 973905, f 6 986332, f 6 997073, n 1]

/-- Row 70 of `e_split.table`. -/
def split70 : List Tok := [
  f 8 388832, f 7 155181, f 7 284516, f 7 414452, f 7 542065, f 7 666701, f 6 78836, f 7 907244, f 5 10236,
  f 6 113768, f 5 12497, f 6 135987, f 6 146837, f 6 157535, f 6 168096, f 6 178531, f 6 188852,
  f 6 199068, f 6 209188, f 5 21922, f 6 229171, f 6 239046, f 6 248852, f 6 258595, f 6 268278,
  f 6 277906, f 6 287484, f 6 297014, f 6 306501, f 6 315947, f 6 325356, f 6 334731, f 6 344073,
  f 6 353386, f 6 362672, f 6 371933, f 6 381171, f 6 390388, f 6 399586, f 6 408767, f 6 417933,
  f 6 427085, f 6 436225, f 6 445355, f 6 454476, f 6 463589, f 6 472697, f 4 4818, f 6 490901, f 1 5,
  f 6 509099, f 4 5182, f 6 527303, f 6 536411, f 6 545524, f 6 554645, f 6 563775, f 6 572915, f 6 582067,
  f 6 591233, f 6 600414, f 6 609612, f 6 618829, f 6 628067, f 6 637328, f 6 646614, f 6 655927,
  f 6 665269, f 6 674644, f 6 684053, f 6 693499, f 6 702986, f 6 712516, f 6 722094, f 6 731722,
  f 6 741405, f 6 751148, f 6 760954, f 6 770829, f 5 78078, f 6 790812, f 6 800932, f 6 811148,
  f 6 821469, f 6 831904, f 6 842465, f 6 853163, f 6 864013, f 5 87503, f 6 886232, f 5 89764, f 6 909276,
  f 6 921164, f 5 93333, f 6 945793, f 6 958555, f 6 971548, f 6 984482, f 6 996112, n 1]

/-- Row 71 of `e_split.table`. -/
def split71 : List Tok := [
  f 8 498753, f 7 174448, f 7 308264, f 7 440785, f 7 569934, f 7 695466, f 7 817604, f 6 93668,
  f 6 105302, f 6 116693, f 6 127867, f 6 138846, f 6 149651, f 6 160299, f 6 170805, f 6 181181,
  f 5 19144, f 6 201591, f 6 211644, f 6 221607, f 6 231486, f 5 24129, f 6 251022, f 5 26069, f 6 270297,
  f 6 279849, f 5 28935, f 6 298802, f 6 308211, f 6 317578, f 6 326908, f 6 336202, f 6 345465,
  f 6 354697, f 6 363902, f 6 373082, f 6 382239, f 6 391374, f 6 400491, f 5 40959, f 6 418674,
  f 6 427744, f 6 436802, f 5 44585, f 6 454888, f 6 463919, f 6 472945, f 6 481966, f 6 490983, f 1 5,
  f 6 509017, f 6 518034, f 6 527055, f 6 536081, f 6 545112, f 5 55415, f 6 563198, f 6 572256,
  f 6 581326, f 5 59041, f 6 599509, f 6 608626, f 6 617761, f 6 626918, f 6 636098, f 6 645303,
  f 6 654535, f 6 663798, f 6 673092, f 6 682422, f 6 691789, f 6 701198, f 5 71065, f 6 720151,
  f 6 729703, f 5 73931, f 6 748978, f 5 75871, f 6 768514, f 6 778393, f 6 788356, f 6 798409, f 5 80856,
  f 6 818819, f 6 829195, f 6 839701, f 6 850349, f 6 861154, f 6 872133, f 6 883307, f 6 894698,
  f 6 906332, f 5 91824, f 6 930453, f 6 943007, f 6 955921, f 6 969174, f 6 982555, f 6 995012, n 1]

/-- Row 72 of `e_split.table`. -/
def split72 : List Tok := [
  f 8 620263, f 7 194212, f 7 331955, f 7 466666, f 7 597066, f 7 723287, f 7 845751, f 7 964904,
  f 6 108115, f 6 119482, f 6 130623, f 6 141562, f 6 152321, f 6 162918, f 6 173368, f 6 183686,
  f 6 193883, f 6 203972, f 6 213959, f 6 223855, f 6 233667, f 6 243401, f 6 253063, f 5 26266,
  f 6 272196, f 6 281675, f 6 291102, f 6 300481, f 6 309815, f 6 319108, f 6 328363, f 6 337582,
  f 6 346769, f 6 355926, f 6 365055, f 6 374159, f 6 383239, f 6 392299, f 6 401339, f 6 410361,
  f 6 419368, f 6 428361, f 6 437342, f 6 446313, f 6 455274, f 6 464228, f 6 473176, f 5 48212,
  f 6 491061, f 1 5, f 6 508939, f 5 51788, f 6 526824, f 6 535772, f 6 544726, f 6 553687, f 6 562658,
  f 6 571639, f 6 580632, f 6 589639, f 6 598661, f 6 607701, f 6 616761, f 6 625841, f 6 634945,
  f 6 644074, f 6 653231, f 6 662418, f 6 671637, f 6 680892, f 6 690185, f 6 699519, f 6 708898,
  f 6 718325, f 6 727804, f 5 73734, f 6 746937, f 6 756599, f 6 766333, f 6 776145, f 6 786041,
  f 6 796028, f 6 806117, f 6 816314, f 6 826632, f 6 837082, f 6 847679, f 6 858438, f 6 869377,
  f 6 880518, f 6 891885, f 5 90351, f 6 915425, f 6 927671, f 6 940293, f 6 953333, f 6 966804,
  f 6 980579, f 6 993797, n 1]

/-- Row 73 of `e_split.table`. -/
def split73 : List Tok := [
  f 8 750652, f 7 214181, f 6 35534, f 7 491888, f 7 623294, f 7 750028, f 7 872691, f 7 991829,
  f 6 110791, f 6 122131, f 6 133236, f 6 144133, f 6 154844, f 6 165389, f 6 175785, f 6 186046,
  f 6 196184, f 6 206211, f 6 216136, f 6 225968, f 6 235714, f 6 245382, f 6 254978, f 6 264507,
  f 6 273975, f 6 283385, f 6 292743, f 6 302053, f 6 311317, f 5 32054, f 6 329725, f 6 338874, f 5 34799,
  f 6 357075, f 6 366133, f 6 375166, f 6 384175, f 6 393163, f 6 402131, f 6 411082, f 6 420017,
  f 6 428938, f 6 437847, f 6 446746, f 6 455635, f 6 464517, f 6 473393, f 6 482264, f 6 491133, f 1 5,
  f 6 508867, f 6 517736, f 6 526607, f 6 535483, f 6 544365, f 6 553254, f 6 562153, f 6 571062,
  f 6 579983, f 6 588918, f 6 597869, f 6 606837, f 6 615825, f 6 624834, f 6 633867, f 6 642925,
  f 5 65201, f 6 661126, f 6 670275, f 5 67946, f 6 688683, f 6 697947, f 6 707257, f 6 716615, f 6 726025,
  f 6 735493, f 6 745022, f 6 754618, f 6 764286, f 6 774032, f 6 783864, f 6 793789, f 6 803816,
  f 6 813954, f 6 824215, f 6 834611, f 6 845156, f 6 855867, f 6 866764, f 6 877869, f 6 889209,
  f 6 900817, f 6 912731, f 6 924997, f 6 937671, f 6 950811, f 6 964466, f 6 978582, f 6 992493, n 1]

/-- Row 74 of `e_split.table`. -/
def split74 : List Tok := [
  f 8 886941, f 6 23406, f 7 378169, f 7 516248, f 7 648448, f 6 77555, f 7 898309, f 6 101736, f 6 113322,
  f 6 124632, f 6 135699, f 6 146552, f 6 157216, f 6 167711, f 6 178053, f 6 188259, f 5 19834,
  f 6 208308, f 6 218173, f 6 227944, f 6 237629, f 6 247235, f 6 256767, f 6 266233, f 6 275636,
  f 6 284982, f 6 294275, f 5 30352, f 6 312719, f 6 321876, f 6 330995, f 6 340077, f 6 349127,
  f 6 358147, f 6 367138, f 6 376104, f 6 385046, f 6 393967, f 6 402869, f 6 411753, f 6 420621,
  f 6 429475, f 6 438317, f 6 447148, f 6 455971, f 6 464785, f 6 473594, f 6 482399, f 4 4912, f 1 5,
  f 4 5088, f 6 517601, f 6 526406, f 6 535215, f 6 544029, f 6 552852, f 6 561683, f 6 570525, f 6 579379,
  f 6 588247, f 6 597131, f 6 606033, f 6 614954, f 6 623896, f 6 632862, f 6 641853, f 6 650873,
  f 6 659923, f 6 669005, f 6 678124, f 6 687281, f 5 69648, f 6 705725, f 6 715018, f 6 724364,
  f 6 733767, f 6 743233, f 6 752765, f 6 762371, f 6 772056, f 6 781827, f 6 791692, f 5 80166,
  f 6 811741, f 6 821947, f 6 832289, f 6 842784, f 6 853448, f 6 864301, f 6 875368, f 6 886678,
  f 6 898264, f 6 910169, f 6 922445, f 6 935155, f 6 948375, f 6 962183, f 6 976594, f 6 991131, n 1]

/-- Row 75 of `e_split.table`. -/
def split75 : List Tok := [
  f 7 102613, f 7 253572, f 7 400212, f 7 539554, f 7 672375, f 7 799725, f 5 9225, f 6 104141, f 6 115702,
  f 6 126979, f 6 138008, f 6 148818, f 6 159435, f 6 169881, f 6 180172, f 6 190324, f 6 200351,
  f 6 210263, f 6 220071, f 6 229785, f 6 239412, f 6 248958, f 6 258432, f 6 267837, f 5 27718,
  f 6 286466, f 6 295699, f 6 304882, f 5 31402, f 6 323116, f 6 332173, f 6 341195, f 6 350183, f 5 35914,
  f 5 36807, f 6 376974, f 6 385854, f 6 394713, f 6 403553, f 6 412375, f 6 421181, f 6 429973,
  f 6 438753, f 6 447522, f 6 456282, f 6 465034, f 6 473781, f 6 482523, f 6 491262, f 1 5, f 6 508738,
  f 6 517477, f 6 526219, f 6 534966, f 6 543718, f 6 552478, f 6 561247, f 6 570027, f 6 578819,
  f 6 587625, f 6 596447, f 6 605287, f 6 614146, f 6 623026, f 5 63193, f 5 64086, f 6 649817, f 6 658805,
  f 6 667827, f 6 676884, f 5 68598, f 6 695118, f 6 704301, f 6 713534, f 5 72282, f 6 732163, f 6 741568,
  f 6 751042, f 6 760588, f 6 770215, f 6 779929, f 6 789737, f 6 799649, f 6 809676, f 6 819828,
  f 6 830119, f 6 840565, f 6 851182, f 6 861992, f 6 873021, f 6 884298, f 6 895859, f 5 90775,
  f 6 920027, f 6 932762, f 6 946045, f 6 959979, f 6 974643, f 6 989739, n 1]

/-- Row 76 of `e_split.table`. -/
def split76 : List Tok := [
  f 7 116541, f 7 272468, f 6 42127, f 7 561648, f 7 694943, f 7 822447, f 7 945175, f 6 106391,
  f 6 117925, f 6 129168, f 6 140158, f 6 150926, f 6 161499, f 6 171897, f 6 182139, f 5 19224,
  f 6 202215, f 6 212075, f 5 22183, f 5 23149, f 6 241062, f 6 250553, f 6 259971, f 6 269321, f 6 278609,
  f 6 287838, f 6 297015, f 6 306141, f 6 315223, f 6 324262, f 6 333262, f 6 342226, f 6 351158,
  f 6 360058, f 6 368931, f 6 377777, f 6 386601, f 6 395402, f 6 404184, f 6 412949, f 6 421698,
  f 6 430432, f 6 439155, f 6 447866, f 6 456569, f 6 465264, f 6 473953, f 6 482638, f 5 49132, f 1 5,
  f 5 50868, f 6 517362, f 6 526047, f 6 534736, f 6 543431, f 6 552134, f 6 560845, f 6 569568,
  f 6 578302, f 6 587051, f 6 595816, f 6 604598, f 6 613399, f 6 622223, f 6 631069, f 6 639942,
  f 6 648842, f 6 657774, f 6 666738, f 6 675738, f 6 684777, f 6 693859, f 6 702985, f 6 712162,
  f 6 721391, f 6 730679, f 6 740029, f 6 749447, f 6 758938, f 5 76851, f 5 77817, f 6 787925, f 6 797785,
  f 5 80776, f 6 817861, f 6 828103, f 6 838501, f 6 849074, f 6 859842, f 6 870832, f 6 882075,
  f 6 893609, f 6 905482, f 6 917755, f 6 930506, f 6 943835, f 6 957873, f 6 972753, f 6 988346, n 1]

/-- Row 77 of `e_split.table`. -/
def split77 : List Tok := [
  f 7 130228, f 7 290543, f 7 441182, f 7 582405, f 7 716055, f 7 843638, f 7 966274, f 5 10848,
  f 6 119987, f 6 131196, f 6 142148, f 6 152876, f 6 163405, f 6 173758, f 6 183954, f 6 194008,
  f 6 203934, f 6 213745, f 5 22345, f 5 23306, f 6 242581, f 6 252022, f 6 261388, f 6 270687, f 6 279922,
  f 4 2891, f 6 298224, f 6 307299, f 6 316328, f 6 325315, f 6 334263, f 6 343175, f 6 352053, f 6 360901,
  f 6 369721, f 6 378515, f 6 387286, f 6 396035, f 6 404764, f 6 413476, f 6 422172, f 6 430854,
  f 6 439524, f 6 448183, f 6 456833, f 6 465475, f 6 474112, f 6 482743, f 6 491372, f 1 5, f 6 508628,
  f 6 517257, f 6 525888, f 6 534525, f 6 543167, f 6 551817, f 6 560476, f 6 569146, f 6 577828,
  f 6 586524, f 6 595236, f 6 603965, f 6 612714, f 6 621485, f 6 630279, f 6 639099, f 6 647947,
  f 6 656825, f 6 665737, f 6 674685, f 6 683672, f 6 692701, f 6 701776, f 4 7109, f 6 720078, f 6 729313,
  f 6 738612, f 6 747978, f 6 757419, f 5 76694, f 5 77655, f 6 786255, f 6 796066, f 6 805992, f 6 816046,
  f 6 826242, f 6 836595, f 6 847124, f 6 857852, f 6 868804, f 6 880013, f 5 89152, f 6 903373,
  f 6 915636, f 6 928395, f 5 94176, f 6 955882, f 6 970946, f 6 986977, n 1]

/-- Row 78 of `e_split.table`. -/
def split78 : List Tok := [
  f 7 143467, f 7 307636, f 7 459831, f 7 601737, f 7 735647, f 7 863253, f 7 985767, f 6 110408,
  f 6 121886, f 6 133062, f 6 143978, f 6 154667, f 6 165155, f 6 175466, f 6 185619, f 6 195629,
  f 5 20551, f 6 215275, f 6 224934, f 6 234497, f 6 243972, f 6 253365, f 6 262685, f 6 271936,
  f 6 281124, f 6 290254, f 5 29933, f 6 308357, f 6 317338, f 6 326277, f 6 335177, f 6 344041,
  f 6 352871, f 6 361671, f 6 370443, f 6 379189, f 6 387912, f 6 396612, f 6 405294, f 6 413958,
  f 6 422605, f 6 431239, f 6 439861, f 6 448472, f 6 457073, f 6 465668, f 6 474256, f 5 48284,
  f 6 491421, f 1 5, f 6 508579, f 5 51716, f 6 525744, f 6 534332, f 6 542927, f 6 551528, f 6 560139,
  f 6 568761, f 6 577395, f 6 586042, f 6 594706, f 6 603388, f 6 612088, f 6 620811, f 6 629557,
  f 6 638329, f 6 647129, f 6 655959, f 6 664823, f 6 673723, f 6 682662, f 6 691643, f 5 70067,
  f 6 709746, f 6 718876, f 6 728064, f 6 737315, f 6 746635, f 6 756028, f 6 765503, f 6 775066,
  f 6 784725, f 5 79449, f 6 804371, f 6 814381, f 6 824534, f 6 834845, f 6 845333, f 6 856022,
  f 6 866938, f 6 878114, f 6 889592, f 6 901423, f 6 913675, f 6 926435, f 6 939826, f 6 954017,
  f 6 969236, f 6 985653, n 1]

/-- Row 79 of `e_split.table`. -/
def split79 : List Tok := [
  f 7 156093, f 7 323634, f 7 477142, f 7 619598, f 7 753692, f 7 881279, f 6 100365, f 6 112174,
  f 6 123624, f 6 134769, f 6 145651, f 6 156303, f 6 166753, f 6 177025, f 6 187137, f 6 197106,
  f 6 206946, f 6 216669, f 6 226286, f 6 235806, f 6 245238, f 6 254588, f 6 263864, f 6 273072,
  f 6 282217, f 6 291303, f 6 300336, f 6 309319, f 6 318257, f 6 327152, f 6 336008, f 6 344828,
  f 6 353615, f 6 362371, f 6 371099, f 6 379802, f 5 38848, f 6 397137, f 6 405775, f 6 414395,
  f 6 422999, f 6 431589, f 6 440167, f 6 448734, f 6 457292, f 6 465843, f 6 474387, f 6 482927,
  f 6 491464, f 1 5, f 6 508536, f 6 517073, f 6 525613, f 6 534157, f 6 542708, f 6 551266, f 6 559833,
  f 6 568411, f 6 577001, f 6 585605, f 6 594225, f 6 602863, f 5 61152, f 6 620198, f 6 628901,
  f 6 637629, f 6 646385, f 6 655172, f 6 663992, f 6 672848, f 6 681743, f 6 690681, f 6 699664,
  f 6 708697, f 6 717783, f 6 726928, f 6 736136, f 6 745412, f 6 754762, f 6 764194, f 6 773714,
  f 6 783331, f 6 793054, f 6 802894, f 6 812863, f 6 822975, f 6 833247, f 6 843697, f 6 854349,
  f 6 865231, f 6 876376, f 6 887826, f 6 899635, f 6 911872, f 6 924631, f 5 93804, f 6 952286,
  f 6 967637, f 6 984391, n 1]

/-- Row 80 of `e_split.table`. -/
def split80 : List Tok := [
  f 7 167987, f 7 338465, f 7 493079, f 7 635975, f 7 770195, f 7 897734, f 6 101995, f 6 113782,
  f 6 125205, f 5 13632, f 5 14717, f 6 157788, f 6 168203, f 6 178439, f 6 188514, f 6 198445, f 6 208247,
  f 6 217932, f 5 22751, f 6 236991, f 6 246384, f 6 255695, f 6 264932, f 4 2741, f 6 283206, f 6 292253,
  f 6 301246, f 5 31019, f 6 319088, f 6 327943, f 5 33676, f 5 34554, f 6 354287, f 6 363004, f 6 371693,
  f 6 380355, f 6 388994, f 6 397612, f 5 40621, f 5 41479, f 6 423355, f 6 431905, f 6 440444, f 6 448971,
  f 5 45749, f 6 466001, f 6 474506, f 6 483006, f 6 491504, f 1 5, f 6 508496, f 6 516994, f 6 525494,
  f 6 533999, f 5 54251, f 6 551029, f 6 559556, f 6 568095, f 6 576645, f 5 58521, f 5 59379, f 6 602388,
  f 6 611006, f 6 619645, f 6 628307, f 6 636996, f 6 645713, f 5 65446, f 5 66324, f 6 672057, f 6 680912,
  f 5 68981, f 6 698754, f 6 707747, f 6 716794, f 4 7259, f 6 735068, f 6 744305, f 6 753616, f 6 763009,
  f 5 77249, f 6 782068, f 6 791753, f 6 801555, f 6 811486, f 6 821561, f 6 831797, f 6 842212, f 5 85283,
  f 5 86368, f 6 874795, f 6 886218, f 6 898005, f 6 910227, f 6 922981, f 6 936402, f 6 950692,
  f 6 966154, f 6 983201, n 1]

/-- Row 81 of `e_split.table`. -/
def split81 : List Tok := [
  f 7 179069, f 7 352097, f 7 507641, f 7 650889, f 7 785189, f 6 91266, f 6 103472, f 6 115237,
  f 6 126636, f 6 137723, f 6 148542, f 6 159129, f 6 169512, f 6 179714, f 6 189755, f 6 199653,
  f 5 20942, f 5 21907, f 6 228613, f 6 238059, f 6 247416, f 6 256692, f 6 265894, f 6 275026, f 6 284096,
  f 6 293107, f 6 302065, f 6 310973, f 6 319835, f 6 328655, f 6 337436, f 6 346181, f 6 354892,
  f 6 363573, f 6 372226, f 6 380853, f 6 389456, f 6 398038, f 6 406601, f 6 415146, f 6 423675,
  f 5 43219, f 6 440692, f 6 449184, f 6 457667, f 6 466143, f 6 474612, f 6 483077, f 6 491539, f 1 5,
  f 6 508461, f 6 516923, f 6 525388, f 6 533857, f 6 542333, f 6 550816, f 6 559308, f 5 56781,
  f 6 576325, f 6 584854, f 6 593399, f 6 601962, f 6 610544, f 6 619147, f 6 627774, f 6 636427,
  f 6 645108, f 6 653819, f 6 662564, f 6 671345, f 6 680165, f 6 689027, f 6 697935, f 6 706893,
  f 6 715904, f 6 724974, f 6 734106, f 6 743308, f 6 752584, f 6 761941, f 6 771387, f 5 78093, f 5 79058,
  f 6 800347, f 6 810245, f 6 820286, f 6 830488, f 6 840871, f 6 851458, f 6 862277, f 6 873364,
  f 6 884763, f 6 896528, f 6 908734, f 6 921481, f 6 934911, f 6 949236, f 5 96479, f 6 982093, n 1]

/-- Row 82 of `e_split.table`. -/
def split82 : List Tok := [
  f 7 189295, f 7 364532, f 7 520857, f 7 664384, f 6 79873, f 6 92612, f 6 104803, f 6 116547, f 6 127922,
  f 6 138983, f 6 149775, f 6 160333, f 6 170687, f 6 180859, f 5 19087, f 6 200736, f 6 210472, f 5 22009,
  f 6 229602, f 6 239016, f 6 248342, f 6 257586, f 6 266755, f 6 275856, f 6 284894, f 6 293873,
  f 6 302798, f 6 311674, f 6 320505, f 6 329293, f 6 338041, f 6 346754, f 6 355434, f 6 364083,
  f 6 372704, f 6 381299, f 5 38987, f 5 39842, f 6 406951, f 6 415464, f 6 423961, f 6 432444, f 6 440915,
  f 6 449375, f 6 457826, f 5 46627, f 6 474708, f 6 483141, f 6 491571, f 1 5, f 6 508429, f 6 516859,
  f 6 525292, f 5 53373, f 6 542174, f 6 550625, f 6 559085, f 6 567556, f 6 576039, f 6 584536,
  f 6 593049, f 5 60158, f 5 61013, f 6 618701, f 6 627296, f 6 635917, f 6 644566, f 6 653246, f 6 661959,
  f 6 670707, f 6 679495, f 6 688326, f 6 697202, f 6 706127, f 6 715106, f 6 724144, f 6 733245,
  f 6 742414, f 6 751658, f 6 760984, f 6 770398, f 5 77991, f 6 789528, f 6 799264, f 5 80913, f 6 819141,
  f 6 829313, f 6 839667, f 6 850225, f 6 861017, f 6 872078, f 6 883453, f 6 895197, f 6 907388,
  f 6 920127, f 6 933562, f 6 947914, f 6 963547, f 5 98107, n 1]

/-- Row 83 of `e_split.table`. -/
def split83 : List Tok := [
  f 7 198651, f 7 375797, f 7 532776, f 7 676523, f 6 81089, f 7 938194, f 6 105995, f 6 117721,
  f 6 129073, f 6 140111, f 6 150878, f 5 16141, f 6 171737, f 6 181882, f 6 191865, f 6 201703,
  f 6 211411, f 6 221001, f 6 230485, f 5 23987, f 6 249167, f 6 258383, f 6 267524, f 6 276596,
  f 6 285605, f 6 294556, f 6 303453, f 4 3123, f 6 321102, f 6 329861, f 6 338581, f 6 347266, f 6 355917,
  f 6 364537, f 5 37313, f 6 381696, f 6 390239, f 6 398761, f 6 407263, f 6 415747, f 6 424216,
  f 6 432671, f 6 441113, f 6 449545, f 6 457968, f 6 466383, f 6 474793, f 6 483198, f 4 4916, f 1 5,
  f 4 5084, f 6 516802, f 6 525207, f 6 533617, f 6 542032, f 6 550455, f 6 558887, f 6 567329, f 6 575784,
  f 6 584253, f 6 592737, f 6 601239, f 6 609761, f 6 618304, f 5 62687, f 6 635463, f 6 644083,
  f 6 652734, f 6 661419, f 6 670139, f 6 678898, f 4 6877, f 6 696547, f 6 705444, f 6 714395, f 6 723404,
  f 6 732476, f 6 741617, f 6 750833, f 5 76013, f 6 769515, f 6 778999, f 6 788589, f 6 798297,
  f 6 808135, f 6 818118, f 6 828263, f 5 83859, f 6 849122, f 6 859889, f 6 870927, f 6 882279,
  f 6 894005, f 6 906181, f 6 918911, f 6 932348, f 6 946722, f 5 96242, f 6 980135, n 1]

/-- Row 84 of `e_split.table`. -/
def split84 : List Tok := [
  f 7 207145, f 7 385937, f 7 543464, f 7 687387, f 7 821756, f 7 948971, f 6 107058, f 6 118766,
  f 6 130099, f 6 141115, f 6 151859, f 6 162368, f 6 172671, f 6 182791, f 5 19275, f 6 202563,
  f 6 212246, f 6 221811, f 6 231269, f 5 24063, f 6 249901, f 6 259091, f 6 268206, f 6 277253,
  f 6 286237, f 6 295162, f 6 304034, f 6 312856, f 6 321632, f 6 330366, f 6 339061, f 5 34772,
  f 6 356345, f 5 36494, f 6 373507, f 6 382049, f 6 390567, f 6 399063, f 5 40754, f 6 415999, f 6 424443,
  f 6 432872, f 5 44129, f 6 449696, f 6 458094, f 6 466484, f 6 474868, f 6 483248, f 6 491625, f 1 5,
  f 6 508375, f 6 516752, f 6 525132, f 6 533516, f 6 541906, f 6 550304, f 5 55871, f 6 567128,
  f 6 575557, f 6 584001, f 5 59246, f 6 600937, f 6 609433, f 6 617951, f 6 626493, f 5 63506, f 6 643655,
  f 5 65228, f 6 660939, f 6 669634, f 6 678368, f 6 687144, f 6 695966, f 6 704838, f 6 713763,
  f 6 722747, f 6 731794, f 6 740909, f 6 750099, f 5 75937, f 6 768731, f 6 778189, f 6 787754,
  f 6 797437, f 5 80725, f 6 817209, f 6 827329, f 6 837632, f 6 848141, f 6 858885, f 6 869901,
  f 6 881234, f 6 892942, f 6 905103, f 6 917824, f 6 931261, f 6 945654, f 6 961406, f 6 979285, n 1]

/-- Row 85 of `e_split.table`. -/
def split85 : List Tok := [
  f 7 214807, f 7 395015, f 7 553002, f 7 697061, f 6 83142, f 7 958547, f 6 108003, f 6 119694,
  f 6 131009, f 6 142005, f 6 152729, f 6 163217, f 6 173499, f 6 183597, f 6 193534, f 6 203325,
  f 6 212986, f 6 222528, f 6 231963, f 6 241301, f 5 25055, f 6 259718, f 6 268811, f 6 277835,
  f 6 286796, f 6 295698, f 6 304547, f 6 313347, f 6 322101, f 6 330812, f 6 339485, f 6 348121,
  f 6 356724, f 6 365297, f 6 373842, f 6 382361, f 6 390856, f 5 39933, f 6 407785, f 6 416222,
  f 6 424643, f 5 43305, f 6 441445, f 5 44983, f 6 458205, f 6 466573, f 6 474935, f 6 483292, f 6 491647,
  f 1 5, f 6 508353, f 6 516708, f 6 525065, f 6 533427, f 6 541795, f 5 55017, f 6 558555, f 5 56695,
  f 6 575357, f 6 583778, f 6 592215, f 5 60067, f 6 609144, f 6 617639, f 6 626158, f 6 634703,
  f 6 643276, f 6 651879, f 6 660515, f 6 669188, f 6 677899, f 6 686653, f 6 695453, f 6 704302,
  f 6 713204, f 6 722165, f 6 731189, f 6 740282, f 5 74945, f 6 758699, f 6 768037, f 6 777472,
  f 6 787014, f 6 796675, f 6 806466, f 6 816403, f 6 826501, f 6 836783, f 6 847271, f 6 857995,
  f 6 868991, f 6 880306, f 6 891997, f 6 904145, f 6 916858, f 6 930294, f 4 9447, f 6 960498, f 6 978519,
  n 1]

/-- Row 86 of `e_split.table`. -/
def split86 : List Tok := [
  f 7 221675, f 7 403101, f 7 561472, f 7 705638, f 6 83998, f 7 967022, f 6 108838, f 6 120515,
  f 6 131813, f 6 142792, f 6 153498, f 6 163967, f 6 174229, f 6 184309, f 6 194225, f 6 203997,
  f 6 213638, f 5 22316, f 6 232576, f 6 241894, f 6 251123, f 6 260271, f 6 269343, f 6 278348,
  f 6 287289, f 6 296171, f 6 305001, f 5 31378, f 6 322514, f 6 331206, f 6 339858, f 6 348475,
  f 6 357058, f 6 365611, f 6 374136, f 6 382636, f 6 391111, f 6 399566, f 6 408001, f 6 416418,
  f 6 424819, f 6 433207, f 6 441583, f 6 449947, f 6 458303, f 6 466651, f 6 474994, f 6 483332,
  f 6 491667, f 1 5, f 6 508333, f 6 516668, f 6 525006, f 6 533349, f 6 541697, f 6 550053, f 6 558417,
  f 6 566793, f 6 575181, f 6 583582, f 6 591999, f 6 600434, f 6 608889, f 6 617364, f 6 625864,
  f 6 634389, f 6 642942, f 6 651525, f 6 660142, f 6 668794, f 6 677486, f 5 68622, f 6 694999,
  f 6 703829, f 6 712711, f 6 721652, f 6 730657, f 6 739729, f 6 748877, f 6 758106, f 6 767424,
  f 5 77684, f 6 786362, f 6 796003, f 6 805775, f 6 815691, f 6 825771, f 6 836033, f 6 846502,
  f 6 857208, f 6 868187, f 6 879485, f 6 891162, f 6 903298, f 6 916002, f 6 929436, f 6 943853,
  f 5 95969, f 6 977833, n 1]

/-- Row 87 of `e_split.table`. -/
def split87 : List Tok := [
  f 7 227799, f 7 410271, f 7 568964, f 7 713214, f 7 847532, f 7 974494, f 6 109574, f 6 121237,
  f 6 132521, f 6 143484, f 6 154174, f 6 164627, f 6 174872, f 6 184934, f 6 194834, f 6 204588,
  f 6 214211, f 6 223716, f 6 233114, f 6 242415, f 6 251626, f 6 260756, f 6 269812, f 6 278798,
  f 6 287722, f 6 296587, f 6 305399, f 6 314161, f 6 322877, f 6 331551, f 6 340186, f 6 348786,
  f 6 357352, f 6 365888, f 6 374395, f 6 382877, f 6 391336, f 6 399773, f 5 40819, f 5 41659, f 6 424975,
  f 6 433345, f 6 441703, f 6 450051, f 6 458389, f 5 46672, f 6 475045, f 6 483366, f 6 491684, f 1 5,
  f 6 508316, f 6 516634, f 6 524955, f 5 53328, f 6 541611, f 6 549949, f 6 558297, f 6 566655,
  f 6 575025, f 5 58341, f 5 59181, f 6 600227, f 6 608664, f 6 617123, f 6 625605, f 6 634112, f 6 642648,
  f 6 651214, f 6 659814, f 6 668449, f 6 677123, f 6 685839, f 6 694601, f 6 703413, f 6 712278,
  f 6 721202, f 6 730188, f 6 739244, f 6 748374, f 6 757585, f 6 766886, f 6 776284, f 6 785789,
  f 6 795412, f 6 805166, f 6 815066, f 6 825128, f 6 835373, f 6 845826, f 6 856516, f 6 867479,
  f 6 878763, f 6 890426, f 6 902551, f 6 915247, f 6 928679, f 6 943104, f 6 958973, f 5 97722, n 1]

/-- Row 88 of `e_split.table`. -/
def split88 : List Tok := [
  f 7 233233, f 7 416602, f 7 575565, f 6 71988, f 7 854172, f 7 981061, f 5 11022, f 6 121872, f 6 133142,
  f 6 144092, f 6 154767, f 6 165205, f 6 175436, f 6 185483, f 6 195367, f 6 205106, f 6 214714,
  f 6 224204, f 6 233586, f 6 242871, f 6 252067, f 6 261182, f 6 270222, f 6 279193, f 6 288101,
  f 6 296951, f 6 305747, f 6 314494, f 6 323195, f 6 331854, f 6 340474, f 6 349058, f 6 357609,
  f 6 366129, f 6 374622, f 6 383089, f 6 391532, f 6 399954, f 6 408356, f 6 416741, f 5 42511,
  f 6 433466, f 6 441809, f 6 450141, f 6 458465, f 5 46678, f 6 475091, f 6 483396, f 6 491699, f 1 5,
  f 6 508301, f 6 516604, f 6 524909, f 5 53322, f 6 541535, f 6 549859, f 6 558191, f 6 566534, f 5 57489,
  f 6 583259, f 6 591644, f 6 600046, f 6 608468, f 6 616911, f 6 625378, f 6 633871, f 6 642391,
  f 6 650942, f 6 659526, f 6 668146, f 6 676805, f 6 685506, f 6 694253, f 6 703049, f 6 711899,
  f 6 720807, f 6 729778, f 6 738818, f 6 747933, f 6 757129, f 6 766414, f 6 775796, f 6 785286,
  f 6 794894, f 6 804633, f 6 814517, f 6 824564, f 6 834795, f 6 845233, f 6 855908, f 6 866858,
  f 6 878128, f 5 88978, f 6 901894, f 6 914583, f 6 928012, f 6 942443, f 5 95834, f 6 976677, n 1]

/-- Row 89 of `e_split.table`. -/
def split89 : List Tok := [
  f 7 238036, f 7 422173, f 7 581362, f 7 725728, f 7 859992, f 7 986813, f 6 110786, f 6 122427,
  f 6 133686, f 6 144624, f 6 155286, f 6 165711, f 6 175929, f 6 185963, f 6 195834, f 6 205559,
  f 6 215154, f 5 22463, f 6 233999, f 5 24327, f 6 252453, f 6 261554, f 5 27058, f 6 279538, f 6 288433,
  f 6 297269, f 6 306052, f 6 314785, f 6 323473, f 6 332119, f 6 340725, f 6 349296, f 6 357834,
  f 6 366341, f 5 37482, f 6 383273, f 6 391703, f 6 400112, f 6 408501, f 6 416873, f 6 425229,
  f 6 433571, f 6 441901, f 5 45022, f 5 45853, f 6 466833, f 5 47513, f 6 483422, f 6 491712, f 1 5,
  f 6 508288, f 6 516578, f 5 52487, f 6 533167, f 5 54147, f 5 54978, f 6 558099, f 6 566429, f 6 574771,
  f 6 583127, f 6 591499, f 6 599888, f 6 608297, f 6 616727, f 5 62518, f 6 633659, f 6 642166,
  f 6 650704, f 6 659275, f 6 667881, f 6 676527, f 6 685215, f 6 693948, f 6 702731, f 6 711567,
  f 6 720462, f 5 72942, f 6 738446, f 6 747547, f 5 75673, f 6 766001, f 5 77537, f 6 784846, f 6 794441,
  f 6 804166, f 6 814037, f 6 824071, f 6 834289, f 6 844714, f 6 855376, f 6 866314, f 6 877573,
  f 6 889214, f 6 901319, f 6 914001, f 6 927427, f 6 941864, f 6 957783, f 6 976196, n 1]

/-- Row 90 of `e_split.table`. -/
def split90 : List Tok := [
  f 7 242264, f 7 427058, f 7 586437, f 7 730842, f 7 865079, f 7 991837, f 5 11128, f 6 122912,
  f 6 134161, f 6 145088, f 6 155739, f 6 166153, f 6 176359, f 6 186381, f 5 19624, f 6 205954,
  f 6 215537, f 6 225001, f 6 234358, f 6 243618, f 6 252789, f 6 261878, f 6 270893, f 6 279839,
  f 6 288722, f 6 297546, f 6 306318, f 6 315039, f 6 323715, f 6 332349, f 6 340944, f 6 349503,
  f 6 358029, f 6 366525, f 6 374992, f 6 383434, f 6 391853, f 5 40025, f 6 408628, f 6 416988,
  f 6 425332, f 6 433663, f 6 441981, f 6 450289, f 6 458588, f 6 466879, f 6 475164, f 6 483445,
  f 6 491723, f 1 5, f 6 508277, f 6 516555, f 6 524836, f 6 533121, f 6 541412, f 6 549711, f 6 558019,
  f 6 566337, f 6 574668, f 6 583012, f 6 591372, f 5 59975, f 6 608147, f 6 616566, f 6 625008,
  f 6 633475, f 6 641971, f 6 650497, f 6 659056, f 6 667651, f 6 676285, f 6 684961, f 6 693682,
  f 6 702454, f 6 711278, f 6 720161, f 6 729107, f 6 738122, f 6 747211, f 6 756382, f 6 765642,
  f 6 774999, f 6 784463, f 6 794046, f 5 80376, f 6 813619, f 6 823641, f 6 833847, f 6 844261,
  f 6 854912, f 6 865839, f 6 877088, f 5 88872, f 6 900816, f 6 913492, f 6 926916, f 6 941356,
  f 6 957294, f 6 975774, n 1]

/-- Row 91 of `e_split.table`. -/
def split91 : List Tok := [
  f 7 245973, f 7 431329, f 7 590868, f 7 735303, f 7 869514, f 7 996216, f 6 111711, f 6 123334,
  f 6 134574, f 6 145491, f 6 156133, f 6 166537, f 6 176733, f 6 186745, f 6 196594, f 6 206298,
  f 5 21587, f 6 225324, f 6 234671, f 6 243921, f 6 253081, f 5 26216, f 6 271165, f 4 2801, f 6 288973,
  f 6 297788, f 6 306549, f 5 31526, f 6 323926, f 5 33255, f 6 341135, f 6 349684, f 6 358199, f 6 366685,
  f 6 375142, f 6 383574, f 6 391983, f 5 40037, f 6 408737, f 6 417088, f 6 425422, f 6 433743,
  f 6 442051, f 6 450349, f 6 458638, f 6 466919, f 6 475194, f 6 483465, f 6 491733, f 1 5, f 6 508267,
  f 6 516535, f 6 524806, f 6 533081, f 6 541362, f 6 549651, f 6 557949, f 6 566257, f 6 574578,
  f 6 582912, f 6 591263, f 5 59963, f 6 608017, f 6 616426, f 6 624858, f 6 633315, f 6 641801,
  f 6 650316, f 6 658865, f 5 66745, f 6 676074, f 5 68474, f 6 693451, f 6 702212, f 6 711027, f 4 7199,
  f 6 728835, f 5 73784, f 6 746919, f 6 756079, f 6 765329, f 6 774676, f 5 78413, f 6 793702, f 6 803406,
  f 6 813255, f 6 823267, f 6 833463, f 6 843867, f 6 854509, f 6 865426, f 6 876666, f 6 888289,
  f 6 900378, f 6 913049, f 5 92647, f 6 940913, f 6 956867, f 6 975403, n 1]

/-- Row 92 of `e_split.table`. -/
def split92 : List Tok := [
  f 7 249217, f 7 435054, f 7 594726, f 7 739185, f 6 87337, f 6 100002, f 6 112085, f 6 123701,
  f 6 134933, f 6 145842, f 6 156476, f 6 166871, f 6 177058, f 6 187061, f 6 196901, f 6 206596,
  f 5 21616, f 6 225605, f 6 234943, f 6 244183, f 6 253335, f 6 262405, f 4 2714, f 6 280327, f 6 289191,
  f 6 297997, f 6 306749, f 6 315452, f 6 324109, f 6 332724, f 4 3413, f 5 34984, f 6 358347, f 6 366824,
  f 6 375273, f 6 383696, f 6 392095, f 6 400474, f 6 408833, f 6 417174, f 4 4255, f 6 433812, f 6 442112,
  f 6 450401, f 6 458681, f 6 466954, f 5 47522, f 6 483483, f 6 491742, f 1 5, f 6 508258, f 6 516517,
  f 5 52478, f 6 533046, f 6 541319, f 6 549599, f 6 557888, f 6 566188, f 4 5745, f 6 582826, f 6 591167,
  f 6 599526, f 6 607905, f 6 616304, f 6 624727, f 6 633176, f 6 641653, f 5 65016, f 4 6587, f 6 667276,
  f 6 675891, f 6 684548, f 6 693251, f 6 702003, f 6 710809, f 6 719673, f 4 7286, f 6 737595, f 6 746665,
  f 6 755817, f 6 765057, f 6 774395, f 5 78384, f 6 793404, f 6 803099, f 6 812939, f 6 822942,
  f 6 833129, f 6 843524, f 6 854158, f 6 865067, f 6 876299, f 6 887915, f 6 899998, f 6 912663,
  f 6 926082, f 6 940527, f 6 956495, f 6 975078, n 1]

/-- Row 93 of `e_split.table`. -/
def split93 : List Tok := [
  f 7 252047, f 7 438294, f 7 598079, f 7 742555, f 7 876717, f 6 100332, f 5 11241, f 6 124019,
  f 6 135244, f 6 146146, f 6 156772, f 5 16716, f 6 177339, f 6 187335, f 6 197168, f 6 206854, f 5 21641,
  f 6 225848, f 6 235178, f 6 244411, f 6 253555, f 6 262617, f 6 271605, f 6 280524, f 5 28938,
  f 6 298178, f 6 306922, f 6 315618, f 6 324267, f 6 332874, f 6 341443, f 6 349975, f 6 358475,
  f 6 366944, f 6 375385, f 6 383801, f 6 392193, f 6 400564, f 6 408915, f 6 417249, f 6 425567,
  f 6 433872, f 6 442164, f 6 450446, f 6 458718, f 6 466984, f 6 475243, f 6 483498, f 5 49175, f 1 5,
  f 5 50825, f 6 516502, f 6 524757, f 6 533016, f 6 541282, f 6 549554, f 6 557836, f 6 566128,
  f 6 574433, f 6 582751, f 6 591085, f 6 599436, f 6 607807, f 6 616199, f 6 624615, f 6 633056,
  f 6 641525, f 6 650025, f 6 658557, f 6 667126, f 6 675733, f 6 684382, f 6 693078, f 6 701822,
  f 5 71062, f 6 719476, f 6 728395, f 6 737383, f 6 746445, f 6 755589, f 6 764822, f 6 774152, f 5 78359,
  f 6 793146, f 6 802832, f 6 812665, f 6 822661, f 5 83284, f 6 843228, f 6 853854, f 6 864756,
  f 6 875981, f 5 88759, f 6 899668, f 6 912328, f 6 925745, f 6 940192, f 6 956171, f 6 974795, n 1]

/-- Row 94 of `e_split.table`. -/
def split94 : List Tok := [
  f 7 254509, f 7 441106, f 7 600985, f 7 745475, f 7 879616, f 6 100618, f 6 112691, f 6 124295,
  f 6 135514, f 5 14641, f 6 157029, f 5 16741, f 6 177583, f 6 187572, f 6 197398, f 6 207078, f 6 216627,
  f 6 226058, f 6 235381, f 6 244607, f 6 253745, f 4 2628, f 6 271781, f 6 280694, f 6 289543, f 6 298335,
  f 6 307073, f 6 315761, f 6 324404, f 6 333005, f 6 341566, f 6 350092, f 6 358585, f 6 367048,
  f 6 375483, f 6 383892, f 6 392277, f 6 400642, f 6 408987, f 6 417314, f 6 425626, f 6 433924,
  f 6 442209, f 6 450485, f 6 458751, f 6 467009, f 6 475262, f 6 483511, f 6 491756, f 1 5, f 6 508244,
  f 6 516489, f 6 524738, f 6 532991, f 6 541249, f 6 549515, f 6 557791, f 6 566076, f 6 574374,
  f 6 582686, f 6 591013, f 6 599358, f 6 607723, f 6 616108, f 6 624517, f 6 632952, f 6 641415,
  f 6 649908, f 6 658434, f 6 666995, f 6 675596, f 6 684239, f 6 692927, f 6 701665, f 6 710457,
  f 6 719306, f 6 728219, f 4 7372, f 6 746255, f 6 755393, f 6 764619, f 6 773942, f 6 783373, f 6 792922,
  f 6 802602, f 6 812428, f 6 822417, f 5 83259, f 6 842971, f 5 85359, f 6 864486, f 6 875705, f 6 887309,
  f 6 899382, f 6 912038, f 6 925453, f 6 939901, f 6 955889, f 6 974549, n 1]

/-- Row 95 of `e_split.table`. -/
def split95 : List Tok := [
  f 7 256646, f 7 443542, f 7 603501, f 7 748001, f 7 882122, f 6 100866, f 6 112934, f 6 124533,
  f 6 135747, f 6 146637, f 6 157251, f 6 167626, f 6 177793, f 6 187777, f 6 197597, f 6 207271,
  f 6 216814, f 6 226239, f 6 235557, f 6 244777, f 6 253909, f 6 262959, f 6 271934, f 6 280841,
  f 6 289684, f 5 29847, f 6 307202, f 6 315885, f 6 324522, f 6 333117, f 6 341673, f 6 350194,
  f 6 358681, f 6 367138, f 6 375567, f 5 38397, f 5 39235, f 6 400709, f 6 409048, f 5 41737, f 6 425676,
  f 6 433969, f 6 442249, f 6 450518, f 6 458779, f 6 467032, f 6 475279, f 6 483522, f 6 491762, f 1 5,
  f 6 508238, f 6 516478, f 6 524721, f 6 532968, f 6 541221, f 6 549482, f 6 557751, f 6 566031,
  f 6 574324, f 5 58263, f 6 590952, f 6 599291, f 5 60765, f 5 61603, f 6 624433, f 6 632862, f 6 641319,
  f 6 649806, f 6 658327, f 6 666883, f 6 675478, f 6 684115, f 6 692798, f 5 70153, f 6 710316,
  f 6 719159, f 6 728066, f 6 737041, f 6 746091, f 6 755223, f 6 764443, f 6 773761, f 6 783186,
  f 6 792729, f 6 802403, f 6 812223, f 6 822207, f 6 832374, f 6 842749, f 6 853363, f 6 864253,
  f 6 875467, f 6 887066, f 6 899134, f 6 911788, f 4 9252, f 5 93965, f 6 955646, f 6 974335, n 1]

/-- Row 96 of `e_split.table`. -/
def split96 : List Tok := [
  f 7 258497, f 7 445649, f 7 605674, f 7 750182, f 7 884286, f 6 101079, f 6 113143, f 6 124738,
  f 6 135947, f 6 146833, f 6 157442, f 6 167813, f 6 177975, f 6 187953, f 6 197768, f 6 207438,
  f 6 216976, f 6 226396, f 6 235708, f 6 244924, f 5 25405, f 6 263095, f 6 272065, f 6 280967,
  f 6 289806, f 6 298587, f 6 307314, f 6 315992, f 6 324624, f 6 333214, f 6 341765, f 6 350281,
  f 6 358763, f 6 367215, f 6 375639, f 6 384038, f 6 392413, f 6 400767, f 6 409101, f 6 417418,
  f 5 42572, f 6 434007, f 6 442282, f 6 450547, f 6 458803, f 6 467051, f 6 475293, f 6 483531,
  f 6 491766, f 1 5, f 6 508234, f 6 516469, f 6 524707, f 6 532949, f 6 541197, f 6 549453, f 6 557718,
  f 6 565993, f 5 57428, f 6 582582, f 6 590899, f 6 599233, f 6 607587, f 6 615962, f 6 624361,
  f 6 632785, f 6 641237, f 6 649719, f 6 658235, f 6 666786, f 6 675376, f 6 684008, f 6 692686,
  f 6 701413, f 6 710194, f 6 719033, f 6 727935, f 6 736905, f 5 74595, f 6 755076, f 6 764292,
  f 6 773604, f 6 783024, f 6 792562, f 6 802232, f 6 812047, f 6 822025, f 6 832187, f 6 842558,
  f 6 853167, f 6 864053, f 6 875262, f 6 886857, f 6 898921, f 6 911571, f 6 924982, f 6 939433,
  f 6 955435, f 5 97415, n 1]

/-- Row 97 of `e_split.table`. -/
def split97 : List Tok := [
  f 7 260098, f 7 447467, f 7 607548, f 7 752063, f 7 886151, f 6 101263, f 6 113324, f 6 124915,
  f 5 13612, f 6 147002, f 6 157607, f 6 167973, f 6 178131, f 6 188105, f 6 197916, f 6 207581,
  f 6 217115, f 5 22653, f 6 235839, f 5 24505, f 6 254172, f 6 263212, f 6 272178, f 6 281076, f 5 28991,
  f 6 298687, f 5 30741, f 6 316083, f 6 324711, f 6 333297, f 6 341844, f 6 350356, f 6 358834,
  f 6 367282, f 6 375702, f 6 384096, f 6 392467, f 6 400817, f 6 409147, f 5 41746, f 6 425757, f 5 43404,
  f 6 442311, f 6 450572, f 6 458824, f 6 467068, f 6 475306, f 5 48354, f 6 491771, f 1 5, f 6 508229,
  f 5 51646, f 6 524694, f 6 532932, f 6 541176, f 6 549428, f 6 557689, f 5 56596, f 6 574243, f 5 58254,
  f 6 590853, f 6 599183, f 6 607533, f 6 615904, f 6 624298, f 6 632718, f 6 641166, f 6 649644,
  f 6 658156, f 6 666703, f 6 675289, f 6 683917, f 5 69259, f 6 701313, f 5 71009, f 6 718924, f 6 727822,
  f 6 736788, f 6 745828, f 5 75495, f 6 764161, f 5 77347, f 6 782885, f 6 792419, f 6 802084, f 6 811895,
  f 6 821869, f 6 832027, f 6 842393, f 6 852998, f 5 86388, f 6 875085, f 6 886676, f 6 898737,
  f 6 911385, f 6 924794, f 6 939245, f 6 955253, f 5 97399, n 1]

/-- Row 98 of `e_split.table`. -/
def split98 : List Tok := [
  f 6 26148, f 7 449035, f 7 609163, f 7 753682, f 7 887757, f 6 101421, f 6 113479, f 6 125067,
  f 6 136269, f 6 147147, f 6 157749, f 6 168111, f 6 178266, f 6 188236, f 6 198043, f 6 207704,
  f 6 217234, f 6 226646, f 6 235951, f 6 245158, f 6 254277, f 6 263313, f 6 272276, f 5 28117, f 2 29,
  f 6 298773, f 6 307493, f 6 316162, f 6 324787, f 6 333369, f 6 341912, f 5 35042, f 6 358895,
  f 6 367339, f 6 375755, f 6 384146, f 6 392513, f 6 400859, f 6 409186, f 6 417495, f 6 425789,
  f 6 434069, f 6 442336, f 6 450593, f 6 458841, f 6 467082, f 6 475317, f 6 483547, f 6 491774, f 1 5,
  f 6 508226, f 6 516453, f 6 524683, f 6 532918, f 6 541159, f 6 549407, f 6 557664, f 6 565931,
  f 6 574211, f 6 582505, f 6 590814, f 6 599141, f 6 607487, f 6 615854, f 6 624245, f 6 632661,
  f 6 641105, f 5 64958, f 6 658088, f 6 666631, f 6 675213, f 6 683838, f 6 692507, f 6 701227, f 2 71,
  f 5 71883, f 6 727724, f 6 736687, f 6 745723, f 6 754842, f 6 764049, f 6 773354, f 6 782766,
  f 6 792296, f 6 801957, f 6 811764, f 6 821734, f 6 831889, f 6 842251, f 6 852853, f 6 863731,
  f 6 874933, f 6 886521, f 6 898579, f 6 911224, f 6 924632, f 6 939084, f 6 955097, f 6 973852, n 1]

/-- Row 99 of `e_split.table`. -/
def split99 : List Tok := [
  f 7 262671, f 7 450384, f 7 610552, f 7 755074, f 7 889137, f 6 101557, f 6 113612, f 6 125198,
  f 6 136397, f 6 147272, f 5 15787, f 5 16823, f 6 178381, f 6 188348, f 6 198152, f 5 20781, f 6 217337,
  f 6 226746, f 6 236047, f 6 245251, f 6 254366, f 4 2634, f 6 272359, f 5 28125, f 6 290078, f 6 298847,
  f 6 307564, f 5 31623, f 6 324851, f 6 333431, f 6 341971, f 6 350475, f 6 358947, f 6 367388,
  f 6 375801, f 6 384189, f 6 392553, f 6 400896, f 5 40922, f 6 417526, f 6 425817, f 6 434093,
  f 6 442358, f 6 450612, f 6 458857, f 6 467094, f 6 475326, f 6 483553, f 6 491777, f 1 5, f 6 508223,
  f 6 516447, f 6 524674, f 6 532906, f 6 541143, f 6 549388, f 6 557642, f 6 565907, f 6 574183,
  f 6 582474, f 5 59078, f 6 599104, f 6 607447, f 6 615811, f 6 624199, f 6 632612, f 6 641053,
  f 6 649525, f 6 658029, f 6 666569, f 6 675149, f 5 68377, f 6 692436, f 6 701153, f 6 709922, f 5 71875,
  f 6 727641, f 4 7366, f 6 745634, f 6 754749, f 6 763953, f 6 773254, f 6 782663, f 5 79219, f 6 801848,
  f 6 811652, f 6 821619, f 5 83177, f 5 84213, f 6 852728, f 6 863603, f 6 874802, f 6 886388, f 6 898443,
  f 6 911086, f 6 924493, f 6 938945, f 6 954962, f 6 973733, n 1]

/-- The rows of `e_split.table`. -/
def splitRows : List (List Tok) := [
  split0, split1, split2, split3, split4, split5, split6, split7, split8, split9, split10, split11,
  split12, split13, split14, split15, split16, split17, split18, split19, split20, split21, split22,
  split23, split24, split25, split26, split27, split28, split29, split30, split31, split32, split33,
  split34, split35, split36, split37, split38, split39, split40, split41, split42, split43, split44,
  split45, split46, split47, split48, split49, split50, split51, split52, split53, split54, split55,
  split56, split57, split58, split59, split60, split61, split62, split63, split64, split65, split66,
  split67, split68, split69, split70, split71, split72, split73, split74, split75, split76, split77,
  split78, split79, split80, split81, split82, split83, split84, split85, split86, split87, split88,
  split89, split90, split91, split92, split93, split94, split95, split96, split97, split98, split99]

end Shipped
end QED

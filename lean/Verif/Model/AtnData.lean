/-!
# The serialized ATNs

Copied by tools/gen_atn.py, line by line.
-/

namespace Rfc5322.Atn

/-- /repo/parser/rfc5322_parser.go:67-116. -/
def parserRows0 : List (List Int) := [
  [4, 1, 70, 1027, 2, 0, 7, 0, 2, 1, 7, 1, 2, 2, 7, 2, 2, 3, 7, 3, 2, 4, 7],
  [4, 2, 5, 7, 5, 2, 6, 7, 6, 2, 7, 7, 7, 2, 8, 7, 8, 2, 9, 7, 9, 2, 10, 7],
  [10, 2, 11, 7, 11, 2, 12, 7, 12, 2, 13, 7, 13, 2, 14, 7, 14, 2, 15, 7, 15],
  [2, 16, 7, 16, 2, 17, 7, 17, 2, 18, 7, 18, 2, 19, 7, 19, 2, 20, 7, 20, 2],
  [21, 7, 21, 2, 22, 7, 22, 2, 23, 7, 23, 2, 24, 7, 24, 2, 25, 7, 25, 2, 26],
  [7, 26, 2, 27, 7, 27, 2, 28, 7, 28, 2, 29, 7, 29, 2, 30, 7, 30, 2, 31, 7],
  [31, 2, 32, 7, 32, 2, 33, 7, 33, 2, 34, 7, 34, 2, 35, 7, 35, 2, 36, 7, 36],
  [2, 37, 7, 37, 2, 38, 7, 38, 2, 39, 7, 39, 2, 40, 7, 40, 2, 41, 7, 41, 2],
  [42, 7, 42, 2, 43, 7, 43, 2, 44, 7, 44, 2, 45, 7, 45, 2, 46, 7, 46, 2, 47],
  [7, 47, 2, 48, 7, 48, 2, 49, 7, 49, 2, 50, 7, 50, 2, 51, 7, 51, 2, 52, 7],
  [52, 2, 53, 7, 53, 2, 54, 7, 54, 2, 55, 7, 55, 2, 56, 7, 56, 2, 57, 7, 57],
  [2, 58, 7, 58, 2, 59, 7, 59, 2, 60, 7, 60, 2, 61, 7, 61, 2, 62, 7, 62, 2],
  [63, 7, 63, 2, 64, 7, 64, 2, 65, 7, 65, 2, 66, 7, 66, 1, 0, 1, 0, 3, 0],
  [137, 8, 0, 1, 1, 1, 1, 1, 1, 3, 1, 142, 8, 1, 1, 2, 5, 2, 145, 8, 2, 10],
  [2, 12, 2, 148, 9, 2, 1, 2, 3, 2, 151, 8, 2, 1, 2, 4, 2, 154, 8, 2, 11],
  [2, 12, 2, 155, 1, 2, 3, 2, 159, 8, 2, 1, 3, 1, 3, 1, 3, 1, 3, 1, 3, 1],
  [3, 1, 3, 1, 3, 1, 3, 1, 3, 1, 3, 1, 3, 1, 3, 1, 3, 1, 3, 1, 3, 1, 3, 1],
  [3, 1, 3, 1, 3, 1, 3, 1, 3, 1, 3, 1, 3, 1, 3, 1, 3, 1, 3, 1, 3, 1, 3, 1],
  [3, 1, 3, 1, 3, 1, 3, 3, 3, 194, 8, 3, 1, 4, 1, 4, 1, 4, 3, 4, 199, 8, 4],
  [1, 5, 1, 5, 3, 5, 203, 8, 5, 1, 5, 5, 5, 206, 8, 5, 10, 5, 12, 5, 209],
  [9, 5, 1, 5, 3, 5, 212, 8, 5, 1, 5, 1, 5, 1, 6, 3, 6, 217, 8, 6, 1, 6, 4],
  [6, 220, 8, 6, 11, 6, 12, 6, 221, 1, 6, 3, 6, 225, 8, 6, 1, 6, 3, 6, 228],
  [8, 6, 1, 7, 1, 7, 1, 7, 1, 7, 1, 7, 1, 7, 1, 7, 1, 7, 1, 7, 1, 7, 1, 7],
  [1, 7, 1, 7, 1, 7, 1, 7, 1, 7, 1, 7, 1, 7, 1, 7, 1, 7, 1, 7, 1, 7, 3, 7],
  [252, 8, 7, 1, 8, 4, 8, 255, 8, 8, 11, 8, 12, 8, 256, 1, 9, 4, 9, 260, 8],
  [9, 11, 9, 12, 9, 261, 1, 9, 1, 9, 4, 9, 266, 8, 9, 11, 9, 12, 9, 267, 5],
  [9, 270, 8, 9, 10, 9, 12, 9, 273, 9, 9, 1, 9, 3, 9, 276, 8, 9, 1, 10, 1],
  [10, 1, 10, 1, 10, 1, 10, 1, 10, 1, 10, 1, 10, 1, 10, 1, 10, 1, 10, 1, 10],
  [1, 10, 1, 10, 1, 10, 1, 10, 1, 10, 1, 10, 1, 10, 1, 10, 1, 10, 1, 10, 1],
  [10, 1, 10, 1, 10, 1, 10, 1, 10, 1, 10, 1, 10, 1, 10, 1, 10, 1, 10, 1, 10],
  [1, 10, 3, 10, 312, 8, 10, 1, 11, 1, 11, 3, 11, 316, 8, 11, 1, 12, 3, 12],
  [319, 8, 12, 1, 12, 5, 12, 322, 8, 12, 10, 12, 12, 12, 325, 9, 12, 1, 13],
  [1, 13, 1, 13, 3, 13, 330, 8, 13, 1, 13, 1, 13, 1, 14, 3, 14, 335, 8, 14],
  [1, 14, 1, 14, 3, 14, 339, 8, 14, 4, 14, 341, 8, 14, 11, 14, 12, 14, 342],
  [1, 14, 3, 14, 346, 8, 14, 1, 14, 1, 14, 3, 14, 350, 8, 14, 1, 14, 3, 14],
  [353, 8, 14, 1, 14, 1, 14, 3, 14, 357, 8, 14, 3, 14, 359, 8, 14, 1, 15],
  [1, 15, 1, 15, 3, 15, 364, 8, 15, 1, 15, 1, 15, 1, 15, 1, 15, 1, 15, 1],
  [15, 1, 15, 1, 15, 3, 15, 374, 8, 15, 1, 15, 3, 15, 377, 8, 15, 1, 15, 3],
  [15, 380, 8, 15, 1, 15, 1, 15, 1, 16, 3, 16, 385, 8, 16, 1, 16, 1, 16, 3],
  [16, 389, 8, 16, 1, 16, 1, 16, 3, 16, 393, 8, 16, 3, 16, 395, 8, 16, 1],
  [17, 1, 17, 1, 17, 1, 17, 1, 17, 1, 17, 1, 17, 1, 17, 1, 17, 1, 17, 1, 17],
  [1, 17, 1, 17, 1, 17, 1, 17, 1, 17, 1, 17, 1, 17, 1, 17, 1, 17, 1, 17, 3],
  [17, 418, 8, 17, 1, 18, 3, 18, 421, 8, 18, 1, 18, 1, 18, 3, 18, 425, 8],
  [18, 1, 18, 1, 18, 3, 18, 429, 8, 18, 1, 18, 1, 18, 3, 18, 433, 8, 18, 1],
  [18, 3, 18, 436, 8, 18, 3, 18, 438, 8, 18, 1, 19, 1, 19, 1, 19, 1, 19, 1],
  [19, 1, 19, 1, 19, 1, 19, 1, 19, 1, 19, 1, 19, 1, 19, 1, 19, 1, 19, 1, 19],
  [1, 19, 1, 19, 1, 19, 1, 19, 1, 19, 1, 19, 1, 19, 1, 19, 1, 19, 1, 19, 1],
  [19, 1, 19, 1, 19, 1, 19, 1, 19, 1, 19, 1, 19, 1, 19, 1, 19, 1, 19, 1, 19],
  [3, 19, 476, 8, 19, 1, 20, 1, 20, 1, 20, 1, 20, 1, 20, 1, 20, 1, 20, 1],
  [20, 3, 20, 486, 8, 20, 1, 20, 1, 20, 1, 20, 3, 20, 491, 8, 20, 3, 20, 493]]

/-- /repo/parser/rfc5322_parser.go:117-166. -/
def parserRows1 : List (List Int) := [
  [8, 20, 1, 21, 3, 21, 496, 8, 21, 1, 21, 1, 21, 3, 21, 500, 8, 21, 1, 21],
  [3, 21, 503, 8, 21, 1, 21, 1, 21, 3, 21, 507, 8, 21, 3, 21, 509, 8, 21],
  [1, 22, 1, 22, 1, 22, 3, 22, 514, 8, 22, 1, 22, 1, 22, 1, 22, 3, 22, 519],
  [8, 22, 3, 22, 521, 8, 22, 1, 23, 1, 23, 1, 23, 3, 23, 526, 8, 23, 1, 23],
  [1, 23, 1, 23, 3, 23, 531, 8, 23, 3, 23, 533, 8, 23, 1, 24, 3, 24, 536],
  [8, 24, 1, 24, 1, 24, 1, 24, 1, 24, 1, 24, 1, 25, 1, 25, 1, 25, 1, 25, 3],
  [25, 547, 8, 25, 1, 26, 1, 26, 3, 26, 551, 8, 26, 1, 27, 1, 27, 3, 27, 555],
  [8, 27, 1, 28, 3, 28, 558, 8, 28, 1, 28, 1, 28, 1, 29, 3, 29, 563, 8, 29],
  [1, 29, 1, 29, 3, 29, 567, 8, 29, 1, 29, 1, 29, 3, 29, 571, 8, 29, 1, 29],
  [3, 29, 574, 8, 29, 1, 30, 3, 30, 577, 8, 30, 1, 30, 1, 30, 1, 30, 3, 30],
  [582, 8, 30, 1, 30, 3, 30, 585, 8, 30, 1, 30, 3, 30, 588, 8, 30, 1, 30],
  [3, 30, 591, 8, 30, 1, 31, 1, 31, 1, 32, 4, 32, 596, 8, 32, 11, 32, 12],
  [32, 597, 1, 32, 1, 32, 1, 32, 1, 32, 5, 32, 604, 8, 32, 10, 32, 12, 32],
  [607, 9, 32, 3, 32, 609, 8, 32, 1, 33, 1, 33, 1, 33, 5, 33, 614, 8, 33],
  [10, 33, 12, 33, 617, 9, 33, 1, 33, 3, 33, 620, 8, 33, 1, 34, 1, 34, 1],
  [34, 5, 34, 625, 8, 34, 10, 34, 12, 34, 628, 9, 34, 1, 34, 1, 34, 1, 34],
  [1, 34, 1, 34, 3, 34, 635, 8, 34, 1, 35, 1, 35, 1, 35, 3, 35, 640, 8, 35],
  [1, 36, 1, 36, 1, 36, 1, 36, 1, 36, 3, 36, 647, 8, 36, 1, 37, 3, 37, 650],
  [8, 37, 1, 37, 1, 37, 3, 37, 654, 8, 37, 1, 37, 3, 37, 657, 8, 37, 1, 37],
  [1, 37, 3, 37, 661, 8, 37, 1, 37, 3, 37, 664, 8, 37, 1, 38, 4, 38, 667],
  [8, 38, 11, 38, 12, 38, 668, 1, 39, 3, 39, 672, 8, 39, 1, 39, 1, 39, 3],
  [39, 676, 8, 39, 1, 39, 3, 39, 679, 8, 39, 1, 39, 1, 39, 3, 39, 683, 8],
  [39, 1, 39, 3, 39, 686, 8, 39, 1, 39, 1, 39, 3, 39, 690, 8, 39, 3, 39, 692],
  [8, 39, 1, 40, 1, 40, 3, 40, 696, 8, 40, 1, 40, 5, 40, 699, 8, 40, 10, 40],
  [12, 40, 702, 9, 40, 1, 40, 3, 40, 705, 8, 40, 1, 40, 1, 40, 1, 41, 1, 41],
  [1, 41, 1, 41, 1, 41, 1, 41, 1, 41, 1, 41, 1, 41, 1, 41, 1, 41, 1, 41, 1],
  [41, 1, 41, 1, 41, 1, 41, 1, 41, 1, 41, 1, 41, 1, 41, 1, 41, 1, 41, 1, 41],
  [1, 41, 1, 41, 1, 41, 1, 41, 1, 41, 1, 41, 1, 41, 1, 41, 1, 41, 3, 41, 741],
  [8, 41, 1, 42, 1, 42, 1, 43, 1, 43, 1, 44, 1, 44, 1, 45, 1, 45, 1, 45, 1],
  [45, 1, 45, 3, 45, 754, 8, 45, 1, 46, 4, 46, 757, 8, 46, 11, 46, 12, 46],
  [758, 1, 46, 1, 46, 4, 46, 763, 8, 46, 11, 46, 12, 46, 764, 1, 47, 1, 47],
  [1, 47, 1, 47, 1, 47, 1, 47, 1, 47, 1, 47, 1, 47, 1, 47, 1, 47, 1, 47, 1],
  [47, 1, 47, 1, 47, 1, 47, 1, 47, 1, 47, 1, 47, 1, 47, 1, 47, 1, 47, 1, 47],
  [1, 47, 1, 47, 1, 47, 1, 47, 1, 47, 1, 47, 1, 47, 1, 47, 1, 47, 3, 47, 799],
  [8, 47, 1, 48, 3, 48, 802, 8, 48, 1, 48, 1, 48, 1, 48, 1, 48, 1, 48, 3],
  [48, 809, 8, 48, 1, 49, 1, 49, 1, 49, 1, 50, 1, 50, 5, 50, 816, 8, 50, 10],
  [50, 12, 50, 819, 9, 50, 1, 50, 1, 50, 1, 50, 1, 50, 3, 50, 825, 8, 50],
  [1, 50, 1, 50, 3, 50, 829, 8, 50, 5, 50, 831, 8, 50, 10, 50, 12, 50, 834],
  [9, 50, 1, 51, 3, 51, 837, 8, 51, 1, 51, 5, 51, 840, 8, 51, 10, 51, 12],
  [51, 843, 9, 51, 1, 51, 1, 51, 1, 51, 1, 51, 3, 51, 849, 8, 51, 5, 51, 851],
  [8, 51, 10, 51, 12, 51, 854, 9, 51, 1, 52, 3, 52, 857, 8, 52, 1, 52, 5],
  [52, 860, 8, 52, 10, 52, 12, 52, 863, 9, 52, 1, 52, 1, 52, 1, 52, 1, 52],
  [3, 52, 869, 8, 52, 5, 52, 871, 8, 52, 10, 52, 12, 52, 874, 9, 52, 1, 53],
  [3, 53, 877, 8, 53, 1, 53, 4, 53, 880, 8, 53, 11, 53, 12, 53, 881, 1, 53],
  [3, 53, 885, 8, 53, 1, 54, 1, 54, 1, 54, 5, 54, 890, 8, 54, 10, 54, 12],
  [54, 893, 9, 54, 1, 55, 1, 55, 1, 55, 5, 55, 898, 8, 55, 10, 55, 12, 55],
  [901, 9, 55, 1, 56, 1, 56, 1, 56, 1, 56, 1, 56, 1, 56, 1, 56, 1, 56, 1],
  [56, 1, 56, 1, 57, 1, 57, 1, 58, 1, 58, 1, 59, 4, 59, 918, 8, 59, 11, 59],
  [12, 59, 919, 1, 60, 1, 60, 1, 60, 1, 60, 1, 60, 1, 60, 1, 60, 1, 60, 1],
  [60, 1, 60, 1, 60, 1, 60, 1, 60, 1, 60, 1, 60, 1, 60, 1, 60, 1, 60, 1, 60]]

/-- /repo/parser/rfc5322_parser.go:167-216. -/
def parserRows2 : List (List Int) := [
  [3, 60, 941, 8, 60, 1, 61, 4, 61, 944, 8, 61, 11, 61, 12, 61, 945, 1, 62],
  [1, 62, 1, 62, 1, 62, 1, 62, 1, 62, 1, 62, 1, 62, 1, 62, 1, 62, 1, 62, 1],
  [62, 1, 62, 1, 62, 1, 62, 1, 62, 1, 62, 1, 62, 1, 62, 1, 62, 1, 62, 1, 62],
  [1, 62, 1, 62, 1, 62, 1, 62, 1, 62, 1, 62, 1, 62, 1, 62, 1, 62, 1, 62, 1],
  [62, 3, 62, 981, 8, 62, 1, 63, 1, 63, 1, 63, 1, 64, 1, 64, 1, 65, 1, 65],
  [1, 65, 1, 65, 1, 65, 1, 65, 1, 65, 1, 65, 1, 65, 1, 65, 1, 65, 1, 65, 1],
  [65, 1, 65, 1, 65, 1, 65, 1, 65, 1, 65, 1, 65, 1, 65, 1, 65, 1, 65, 1, 65],
  [1, 65, 1, 65, 1, 65, 1, 65, 1, 65, 1, 65, 1, 65, 1, 65, 1, 65, 1, 65, 1],
  [65, 1, 65, 3, 65, 1023, 8, 65, 1, 66, 1, 66, 1, 66, 0, 0, 67, 0, 2, 4],
  [6, 8, 10, 12, 14, 16, 18, 20, 22, 24, 26, 28, 30, 32, 34, 36, 38, 40, 42],
  [44, 46, 48, 50, 52, 54, 56, 58, 60, 62, 64, 66, 68, 70, 72, 74, 76, 78],
  [80, 82, 84, 86, 88, 90, 92, 94, 96, 98, 100, 102, 104, 106, 108, 110, 112],
  [114, 116, 118, 120, 122, 124, 126, 128, 130, 132, 0, 6, 2, 0, 20, 20, 22],
  [22, 2, 0, 23, 23, 32, 32, 2, 0, 21, 21, 27, 27, 4, 0, 2, 2, 5, 6, 8, 8],
  [43, 43, 2, 0, 3, 3, 9, 9, 1, 0, 45, 70, 1321, 0, 136, 1, 0, 0, 0, 2, 141],
  [1, 0, 0, 0, 4, 158, 1, 0, 0, 0, 6, 193, 1, 0, 0, 0, 8, 198, 1, 0, 0, 0],
  [10, 200, 1, 0, 0, 0, 12, 227, 1, 0, 0, 0, 14, 251, 1, 0, 0, 0, 16, 254],
  [1, 0, 0, 0, 18, 259, 1, 0, 0, 0, 20, 311, 1, 0, 0, 0, 22, 315, 1, 0, 0],
  [0, 24, 323, 1, 0, 0, 0, 26, 326, 1, 0, 0, 0, 28, 358, 1, 0, 0, 0, 30, 363],
  [1, 0, 0, 0, 32, 394, 1, 0, 0, 0, 34, 417, 1, 0, 0, 0, 36, 437, 1, 0, 0],
  [0, 38, 475, 1, 0, 0, 0, 40, 492, 1, 0, 0, 0, 42, 508, 1, 0, 0, 0, 44, 520],
  [1, 0, 0, 0, 46, 532, 1, 0, 0, 0, 48, 535, 1, 0, 0, 0, 50, 546, 1, 0, 0],
  [0, 52, 550, 1, 0, 0, 0, 54, 554, 1, 0, 0, 0, 56, 557, 1, 0, 0, 0, 58, 573],
  [1, 0, 0, 0, 60, 576, 1, 0, 0, 0, 62, 592, 1, 0, 0, 0, 64, 608, 1, 0, 0],
  [0, 66, 619, 1, 0, 0, 0, 68, 634, 1, 0, 0, 0, 70, 639, 1, 0, 0, 0, 72, 641],
  [1, 0, 0, 0, 74, 663, 1, 0, 0, 0, 76, 666, 1, 0, 0, 0, 78, 691, 1, 0, 0],
  [0, 80, 693, 1, 0, 0, 0, 82, 740, 1, 0, 0, 0, 84, 742, 1, 0, 0, 0, 86, 744],
  [1, 0, 0, 0, 88, 746, 1, 0, 0, 0, 90, 748, 1, 0, 0, 0, 92, 756, 1, 0, 0],
  [0, 94, 798, 1, 0, 0, 0, 96, 801, 1, 0, 0, 0, 98, 810, 1, 0, 0, 0, 100],
  [817, 1, 0, 0, 0, 102, 841, 1, 0, 0, 0, 104, 861, 1, 0, 0, 0, 106, 879],
  [1, 0, 0, 0, 108, 886, 1, 0, 0, 0, 110, 894, 1, 0, 0, 0, 112, 902, 1, 0],
  [0, 0, 114, 912, 1, 0, 0, 0, 116, 914, 1, 0, 0, 0, 118, 917, 1, 0, 0, 0],
  [120, 940, 1, 0, 0, 0, 122, 943, 1, 0, 0, 0, 124, 980, 1, 0, 0, 0, 126],
  [982, 1, 0, 0, 0, 128, 985, 1, 0, 0, 0, 130, 1022, 1, 0, 0, 0, 132, 1024],
  [1, 0, 0, 0, 134, 137, 3, 130, 65, 0, 135, 137, 3, 128, 64, 0, 136, 134],
  [1, 0, 0, 0, 136, 135, 1, 0, 0, 0, 137, 1, 1, 0, 0, 0, 138, 139, 5, 34],
  [0, 0, 139, 142, 3, 0, 0, 0, 140, 142, 3, 90, 45, 0, 141, 138, 1, 0, 0],
  [0, 141, 140, 1, 0, 0, 0, 142, 3, 1, 0, 0, 0, 143, 145, 3, 128, 64, 0, 144],
  [143, 1, 0, 0, 0, 145, 148, 1, 0, 0, 0, 146, 144, 1, 0, 0, 0, 146, 147],
  [1, 0, 0, 0, 147, 149, 1, 0, 0, 0, 148, 146, 1, 0, 0, 0, 149, 151, 3, 126],
  [63, 0, 150, 146, 1, 0, 0, 0, 150, 151, 1, 0, 0, 0, 151, 153, 1, 0, 0, 0],
  [152, 154, 3, 128, 64, 0, 153, 152, 1, 0, 0, 0, 154, 155, 1, 0, 0, 0, 155],
  [153, 1, 0, 0, 0, 155, 156, 1, 0, 0, 0, 156, 159, 1, 0, 0, 0, 157, 159],
  [3, 92, 46, 0, 158, 150, 1, 0, 0, 0, 158, 157, 1, 0, 0, 0, 159, 5, 1, 0],
  [0, 0, 160, 194, 3, 132, 66, 0, 161, 194, 5, 10, 0, 0, 162, 194, 5, 11],
  [0, 0, 163, 194, 5, 12, 0, 0, 164, 194, 5, 13, 0, 0, 165, 194, 5, 14, 0],
  [0, 166, 194, 5, 15, 0, 0, 167, 194, 5, 16, 0, 0, 168, 194, 5, 19, 0, 0],
  [169, 194, 5, 20, 0, 0, 170, 194, 5, 21, 0, 0, 171, 194, 5, 22, 0, 0, 172],
  [194, 5, 23, 0, 0, 173, 194, 5, 24, 0, 0, 174, 194, 5, 25, 0, 0, 175, 194],
  [5, 26, 0, 0, 176, 194, 5, 27, 0, 0, 177, 194, 5, 28, 0, 0, 178, 194, 5]]

/-- /repo/parser/rfc5322_parser.go:217-266. -/
def parserRows3 : List (List Int) := [
  [29, 0, 0, 179, 194, 5, 30, 0, 0, 180, 194, 5, 31, 0, 0, 181, 194, 5, 32],
  [0, 0, 182, 194, 5, 33, 0, 0, 183, 194, 5, 35, 0, 0, 184, 194, 5, 36, 0],
  [0, 185, 194, 5, 37, 0, 0, 186, 194, 5, 38, 0, 0, 187, 194, 5, 39, 0, 0],
  [188, 194, 5, 40, 0, 0, 189, 194, 5, 41, 0, 0, 190, 194, 5, 42, 0, 0, 191],
  [194, 3, 86, 43, 0, 192, 194, 5, 44, 0, 0, 193, 160, 1, 0, 0, 0, 193, 161],
  [1, 0, 0, 0, 193, 162, 1, 0, 0, 0, 193, 163, 1, 0, 0, 0, 193, 164, 1, 0],
  [0, 0, 193, 165, 1, 0, 0, 0, 193, 166, 1, 0, 0, 0, 193, 167, 1, 0, 0, 0],
  [193, 168, 1, 0, 0, 0, 193, 169, 1, 0, 0, 0, 193, 170, 1, 0, 0, 0, 193],
  [171, 1, 0, 0, 0, 193, 172, 1, 0, 0, 0, 193, 173, 1, 0, 0, 0, 193, 174],
  [1, 0, 0, 0, 193, 175, 1, 0, 0, 0, 193, 176, 1, 0, 0, 0, 193, 177, 1, 0],
  [0, 0, 193, 178, 1, 0, 0, 0, 193, 179, 1, 0, 0, 0, 193, 180, 1, 0, 0, 0],
  [193, 181, 1, 0, 0, 0, 193, 182, 1, 0, 0, 0, 193, 183, 1, 0, 0, 0, 193],
  [184, 1, 0, 0, 0, 193, 185, 1, 0, 0, 0, 193, 186, 1, 0, 0, 0, 193, 187],
  [1, 0, 0, 0, 193, 188, 1, 0, 0, 0, 193, 189, 1, 0, 0, 0, 193, 190, 1, 0],
  [0, 0, 193, 191, 1, 0, 0, 0, 193, 192, 1, 0, 0, 0, 194, 7, 1, 0, 0, 0, 195],
  [199, 3, 6, 3, 0, 196, 199, 3, 2, 1, 0, 197, 199, 3, 10, 5, 0, 198, 195],
  [1, 0, 0, 0, 198, 196, 1, 0, 0, 0, 198, 197, 1, 0, 0, 0, 199, 9, 1, 0, 0],
  [0, 200, 207, 5, 17, 0, 0, 201, 203, 3, 4, 2, 0, 202, 201, 1, 0, 0, 0, 202],
  [203, 1, 0, 0, 0, 203, 204, 1, 0, 0, 0, 204, 206, 3, 8, 4, 0, 205, 202],
  [1, 0, 0, 0, 206, 209, 1, 0, 0, 0, 207, 205, 1, 0, 0, 0, 207, 208, 1, 0],
  [0, 0, 208, 211, 1, 0, 0, 0, 209, 207, 1, 0, 0, 0, 210, 212, 3, 4, 2, 0],
  [211, 210, 1, 0, 0, 0, 211, 212, 1, 0, 0, 0, 212, 213, 1, 0, 0, 0, 213],
  [214, 5, 18, 0, 0, 214, 11, 1, 0, 0, 0, 215, 217, 3, 4, 2, 0, 216, 215],
  [1, 0, 0, 0, 216, 217, 1, 0, 0, 0, 217, 218, 1, 0, 0, 0, 218, 220, 3, 10],
  [5, 0, 219, 216, 1, 0, 0, 0, 220, 221, 1, 0, 0, 0, 221, 219, 1, 0, 0, 0],
  [221, 222, 1, 0, 0, 0, 222, 224, 1, 0, 0, 0, 223, 225, 3, 4, 2, 0, 224],
  [223, 1, 0, 0, 0, 224, 225, 1, 0, 0, 0, 225, 228, 1, 0, 0, 0, 226, 228],
  [3, 4, 2, 0, 227, 219, 1, 0, 0, 0, 227, 226, 1, 0, 0, 0, 228, 13, 1, 0],
  [0, 0, 229, 252, 3, 132, 66, 0, 230, 252, 5, 25, 0, 0, 231, 252, 5, 10],
  [0, 0, 232, 252, 5, 12, 0, 0, 233, 252, 5, 13, 0, 0, 234, 252, 5, 14, 0],
  [0, 235, 252, 5, 15, 0, 0, 236, 252, 5, 16, 0, 0, 237, 252, 5, 19, 0, 0],
  [238, 252, 5, 20, 0, 0, 239, 252, 5, 22, 0, 0, 240, 252, 5, 24, 0, 0, 241],
  [252, 5, 29, 0, 0, 242, 252, 5, 31, 0, 0, 243, 252, 5, 36, 0, 0, 244, 252],
  [5, 37, 0, 0, 245, 252, 5, 38, 0, 0, 246, 252, 5, 39, 0, 0, 247, 252, 5],
  [40, 0, 0, 248, 252, 5, 41, 0, 0, 249, 252, 5, 42, 0, 0, 250, 252, 5, 44],
  [0, 0, 251, 229, 1, 0, 0, 0, 251, 230, 1, 0, 0, 0, 251, 231, 1, 0, 0, 0],
  [251, 232, 1, 0, 0, 0, 251, 233, 1, 0, 0, 0, 251, 234, 1, 0, 0, 0, 251],
  [235, 1, 0, 0, 0, 251, 236, 1, 0, 0, 0, 251, 237, 1, 0, 0, 0, 251, 238],
  [1, 0, 0, 0, 251, 239, 1, 0, 0, 0, 251, 240, 1, 0, 0, 0, 251, 241, 1, 0],
  [0, 0, 251, 242, 1, 0, 0, 0, 251, 243, 1, 0, 0, 0, 251, 244, 1, 0, 0, 0],
  [251, 245, 1, 0, 0, 0, 251, 246, 1, 0, 0, 0, 251, 247, 1, 0, 0, 0, 251],
  [248, 1, 0, 0, 0, 251, 249, 1, 0, 0, 0, 251, 250, 1, 0, 0, 0, 252, 15, 1],
  [0, 0, 0, 253, 255, 3, 14, 7, 0, 254, 253, 1, 0, 0, 0, 255, 256, 1, 0, 0],
  [0, 256, 254, 1, 0, 0, 0, 256, 257, 1, 0, 0, 0, 257, 17, 1, 0, 0, 0, 258],
  [260, 3, 14, 7, 0, 259, 258, 1, 0, 0, 0, 260, 261, 1, 0, 0, 0, 261, 259],
  [1, 0, 0, 0, 261, 262, 1, 0, 0, 0, 262, 271, 1, 0, 0, 0, 263, 265, 5, 23],
  [0, 0, 264, 266, 3, 14, 7, 0, 265, 264, 1, 0, 0, 0, 266, 267, 1, 0, 0, 0],
  [267, 265, 1, 0, 0, 0, 267, 268, 1, 0, 0, 0, 268, 270, 1, 0, 0, 0, 269],
  [263, 1, 0, 0, 0, 270, 273, 1, 0, 0, 0, 271, 269, 1, 0, 0, 0, 271, 272],
  [1, 0, 0, 0, 272, 275, 1, 0, 0, 0, 273, 271, 1, 0, 0, 0, 274, 276, 5, 23]]

/-- /repo/parser/rfc5322_parser.go:267-316. -/
def parserRows4 : List (List Int) := [
  [0, 0, 275, 274, 1, 0, 0, 0, 275, 276, 1, 0, 0, 0, 276, 19, 1, 0, 0, 0],
  [277, 312, 3, 132, 66, 0, 278, 312, 5, 10, 0, 0, 279, 312, 5, 12, 0, 0],
  [280, 312, 5, 13, 0, 0, 281, 312, 5, 14, 0, 0, 282, 312, 5, 15, 0, 0, 283],
  [312, 5, 16, 0, 0, 284, 312, 5, 17, 0, 0, 285, 312, 5, 18, 0, 0, 286, 312],
  [5, 19, 0, 0, 287, 312, 5, 20, 0, 0, 288, 312, 5, 21, 0, 0, 289, 312, 5],
  [22, 0, 0, 290, 312, 5, 23, 0, 0, 291, 312, 5, 24, 0, 0, 292, 312, 5, 25],
  [0, 0, 293, 312, 5, 26, 0, 0, 294, 312, 5, 27, 0, 0, 295, 312, 5, 28, 0],
  [0, 296, 312, 5, 29, 0, 0, 297, 312, 5, 30, 0, 0, 298, 312, 5, 31, 0, 0],
  [299, 312, 5, 32, 0, 0, 300, 312, 5, 33, 0, 0, 301, 312, 5, 35, 0, 0, 302],
  [312, 5, 36, 0, 0, 303, 312, 5, 37, 0, 0, 304, 312, 5, 38, 0, 0, 305, 312],
  [5, 39, 0, 0, 306, 312, 5, 40, 0, 0, 307, 312, 5, 41, 0, 0, 308, 312, 5],
  [42, 0, 0, 309, 312, 3, 88, 44, 0, 310, 312, 5, 44, 0, 0, 311, 277, 1, 0],
  [0, 0, 311, 278, 1, 0, 0, 0, 311, 279, 1, 0, 0, 0, 311, 280, 1, 0, 0, 0],
  [311, 281, 1, 0, 0, 0, 311, 282, 1, 0, 0, 0, 311, 283, 1, 0, 0, 0, 311],
  [284, 1, 0, 0, 0, 311, 285, 1, 0, 0, 0, 311, 286, 1, 0, 0, 0, 311, 287],
  [1, 0, 0, 0, 311, 288, 1, 0, 0, 0, 311, 289, 1, 0, 0, 0, 311, 290, 1, 0],
  [0, 0, 311, 291, 1, 0, 0, 0, 311, 292, 1, 0, 0, 0, 311, 293, 1, 0, 0, 0],
  [311, 294, 1, 0, 0, 0, 311, 295, 1, 0, 0, 0, 311, 296, 1, 0, 0, 0, 311],
  [297, 1, 0, 0, 0, 311, 298, 1, 0, 0, 0, 311, 299, 1, 0, 0, 0, 311, 300],
  [1, 0, 0, 0, 311, 301, 1, 0, 0, 0, 311, 302, 1, 0, 0, 0, 311, 303, 1, 0],
  [0, 0, 311, 304, 1, 0, 0, 0, 311, 305, 1, 0, 0, 0, 311, 306, 1, 0, 0, 0],
  [311, 307, 1, 0, 0, 0, 311, 308, 1, 0, 0, 0, 311, 309, 1, 0, 0, 0, 311],
  [310, 1, 0, 0, 0, 312, 21, 1, 0, 0, 0, 313, 316, 3, 20, 10, 0, 314, 316],
  [3, 2, 1, 0, 315, 313, 1, 0, 0, 0, 315, 314, 1, 0, 0, 0, 316, 23, 1, 0],
  [0, 0, 317, 319, 3, 4, 2, 0, 318, 317, 1, 0, 0, 0, 318, 319, 1, 0, 0, 0],
  [319, 320, 1, 0, 0, 0, 320, 322, 3, 22, 11, 0, 321, 318, 1, 0, 0, 0, 322],
  [325, 1, 0, 0, 0, 323, 321, 1, 0, 0, 0, 323, 324, 1, 0, 0, 0, 324, 25, 1],
  [0, 0, 0, 325, 323, 1, 0, 0, 0, 326, 327, 5, 11, 0, 0, 327, 329, 3, 24],
  [12, 0, 328, 330, 3, 4, 2, 0, 329, 328, 1, 0, 0, 0, 329, 330, 1, 0, 0, 0],
  [330, 331, 1, 0, 0, 0, 331, 332, 5, 11, 0, 0, 332, 27, 1, 0, 0, 0, 333],
  [335, 3, 12, 6, 0, 334, 333, 1, 0, 0, 0, 334, 335, 1, 0, 0, 0, 335, 336],
  [1, 0, 0, 0, 336, 338, 3, 112, 56, 0, 337, 339, 3, 12, 6, 0, 338, 337, 1],
  [0, 0, 0, 338, 339, 1, 0, 0, 0, 339, 341, 1, 0, 0, 0, 340, 334, 1, 0, 0],
  [0, 341, 342, 1, 0, 0, 0, 342, 340, 1, 0, 0, 0, 342, 343, 1, 0, 0, 0, 343],
  [359, 1, 0, 0, 0, 344, 346, 3, 12, 6, 0, 345, 344, 1, 0, 0, 0, 345, 346],
  [1, 0, 0, 0, 346, 347, 1, 0, 0, 0, 347, 349, 3, 16, 8, 0, 348, 350, 3, 12],
  [6, 0, 349, 348, 1, 0, 0, 0, 349, 350, 1, 0, 0, 0, 350, 359, 1, 0, 0, 0],
  [351, 353, 3, 12, 6, 0, 352, 351, 1, 0, 0, 0, 352, 353, 1, 0, 0, 0, 353],
  [354, 1, 0, 0, 0, 354, 356, 3, 26, 13, 0, 355, 357, 3, 12, 6, 0, 356, 355],
  [1, 0, 0, 0, 356, 357, 1, 0, 0, 0, 357, 359, 1, 0, 0, 0, 358, 340, 1, 0],
  [0, 0, 358, 345, 1, 0, 0, 0, 358, 352, 1, 0, 0, 0, 359, 29, 1, 0, 0, 0],
  [360, 361, 3, 32, 16, 0, 361, 362, 5, 21, 0, 0, 362, 364, 1, 0, 0, 0, 363],
  [360, 1, 0, 0, 0, 363, 364, 1, 0, 0, 0, 364, 365, 1, 0, 0, 0, 365, 366],
  [3, 36, 18, 0, 366, 367, 3, 38, 19, 0, 367, 368, 3, 40, 20, 0, 368, 369],
  [3, 42, 21, 0, 369, 370, 5, 26, 0, 0, 370, 373, 3, 44, 22, 0, 371, 372],
  [5, 26, 0, 0, 372, 374, 3, 46, 23, 0, 373, 371, 1, 0, 0, 0, 373, 374, 1],
  [0, 0, 0, 374, 376, 1, 0, 0, 0, 375, 377, 3, 50, 25, 0, 376, 375, 1, 0],
  [0, 0, 376, 377, 1, 0, 0, 0, 377, 379, 1, 0, 0, 0, 378, 380, 3, 12, 6, 0],
  [379, 378, 1, 0, 0, 0, 379, 380, 1, 0, 0, 0, 380, 381, 1, 0, 0, 0, 381],
  [382, 5, 0, 0, 1, 382, 31, 1, 0, 0, 0, 383, 385, 3, 4, 2, 0, 384, 383, 1]]

/-- /repo/parser/rfc5322_parser.go:317-366. -/
def parserRows5 : List (List Int) := [
  [0, 0, 0, 384, 385, 1, 0, 0, 0, 385, 386, 1, 0, 0, 0, 386, 395, 3, 34, 17],
  [0, 387, 389, 3, 12, 6, 0, 388, 387, 1, 0, 0, 0, 388, 389, 1, 0, 0, 0, 389],
  [390, 1, 0, 0, 0, 390, 392, 3, 34, 17, 0, 391, 393, 3, 12, 6, 0, 392, 391],
  [1, 0, 0, 0, 392, 393, 1, 0, 0, 0, 393, 395, 1, 0, 0, 0, 394, 384, 1, 0],
  [0, 0, 394, 388, 1, 0, 0, 0, 395, 33, 1, 0, 0, 0, 396, 397, 5, 57, 0, 0],
  [397, 398, 5, 59, 0, 0, 398, 418, 5, 58, 0, 0, 399, 400, 5, 64, 0, 0, 400],
  [401, 5, 65, 0, 0, 401, 418, 5, 49, 0, 0, 402, 403, 5, 67, 0, 0, 403, 404],
  [5, 49, 0, 0, 404, 418, 5, 48, 0, 0, 405, 406, 5, 64, 0, 0, 406, 407, 5],
  [52, 0, 0, 407, 418, 5, 65, 0, 0, 408, 409, 5, 50, 0, 0, 409, 410, 5, 62],
  [0, 0, 410, 418, 5, 53, 0, 0, 411, 412, 5, 63, 0, 0, 412, 413, 5, 45, 0],
  [0, 413, 418, 5, 64, 0, 0, 414, 415, 5, 63, 0, 0, 415, 416, 5, 65, 0, 0],
  [416, 418, 5, 58, 0, 0, 417, 396, 1, 0, 0, 0, 417, 399, 1, 0, 0, 0, 417],
  [402, 1, 0, 0, 0, 417, 405, 1, 0, 0, 0, 417, 408, 1, 0, 0, 0, 417, 411],
  [1, 0, 0, 0, 417, 414, 1, 0, 0, 0, 418, 35, 1, 0, 0, 0, 419, 421, 3, 4],
  [2, 0, 420, 419, 1, 0, 0, 0, 420, 421, 1, 0, 0, 0, 421, 422, 1, 0, 0, 0],
  [422, 424, 5, 25, 0, 0, 423, 425, 5, 25, 0, 0, 424, 423, 1, 0, 0, 0, 424],
  [425, 1, 0, 0, 0, 425, 426, 1, 0, 0, 0, 426, 438, 3, 4, 2, 0, 427, 429],
  [3, 12, 6, 0, 428, 427, 1, 0, 0, 0, 428, 429, 1, 0, 0, 0, 429, 430, 1, 0],
  [0, 0, 430, 432, 5, 25, 0, 0, 431, 433, 5, 25, 0, 0, 432, 431, 1, 0, 0],
  [0, 432, 433, 1, 0, 0, 0, 433, 435, 1, 0, 0, 0, 434, 436, 3, 12, 6, 0, 435],
  [434, 1, 0, 0, 0, 435, 436, 1, 0, 0, 0, 436, 438, 1, 0, 0, 0, 437, 420],
  [1, 0, 0, 0, 437, 428, 1, 0, 0, 0, 438, 37, 1, 0, 0, 0, 439, 440, 5, 54],
  [0, 0, 440, 441, 5, 45, 0, 0, 441, 476, 5, 58, 0, 0, 442, 443, 5, 50, 0],
  [0, 443, 444, 5, 49, 0, 0, 444, 476, 5, 46, 0, 0, 445, 446, 5, 57, 0, 0],
  [446, 447, 5, 45, 0, 0, 447, 476, 5, 62, 0, 0, 448, 449, 5, 45, 0, 0, 449],
  [450, 5, 60, 0, 0, 450, 476, 5, 62, 0, 0, 451, 452, 5, 57, 0, 0, 452, 453],
  [5, 45, 0, 0, 453, 476, 5, 69, 0, 0, 454, 455, 5, 54, 0, 0, 455, 456, 5],
  [65, 0, 0, 456, 476, 5, 58, 0, 0, 457, 458, 5, 54, 0, 0, 458, 459, 5, 65],
  [0, 0, 459, 476, 5, 56, 0, 0, 460, 461, 5, 45, 0, 0, 461, 462, 5, 65, 0],
  [0, 462, 476, 5, 51, 0, 0, 463, 464, 5, 63, 0, 0, 464, 465, 5, 49, 0, 0],
  [465, 476, 5, 60, 0, 0, 466, 467, 5, 59, 0, 0, 467, 468, 5, 47, 0, 0, 468],
  [476, 5, 64, 0, 0, 469, 470, 5, 58, 0, 0, 470, 471, 5, 59, 0, 0, 471, 476],
  [5, 66, 0, 0, 472, 473, 5, 48, 0, 0, 473, 474, 5, 49, 0, 0, 474, 476, 5],
  [47, 0, 0, 475, 439, 1, 0, 0, 0, 475, 442, 1, 0, 0, 0, 475, 445, 1, 0, 0],
  [0, 475, 448, 1, 0, 0, 0, 475, 451, 1, 0, 0, 0, 475, 454, 1, 0, 0, 0, 475],
  [457, 1, 0, 0, 0, 475, 460, 1, 0, 0, 0, 475, 463, 1, 0, 0, 0, 475, 466],
  [1, 0, 0, 0, 475, 469, 1, 0, 0, 0, 475, 472, 1, 0, 0, 0, 476, 39, 1, 0],
  [0, 0, 477, 478, 3, 4, 2, 0, 478, 479, 5, 25, 0, 0, 479, 480, 5, 25, 0],
  [0, 480, 481, 5, 25, 0, 0, 481, 482, 5, 25, 0, 0, 482, 483, 3, 4, 2, 0],
  [483, 493, 1, 0, 0, 0, 484, 486, 3, 12, 6, 0, 485, 484, 1, 0, 0, 0, 485],
  [486, 1, 0, 0, 0, 486, 487, 1, 0, 0, 0, 487, 488, 5, 25, 0, 0, 488, 490],
  [5, 25, 0, 0, 489, 491, 3, 12, 6, 0, 490, 489, 1, 0, 0, 0, 490, 491, 1],
  [0, 0, 0, 491, 493, 1, 0, 0, 0, 492, 477, 1, 0, 0, 0, 492, 485, 1, 0, 0],
  [0, 493, 41, 1, 0, 0, 0, 494, 496, 5, 25, 0, 0, 495, 494, 1, 0, 0, 0, 495],
  [496, 1, 0, 0, 0, 496, 497, 1, 0, 0, 0, 497, 509, 5, 25, 0, 0, 498, 500],
  [3, 12, 6, 0, 499, 498, 1, 0, 0, 0, 499, 500, 1, 0, 0, 0, 500, 502, 1, 0],
  [0, 0, 501, 503, 5, 25, 0, 0, 502, 501, 1, 0, 0, 0, 502, 503, 1, 0, 0, 0],
  [503, 504, 1, 0, 0, 0, 504, 506, 5, 25, 0, 0, 505, 507, 3, 12, 6, 0, 506],
  [505, 1, 0, 0, 0, 506, 507, 1, 0, 0, 0, 507, 509, 1, 0, 0, 0, 508, 495],
  [1, 0, 0, 0, 508, 499, 1, 0, 0, 0, 509, 43, 1, 0, 0, 0, 510, 511, 5, 25]]

/-- /repo/parser/rfc5322_parser.go:367-416. -/
def parserRows6 : List (List Int) := [
  [0, 0, 511, 521, 5, 25, 0, 0, 512, 514, 3, 12, 6, 0, 513, 512, 1, 0, 0],
  [0, 513, 514, 1, 0, 0, 0, 514, 515, 1, 0, 0, 0, 515, 516, 5, 25, 0, 0, 516],
  [518, 5, 25, 0, 0, 517, 519, 3, 12, 6, 0, 518, 517, 1, 0, 0, 0, 518, 519],
  [1, 0, 0, 0, 519, 521, 1, 0, 0, 0, 520, 510, 1, 0, 0, 0, 520, 513, 1, 0],
  [0, 0, 521, 45, 1, 0, 0, 0, 522, 523, 5, 25, 0, 0, 523, 533, 5, 25, 0, 0],
  [524, 526, 3, 12, 6, 0, 525, 524, 1, 0, 0, 0, 525, 526, 1, 0, 0, 0, 526],
  [527, 1, 0, 0, 0, 527, 528, 5, 25, 0, 0, 528, 530, 5, 25, 0, 0, 529, 531],
  [3, 12, 6, 0, 530, 529, 1, 0, 0, 0, 530, 531, 1, 0, 0, 0, 531, 533, 1, 0],
  [0, 0, 532, 522, 1, 0, 0, 0, 532, 525, 1, 0, 0, 0, 533, 47, 1, 0, 0, 0],
  [534, 536, 7, 0, 0, 0, 535, 534, 1, 0, 0, 0, 535, 536, 1, 0, 0, 0, 536],
  [537, 1, 0, 0, 0, 537, 538, 5, 25, 0, 0, 538, 539, 5, 25, 0, 0, 539, 540],
  [5, 25, 0, 0, 540, 541, 5, 25, 0, 0, 541, 49, 1, 0, 0, 0, 542, 543, 3, 4],
  [2, 0, 543, 544, 3, 48, 24, 0, 544, 547, 1, 0, 0, 0, 545, 547, 3, 94, 47],
  [0, 546, 542, 1, 0, 0, 0, 546, 545, 1, 0, 0, 0, 547, 51, 1, 0, 0, 0, 548],
  [551, 3, 54, 27, 0, 549, 551, 3, 60, 30, 0, 550, 548, 1, 0, 0, 0, 550, 549],
  [1, 0, 0, 0, 551, 53, 1, 0, 0, 0, 552, 555, 3, 56, 28, 0, 553, 555, 3, 72],
  [36, 0, 554, 552, 1, 0, 0, 0, 554, 553, 1, 0, 0, 0, 555, 55, 1, 0, 0, 0],
  [556, 558, 3, 64, 32, 0, 557, 556, 1, 0, 0, 0, 557, 558, 1, 0, 0, 0, 558],
  [559, 1, 0, 0, 0, 559, 560, 3, 58, 29, 0, 560, 57, 1, 0, 0, 0, 561, 563],
  [3, 12, 6, 0, 562, 561, 1, 0, 0, 0, 562, 563, 1, 0, 0, 0, 563, 564, 1, 0],
  [0, 0, 564, 566, 5, 28, 0, 0, 565, 567, 3, 72, 36, 0, 566, 565, 1, 0, 0],
  [0, 566, 567, 1, 0, 0, 0, 567, 568, 1, 0, 0, 0, 568, 570, 5, 30, 0, 0, 569],
  [571, 3, 12, 6, 0, 570, 569, 1, 0, 0, 0, 570, 571, 1, 0, 0, 0, 571, 574],
  [1, 0, 0, 0, 572, 574, 3, 96, 48, 0, 573, 562, 1, 0, 0, 0, 573, 572, 1],
  [0, 0, 0, 574, 59, 1, 0, 0, 0, 575, 577, 5, 11, 0, 0, 576, 575, 1, 0, 0],
  [0, 576, 577, 1, 0, 0, 0, 577, 578, 1, 0, 0, 0, 578, 579, 3, 64, 32, 0],
  [579, 581, 5, 26, 0, 0, 580, 582, 3, 70, 35, 0, 581, 580, 1, 0, 0, 0, 581],
  [582, 1, 0, 0, 0, 582, 584, 1, 0, 0, 0, 583, 585, 5, 11, 0, 0, 584, 583],
  [1, 0, 0, 0, 584, 585, 1, 0, 0, 0, 585, 587, 1, 0, 0, 0, 586, 588, 5, 27],
  [0, 0, 587, 586, 1, 0, 0, 0, 587, 588, 1, 0, 0, 0, 588, 590, 1, 0, 0, 0],
  [589, 591, 3, 12, 6, 0, 590, 589, 1, 0, 0, 0, 590, 591, 1, 0, 0, 0, 591],
  [61, 1, 0, 0, 0, 592, 593, 7, 1, 0, 0, 593, 63, 1, 0, 0, 0, 594, 596, 3],
  [28, 14, 0, 595, 594, 1, 0, 0, 0, 596, 597, 1, 0, 0, 0, 597, 595, 1, 0],
  [0, 0, 597, 598, 1, 0, 0, 0, 598, 609, 1, 0, 0, 0, 599, 605, 3, 28, 14],
  [0, 600, 604, 3, 28, 14, 0, 601, 604, 3, 62, 31, 0, 602, 604, 3, 12, 6],
  [0, 603, 600, 1, 0, 0, 0, 603, 601, 1, 0, 0, 0, 603, 602, 1, 0, 0, 0, 604],
  [607, 1, 0, 0, 0, 605, 603, 1, 0, 0, 0, 605, 606, 1, 0, 0, 0, 606, 609],
  [1, 0, 0, 0, 607, 605, 1, 0, 0, 0, 608, 595, 1, 0, 0, 0, 608, 599, 1, 0],
  [0, 0, 609, 65, 1, 0, 0, 0, 610, 615, 3, 54, 27, 0, 611, 612, 5, 21, 0],
  [0, 612, 614, 3, 54, 27, 0, 613, 611, 1, 0, 0, 0, 614, 617, 1, 0, 0, 0],
  [615, 613, 1, 0, 0, 0, 615, 616, 1, 0, 0, 0, 616, 620, 1, 0, 0, 0, 617],
  [615, 1, 0, 0, 0, 618, 620, 3, 102, 51, 0, 619, 610, 1, 0, 0, 0, 619, 618],
  [1, 0, 0, 0, 620, 67, 1, 0, 0, 0, 621, 626, 3, 52, 26, 0, 622, 623, 7, 2],
  [0, 0, 623, 625, 3, 52, 26, 0, 624, 622, 1, 0, 0, 0, 625, 628, 1, 0, 0],
  [0, 626, 624, 1, 0, 0, 0, 626, 627, 1, 0, 0, 0, 627, 629, 1, 0, 0, 0, 628],
  [626, 1, 0, 0, 0, 629, 630, 5, 0, 0, 1, 630, 635, 1, 0, 0, 0, 631, 632],
  [3, 104, 52, 0, 632, 633, 5, 0, 0, 1, 633, 635, 1, 0, 0, 0, 634, 621, 1],
  [0, 0, 0, 634, 631, 1, 0, 0, 0, 635, 69, 1, 0, 0, 0, 636, 640, 3, 66, 33],
  [0, 637, 640, 3, 12, 6, 0, 638, 640, 3, 106, 53, 0, 639, 636, 1, 0, 0, 0],
  [639, 637, 1, 0, 0, 0, 639, 638, 1, 0, 0, 0, 640, 71, 1, 0, 0, 0, 641, 642]]

/-- /repo/parser/rfc5322_parser.go:417-466. -/
def parserRows7 : List (List Int) := [
  [3, 74, 37, 0, 642, 643, 5, 32, 0, 0, 643, 646, 3, 78, 39, 0, 644, 645],
  [5, 26, 0, 0, 645, 647, 3, 76, 38, 0, 646, 644, 1, 0, 0, 0, 646, 647, 1],
  [0, 0, 0, 647, 73, 1, 0, 0, 0, 648, 650, 3, 12, 6, 0, 649, 648, 1, 0, 0],
  [0, 649, 650, 1, 0, 0, 0, 650, 651, 1, 0, 0, 0, 651, 653, 3, 18, 9, 0, 652],
  [654, 3, 12, 6, 0, 653, 652, 1, 0, 0, 0, 653, 654, 1, 0, 0, 0, 654, 664],
  [1, 0, 0, 0, 655, 657, 3, 12, 6, 0, 656, 655, 1, 0, 0, 0, 656, 657, 1, 0],
  [0, 0, 657, 658, 1, 0, 0, 0, 658, 660, 3, 26, 13, 0, 659, 661, 3, 12, 6],
  [0, 660, 659, 1, 0, 0, 0, 660, 661, 1, 0, 0, 0, 661, 664, 1, 0, 0, 0, 662],
  [664, 3, 108, 54, 0, 663, 649, 1, 0, 0, 0, 663, 656, 1, 0, 0, 0, 663, 662],
  [1, 0, 0, 0, 664, 75, 1, 0, 0, 0, 665, 667, 5, 25, 0, 0, 666, 665, 1, 0],
  [0, 0, 667, 668, 1, 0, 0, 0, 668, 666, 1, 0, 0, 0, 668, 669, 1, 0, 0, 0],
  [669, 77, 1, 0, 0, 0, 670, 672, 3, 12, 6, 0, 671, 670, 1, 0, 0, 0, 671],
  [672, 1, 0, 0, 0, 672, 673, 1, 0, 0, 0, 673, 675, 3, 18, 9, 0, 674, 676],
  [3, 12, 6, 0, 675, 674, 1, 0, 0, 0, 675, 676, 1, 0, 0, 0, 676, 692, 1, 0],
  [0, 0, 677, 679, 3, 12, 6, 0, 678, 677, 1, 0, 0, 0, 678, 679, 1, 0, 0, 0],
  [679, 680, 1, 0, 0, 0, 680, 682, 3, 80, 40, 0, 681, 683, 3, 12, 6, 0, 682],
  [681, 1, 0, 0, 0, 682, 683, 1, 0, 0, 0, 683, 692, 1, 0, 0, 0, 684, 686],
  [3, 12, 6, 0, 685, 684, 1, 0, 0, 0, 685, 686, 1, 0, 0, 0, 686, 687, 1, 0],
  [0, 0, 687, 689, 3, 110, 55, 0, 688, 690, 3, 12, 6, 0, 689, 688, 1, 0, 0],
  [0, 689, 690, 1, 0, 0, 0, 690, 692, 1, 0, 0, 0, 691, 671, 1, 0, 0, 0, 691],
  [678, 1, 0, 0, 0, 691, 685, 1, 0, 0, 0, 692, 79, 1, 0, 0, 0, 693, 700, 5],
  [33, 0, 0, 694, 696, 3, 4, 2, 0, 695, 694, 1, 0, 0, 0, 695, 696, 1, 0, 0],
  [0, 696, 697, 1, 0, 0, 0, 697, 699, 3, 82, 41, 0, 698, 695, 1, 0, 0, 0],
  [699, 702, 1, 0, 0, 0, 700, 698, 1, 0, 0, 0, 700, 701, 1, 0, 0, 0, 701],
  [704, 1, 0, 0, 0, 702, 700, 1, 0, 0, 0, 703, 705, 3, 4, 2, 0, 704, 703],
  [1, 0, 0, 0, 704, 705, 1, 0, 0, 0, 705, 706, 1, 0, 0, 0, 706, 707, 5, 35],
  [0, 0, 707, 81, 1, 0, 0, 0, 708, 741, 3, 132, 66, 0, 709, 741, 5, 10, 0],
  [0, 710, 741, 5, 11, 0, 0, 711, 741, 5, 12, 0, 0, 712, 741, 5, 13, 0, 0],
  [713, 741, 5, 14, 0, 0, 714, 741, 5, 15, 0, 0, 715, 741, 5, 16, 0, 0, 716],
  [741, 5, 17, 0, 0, 717, 741, 5, 18, 0, 0, 718, 741, 5, 19, 0, 0, 719, 741],
  [5, 20, 0, 0, 720, 741, 5, 21, 0, 0, 721, 741, 5, 22, 0, 0, 722, 741, 5],
  [23, 0, 0, 723, 741, 5, 24, 0, 0, 724, 741, 5, 25, 0, 0, 725, 741, 5, 26],
  [0, 0, 726, 741, 5, 27, 0, 0, 727, 741, 5, 28, 0, 0, 728, 741, 5, 29, 0],
  [0, 729, 741, 5, 30, 0, 0, 730, 741, 5, 31, 0, 0, 731, 741, 5, 32, 0, 0],
  [732, 741, 5, 36, 0, 0, 733, 741, 5, 37, 0, 0, 734, 741, 5, 38, 0, 0, 735],
  [741, 5, 39, 0, 0, 736, 741, 5, 40, 0, 0, 737, 741, 5, 41, 0, 0, 738, 741],
  [5, 42, 0, 0, 739, 741, 5, 44, 0, 0, 740, 708, 1, 0, 0, 0, 740, 709, 1],
  [0, 0, 0, 740, 710, 1, 0, 0, 0, 740, 711, 1, 0, 0, 0, 740, 712, 1, 0, 0],
  [0, 740, 713, 1, 0, 0, 0, 740, 714, 1, 0, 0, 0, 740, 715, 1, 0, 0, 0, 740],
  [716, 1, 0, 0, 0, 740, 717, 1, 0, 0, 0, 740, 718, 1, 0, 0, 0, 740, 719],
  [1, 0, 0, 0, 740, 720, 1, 0, 0, 0, 740, 721, 1, 0, 0, 0, 740, 722, 1, 0],
  [0, 0, 740, 723, 1, 0, 0, 0, 740, 724, 1, 0, 0, 0, 740, 725, 1, 0, 0, 0],
  [740, 726, 1, 0, 0, 0, 740, 727, 1, 0, 0, 0, 740, 728, 1, 0, 0, 0, 740],
  [729, 1, 0, 0, 0, 740, 730, 1, 0, 0, 0, 740, 731, 1, 0, 0, 0, 740, 732],
  [1, 0, 0, 0, 740, 733, 1, 0, 0, 0, 740, 734, 1, 0, 0, 0, 740, 735, 1, 0],
  [0, 0, 740, 736, 1, 0, 0, 0, 740, 737, 1, 0, 0, 0, 740, 738, 1, 0, 0, 0],
  [740, 739, 1, 0, 0, 0, 741, 83, 1, 0, 0, 0, 742, 743, 7, 3, 0, 0, 743, 85],
  [1, 0, 0, 0, 744, 745, 3, 84, 42, 0, 745, 87, 1, 0, 0, 0, 746, 747, 3, 84],
  [42, 0, 747, 89, 1, 0, 0, 0, 748, 753, 5, 34, 0, 0, 749, 754, 5, 1, 0, 0],
  [750, 754, 3, 84, 42, 0, 751, 754, 5, 4, 0, 0, 752, 754, 5, 7, 0, 0, 753]]

/-- /repo/parser/rfc5322_parser.go:467-516. -/
def parserRows8 : List (List Int) := [
  [749, 1, 0, 0, 0, 753, 750, 1, 0, 0, 0, 753, 751, 1, 0, 0, 0, 753, 752],
  [1, 0, 0, 0, 754, 91, 1, 0, 0, 0, 755, 757, 3, 128, 64, 0, 756, 755, 1],
  [0, 0, 0, 757, 758, 1, 0, 0, 0, 758, 756, 1, 0, 0, 0, 758, 759, 1, 0, 0],
  [0, 759, 760, 1, 0, 0, 0, 760, 762, 3, 126, 63, 0, 761, 763, 3, 128, 64],
  [0, 762, 761, 1, 0, 0, 0, 763, 764, 1, 0, 0, 0, 764, 762, 1, 0, 0, 0, 764],
  [765, 1, 0, 0, 0, 765, 93, 1, 0, 0, 0, 766, 767, 5, 65, 0, 0, 767, 799],
  [5, 64, 0, 0, 768, 769, 5, 65, 0, 0, 769, 770, 5, 64, 0, 0, 770, 799, 5],
  [47, 0, 0, 771, 772, 5, 51, 0, 0, 772, 773, 5, 57, 0, 0, 773, 799, 5, 64],
  [0, 0, 774, 775, 5, 49, 0, 0, 775, 776, 5, 63, 0, 0, 776, 799, 5, 64, 0],
  [0, 777, 778, 5, 49, 0, 0, 778, 779, 5, 48, 0, 0, 779, 799, 5, 64, 0, 0],
  [780, 781, 5, 47, 0, 0, 781, 782, 5, 63, 0, 0, 782, 799, 5, 64, 0, 0, 783],
  [784, 5, 47, 0, 0, 784, 785, 5, 48, 0, 0, 785, 799, 5, 64, 0, 0, 786, 787],
  [5, 57, 0, 0, 787, 788, 5, 63, 0, 0, 788, 799, 5, 64, 0, 0, 789, 790, 5],
  [57, 0, 0, 790, 791, 5, 48, 0, 0, 791, 799, 5, 64, 0, 0, 792, 793, 5, 60],
  [0, 0, 793, 794, 5, 63, 0, 0, 794, 799, 5, 64, 0, 0, 795, 796, 5, 60, 0],
  [0, 796, 797, 5, 48, 0, 0, 797, 799, 5, 64, 0, 0, 798, 766, 1, 0, 0, 0],
  [798, 768, 1, 0, 0, 0, 798, 771, 1, 0, 0, 0, 798, 774, 1, 0, 0, 0, 798],
  [777, 1, 0, 0, 0, 798, 780, 1, 0, 0, 0, 798, 783, 1, 0, 0, 0, 798, 786],
  [1, 0, 0, 0, 798, 789, 1, 0, 0, 0, 798, 792, 1, 0, 0, 0, 798, 795, 1, 0],
  [0, 0, 799, 95, 1, 0, 0, 0, 800, 802, 3, 12, 6, 0, 801, 800, 1, 0, 0, 0],
  [801, 802, 1, 0, 0, 0, 802, 803, 1, 0, 0, 0, 803, 804, 5, 28, 0, 0, 804],
  [805, 3, 98, 49, 0, 805, 806, 3, 72, 36, 0, 806, 808, 5, 30, 0, 0, 807],
  [809, 3, 12, 6, 0, 808, 807, 1, 0, 0, 0, 808, 809, 1, 0, 0, 0, 809, 97],
  [1, 0, 0, 0, 810, 811, 3, 100, 50, 0, 811, 812, 5, 26, 0, 0, 812, 99, 1],
  [0, 0, 0, 813, 816, 3, 12, 6, 0, 814, 816, 5, 21, 0, 0, 815, 813, 1, 0],
  [0, 0, 815, 814, 1, 0, 0, 0, 816, 819, 1, 0, 0, 0, 817, 815, 1, 0, 0, 0],
  [817, 818, 1, 0, 0, 0, 818, 820, 1, 0, 0, 0, 819, 817, 1, 0, 0, 0, 820],
  [821, 5, 32, 0, 0, 821, 832, 3, 78, 39, 0, 822, 824, 5, 21, 0, 0, 823, 825],
  [3, 12, 6, 0, 824, 823, 1, 0, 0, 0, 824, 825, 1, 0, 0, 0, 825, 828, 1, 0],
  [0, 0, 826, 827, 5, 32, 0, 0, 827, 829, 3, 78, 39, 0, 828, 826, 1, 0, 0],
  [0, 828, 829, 1, 0, 0, 0, 829, 831, 1, 0, 0, 0, 830, 822, 1, 0, 0, 0, 831],
  [834, 1, 0, 0, 0, 832, 830, 1, 0, 0, 0, 832, 833, 1, 0, 0, 0, 833, 101],
  [1, 0, 0, 0, 834, 832, 1, 0, 0, 0, 835, 837, 3, 12, 6, 0, 836, 835, 1, 0],
  [0, 0, 836, 837, 1, 0, 0, 0, 837, 838, 1, 0, 0, 0, 838, 840, 5, 21, 0, 0],
  [839, 836, 1, 0, 0, 0, 840, 843, 1, 0, 0, 0, 841, 839, 1, 0, 0, 0, 841],
  [842, 1, 0, 0, 0, 842, 844, 1, 0, 0, 0, 843, 841, 1, 0, 0, 0, 844, 852],
  [3, 54, 27, 0, 845, 848, 5, 21, 0, 0, 846, 849, 3, 54, 27, 0, 847, 849],
  [3, 12, 6, 0, 848, 846, 1, 0, 0, 0, 848, 847, 1, 0, 0, 0, 848, 849, 1, 0],
  [0, 0, 849, 851, 1, 0, 0, 0, 850, 845, 1, 0, 0, 0, 851, 854, 1, 0, 0, 0],
  [852, 850, 1, 0, 0, 0, 852, 853, 1, 0, 0, 0, 853, 103, 1, 0, 0, 0, 854],
  [852, 1, 0, 0, 0, 855, 857, 3, 12, 6, 0, 856, 855, 1, 0, 0, 0, 856, 857],
  [1, 0, 0, 0, 857, 858, 1, 0, 0, 0, 858, 860, 5, 21, 0, 0, 859, 856, 1, 0],
  [0, 0, 860, 863, 1, 0, 0, 0, 861, 859, 1, 0, 0, 0, 861, 862, 1, 0, 0, 0],
  [862, 864, 1, 0, 0, 0, 863, 861, 1, 0, 0, 0, 864, 872, 3, 52, 26, 0, 865],
  [868, 5, 21, 0, 0, 866, 869, 3, 52, 26, 0, 867, 869, 3, 12, 6, 0, 868, 866],
  [1, 0, 0, 0, 868, 867, 1, 0, 0, 0, 868, 869, 1, 0, 0, 0, 869, 871, 1, 0],
  [0, 0, 870, 865, 1, 0, 0, 0, 871, 874, 1, 0, 0, 0, 872, 870, 1, 0, 0, 0],
  [872, 873, 1, 0, 0, 0, 873, 105, 1, 0, 0, 0, 874, 872, 1, 0, 0, 0, 875],
  [877, 3, 12, 6, 0, 876, 875, 1, 0, 0, 0, 876, 877, 1, 0, 0, 0, 877, 878],
  [1, 0, 0, 0, 878, 880, 5, 21, 0, 0, 879, 876, 1, 0, 0, 0, 880, 881, 1, 0]]

/-- /repo/parser/rfc5322_parser.go:517-566. -/
def parserRows9 : List (List Int) := [
  [0, 0, 881, 879, 1, 0, 0, 0, 881, 882, 1, 0, 0, 0, 882, 884, 1, 0, 0, 0],
  [883, 885, 3, 12, 6, 0, 884, 883, 1, 0, 0, 0, 884, 885, 1, 0, 0, 0, 885],
  [107, 1, 0, 0, 0, 886, 891, 3, 28, 14, 0, 887, 888, 5, 23, 0, 0, 888, 890],
  [3, 28, 14, 0, 889, 887, 1, 0, 0, 0, 890, 893, 1, 0, 0, 0, 891, 889, 1],
  [0, 0, 0, 891, 892, 1, 0, 0, 0, 892, 109, 1, 0, 0, 0, 893, 891, 1, 0, 0],
  [0, 894, 899, 3, 16, 8, 0, 895, 896, 5, 23, 0, 0, 896, 898, 3, 16, 8, 0],
  [897, 895, 1, 0, 0, 0, 898, 901, 1, 0, 0, 0, 899, 897, 1, 0, 0, 0, 899],
  [900, 1, 0, 0, 0, 900, 111, 1, 0, 0, 0, 901, 899, 1, 0, 0, 0, 902, 903],
  [5, 29, 0, 0, 903, 904, 5, 31, 0, 0, 904, 905, 3, 114, 57, 0, 905, 906],
  [5, 31, 0, 0, 906, 907, 3, 116, 58, 0, 907, 908, 5, 31, 0, 0, 908, 909],
  [3, 122, 61, 0, 909, 910, 5, 31, 0, 0, 910, 911, 5, 29, 0, 0, 911, 113],
  [1, 0, 0, 0, 912, 913, 3, 118, 59, 0, 913, 115, 1, 0, 0, 0, 914, 915, 3],
  [118, 59, 0, 915, 117, 1, 0, 0, 0, 916, 918, 3, 120, 60, 0, 917, 916, 1],
  [0, 0, 0, 918, 919, 1, 0, 0, 0, 919, 917, 1, 0, 0, 0, 919, 920, 1, 0, 0],
  [0, 920, 119, 1, 0, 0, 0, 921, 941, 3, 132, 66, 0, 922, 941, 5, 10, 0, 0],
  [923, 941, 5, 12, 0, 0, 924, 941, 5, 13, 0, 0, 925, 941, 5, 14, 0, 0, 926],
  [941, 5, 15, 0, 0, 927, 941, 5, 16, 0, 0, 928, 941, 5, 19, 0, 0, 929, 941],
  [5, 20, 0, 0, 930, 941, 5, 22, 0, 0, 931, 941, 5, 25, 0, 0, 932, 941, 5],
  [34, 0, 0, 933, 941, 5, 36, 0, 0, 934, 941, 5, 37, 0, 0, 935, 941, 5, 38],
  [0, 0, 936, 941, 5, 39, 0, 0, 937, 941, 5, 40, 0, 0, 938, 941, 5, 41, 0],
  [0, 939, 941, 5, 42, 0, 0, 940, 921, 1, 0, 0, 0, 940, 922, 1, 0, 0, 0, 940],
  [923, 1, 0, 0, 0, 940, 924, 1, 0, 0, 0, 940, 925, 1, 0, 0, 0, 940, 926],
  [1, 0, 0, 0, 940, 927, 1, 0, 0, 0, 940, 928, 1, 0, 0, 0, 940, 929, 1, 0],
  [0, 0, 940, 930, 1, 0, 0, 0, 940, 931, 1, 0, 0, 0, 940, 932, 1, 0, 0, 0],
  [940, 933, 1, 0, 0, 0, 940, 934, 1, 0, 0, 0, 940, 935, 1, 0, 0, 0, 940],
  [936, 1, 0, 0, 0, 940, 937, 1, 0, 0, 0, 940, 938, 1, 0, 0, 0, 940, 939],
  [1, 0, 0, 0, 941, 121, 1, 0, 0, 0, 942, 944, 3, 124, 62, 0, 943, 942, 1],
  [0, 0, 0, 944, 945, 1, 0, 0, 0, 945, 943, 1, 0, 0, 0, 945, 946, 1, 0, 0],
  [0, 946, 123, 1, 0, 0, 0, 947, 981, 3, 132, 66, 0, 948, 981, 5, 10, 0, 0],
  [949, 981, 5, 11, 0, 0, 950, 981, 5, 12, 0, 0, 951, 981, 5, 13, 0, 0, 952],
  [981, 5, 14, 0, 0, 953, 981, 5, 15, 0, 0, 954, 981, 5, 16, 0, 0, 955, 981],
  [5, 17, 0, 0, 956, 981, 5, 18, 0, 0, 957, 981, 5, 19, 0, 0, 958, 981, 5],
  [20, 0, 0, 959, 981, 5, 21, 0, 0, 960, 981, 5, 22, 0, 0, 961, 981, 5, 23],
  [0, 0, 962, 981, 5, 24, 0, 0, 963, 981, 5, 25, 0, 0, 964, 981, 5, 26, 0],
  [0, 965, 981, 5, 27, 0, 0, 966, 981, 5, 28, 0, 0, 967, 981, 5, 29, 0, 0],
  [968, 981, 5, 30, 0, 0, 969, 981, 5, 32, 0, 0, 970, 981, 5, 33, 0, 0, 971],
  [981, 5, 34, 0, 0, 972, 981, 5, 35, 0, 0, 973, 981, 5, 36, 0, 0, 974, 981],
  [5, 37, 0, 0, 975, 981, 5, 38, 0, 0, 976, 981, 5, 39, 0, 0, 977, 981, 5],
  [40, 0, 0, 978, 981, 5, 41, 0, 0, 979, 981, 5, 42, 0, 0, 980, 947, 1, 0],
  [0, 0, 980, 948, 1, 0, 0, 0, 980, 949, 1, 0, 0, 0, 980, 950, 1, 0, 0, 0],
  [980, 951, 1, 0, 0, 0, 980, 952, 1, 0, 0, 0, 980, 953, 1, 0, 0, 0, 980],
  [954, 1, 0, 0, 0, 980, 955, 1, 0, 0, 0, 980, 956, 1, 0, 0, 0, 980, 957],
  [1, 0, 0, 0, 980, 958, 1, 0, 0, 0, 980, 959, 1, 0, 0, 0, 980, 960, 1, 0],
  [0, 0, 980, 961, 1, 0, 0, 0, 980, 962, 1, 0, 0, 0, 980, 963, 1, 0, 0, 0],
  [980, 964, 1, 0, 0, 0, 980, 965, 1, 0, 0, 0, 980, 966, 1, 0, 0, 0, 980],
  [967, 1, 0, 0, 0, 980, 968, 1, 0, 0, 0, 980, 969, 1, 0, 0, 0, 980, 970],
  [1, 0, 0, 0, 980, 971, 1, 0, 0, 0, 980, 972, 1, 0, 0, 0, 980, 973, 1, 0],
  [0, 0, 980, 974, 1, 0, 0, 0, 980, 975, 1, 0, 0, 0, 980, 976, 1, 0, 0, 0],
  [980, 977, 1, 0, 0, 0, 980, 978, 1, 0, 0, 0, 980, 979, 1, 0, 0, 0, 981],
  [125, 1, 0, 0, 0, 982, 983, 5, 7, 0, 0, 983, 984, 5, 4, 0, 0, 984, 127]]

/-- /repo/parser/rfc5322_parser.go:567-600. -/
def parserRows10 : List (List Int) := [
  [1, 0, 0, 0, 985, 986, 7, 4, 0, 0, 986, 129, 1, 0, 0, 0, 987, 1023, 3, 132],
  [66, 0, 988, 1023, 5, 10, 0, 0, 989, 1023, 5, 11, 0, 0, 990, 1023, 5, 12],
  [0, 0, 991, 1023, 5, 13, 0, 0, 992, 1023, 5, 14, 0, 0, 993, 1023, 5, 15],
  [0, 0, 994, 1023, 5, 16, 0, 0, 995, 1023, 5, 17, 0, 0, 996, 1023, 5, 18],
  [0, 0, 997, 1023, 5, 19, 0, 0, 998, 1023, 5, 20, 0, 0, 999, 1023, 5, 21],
  [0, 0, 1000, 1023, 5, 22, 0, 0, 1001, 1023, 5, 23, 0, 0, 1002, 1023, 5],
  [24, 0, 0, 1003, 1023, 5, 25, 0, 0, 1004, 1023, 5, 26, 0, 0, 1005, 1023],
  [5, 27, 0, 0, 1006, 1023, 5, 28, 0, 0, 1007, 1023, 5, 29, 0, 0, 1008, 1023],
  [5, 30, 0, 0, 1009, 1023, 5, 31, 0, 0, 1010, 1023, 5, 32, 0, 0, 1011, 1023],
  [5, 33, 0, 0, 1012, 1023, 5, 34, 0, 0, 1013, 1023, 5, 35, 0, 0, 1014, 1023],
  [5, 36, 0, 0, 1015, 1023, 5, 37, 0, 0, 1016, 1023, 5, 38, 0, 0, 1017, 1023],
  [5, 39, 0, 0, 1018, 1023, 5, 40, 0, 0, 1019, 1023, 5, 41, 0, 0, 1020, 1023],
  [5, 42, 0, 0, 1021, 1023, 5, 44, 0, 0, 1022, 987, 1, 0, 0, 0, 1022, 988],
  [1, 0, 0, 0, 1022, 989, 1, 0, 0, 0, 1022, 990, 1, 0, 0, 0, 1022, 991, 1],
  [0, 0, 0, 1022, 992, 1, 0, 0, 0, 1022, 993, 1, 0, 0, 0, 1022, 994, 1, 0],
  [0, 0, 1022, 995, 1, 0, 0, 0, 1022, 996, 1, 0, 0, 0, 1022, 997, 1, 0, 0],
  [0, 1022, 998, 1, 0, 0, 0, 1022, 999, 1, 0, 0, 0, 1022, 1000, 1, 0, 0, 0],
  [1022, 1001, 1, 0, 0, 0, 1022, 1002, 1, 0, 0, 0, 1022, 1003, 1, 0, 0, 0],
  [1022, 1004, 1, 0, 0, 0, 1022, 1005, 1, 0, 0, 0, 1022, 1006, 1, 0, 0, 0],
  [1022, 1007, 1, 0, 0, 0, 1022, 1008, 1, 0, 0, 0, 1022, 1009, 1, 0, 0, 0],
  [1022, 1010, 1, 0, 0, 0, 1022, 1011, 1, 0, 0, 0, 1022, 1012, 1, 0, 0, 0],
  [1022, 1013, 1, 0, 0, 0, 1022, 1014, 1, 0, 0, 0, 1022, 1015, 1, 0, 0, 0],
  [1022, 1016, 1, 0, 0, 0, 1022, 1017, 1, 0, 0, 0, 1022, 1018, 1, 0, 0, 0],
  [1022, 1019, 1, 0, 0, 0, 1022, 1020, 1, 0, 0, 0, 1022, 1021, 1, 0, 0, 0],
  [1023, 131, 1, 0, 0, 0, 1024, 1025, 7, 5, 0, 0, 1025, 133, 1, 0, 0, 0, 134],
  [136, 141, 146, 150, 155, 158, 193, 198, 202, 207, 211, 216, 221, 224, 227],
  [251, 256, 261, 267, 271, 275, 311, 315, 318, 323, 329, 334, 338, 342, 345],
  [349, 352, 356, 358, 363, 373, 376, 379, 384, 388, 392, 394, 417, 420, 424],
  [428, 432, 435, 437, 475, 485, 490, 492, 495, 499, 502, 506, 508, 513, 518],
  [520, 525, 530, 532, 535, 546, 550, 554, 557, 562, 566, 570, 573, 576, 581],
  [584, 587, 590, 597, 603, 605, 608, 615, 619, 626, 634, 639, 646, 649, 653],
  [656, 660, 663, 668, 671, 675, 678, 682, 685, 689, 691, 695, 700, 704, 740],
  [753, 758, 764, 798, 801, 808, 815, 817, 824, 828, 832, 836, 841, 848, 852],
  [856, 861, 868, 872, 876, 881, 884, 891, 899, 919, 940, 945, 980, 1022]]

/-- `staticData.serializedATN` of the parser, /repo/parser/rfc5322_parser.go:67-600. -/
def parserData : List Int :=
  List.flatten (parserRows0 ++ parserRows1 ++ parserRows2 ++ parserRows3 ++ parserRows4 ++ parserRows5 ++ parserRows6 ++ parserRows7 ++ parserRows8 ++ parserRows9 ++ parserRows10)

/-- /repo/parser/rfc5322_lexer.go:75-124. -/
def lexerRows0 : List (List Int) := [
  [4, 0, 70, 281, 6, -1, 2, 0, 7, 0, 2, 1, 7, 1, 2, 2, 7, 2, 2, 3, 7, 3, 2],
  [4, 7, 4, 2, 5, 7, 5, 2, 6, 7, 6, 2, 7, 7, 7, 2, 8, 7, 8, 2, 9, 7, 9, 2],
  [10, 7, 10, 2, 11, 7, 11, 2, 12, 7, 12, 2, 13, 7, 13, 2, 14, 7, 14, 2, 15],
  [7, 15, 2, 16, 7, 16, 2, 17, 7, 17, 2, 18, 7, 18, 2, 19, 7, 19, 2, 20, 7],
  [20, 2, 21, 7, 21, 2, 22, 7, 22, 2, 23, 7, 23, 2, 24, 7, 24, 2, 25, 7, 25],
  [2, 26, 7, 26, 2, 27, 7, 27, 2, 28, 7, 28, 2, 29, 7, 29, 2, 30, 7, 30, 2],
  [31, 7, 31, 2, 32, 7, 32, 2, 33, 7, 33, 2, 34, 7, 34, 2, 35, 7, 35, 2, 36],
  [7, 36, 2, 37, 7, 37, 2, 38, 7, 38, 2, 39, 7, 39, 2, 40, 7, 40, 2, 41, 7],
  [41, 2, 42, 7, 42, 2, 43, 7, 43, 2, 44, 7, 44, 2, 45, 7, 45, 2, 46, 7, 46],
  [2, 47, 7, 47, 2, 48, 7, 48, 2, 49, 7, 49, 2, 50, 7, 50, 2, 51, 7, 51, 2],
  [52, 7, 52, 2, 53, 7, 53, 2, 54, 7, 54, 2, 55, 7, 55, 2, 56, 7, 56, 2, 57],
  [7, 57, 2, 58, 7, 58, 2, 59, 7, 59, 2, 60, 7, 60, 2, 61, 7, 61, 2, 62, 7],
  [62, 2, 63, 7, 63, 2, 64, 7, 64, 2, 65, 7, 65, 2, 66, 7, 66, 2, 67, 7, 67],
  [2, 68, 7, 68, 2, 69, 7, 69, 1, 0, 1, 0, 1, 1, 1, 1, 1, 2, 1, 2, 1, 3, 1],
  [3, 1, 4, 1, 4, 1, 5, 1, 5, 1, 6, 1, 6, 1, 7, 1, 7, 1, 8, 1, 8, 1, 9, 1],
  [9, 1, 10, 1, 10, 1, 11, 1, 11, 1, 12, 1, 12, 1, 13, 1, 13, 1, 14, 1, 14],
  [1, 15, 1, 15, 1, 16, 1, 16, 1, 17, 1, 17, 1, 18, 1, 18, 1, 19, 1, 19, 1],
  [20, 1, 20, 1, 21, 1, 21, 1, 22, 1, 22, 1, 23, 1, 23, 1, 24, 1, 24, 1, 25],
  [1, 25, 1, 26, 1, 26, 1, 27, 1, 27, 1, 28, 1, 28, 1, 29, 1, 29, 1, 30, 1],
  [30, 1, 31, 1, 31, 1, 32, 1, 32, 1, 33, 1, 33, 1, 34, 1, 34, 1, 35, 1, 35],
  [1, 36, 1, 36, 1, 37, 1, 37, 1, 38, 1, 38, 1, 39, 1, 39, 1, 40, 1, 40, 1],
  [41, 1, 41, 1, 42, 1, 42, 1, 43, 1, 43, 1, 44, 1, 44, 1, 45, 1, 45, 1, 46],
  [1, 46, 1, 47, 1, 47, 1, 48, 1, 48, 1, 49, 1, 49, 1, 50, 1, 50, 1, 51, 1],
  [51, 1, 52, 1, 52, 1, 53, 1, 53, 1, 54, 1, 54, 1, 55, 1, 55, 1, 56, 1, 56],
  [1, 57, 1, 57, 1, 58, 1, 58, 1, 59, 1, 59, 1, 60, 1, 60, 1, 61, 1, 61, 1],
  [62, 1, 62, 1, 63, 1, 63, 1, 64, 1, 64, 1, 65, 1, 65, 1, 66, 1, 66, 1, 67],
  [1, 67, 1, 68, 1, 68, 1, 69, 1, 69, 0, 0, 70, 1, 1, 3, 2, 5, 3, 7, 4, 9],
  [5, 11, 6, 13, 7, 15, 8, 17, 9, 19, 10, 21, 11, 23, 12, 25, 13, 27, 14],
  [29, 15, 31, 16, 33, 17, 35, 18, 37, 19, 39, 20, 41, 21, 43, 22, 45, 23],
  [47, 24, 49, 25, 51, 26, 53, 27, 55, 28, 57, 29, 59, 30, 61, 31, 63, 32],
  [65, 33, 67, 34, 69, 35, 71, 36, 73, 37, 75, 38, 77, 39, 79, 40, 81, 41],
  [83, 42, 85, 43, 87, 44, 89, 45, 91, 46, 93, 47, 95, 48, 97, 49, 99, 50],
  [101, 51, 103, 52, 105, 53, 107, 54, 109, 55, 111, 56, 113, 57, 115, 58],
  [117, 59, 119, 60, 121, 61, 123, 62, 125, 63, 127, 64, 129, 65, 131, 66],
  [133, 67, 135, 68, 137, 69, 139, 70, 1, 0, 27, 1, 0, 48, 57, 2, 0, 65, 65],
  [97, 97, 2, 0, 66, 66, 98, 98, 2, 0, 67, 67, 99, 99, 2, 0, 68, 68, 100],
  [100, 2, 0, 69, 69, 101, 101, 2, 0, 70, 70, 102, 102, 2, 0, 71, 71, 103],
  [103, 2, 0, 72, 72, 104, 104, 2, 0, 73, 73, 105, 105, 2, 0, 74, 74, 106],
  [106, 2, 0, 75, 75, 107, 107, 2, 0, 76, 76, 108, 108, 2, 0, 77, 77, 109],
  [109, 2, 0, 78, 78, 110, 110, 2, 0, 79, 79, 111, 111, 2, 0, 80, 80, 112],
  [112, 2, 0, 81, 81, 113, 113, 2, 0, 82, 82, 114, 114, 2, 0, 83, 83, 115],
  [115, 2, 0, 84, 84, 116, 116, 2, 0, 85, 85, 117, 117, 2, 0, 86, 86, 118],
  [118, 2, 0, 87, 87, 119, 119, 2, 0, 88, 88, 120, 120, 2, 0, 89, 89, 121],
  [121, 2, 0, 90, 90, 122, 122, 280, 0, 1, 1, 0, 0, 0, 0, 3, 1, 0, 0, 0, 0],
  [5, 1, 0, 0, 0, 0, 7, 1, 0, 0, 0, 0, 9, 1, 0, 0, 0, 0, 11, 1, 0, 0, 0, 0],
  [13, 1, 0, 0, 0, 0, 15, 1, 0, 0, 0, 0, 17, 1, 0, 0, 0, 0, 19, 1, 0, 0, 0],
  [0, 21, 1, 0, 0, 0, 0, 23, 1, 0, 0, 0, 0, 25, 1, 0, 0, 0, 0, 27, 1, 0, 0],
  [0, 0, 29, 1, 0, 0, 0, 0, 31, 1, 0, 0, 0, 0, 33, 1, 0, 0, 0, 0, 35, 1, 0],
  [0, 0, 0, 37, 1, 0, 0, 0, 0, 39, 1, 0, 0, 0, 0, 41, 1, 0, 0, 0, 0, 43, 1],
  [0, 0, 0, 0, 45, 1, 0, 0, 0, 0, 47, 1, 0, 0, 0, 0, 49, 1, 0, 0, 0, 0, 51]]

/-- /repo/parser/rfc5322_lexer.go:125-174. -/
def lexerRows1 : List (List Int) := [
  [1, 0, 0, 0, 0, 53, 1, 0, 0, 0, 0, 55, 1, 0, 0, 0, 0, 57, 1, 0, 0, 0, 0],
  [59, 1, 0, 0, 0, 0, 61, 1, 0, 0, 0, 0, 63, 1, 0, 0, 0, 0, 65, 1, 0, 0, 0],
  [0, 67, 1, 0, 0, 0, 0, 69, 1, 0, 0, 0, 0, 71, 1, 0, 0, 0, 0, 73, 1, 0, 0],
  [0, 0, 75, 1, 0, 0, 0, 0, 77, 1, 0, 0, 0, 0, 79, 1, 0, 0, 0, 0, 81, 1, 0],
  [0, 0, 0, 83, 1, 0, 0, 0, 0, 85, 1, 0, 0, 0, 0, 87, 1, 0, 0, 0, 0, 89, 1],
  [0, 0, 0, 0, 91, 1, 0, 0, 0, 0, 93, 1, 0, 0, 0, 0, 95, 1, 0, 0, 0, 0, 97],
  [1, 0, 0, 0, 0, 99, 1, 0, 0, 0, 0, 101, 1, 0, 0, 0, 0, 103, 1, 0, 0, 0],
  [0, 105, 1, 0, 0, 0, 0, 107, 1, 0, 0, 0, 0, 109, 1, 0, 0, 0, 0, 111, 1],
  [0, 0, 0, 0, 113, 1, 0, 0, 0, 0, 115, 1, 0, 0, 0, 0, 117, 1, 0, 0, 0, 0],
  [119, 1, 0, 0, 0, 0, 121, 1, 0, 0, 0, 0, 123, 1, 0, 0, 0, 0, 125, 1, 0],
  [0, 0, 0, 127, 1, 0, 0, 0, 0, 129, 1, 0, 0, 0, 0, 131, 1, 0, 0, 0, 0, 133],
  [1, 0, 0, 0, 0, 135, 1, 0, 0, 0, 0, 137, 1, 0, 0, 0, 0, 139, 1, 0, 0, 0],
  [1, 141, 1, 0, 0, 0, 3, 143, 1, 0, 0, 0, 5, 145, 1, 0, 0, 0, 7, 147, 1],
  [0, 0, 0, 9, 149, 1, 0, 0, 0, 11, 151, 1, 0, 0, 0, 13, 153, 1, 0, 0, 0],
  [15, 155, 1, 0, 0, 0, 17, 157, 1, 0, 0, 0, 19, 159, 1, 0, 0, 0, 21, 161],
  [1, 0, 0, 0, 23, 163, 1, 0, 0, 0, 25, 165, 1, 0, 0, 0, 27, 167, 1, 0, 0],
  [0, 29, 169, 1, 0, 0, 0, 31, 171, 1, 0, 0, 0, 33, 173, 1, 0, 0, 0, 35, 175],
  [1, 0, 0, 0, 37, 177, 1, 0, 0, 0, 39, 179, 1, 0, 0, 0, 41, 181, 1, 0, 0],
  [0, 43, 183, 1, 0, 0, 0, 45, 185, 1, 0, 0, 0, 47, 187, 1, 0, 0, 0, 49, 189],
  [1, 0, 0, 0, 51, 191, 1, 0, 0, 0, 53, 193, 1, 0, 0, 0, 55, 195, 1, 0, 0],
  [0, 57, 197, 1, 0, 0, 0, 59, 199, 1, 0, 0, 0, 61, 201, 1, 0, 0, 0, 63, 203],
  [1, 0, 0, 0, 65, 205, 1, 0, 0, 0, 67, 207, 1, 0, 0, 0, 69, 209, 1, 0, 0],
  [0, 71, 211, 1, 0, 0, 0, 73, 213, 1, 0, 0, 0, 75, 215, 1, 0, 0, 0, 77, 217],
  [1, 0, 0, 0, 79, 219, 1, 0, 0, 0, 81, 221, 1, 0, 0, 0, 83, 223, 1, 0, 0],
  [0, 85, 225, 1, 0, 0, 0, 87, 227, 1, 0, 0, 0, 89, 229, 1, 0, 0, 0, 91, 231],
  [1, 0, 0, 0, 93, 233, 1, 0, 0, 0, 95, 235, 1, 0, 0, 0, 97, 237, 1, 0, 0],
  [0, 99, 239, 1, 0, 0, 0, 101, 241, 1, 0, 0, 0, 103, 243, 1, 0, 0, 0, 105],
  [245, 1, 0, 0, 0, 107, 247, 1, 0, 0, 0, 109, 249, 1, 0, 0, 0, 111, 251],
  [1, 0, 0, 0, 113, 253, 1, 0, 0, 0, 115, 255, 1, 0, 0, 0, 117, 257, 1, 0],
  [0, 0, 119, 259, 1, 0, 0, 0, 121, 261, 1, 0, 0, 0, 123, 263, 1, 0, 0, 0],
  [125, 265, 1, 0, 0, 0, 127, 267, 1, 0, 0, 0, 129, 269, 1, 0, 0, 0, 131],
  [271, 1, 0, 0, 0, 133, 273, 1, 0, 0, 0, 135, 275, 1, 0, 0, 0, 137, 277],
  [1, 0, 0, 0, 139, 279, 1, 0, 0, 0, 141, 142, 5, 0, 0, 0, 142, 2, 1, 0, 0],
  [0, 143, 144, 2, 1, 8, 0, 144, 4, 1, 0, 0, 0, 145, 146, 5, 9, 0, 0, 146],
  [6, 1, 0, 0, 0, 147, 148, 5, 10, 0, 0, 148, 8, 1, 0, 0, 0, 149, 150, 5],
  [11, 0, 0, 150, 10, 1, 0, 0, 0, 151, 152, 5, 12, 0, 0, 152, 12, 1, 0, 0],
  [0, 153, 154, 5, 13, 0, 0, 154, 14, 1, 0, 0, 0, 155, 156, 2, 14, 31, 0],
  [156, 16, 1, 0, 0, 0, 157, 158, 5, 32, 0, 0, 158, 18, 1, 0, 0, 0, 159, 160],
  [5, 33, 0, 0, 160, 20, 1, 0, 0, 0, 161, 162, 5, 34, 0, 0, 162, 22, 1, 0],
  [0, 0, 163, 164, 5, 35, 0, 0, 164, 24, 1, 0, 0, 0, 165, 166, 5, 36, 0, 0],
  [166, 26, 1, 0, 0, 0, 167, 168, 5, 37, 0, 0, 168, 28, 1, 0, 0, 0, 169, 170],
  [5, 38, 0, 0, 170, 30, 1, 0, 0, 0, 171, 172, 5, 39, 0, 0, 172, 32, 1, 0],
  [0, 0, 173, 174, 5, 40, 0, 0, 174, 34, 1, 0, 0, 0, 175, 176, 5, 41, 0, 0],
  [176, 36, 1, 0, 0, 0, 177, 178, 5, 42, 0, 0, 178, 38, 1, 0, 0, 0, 179, 180],
  [5, 43, 0, 0, 180, 40, 1, 0, 0, 0, 181, 182, 5, 44, 0, 0, 182, 42, 1, 0],
  [0, 0, 183, 184, 5, 45, 0, 0, 184, 44, 1, 0, 0, 0, 185, 186, 5, 46, 0, 0],
  [186, 46, 1, 0, 0, 0, 187, 188, 5, 47, 0, 0, 188, 48, 1, 0, 0, 0, 189, 190],
  [7, 0, 0, 0, 190, 50, 1, 0, 0, 0, 191, 192, 5, 58, 0, 0, 192, 52, 1, 0],
  [0, 0, 193, 194, 5, 59, 0, 0, 194, 54, 1, 0, 0, 0, 195, 196, 5, 60, 0, 0],
  [196, 56, 1, 0, 0, 0, 197, 198, 5, 61, 0, 0, 198, 58, 1, 0, 0, 0, 199, 200]]

/-- /repo/parser/rfc5322_lexer.go:175-200. -/
def lexerRows2 : List (List Int) := [
  [5, 62, 0, 0, 200, 60, 1, 0, 0, 0, 201, 202, 5, 63, 0, 0, 202, 62, 1, 0],
  [0, 0, 203, 204, 5, 64, 0, 0, 204, 64, 1, 0, 0, 0, 205, 206, 5, 91, 0, 0],
  [206, 66, 1, 0, 0, 0, 207, 208, 5, 92, 0, 0, 208, 68, 1, 0, 0, 0, 209, 210],
  [5, 93, 0, 0, 210, 70, 1, 0, 0, 0, 211, 212, 5, 94, 0, 0, 212, 72, 1, 0],
  [0, 0, 213, 214, 5, 95, 0, 0, 214, 74, 1, 0, 0, 0, 215, 216, 5, 96, 0, 0],
  [216, 76, 1, 0, 0, 0, 217, 218, 5, 123, 0, 0, 218, 78, 1, 0, 0, 0, 219],
  [220, 5, 124, 0, 0, 220, 80, 1, 0, 0, 0, 221, 222, 5, 125, 0, 0, 222, 82],
  [1, 0, 0, 0, 223, 224, 5, 126, 0, 0, 224, 84, 1, 0, 0, 0, 225, 226, 5, 127],
  [0, 0, 226, 86, 1, 0, 0, 0, 227, 228, 2, 128, 65535, 0, 228, 88, 1, 0, 0],
  [0, 229, 230, 7, 1, 0, 0, 230, 90, 1, 0, 0, 0, 231, 232, 7, 2, 0, 0, 232],
  [92, 1, 0, 0, 0, 233, 234, 7, 3, 0, 0, 234, 94, 1, 0, 0, 0, 235, 236, 7],
  [4, 0, 0, 236, 96, 1, 0, 0, 0, 237, 238, 7, 5, 0, 0, 238, 98, 1, 0, 0, 0],
  [239, 240, 7, 6, 0, 0, 240, 100, 1, 0, 0, 0, 241, 242, 7, 7, 0, 0, 242],
  [102, 1, 0, 0, 0, 243, 244, 7, 8, 0, 0, 244, 104, 1, 0, 0, 0, 245, 246],
  [7, 9, 0, 0, 246, 106, 1, 0, 0, 0, 247, 248, 7, 10, 0, 0, 248, 108, 1, 0],
  [0, 0, 249, 250, 7, 11, 0, 0, 250, 110, 1, 0, 0, 0, 251, 252, 7, 12, 0],
  [0, 252, 112, 1, 0, 0, 0, 253, 254, 7, 13, 0, 0, 254, 114, 1, 0, 0, 0, 255],
  [256, 7, 14, 0, 0, 256, 116, 1, 0, 0, 0, 257, 258, 7, 15, 0, 0, 258, 118],
  [1, 0, 0, 0, 259, 260, 7, 16, 0, 0, 260, 120, 1, 0, 0, 0, 261, 262, 7, 17],
  [0, 0, 262, 122, 1, 0, 0, 0, 263, 264, 7, 18, 0, 0, 264, 124, 1, 0, 0, 0],
  [265, 266, 7, 19, 0, 0, 266, 126, 1, 0, 0, 0, 267, 268, 7, 20, 0, 0, 268],
  [128, 1, 0, 0, 0, 269, 270, 7, 21, 0, 0, 270, 130, 1, 0, 0, 0, 271, 272],
  [7, 22, 0, 0, 272, 132, 1, 0, 0, 0, 273, 274, 7, 23, 0, 0, 274, 134, 1],
  [0, 0, 0, 275, 276, 7, 24, 0, 0, 276, 136, 1, 0, 0, 0, 277, 278, 7, 25],
  [0, 0, 278, 138, 1, 0, 0, 0, 279, 280, 7, 26, 0, 0, 280, 140, 1, 0, 0, 0],
  [1, 0, 0]]

/-- `staticData.serializedATN` of the lexer, /repo/parser/rfc5322_lexer.go:75-200. -/
def lexerData : List Int :=
  List.flatten (lexerRows0 ++ lexerRows1 ++ lexerRows2)

end Rfc5322.Atn

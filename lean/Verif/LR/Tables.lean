import Verif.Util
/-!
GENERATED by tools/genlr.py. The parser tables of src/parser/bison_parser.cpp, entry for entry.
-/
set_option maxRecDepth 200000
set_option linter.all false
namespace Verif.LR

/-- bison_parser.cpp, `#define YYFINAL`. -/
abbrev YYFINAL : Int := 69
/-- bison_parser.cpp, `#define YYLAST`. -/
abbrev YYLAST : Int := 856
/-- bison_parser.cpp, `#define YYNTOKENS`. -/
abbrev YYNTOKENS : Int := 199
/-- bison_parser.cpp, `#define YYUNDEFTOK`. -/
abbrev YYUNDEFTOK : Int := 2
/-- bison_parser.cpp, `#define YYMAXUTOK`. -/
abbrev YYMAXUTOK : Int := 436
/-- bison_parser.cpp, `#define YYPACT_NINF`. -/
abbrev YYPACT_NINF : Int := -529
/-- bison_parser.cpp, `#define YYTABLE_NINF`. -/
abbrev YYTABLE_NINF : Int := -355

/-- src/parser/bison_parser.cpp:729-775, `yytranslate` (437 entries). -/
def yytranslate : List Int :=
  [0, 2, 2, 2, 2, 2, 2, 2, 2, 2, 2, 2, 2, 2, 2, 2, 2, 2, 2, 2,
   2, 2, 2, 2, 2, 2, 2, 2, 2, 2, 2, 2, 2, 2, 2, 2, 2, 188, 2, 2,
   193, 194, 186, 184, 197, 185, 195, 187, 2, 2, 2, 2, 2, 2, 2, 2, 2, 2, 2, 196,
   177, 174, 178, 198, 2, 2, 2, 2, 2, 2, 2, 2, 2, 2, 2, 2, 2, 2, 2, 2,
   2, 2, 2, 2, 2, 2, 2, 2, 2, 2, 2, 191, 2, 192, 189, 2, 2, 2, 2, 2,
   2, 2, 2, 2, 2, 2, 2, 2, 2, 2, 2, 2, 2, 2, 2, 2, 2, 2, 2, 2,
   2, 2, 2, 2, 2, 2, 2, 2, 2, 2, 2, 2, 2, 2, 2, 2, 2, 2, 2, 2,
   2, 2, 2, 2, 2, 2, 2, 2, 2, 2, 2, 2, 2, 2, 2, 2, 2, 2, 2, 2,
   2, 2, 2, 2, 2, 2, 2, 2, 2, 2, 2, 2, 2, 2, 2, 2, 2, 2, 2, 2,
   2, 2, 2, 2, 2, 2, 2, 2, 2, 2, 2, 2, 2, 2, 2, 2, 2, 2, 2, 2,
   2, 2, 2, 2, 2, 2, 2, 2, 2, 2, 2, 2, 2, 2, 2, 2, 2, 2, 2, 2,
   2, 2, 2, 2, 2, 2, 2, 2, 2, 2, 2, 2, 2, 2, 2, 2, 2, 2, 2, 2,
   2, 2, 2, 2, 2, 2, 2, 2, 2, 2, 2, 2, 2, 2, 2, 2, 1, 2, 3, 4,
   5, 6, 7, 8, 9, 10, 11, 12, 13, 14, 15, 16, 17, 18, 19, 20, 21, 22, 23, 24,
   25, 26, 27, 28, 29, 30, 31, 32, 33, 34, 35, 36, 37, 38, 39, 40, 41, 42, 43, 44,
   45, 46, 47, 48, 49, 50, 51, 52, 53, 54, 55, 56, 57, 58, 59, 60, 61, 62, 63, 64,
   65, 66, 67, 68, 69, 70, 71, 72, 73, 74, 75, 76, 77, 78, 79, 80, 81, 82, 83, 84,
   85, 86, 87, 88, 89, 90, 91, 92, 93, 94, 95, 96, 97, 98, 99, 100, 101, 102, 103, 104,
   105, 106, 107, 108, 109, 110, 111, 112, 113, 114, 115, 116, 117, 118, 119, 120, 121, 122, 123, 124,
   125, 126, 127, 128, 129, 130, 131, 132, 133, 134, 135, 136, 137, 138, 139, 140, 141, 142, 143, 144,
   145, 146, 147, 148, 149, 150, 151, 152, 153, 154, 155, 156, 157, 158, 159, 160, 161, 162, 163, 164,
   165, 166, 167, 168, 169, 170, 171, 172, 173, 175, 176, 179, 180, 181, 182, 183, 190]

/-- src/parser/bison_parser.cpp:932-1000, `yypact` (656 entries). -/
def yypact : List Int :=
  [595, 27, 65, 71, 99, 65, 113, 83, 137, 140, 65, 190, 21, 195, 37, 292, 120, 120, 120, 287,
   103, -529, 221, -529, 221, -529, -529, -529, -529, -529, -529, -529, -529, -529, -529, -529, -529, -26, -529, 342,
   166, -529, 183, 313, -529, 251, 251, 251, 65, 415, 65, 298, -529, 297, -26, 293, -37, 297, 297, 297,
   65, -529, 309, 267, -529, -529, -529, -529, -529, -529, 578, -529, 369, -529, -529, 350, 224, -529, 35, -529,
   479, 353, 486, 374, 494, 65, 65, 418, -529, 413, 314, 505, 464, 65, 315, 317, 508, 508, 508, 519,
   65, 65, -529, 332, 292, -529, 333, 521, 518, -529, -529, -529, -26, 420, 410, -26, 15, -529, -529, -529,
   707, 344, 535, -529, 536, -529, -529, 45, -529, 349, 347, -529, -529, -529, -529, -529, -529, -529, -529, -529,
   -529, -529, -529, -529, 500, -529, 416, -15, 314, 363, -529, 508, 547, 198, 380, -38, -529, -529, 466, -529,
   -529, -529, -75, -75, -75, -529, -529, -529, -529, -529, 552, -529, -529, -529, 363, 483, -529, -529, 224, -529,
   -529, 363, 483, 363, 151, 443, -529, -529, -529, -529, -529, -529, -529, -529, -529, -529, -529, -529, -529, -529,
   -529, 200, -529, 248, -529, -529, -529, 353, -529, 65, 561, 454, 19, 441, 129, 375, 381, 382, 244, 367,
   396, 59, -529, 335, 69, 395, -529, -529, -529, -529, -529, -529, -529, -529, -529, -529, -529, -529, -529, -529,
   -529, -529, 490, -529, 38, 397, -529, 363, 505, -529, 550, -529, -529, 398, 193, -529, 418, -529, 402, 180,
   -529, 502, 400, -529, 44, 15, -26, 401, -529, -31, 15, 69, 544, 68, 106, -529, 443, -529, 476, -529,
   -529, 411, 510, -529, 668, 414, 434, 436, 205, -529, -529, -529, 454, 9, 36, 551, 248, 363, 363, 268,
   -43, 419, 59, 609, 363, 217, 417, -23, 363, 363, 59, -529, 59, 24, 421, -27, 59, 59, 59, 59,
   59, 59, 59, 59, 59, 59, 59, 59, 59, 59, 59, 521, 65, -529, 610, 353, 69, -529, 297, 193,
   612, 616, 415, 617, 222, -529, -529, 353, -529, 552, 22, 418, -529, 363, -529, 620, -529, -529, -529, -529,
   363, -529, -529, 621, 443, 363, 363, -529, 455, -529, 465, -70, -529, 668, 547, 508, -529, -529, 432, -529,
   435, -529, -529, 440, -529, -529, 444, -529, -529, -529, -529, 445, -529, -529, 139, 547, 448, 449, -529, 19,
   -529, 557, 363, 451, -529, 452, 555, -13, 201, 167, 363, 363, -529, 551, 528, 119, -529, -529, -529, 529,
   538, 638, 59, 457, 335, -529, 548, 460, 638, 638, 638, 638, 653, 653, 653, 653, 217, 217, 92, 92,
   92, -96, 461, -529, -529, 228, 652, 234, -529, -529, -529, -529, -529, 227, 239, -529, 454, -529, 87, -529,
   459, -529, 39, -529, 589, -529, -529, -529, 658, -529, -529, 69, 69, 600, -529, 547, -529, 504, -529, 472,
   241, -529, 662, 664, -529, 665, 666, 667, -529, -529, 572, -529, 506, 65, -529, 139, -529, -529, 246, 547,
   547, -529, 484, -529, 253, 14, -529, 363, 668, 363, 363, -529, 182, 211, 487, -529, 59, 638, 335, 489,
   264, -529, -529, -529, -529, -529, 676, 415, -529, -529, 493, 585, -529, -529, -529, 611, 618, 626, 591, 22,
   685, -529, -529, -529, 568, -529, -529, -529, -77, -529, -529, -529, 501, 265, 511, 512, 515, -529, -529, 314,
   -529, -529, -529, 266, 271, 613, 557, 557, 363, 121, 523, 69, 203, -529, 363, -529, 609, 527, 278, -529,
   -529, -529, -529, 39, 22, -529, -529, -529, 22, 247, 539, 363, -529, -529, -529, 722, -529, -529, -529, -529,
   -529, 558, 614, 483, -529, -529, 279, -529, -529, -529, 69, -529, -529, -529, -529, 463, 547, -22, 543, -529,
   363, 330, 557, 549, 363, 284, 363, -529, -529, 400, -529, -529, -529, 553, 61, -529, 547, 69, -529, -529,
   69, -529, 25, 55, 188, -529, -529, 286, -529, -529, 625, -529, -529, -529, 55, -529]

/-- src/parser/bison_parser.cpp:1005-1073, `yydefact` (656 entries). -/
def yydefact : List Int :=
  [335, 0, 0, 0, 0, 0, 0, 0, 0, 0, 0, 0, 0, 0, 0, 0, 30, 30, 30, 0,
   355, 3, 21, 19, 21, 18, 8, 9, 7, 11, 16, 17, 13, 14, 12, 15, 10, 0, 334, 0,
   309, 114, 33, 0, 54, 61, 61, 61, 0, 0, 0, 0, 308, 109, 0, 0, 0, 109, 109, 109,
   0, 52, 0, 336, 337, 29, 26, 28, 27, 1, 335, 2, 0, 6, 5, 164, 123, 124, 154, 106,
   0, 174, 0, 0, 312, 0, 0, 148, 37, 0, 118, 0, 0, 0, 0, 0, 0, 0, 0, 0,
   0, 0, 53, 0, 0, 4, 0, 0, 142, 136, 137, 135, 0, 139, 0, 0, 170, 310, 287, 290,
   292, 0, 0, 293, 0, 288, 289, 0, 298, 0, 173, 175, 177, 179, 280, 281, 282, 291, 283, 284,
   285, 286, 32, 31, 0, 311, 0, 0, 118, 0, 113, 0, 0, 0, 0, 148, 120, 108, 0, 131,
   130, 38, 41, 41, 41, 107, 104, 105, 339, 338, 0, 292, 163, 141, 0, 154, 127, 126, 128, 138,
   134, 0, 154, 0, 0, 322, 259, 260, 261, 262, 263, 264, 265, 266, 267, 268, 269, 270, 271, 272,
   295, 0, 294, 297, 180, 181, 34, 0, 60, 0, 0, 335, 0, 0, 276, 0, 0, 0, 0, 0,
   0, 0, 278, 0, 147, 183, 190, 191, 192, 185, 187, 193, 186, 206, 194, 195, 196, 197, 189, 184,
   199, 200, 0, 356, 0, 0, 116, 0, 0, 119, 0, 110, 111, 0, 0, 51, 148, 50, 24, 0,
   22, 145, 143, 171, 320, 170, 0, 153, 155, 160, 170, 166, 168, 165, 0, 132, 321, 323, 0, 296,
   176, 0, 0, 57, 0, 0, 0, 0, 0, 62, 64, 65, 335, 142, 0, 0, 0, 0, 0, 0,
   0, 0, 0, 202, 0, 201, 0, 0, 0, 0, 0, 203, 0, 0, 0, 0, 0, 0, 0, 0,
   0, 0, 0, 0, 0, 0, 0, 0, 0, 0, 0, 0, 0, 117, 0, 0, 122, 121, 109, 0,
   0, 0, 0, 0, 0, 47, 36, 0, 20, 0, 0, 148, 144, 0, 318, 0, 319, 182, 125, 129,
   0, 159, 158, 161, 322, 0, 0, 327, 0, 329, 0, 333, 324, 0, 0, 0, 83, 77, 0, 79,
   89, 80, 67, 0, 74, 75, 0, 71, 72, 78, 81, 86, 76, 68, 91, 0, 0, 0, 56, 0,
   59, 243, 0, 277, 279, 0, 0, 0, 0, 0, 0, 0, 225, 0, 0, 0, 198, 188, 217, 218,
   0, 213, 0, 0, 0, 204, 0, 216, 215, 231, 232, 233, 234, 235, 236, 237, 208, 207, 210, 209,
   211, 212, 0, 35, 357, 0, 0, 0, 48, 45, 43, 49, 40, 0, 0, 23, 335, 146, 299, 301,
   0, 303, 316, 302, 150, 172, 317, 156, 0, 157, 133, 169, 167, 0, 330, 0, 332, 0, 325, 0,
   0, 55, 0, 0, 73, 0, 0, 0, 82, 98, 0, 97, 0, 0, 66, 90, 92, 94, 0, 0,
   0, 63, 0, 238, 0, 142, 229, 0, 0, 0, 0, 223, 0, 0, 0, 273, 0, 214, 0, 0,
   0, 205, 274, 115, 112, 39, 0, 0, 46, 25, 0, 0, 351, 343, 349, 347, 350, 345, 0, 0,
   0, 315, 307, 313, 0, 140, 162, 328, 333, 331, 178, 58, 0, 0, 0, 0, 0, 99, 96, 118,
   93, 95, 101, 0, 0, 245, 243, 243, 0, 0, 0, 227, 0, 226, 0, 230, 275, 0, 0, 221,
   219, 44, 42, 316, 0, 346, 348, 344, 0, 300, 317, 0, 326, 70, 88, 0, 84, 69, 85, 103,
   100, 0, 0, 154, 239, 240, 0, 257, 258, 224, 228, 222, 220, 304, 340, 352, 0, 152, 0, 102,
   0, 248, 243, 0, 0, 0, 0, 149, 87, 244, 249, 250, 251, 0, 0, 241, 0, 353, 341, 314,
   151, 242, 0, 0, 0, 256, 246, 0, 255, 253, 0, 254, 252, 342, 0, 247]

/-- src/parser/bison_parser.cpp:1076-1092, `yypgoto` (136 entries). -/
def yypgoto : List Int :=
  [-529, -529, -529, 673, -529, 720, -529, 399, -529, 428, -529, -529, -529, -529, -325, -79, 290, 422, 296, -529,
   -529, -529, 453, -529, 354, -529, -338, -529, -529, -529, -529, 260, -529, -429, -529, -45, -529, -529, -529, -529,
   -529, -529, -142, -529, -529, 514, -202, -87, -529, 204, -49, -5, -529, -529, -85, -278, -529, -529, -529, -139,
   -529, -529, -171, -529, 403, -529, -529, -529, 127, -297, -529, -67, 559, 563, 405, -147, -188, -529, -529, -529,
   -529, -529, -529, 469, -529, -529, -529, -514, -529, -529, -529, -528, -529, -529, -148, -529, -529, -529, -529, -529,
   -529, -58, -529, -529, 632, -106, -529, -529, 633, -529, -529, -496, 181, -529, -529, -529, -2, -529, -529, 186,
   509, -529, 406, -529, 496, -529, 229, -529, -529, -529, 675, -529, -529, -529, -529, -354]

/-- src/parser/bison_parser.cpp:1095-1111, `yydefgoto` (136 entries). -/
def yydefgoto : List Int :=
  [-1, 19, 20, 21, 22, 73, 259, 260, 23, 66, 24, 143, 25, 26, 89, 162, 255, 344, 345, 27,
   28, 29, 84, 288, 289, 290, 394, 488, 484, 494, 495, 496, 291, 497, 30, 93, 31, 251, 252, 32,
   33, 34, 153, 35, 155, 156, 36, 175, 176, 177, 77, 112, 113, 180, 78, 174, 261, 351, 352, 150,
   545, 627, 116, 267, 268, 363, 469, 108, 185, 262, 129, 130, 131, 132, 263, 264, 225, 226, 227, 228,
   229, 230, 231, 300, 232, 233, 234, 503, 603, 633, 634, 646, 235, 236, 198, 199, 200, 237, 238, 239,
   240, 241, 134, 135, 136, 137, 138, 139, 140, 141, 457, 458, 459, 460, 461, 51, 462, 146, 541, 542,
   543, 357, 275, 276, 277, 371, 478, 37, 38, 63, 64, 463, 538, 638, 71, 244]

/-- src/parser/bison_parser.cpp:1116-1204, `yytable` (857 entries). -/
def yytable : List Int :=
  [41, 172, 224, 44, 265, 95, 213, 415, 52, 283, 56, 270, 99, 100, 101, 402, 249, 450, 163, 164,
   480, 173, 284, 133, 40, 40, 173, 178, 182, 626, 178, 303, 75, 305, 269, 479, 271, 273, 253, 403,
   316, 498, 354, 589, 109, 149, 87, 354, 90, 410, 119, 120, 604, 605, 39, 279, 60, 97, 102, 361,
   475, 642, 214, 118, 119, 120, 561, 642, 40, 411, 183, 299, 242, 115, 42, 412, 307, 425, 643, 210,
   110, 476, 477, 147, 148, 308, 362, 184, 476, 477, 400, 158, 615, 308, 426, 331, 98, 61, 166, 167,
   336, 309, 43, 308, 246, 504, 216, 217, 635, 309, 211, 114, 508, 531, 303, 650, 111, 346, 254, 309,
   334, 548, 420, 366, 421, 422, 655, 520, 427, 428, 429, 430, 431, 432, 433, 434, 435, 436, 437, 438,
   439, 440, 441, 133, 218, 563, 564, 122, 406, 133, 407, 408, 423, 532, 214, 118, 119, 120, 533, 248,
   308, 418, 419, 123, 540, 534, 535, 54, 367, 355, 570, 417, 619, 266, 306, 353, 309, 48, 212, 359,
   302, 178, 536, 45, 308, 308, -352, 537, 285, 286, 287, 648, 649, 46, 220, 124, 340, 215, 216, 217,
   309, 309, 582, 401, 118, 119, 120, 281, 567, 124, 125, 126, 464, 269, 54, 456, 55, 341, 471, 472,
   644, 578, 404, 645, 47, 442, 644, 568, 316, 645, 340, 49, 333, 109, 517, 334, 218, 308, 50, 122,
   368, 76, 342, 489, 221, 222, 405, 214, 118, 119, 120, 526, 223, 309, 530, 123, 75, 128, 94, 510,
   490, 245, 625, 512, 513, 57, 272, 369, 445, 110, 53, 606, 219, 531, 65, 58, 527, 133, 370, 411,
   454, 330, 647, 331, -305, 511, 220, 69, 122, 133, 215, 216, 217, 446, 617, 62, 481, 343, 308, 70,
   573, 124, 125, 126, 123, 111, 59, 168, 491, 492, 509, 515, 493, 532, 309, 607, 353, 308, 533, 308,
   574, 609, 293, 629, 294, 534, 535, 308, 576, 218, 443, 343, 122, 309, 72, 309, 221, 222, 214, 118,
   119, 120, 536, 309, 223, 79, -352, 537, 123, 128, 124, 125, 126, 316, 651, 652, 298, 118, 119, 120,
   569, 80, 571, 572, 514, 219, 214, 118, 119, 120, 214, 118, 119, 120, 348, 519, 81, 349, 83, 220,
   298, 215, 216, 217, 308, 127, 186, 187, 188, 189, 190, 191, 358, 75, 124, 125, 126, 364, 128, 398,
   309, 121, 399, 327, 328, 329, 330, 82, 331, 215, 216, 217, 310, 301, 216, 217, 452, 599, 88, 453,
   218, 91, 523, 122, 92, 207, 96, 610, 525, 221, 222, 453, 621, 529, 103, 551, 207, 223, 334, 123,
   562, 122, 128, 334, -306, 67, 68, 566, 218, 311, 353, 122, 218, 256, 257, 122, 219, 123, 580, 594,
   600, 353, 595, 334, 104, 601, 106, 123, 334, 577, 220, 123, 612, 622, 107, 353, 353, 637, 639, 640,
   653, 334, 117, 334, 219, 124, 125, 126, 302, 531, 142, 559, 630, 631, 632, 144, 312, 145, 220, 85,
   86, 149, 220, 124, 125, 126, 151, 152, 154, 159, 157, 160, 161, 124, 125, 126, 313, 124, 125, 126,
   221, 222, 165, 314, 315, 54, 170, 171, 223, 532, 173, 316, 317, 128, 533, 179, 181, 201, 127, 202,
   203, 534, 535, 206, 207, 623, 208, 209, 221, 222, 243, 128, 221, 222, 247, 258, 223, 250, 536, 114,
   223, 128, 274, 537, 282, 128, 292, 15, 295, 318, 319, 320, 321, 322, 296, 297, 323, 324, -354, 325,
   326, 327, 328, 329, 330, 1, 331, 304, 332, 338, 335, 339, 311, 2, 624, 347, 350, 353, 360, 365,
   3, 373, 1, 375, 374, 4, 396, 395, 397, 75, 2, 416, 413, 444, 424, 5, 448, 3, 6, 7,
   449, 451, 4, 466, 468, 482, 474, 473, 483, 422, 8, 9, 5, 485, 502, 6, 7, 486, 487, 312,
   10, 499, 500, 11, 505, 308, 506, 8, 9, 507, 518, 331, 521, 522, 516, 524, 539, 10, 544, 414,
   11, 546, 547, 311, 549, 12, 550, 315, 552, 13, 553, 554, 555, 556, 316, 317, 557, 565, 558, 376,
   581, 575, 12, 579, 584, 14, 13, 583, 590, 585, 588, 15, 311, 377, 591, 593, 586, 378, 379, 380,
   381, 382, 14, 383, 587, 596, 597, 311, 15, 598, 312, 384, 318, 319, 320, 321, 322, 608, 602, 323,
   324, 611, 325, 326, 327, 328, 329, 330, 618, 331, 414, 493, 616, 16, 17, 18, 385, 628, 315, -355,
   620, 654, 636, 105, 74, 316, 317, 641, 455, 528, 16, 17, 18, 501, 386, 560, 387, 388, 465, 204,
   205, 447, 337, 467, 278, 614, 280, 315, 409, 613, 470, 389, 372, 356, 316, -355, 390, 592, 391, 169,
   0, 0, 315, 318, 319, 320, 321, 322, 392, 316, 323, 324, 0, 325, 326, 327, 328, 329, 330, 0,
   331, 0, 0, 0, 0, 0, 0, 0, 0, 0, 0, 0, -355, -355, -355, 321, 322, 0, 0, 323,
   324, 393, 325, 326, 327, 328, 329, 330, 0, 331, -355, -355, 0, 0, -355, -355, 0, 325, 326, 327,
   328, 329, 330, 0, 331, 186, 187, 188, 189, 190, 191, 192, 193, 194, 195, 196, 197]

/-- src/parser/bison_parser.cpp:1206-1294, `yycheck` (857 entries). -/
def yycheck : List Int :=
  [2, 107, 149, 5, 175, 54, 148, 304, 10, 211, 12, 182, 57, 58, 59, 293, 155, 342, 97, 98,
   374, 12, 3, 81, 3, 3, 12, 112, 115, 51, 115, 219, 58, 221, 181, 373, 183, 184, 113, 3,
   136, 395, 3, 539, 9, 83, 48, 3, 50, 92, 5, 6, 566, 567, 27, 203, 19, 94, 60, 90,
   130, 6, 3, 4, 5, 6, 495, 6, 3, 112, 55, 218, 151, 78, 3, 118, 223, 104, 17, 94,
   45, 158, 159, 85, 86, 116, 117, 72, 158, 159, 292, 93, 588, 116, 121, 191, 133, 60, 100, 101,
   247, 132, 3, 116, 153, 402, 47, 48, 622, 132, 125, 76, 125, 26, 302, 643, 81, 256, 193, 132,
   197, 475, 310, 55, 312, 101, 654, 424, 316, 317, 318, 319, 320, 321, 322, 323, 324, 325, 326, 327,
   328, 329, 330, 201, 85, 499, 500, 88, 296, 207, 297, 298, 128, 66, 3, 4, 5, 6, 71, 197,
   116, 308, 309, 104, 125, 78, 79, 193, 62, 125, 508, 194, 601, 178, 223, 197, 132, 94, 193, 266,
   121, 266, 95, 70, 116, 116, 99, 100, 169, 170, 171, 166, 167, 80, 135, 150, 3, 46, 47, 48,
   132, 132, 527, 194, 4, 5, 6, 209, 194, 150, 151, 152, 351, 360, 193, 193, 12, 24, 365, 366,
   165, 518, 186, 168, 111, 331, 165, 505, 136, 168, 3, 94, 194, 9, 422, 197, 85, 116, 98, 88,
   134, 37, 49, 104, 185, 186, 295, 3, 4, 5, 6, 24, 193, 132, 456, 104, 58, 198, 54, 92,
   121, 63, 616, 410, 411, 70, 115, 161, 335, 45, 80, 568, 121, 26, 154, 80, 49, 335, 172, 112,
   347, 189, 636, 191, 197, 118, 135, 0, 88, 347, 46, 47, 48, 338, 591, 3, 375, 104, 116, 196,
   118, 150, 151, 152, 104, 81, 111, 103, 169, 170, 109, 192, 173, 66, 132, 194, 197, 116, 71, 116,
   109, 118, 193, 620, 195, 78, 79, 116, 516, 85, 332, 104, 88, 132, 113, 132, 185, 186, 3, 4,
   5, 6, 95, 132, 193, 3, 99, 100, 104, 198, 150, 151, 152, 136, 166, 167, 112, 4, 5, 6,
   507, 195, 509, 510, 413, 121, 3, 4, 5, 6, 3, 4, 5, 6, 194, 424, 193, 197, 127, 135,
   112, 46, 47, 48, 116, 185, 138, 139, 140, 141, 142, 143, 265, 58, 150, 151, 152, 270, 198, 194,
   132, 48, 197, 186, 187, 188, 189, 94, 191, 46, 47, 48, 17, 46, 47, 48, 194, 559, 3, 197,
   85, 123, 194, 88, 127, 197, 133, 574, 194, 185, 186, 197, 603, 194, 125, 194, 197, 193, 197, 104,
   194, 88, 198, 197, 197, 17, 18, 194, 85, 54, 197, 88, 85, 163, 164, 88, 121, 104, 194, 194,
   194, 197, 197, 197, 197, 194, 97, 104, 197, 518, 135, 104, 194, 194, 124, 197, 197, 624, 194, 626,
   194, 197, 3, 197, 121, 150, 151, 152, 121, 26, 4, 493, 162, 163, 164, 121, 101, 3, 135, 46,
   47, 83, 135, 150, 151, 152, 93, 193, 3, 194, 46, 194, 4, 150, 151, 152, 121, 150, 151, 152,
   185, 186, 3, 128, 129, 193, 193, 6, 193, 66, 12, 136, 137, 198, 71, 115, 126, 193, 185, 4,
   4, 78, 79, 194, 197, 82, 46, 131, 185, 186, 3, 198, 185, 186, 174, 3, 193, 91, 95, 76,
   193, 198, 119, 100, 3, 198, 125, 113, 193, 174, 175, 176, 177, 178, 193, 193, 181, 182, 0, 184,
   185, 186, 187, 188, 189, 7, 191, 191, 98, 39, 193, 193, 54, 15, 131, 193, 94, 197, 197, 55,
   22, 125, 7, 93, 193, 27, 172, 193, 172, 58, 15, 194, 193, 3, 193, 37, 4, 22, 40, 41,
   4, 4, 27, 3, 3, 193, 161, 172, 193, 101, 52, 53, 37, 193, 77, 40, 41, 193, 193, 101,
   62, 193, 193, 65, 193, 116, 194, 52, 53, 94, 193, 191, 104, 192, 116, 3, 197, 62, 69, 121,
   65, 3, 62, 54, 160, 87, 194, 129, 6, 91, 6, 6, 6, 6, 136, 137, 104, 193, 172, 11,
   4, 194, 87, 194, 99, 107, 91, 194, 3, 78, 99, 113, 54, 25, 126, 194, 78, 29, 30, 31,
   32, 33, 107, 35, 78, 194, 194, 54, 113, 194, 101, 43, 174, 175, 176, 177, 178, 194, 105, 181,
   182, 194, 184, 185, 186, 187, 188, 189, 6, 191, 121, 173, 193, 155, 156, 157, 68, 194, 129, 101,
   126, 116, 193, 70, 24, 136, 137, 194, 349, 453, 155, 156, 157, 399, 86, 495, 88, 89, 353, 127,
   127, 339, 248, 360, 201, 584, 207, 129, 299, 583, 364, 103, 276, 264, 136, 137, 108, 548, 110, 104,
   -1, -1, 129, 174, 175, 176, 177, 178, 120, 136, 181, 182, -1, 184, 185, 186, 187, 188, 189, -1,
   191, -1, -1, -1, -1, -1, -1, -1, -1, -1, -1, -1, 174, 175, 176, 177, 178, -1, -1, 181,
   182, 153, 184, 185, 186, 187, 188, 189, -1, 191, 177, 178, -1, -1, 181, 182, -1, 184, 185, 186,
   187, 188, 189, -1, 191, 138, 139, 140, 141, 142, 143, 144, 145, 146, 147, 148, 149]

/-- src/parser/bison_parser.cpp:1298-1366, `yystos` (656 entries). -/
def yystos : List Int :=
  [0, 7, 15, 22, 27, 37, 40, 41, 52, 53, 62, 65, 87, 91, 107, 113, 155, 156, 157, 200,
   201, 202, 203, 207, 209, 211, 212, 218, 219, 220, 233, 235, 238, 239, 240, 242, 245, 326, 327, 27,
   3, 315, 3, 3, 315, 70, 80, 111, 94, 94, 98, 314, 315, 80, 193, 248, 315, 70, 80, 111,
   19, 60, 3, 328, 329, 154, 208, 208, 208, 0, 196, 333, 113, 204, 204, 58, 248, 249, 253, 3,
   195, 193, 94, 127, 221, 221, 221, 315, 3, 213, 315, 123, 127, 234, 248, 249, 133, 94, 133, 234,
   234, 234, 315, 125, 197, 202, 97, 124, 266, 9, 45, 81, 250, 251, 76, 250, 261, 3, 4, 5,
   6, 48, 88, 104, 150, 151, 152, 185, 198, 269, 270, 271, 272, 300, 301, 302, 303, 304, 305, 306,
   307, 308, 4, 210, 121, 3, 316, 315, 315, 83, 258, 93, 193, 241, 3, 243, 244, 46, 315, 194,
   194, 4, 214, 214, 214, 3, 315, 315, 248, 329, 193, 6, 304, 12, 254, 246, 247, 248, 253, 115,
   252, 126, 246, 55, 72, 267, 138, 139, 140, 141, 142, 143, 144, 145, 146, 147, 148, 149, 293, 294,
   295, 193, 4, 4, 303, 307, 194, 197, 46, 131, 94, 125, 193, 241, 3, 46, 47, 48, 85, 121,
   135, 185, 186, 193, 274, 275, 276, 277, 278, 279, 280, 281, 283, 284, 285, 291, 292, 296, 297, 298,
   299, 300, 214, 3, 334, 63, 249, 174, 197, 258, 91, 236, 237, 113, 193, 215, 215, 215, 3, 205,
   206, 255, 268, 273, 274, 261, 250, 262, 263, 274, 261, 274, 115, 274, 119, 321, 322, 323, 272, 293,
   271, 315, 3, 245, 3, 169, 170, 171, 222, 223, 224, 231, 125, 193, 195, 193, 193, 193, 112, 274,
   282, 46, 121, 275, 191, 275, 249, 274, 116, 132, 17, 54, 101, 121, 128, 129, 136, 137, 174, 175,
   176, 177, 178, 181, 182, 184, 185, 186, 187, 188, 189, 191, 98, 194, 197, 193, 274, 244, 39, 193,
   3, 24, 49, 104, 216, 217, 258, 193, 194, 197, 94, 256, 257, 197, 3, 125, 319, 320, 267, 246,
   197, 90, 117, 264, 267, 55, 55, 62, 134, 161, 172, 324, 323, 125, 193, 93, 11, 25, 29, 30,
   31, 32, 33, 35, 43, 68, 86, 88, 89, 103, 108, 110, 120, 153, 225, 193, 172, 172, 194, 197,
   245, 194, 254, 3, 186, 249, 293, 274, 274, 282, 92, 112, 118, 193, 121, 268, 194, 194, 274, 274,
   275, 275, 101, 128, 193, 104, 121, 275, 275, 275, 275, 275, 275, 275, 275, 275, 275, 275, 275, 275,
   275, 275, 304, 315, 3, 270, 234, 216, 4, 4, 213, 4, 194, 197, 270, 206, 193, 309, 310, 311,
   312, 313, 315, 330, 258, 273, 3, 263, 3, 265, 321, 274, 274, 172, 161, 130, 158, 159, 325, 225,
   334, 214, 193, 193, 227, 193, 193, 193, 226, 104, 121, 169, 170, 173, 228, 229, 230, 232, 334, 193,
   193, 223, 77, 286, 268, 193, 194, 94, 125, 109, 92, 118, 274, 274, 249, 192, 116, 275, 193, 249,
   268, 104, 192, 194, 3, 194, 24, 49, 217, 194, 245, 26, 66, 71, 78, 79, 95, 100, 331, 197,
   125, 317, 318, 319, 69, 259, 3, 62, 334, 160, 194, 194, 6, 6, 6, 6, 6, 104, 172, 315,
   230, 232, 194, 334, 334, 193, 194, 194, 254, 274, 225, 274, 274, 118, 109, 194, 275, 249, 268, 194,
   194, 4, 213, 194, 99, 78, 78, 78, 99, 310, 3, 126, 325, 194, 194, 197, 194, 194, 194, 241,
   194, 194, 105, 287, 286, 286, 268, 194, 194, 118, 274, 194, 194, 318, 311, 310, 193, 268, 6, 232,
   126, 261, 194, 82, 131, 334, 51, 260, 194, 268, 162, 163, 164, 288, 289, 286, 193, 274, 332, 194,
   274, 194, 6, 17, 165, 168, 290, 334, 166, 167, 290, 166, 167, 194, 116, 290]

/-- src/parser/bison_parser.cpp:1369-1407, `yyr1` (358 entries). -/
def yyr1 : List Int :=
  [0, 199, 200, 201, 201, 202, 202, 202, 202, 202, 203, 203, 203, 203, 203, 203, 203, 203, 203, 203,
   204, 204, 205, 205, 206, 206, 207, 207, 207, 208, 208, 209, 210, 211, 211, 212, 212, 213, 214, 215,
   215, 215, 216, 216, 216, 216, 216, 216, 217, 217, 218, 218, 219, 219, 219, 220, 220, 220, 220, 220,
   221, 221, 222, 222, 223, 223, 224, 225, 225, 225, 225, 225, 225, 225, 225, 225, 225, 225, 225, 225,
   225, 225, 225, 225, 225, 226, 226, 227, 227, 227, 228, 228, 229, 229, 229, 229, 230, 230, 230, 230,
   231, 231, 231, 232, 233, 233, 233, 233, 234, 234, 235, 236, 237, 238, 239, 240, 240, 241, 241, 242,
   243, 243, 244, 245, 245, 245, 246, 246, 247, 247, 248, 248, 249, 249, 250, 251, 251, 251, 252, 252,
   253, 254, 254, 255, 256, 256, 257, 258, 258, 259, 259, 260, 260, 261, 261, 262, 262, 263, 264, 264,
   264, 265, 265, 266, 266, 267, 267, 267, 267, 267, 267, 268, 268, 269, 269, 270, 270, 271, 271, 272,
   272, 272, 273, 274, 274, 274, 274, 274, 275, 275, 275, 275, 275, 275, 275, 275, 275, 275, 275, 276,
   276, 277, 277, 277, 277, 277, 278, 278, 278, 278, 278, 278, 278, 278, 278, 278, 278, 279, 279, 280,
   280, 280, 280, 281, 281, 281, 281, 282, 282, 283, 283, 284, 284, 284, 284, 284, 284, 284, 285, 285,
   285, 285, 286, 286, 287, 287, 288, 288, 288, 289, 289, 289, 290, 290, 290, 290, 290, 291, 292, 293,
   293, 293, 293, 293, 293, 294, 294, 294, 294, 294, 294, 295, 295, 296, 297, 298, 299, 299, 299, 299,
   300, 300, 300, 300, 300, 300, 300, 301, 302, 302, 303, 303, 304, 305, 306, 307, 307, 307, 308, 309,
   309, 310, 310, 311, 311, 312, 312, 313, 314, 315, 315, 316, 316, 317, 317, 318, 318, 319, 319, 320,
   320, 321, 321, 322, 322, 323, 323, 324, 324, 324, 324, 325, 325, 325, 326, 326, 327, 328, 328, 329,
   330, 330, 330, 331, 331, 331, 331, 331, 331, 331, 331, 331, 331, 332, 333, 333, 334, 334]

/-- src/parser/bison_parser.cpp:1410-1448, `yyr2` (358 entries). -/
def yyr2 : List Int :=
  [0, 2, 2, 1, 3, 2, 2, 1, 1, 1, 1, 1, 1, 1, 1, 1, 1, 1, 1, 1,
   5, 0, 1, 3, 1, 4, 2, 2, 2, 1, 0, 4, 1, 2, 5, 7, 6, 1, 1, 4,
   3, 0, 4, 2, 4, 2, 3, 1, 2, 2, 5, 5, 2, 3, 2, 8, 7, 6, 9, 7,
   3, 0, 1, 3, 1, 1, 3, 1, 1, 4, 4, 1, 1, 2, 1, 1, 1, 1, 1, 1,
   1, 1, 2, 1, 4, 3, 0, 5, 3, 0, 1, 0, 1, 2, 1, 2, 2, 1, 1, 2,
   5, 4, 6, 3, 4, 4, 3, 4, 2, 0, 5, 1, 4, 4, 2, 8, 5, 3, 0, 5,
   1, 3, 3, 2, 2, 6, 1, 1, 1, 3, 3, 3, 4, 6, 2, 1, 1, 1, 1, 0,
   7, 1, 0, 1, 1, 0, 2, 2, 0, 4, 0, 2, 0, 3, 0, 1, 3, 3, 1, 1,
   0, 0, 2, 2, 0, 2, 2, 4, 2, 4, 0, 1, 3, 1, 0, 1, 3, 1, 6, 1,
   2, 2, 2, 1, 1, 1, 1, 1, 3, 1, 1, 1, 1, 1, 1, 1, 1, 1, 3, 1,
   1, 2, 2, 2, 3, 4, 1, 3, 3, 3, 3, 3, 3, 3, 4, 3, 3, 3, 3, 5,
   6, 5, 6, 4, 6, 3, 5, 4, 5, 4, 5, 3, 3, 3, 3, 3, 3, 3, 4, 6,
   6, 8, 6, 0, 3, 0, 2, 5, 0, 1, 1, 1, 2, 2, 2, 2, 1, 6, 6, 1,
   1, 1, 1, 1, 1, 1, 1, 1, 1, 1, 1, 1, 1, 4, 4, 5, 1, 3, 1, 3,
   1, 1, 1, 1, 1, 1, 1, 1, 1, 1, 1, 1, 1, 1, 2, 2, 3, 2, 1, 1,
   3, 1, 1, 1, 4, 1, 3, 2, 1, 1, 3, 1, 0, 1, 5, 1, 0, 2, 1, 1,
   0, 1, 0, 1, 2, 3, 5, 1, 3, 1, 2, 2, 1, 0, 1, 0, 2, 1, 3, 3,
   4, 6, 8, 1, 2, 1, 2, 1, 2, 1, 1, 1, 0, 1, 1, 0, 1, 3]

end Verif.LR

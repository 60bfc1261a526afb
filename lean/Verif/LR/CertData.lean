import Verif.LR.CertDefs
/-! GENERATED by tools/genlr.py. LALR item-set certificate (proof-internal data, checked by the kernel). -/
set_option maxRecDepth 200000
set_option linter.all false
namespace Verif.LR

def ruT : BT Rule := (.node 256 (.node 128 (.node 64 (.node 32 (.node 16 (.node 8 (.node 4 (.node 2 (.node 1 (.leaf (0, [])) (.leaf (199, [200, 0]))) (.node 1 (.leaf (200, [201, 333])) (.leaf (201, [202])))) (.node 2 (.node 1 (.leaf (201, [201, 196, 202])) (.leaf (202, [209, 204]))) (.node 1 (.leaf (202, [203, 204])) (.leaf (202, [219]))))) (.node 4 (.node 2 (.node 1 (.leaf (202, [212])) (.leaf (202, [218]))) (.node 1 (.leaf (203, [245])) (.leaf (203, [220])))) (.node 2 (.node 1 (.leaf (203, [240])) (.leaf (203, [238]))) (.node 1 (.leaf (203, [239])) (.leaf (203, [242])))))) (.node 8 (.node 4 (.node 2 (.node 1 (.leaf (203, [233])) (.leaf (203, [235]))) (.node 1 (.leaf (203, [211])) (.leaf (203, [207])))) (.node 2 (.node 1 (.leaf (204, [113, 97, 193, 205, 194])) (.leaf (204, []))) (.node 1 (.leaf (205, [206])) (.leaf (205, [205, 197, 206]))))) (.node 4 (.node 2 (.node 1 (.leaf (206, [3])) (.leaf (206, [3, 193, 270, 194]))) (.node 1 (.leaf (207, [155, 208])) (.leaf (207, [157, 208])))) (.node 2 (.node 1 (.leaf (207, [156, 208])) (.leaf (208, [154]))) (.node 1 (.leaf (208, [])) (.leaf (209, [27, 3, 94, 210]))))))) (.node 16 (.node 8 (.node 4 (.node 2 (.node 1 (.leaf (210, [4])) (.leaf (211, [22, 3]))) (.node 1 (.leaf (211, [22, 3, 193, 269, 194])) (.leaf (212, [52, 94, 213, 93, 214, 98, 315])))) (.node 2 (.node 1 (.leaf (212, [87, 315, 94, 214, 215, 258])) (.leaf (213, [3]))) (.node 1 (.leaf (214, [4])) (.leaf (215, [113, 193, 216, 194]))))) (.node 4 (.node 2 (.node 1 (.leaf (215, [193, 216, 194])) (.leaf (215, []))) (.node 1 (.leaf (216, [216, 197, 49, 213])) (.leaf (216, [49, 213])))) (.node 2 (.node 1 (.leaf (216, [216, 197, 24, 4])) (.leaf (216, [24, 4]))) (.node 1 (.leaf (216, [216, 197, 217])) (.leaf (216, [217])))))) (.node 8 (.node 4 (.node 2 (.node 1 (.leaf (217, [3, 4])) (.leaf (217, [104, 4]))) (.node 1 (.leaf (218, [87, 315, 133, 214, 215])) (.leaf (218, [87, 248, 133, 214, 215])))) (.node 2 (.node 1 (.leaf (219, [107, 60])) (.leaf (219, [107, 19, 315]))) (.node 1 (.leaf (219, [37, 315])) (.leaf (220, [40, 80, 221, 315, 94, 3, 93, 214]))))) (.node 4 (.node 2 (.node 1 (.leaf (220, [40, 80, 221, 315, 193, 222, 194])) (.leaf (220, [40, 80, 221, 315, 125, 245]))) (.node 1 (.leaf (220, [40, 70, 221, 316, 131, 315, 193, 334, 194])) (.leaf (220, [40, 111, 221, 315, 241, 125, 245])))) (.node 2 (.node 1 (.leaf (221, [127, 121, 46])) (.leaf (221, []))) (.node 1 (.leaf (222, [223])) (.leaf (222, [222, 197, 223])))))))) (.node 32 (.node 16 (.node 8 (.node 4 (.node 2 (.node 1 (.leaf (223, [224])) (.leaf (223, [231]))) (.node 1 (.leaf (224, [3, 225, 228])) (.leaf (225, [33])))) (.node 2 (.node 1 (.leaf (225, [153])) (.leaf (225, [86, 193, 6, 194]))) (.node 1 (.leaf (225, [29, 193, 6, 194])) (.leaf (225, [88]))))) (.node 4 (.node 2 (.node 1 (.leaf (225, [89])) (.leaf (225, [31, 227]))) (.node 1 (.leaf (225, [43])) (.leaf (225, [68])))) (.node 2 (.node 1 (.leaf (225, [120])) (.leaf (225, [25]))) (.node 1 (.leaf (225, [103])) (.leaf (225, [30])))))) (.node 8 (.node 4 (.node 2 (.node 1 (.leaf (225, [32])) (.leaf (225, [108]))) (.node 1 (.leaf (225, [110, 226])) (.leaf (225, [11])))) (.node 2 (.node 1 (.leaf (225, [35, 193, 6, 194])) (.leaf (226, [193, 6, 194]))) (.node 1 (.leaf (226, [])) (.leaf (227, [193, 6, 197, 6, 194]))))) (.node 4 (.node 2 (.node 1 (.leaf (227, [193, 6, 194])) (.leaf (227, []))) (.node 1 (.leaf (228, [229])) (.leaf (228, [])))) (.node 2 (.node 1 (.leaf (229, [230])) (.leaf (229, [229, 230]))) (.node 1 (.leaf (229, [232])) (.leaf (229, [229, 232]))))))) (.node 16 (.node 8 (.node 4 (.node 2 (.node 1 (.leaf (230, [170, 172])) (.leaf (230, [169]))) (.node 1 (.leaf (230, [104])) (.leaf (230, [121, 104])))) (.node 2 (.node 1 (.leaf (231, [170, 172, 193, 334, 194])) (.leaf (231, [169, 193, 334, 194]))) (.node 1 (.leaf (231, [171, 172, 193, 334, 194, 232])) (.leaf (232, [173, 315, 241]))))) (.node 4 (.node 2 (.node 1 (.leaf (233, [91, 80, 234, 315])) (.leaf (233, [91, 111, 234, 315]))) (.node 1 (.leaf (233, [7, 27, 3])) (.leaf (233, [91, 70, 234, 3])))) (.node 2 (.node 1 (.leaf (234, [127, 46])) (.leaf (234, []))) (.node 1 (.leaf (235, [65, 80, 234, 315, 236])) (.leaf (236, [237])))))) (.node 8 (.node 4 (.node 2 (.node 1 (.leaf (237, [91, 39, 234, 3])) (.leaf (238, [41, 94, 315, 258]))) (.node 1 (.leaf (239, [15, 315])) (.leaf (240, [53, 98, 315, 241, 63, 193, 270, 194])))) (.node 2 (.node 1 (.leaf (240, [53, 98, 315, 241, 249])) (.leaf (241, [193, 334, 194]))) (.node 1 (.leaf (241, [])) (.leaf (242, [62, 314, 123, 243, 258]))))) (.node 4 (.node 2 (.node 1 (.leaf (243, [244])) (.leaf (243, [243, 197, 244]))) (.node 1 (.leaf (244, [3, 174, 274])) (.leaf (245, [326, 248])))) (.node 2 (.node 1 (.leaf (245, [326, 249])) (.leaf (245, [326, 248, 250, 246, 261, 267]))) (.node 1 (.leaf (246, [248])) (.leaf (246, [247]))))))))) (.node 64 (.node 32 (.node 16 (.node 8 (.node 4 (.node 2 (.node 1 (.leaf (247, [253])) (.leaf (247, [253, 250, 246]))) (.node 1 (.leaf (248, [193, 249, 194])) (.leaf (248, [193, 248, 194])))) (.node 2 (.node 1 (.leaf (249, [253, 261, 267, 321])) (.leaf (249, [253, 250, 246, 261, 267, 321]))) (.node 1 (.leaf (250, [251, 252])) (.leaf (251, [81]))))) (.node 4 (.node 2 (.node 1 (.leaf (251, [9])) (.leaf (251, [45]))) (.node 1 (.leaf (252, [115])) (.leaf (252, [])))) (.node 2 (.node 1 (.leaf (253, [58, 266, 254, 255, 256, 258, 259])) (.leaf (254, [12]))) (.node 1 (.leaf (254, [])) (.leaf (255, [268])))))) (.node 8 (.node 4 (.node 2 (.node 1 (.leaf (256, [257])) (.leaf (256, []))) (.node 1 (.leaf (257, [94, 309])) (.leaf (258, [83, 274])))) (.node 2 (.node 1 (.leaf (258, [])) (.leaf (259, [69, 126, 268, 260]))) (.node 1 (.leaf (259, [])) (.leaf (260, [51, 274]))))) (.node 4 (.node 2 (.node 1 (.leaf (260, [])) (.leaf (261, [76, 126, 262]))) (.node 1 (.leaf (261, [])) (.leaf (262, [263])))) (.node 2 (.node 1 (.leaf (262, [262, 197, 263])) (.leaf (263, [274, 264, 265]))) (.node 1 (.leaf (264, [117])) (.leaf (264, [90]))))))) (.node 16 (.node 8 (.node 4 (.node 2 (.node 1 (.leaf (264, [])) (.leaf (265, []))) (.node 1 (.leaf (265, [3, 3])) (.leaf (266, [124, 304])))) (.node 2 (.node 1 (.leaf (266, [])) (.leaf (267, [72, 274]))) (.node 1 (.leaf (267, [55, 274])) (.leaf (267, [72, 274, 55, 274]))))) (.node 4 (.node 2 (.node 1 (.leaf (267, [72, 115])) (.leaf (267, [72, 115, 55, 274]))) (.node 1 (.leaf (267, [])) (.leaf (268, [273])))) (.node 2 (.node 1 (.leaf (268, [268, 197, 273])) (.leaf (269, [270]))) (.node 1 (.leaf (269, [])) (.leaf (270, [271])))))) (.node 8 (.node 4 (.node 2 (.node 1 (.leaf (270, [270, 197, 271])) (.leaf (271, [272]))) (.node 1 (.leaf (271, [48, 193, 272, 125, 225, 194])) (.leaf (272, [300])))) (.node 2 (.node 1 (.leaf (272, [185, 303])) (.leaf (272, [185, 307]))) (.node 1 (.leaf (273, [274, 320])) (.leaf (274, [275]))))) (.node 4 (.node 2 (.node 1 (.leaf (274, [298])) (.leaf (274, [279]))) (.node 1 (.leaf (274, [283])) (.leaf (274, [280])))) (.node 2 (.node 1 (.leaf (275, [193, 274, 194])) (.leaf (275, [297]))) (.node 1 (.leaf (275, [276])) (.leaf (275, [277])))))))) (.node 32 (.node 16 (.node 8 (.node 4 (.node 2 (.node 1 (.leaf (275, [278])) (.leaf (275, [281]))) (.node 1 (.leaf (275, [285])) (.leaf (275, [291])))) (.node 2 (.node 1 (.leaf (275, [292])) (.leaf (275, [296]))) (.node 1 (.leaf (275, [193, 249, 194])) (.leaf (276, [299]))))) (.node 4 (.node 2 (.node 1 (.leaf (276, [300])) (.leaf (277, [185, 275]))) (.node 1 (.leaf (277, [121, 275])) (.leaf (277, [275, 54])))) (.node 2 (.node 1 (.leaf (277, [275, 129, 104])) (.leaf (277, [275, 129, 121, 104]))) (.node 1 (.leaf (278, [284])) (.leaf (278, [275, 185, 275])))))) (.node 8 (.node 4 (.node 2 (.node 1 (.leaf (278, [275, 184, 275])) (.leaf (278, [275, 187, 275]))) (.node 1 (.leaf (278, [275, 186, 275])) (.leaf (278, [275, 188, 275])))) (.node 2 (.node 1 (.leaf (278, [275, 189, 275])) (.leaf (278, [275, 101, 275]))) (.node 1 (.leaf (278, [275, 121, 101, 275])) (.leaf (278, [275, 137, 275]))))) (.node 4 (.node 2 (.node 1 (.leaf (278, [275, 136, 275])) (.leaf (279, [274, 116, 274]))) (.node 1 (.leaf (279, [274, 132, 274])) (.leaf (280, [275, 128, 193, 268, 194])))) (.node 2 (.node 1 (.leaf (280, [275, 121, 128, 193, 268, 194])) (.leaf (280, [275, 128, 193, 249, 194]))) (.node 1 (.leaf (280, [275, 121, 128, 193, 249, 194])) (.leaf (281, [85, 274, 282, 118]))))))) (.node 16 (.node 8 (.node 4 (.node 2 (.node 1 (.leaf (281, [85, 274, 282, 92, 274, 118])) (.leaf (281, [85, 282, 118]))) (.node 1 (.leaf (281, [85, 282, 92, 274, 118])) (.leaf (282, [112, 274, 109, 274])))) (.node 2 (.node 1 (.leaf (282, [282, 112, 274, 109, 274])) (.leaf (283, [46, 193, 249, 194]))) (.node 1 (.leaf (283, [121, 46, 193, 249, 194])) (.leaf (284, [275, 174, 275]))))) (.node 4 (.node 2 (.node 1 (.leaf (284, [275, 175, 275])) (.leaf (284, [275, 176, 275]))) (.node 1 (.leaf (284, [275, 177, 275])) (.leaf (284, [275, 178, 275])))) (.node 2 (.node 1 (.leaf (284, [275, 181, 275])) (.leaf (284, [275, 182, 275]))) (.node 1 (.leaf (285, [3, 193, 194, 286])) (.leaf (285, [3, 193, 254, 268, 194, 286])))))) (.node 8 (.node 4 (.node 2 (.node 1 (.leaf (285, [3, 195, 3, 193, 194, 286])) (.leaf (285, [3, 195, 3, 193, 254, 268, 194, 286]))) (.node 1 (.leaf (286, [77, 193, 287, 261, 288, 194])) (.leaf (286, [])))) (.node 2 (.node 1 (.leaf (287, [105, 126, 268])) (.leaf (287, []))) (.node 1 (.leaf (288, [289, 290])) (.leaf (288, [289, 17, 290, 116, 290]))))) (.node 4 (.node 2 (.node 1 (.leaf (288, [])) (.leaf (289, [162]))) (.node 1 (.leaf (289, [163])) (.leaf (289, [164])))) (.node 2 (.node 1 (.leaf (290, [165, 167])) (.leaf (290, [6, 167]))) (.node 1 (.leaf (290, [165, 166])) (.leaf (290, [6, 166])))))))))) (.node 128 (.node 64 (.node 32 (.node 16 (.node 8 (.node 4 (.node 2 (.node 1 (.leaf (290, [168])) (.leaf (291, [47, 193, 293, 94, 274, 194]))) (.node 1 (.leaf (292, [48, 193, 274, 125, 225, 194])) (.leaf (293, [138])))) (.node 2 (.node 1 (.leaf (293, [139])) (.leaf (293, [140]))) (.node 1 (.leaf (293, [141])) (.leaf (293, [142]))))) (.node 4 (.node 2 (.node 1 (.leaf (293, [143])) (.leaf (294, [144]))) (.node 1 (.leaf (294, [145])) (.leaf (294, [146])))) (.node 2 (.node 1 (.leaf (294, [147])) (.leaf (294, [148]))) (.node 1 (.leaf (294, [149])) (.leaf (295, [293])))))) (.node 8 (.node 4 (.node 2 (.node 1 (.leaf (295, [294])) (.leaf (296, [135, 191, 268, 192]))) (.node 1 (.leaf (297, [275, 191, 304, 192])) (.leaf (298, [275, 17, 275, 116, 275])))) (.node 2 (.node 1 (.leaf (299, [3])) (.leaf (299, [3, 195, 3]))) (.node 1 (.leaf (299, [186])) (.leaf (299, [3, 195, 186]))))) (.node 4 (.node 2 (.node 1 (.leaf (300, [301])) (.leaf (300, [302]))) (.node 1 (.leaf (300, [303])) (.leaf (300, [305])))) (.node 2 (.node 1 (.leaf (300, [306])) (.leaf (300, [307]))) (.node 1 (.leaf (300, [308])) (.leaf (301, [4]))))))) (.node 16 (.node 8 (.node 4 (.node 2 (.node 1 (.leaf (302, [151])) (.leaf (302, [152]))) (.node 1 (.leaf (303, [5])) (.leaf (303, [304])))) (.node 2 (.node 1 (.leaf (304, [6])) (.leaf (305, [104]))) (.node 1 (.leaf (306, [88, 4])) (.leaf (307, [6, 295]))))) (.node 4 (.node 2 (.node 1 (.leaf (307, [150, 4, 293])) (.leaf (307, [150, 4]))) (.node 1 (.leaf (308, [198])) (.leaf (309, [310])))) (.node 2 (.node 1 (.leaf (309, [312, 197, 310])) (.leaf (310, [311]))) (.node 1 (.leaf (310, [330])) (.leaf (311, [313])))))) (.node 8 (.node 4 (.node 2 (.node 1 (.leaf (311, [193, 245, 194, 318])) (.leaf (312, [310]))) (.node 1 (.leaf (312, [312, 197, 310])) (.leaf (313, [315, 318])))) (.node 2 (.node 1 (.leaf (314, [315])) (.leaf (315, [3]))) (.node 1 (.leaf (315, [3, 195, 3])) (.leaf (316, [3]))))) (.node 4 (.node 2 (.node 1 (.leaf (316, [])) (.leaf (317, [319]))) (.node 1 (.leaf (317, [125, 3, 193, 334, 194])) (.leaf (318, [317])))) (.node 2 (.node 1 (.leaf (318, [])) (.leaf (319, [125, 3]))) (.node 1 (.leaf (319, [3])) (.leaf (320, [319])))))))) (.node 32 (.node 16 (.node 8 (.node 4 (.node 2 (.node 1 (.leaf (320, [])) (.leaf (321, [322]))) (.node 1 (.leaf (321, [])) (.leaf (322, [323])))) (.node 2 (.node 1 (.leaf (322, [322, 323])) (.leaf (323, [119, 324, 325]))) (.node 1 (.leaf (323, [119, 324, 130, 334, 325])) (.leaf (324, [62]))))) (.node 4 (.node 2 (.node 1 (.leaf (324, [134, 172, 62])) (.leaf (324, [161]))) (.node 1 (.leaf (324, [172, 161])) (.leaf (325, [159, 160])))) (.node 2 (.node 1 (.leaf (325, [158])) (.leaf (325, []))) (.node 1 (.leaf (326, [327])) (.leaf (326, [])))))) (.node 8 (.node 4 (.node 2 (.node 1 (.leaf (327, [113, 328])) (.leaf (328, [329]))) (.node 1 (.leaf (328, [328, 197, 329])) (.leaf (329, [3, 125, 248])))) (.node 2 (.node 1 (.leaf (330, [310, 26, 99, 311])) (.leaf (330, [310, 331, 99, 310, 131, 332]))) (.node 1 (.leaf (330, [310, 331, 99, 310, 82, 193, 334, 194])) (.leaf (331, [71]))))) (.node 4 (.node 2 (.node 1 (.leaf (331, [100, 78])) (.leaf (331, [100]))) (.node 1 (.leaf (331, [79, 78])) (.leaf (331, [79])))) (.node 2 (.node 1 (.leaf (331, [95, 78])) (.leaf (331, [78]))) (.node 1 (.leaf (331, [95])) (.leaf (331, [66]))))))) (.node 16 (.node 8 (.node 4 (.node 2 (.node 1 (.leaf (331, [])) (.leaf (332, [274]))) (.node 1 (.leaf (333, [196])) (.leaf (333, [])))) (.node 2 (.node 1 (.leaf (334, [3])) (.leaf (334, [334, 197, 3]))) .nil)) .nil) .nil))) .nil))
def bylT : BT (List Nat) := (.node 256 (.node 128 (.node 64 (.node 32 (.node 16 (.node 8 (.node 4 (.node 2 (.node 1 (.leaf []) (.leaf [])) (.node 1 (.leaf []) (.leaf []))) (.node 2 (.node 1 (.leaf []) (.leaf [])) (.node 1 (.leaf []) (.leaf [])))) (.node 4 (.node 2 (.node 1 (.leaf []) (.leaf [])) (.node 1 (.leaf []) (.leaf []))) (.node 2 (.node 1 (.leaf []) (.leaf [])) (.node 1 (.leaf []) (.leaf []))))) (.node 8 (.node 4 (.node 2 (.node 1 (.leaf []) (.leaf [])) (.node 1 (.leaf []) (.leaf []))) (.node 2 (.node 1 (.leaf []) (.leaf [])) (.node 1 (.leaf []) (.leaf [])))) (.node 4 (.node 2 (.node 1 (.leaf []) (.leaf [])) (.node 1 (.leaf []) (.leaf []))) (.node 2 (.node 1 (.leaf []) (.leaf [])) (.node 1 (.leaf []) (.leaf [])))))) (.node 16 (.node 8 (.node 4 (.node 2 (.node 1 (.leaf []) (.leaf [])) (.node 1 (.leaf []) (.leaf []))) (.node 2 (.node 1 (.leaf []) (.leaf [])) (.node 1 (.leaf []) (.leaf [])))) (.node 4 (.node 2 (.node 1 (.leaf []) (.leaf [])) (.node 1 (.leaf []) (.leaf []))) (.node 2 (.node 1 (.leaf []) (.leaf [])) (.node 1 (.leaf []) (.leaf []))))) (.node 8 (.node 4 (.node 2 (.node 1 (.leaf []) (.leaf [])) (.node 1 (.leaf []) (.leaf []))) (.node 2 (.node 1 (.leaf []) (.leaf [])) (.node 1 (.leaf []) (.leaf [])))) (.node 4 (.node 2 (.node 1 (.leaf []) (.leaf [])) (.node 1 (.leaf []) (.leaf []))) (.node 2 (.node 1 (.leaf []) (.leaf [])) (.node 1 (.leaf []) (.leaf []))))))) (.node 32 (.node 16 (.node 8 (.node 4 (.node 2 (.node 1 (.leaf []) (.leaf [])) (.node 1 (.leaf []) (.leaf []))) (.node 2 (.node 1 (.leaf []) (.leaf [])) (.node 1 (.leaf []) (.leaf [])))) (.node 4 (.node 2 (.node 1 (.leaf []) (.leaf [])) (.node 1 (.leaf []) (.leaf []))) (.node 2 (.node 1 (.leaf []) (.leaf [])) (.node 1 (.leaf []) (.leaf []))))) (.node 8 (.node 4 (.node 2 (.node 1 (.leaf []) (.leaf [])) (.node 1 (.leaf []) (.leaf []))) (.node 2 (.node 1 (.leaf []) (.leaf [])) (.node 1 (.leaf []) (.leaf [])))) (.node 4 (.node 2 (.node 1 (.leaf []) (.leaf [])) (.node 1 (.leaf []) (.leaf []))) (.node 2 (.node 1 (.leaf []) (.leaf [])) (.node 1 (.leaf []) (.leaf [])))))) (.node 16 (.node 8 (.node 4 (.node 2 (.node 1 (.leaf []) (.leaf [])) (.node 1 (.leaf []) (.leaf []))) (.node 2 (.node 1 (.leaf []) (.leaf [])) (.node 1 (.leaf []) (.leaf [])))) (.node 4 (.node 2 (.node 1 (.leaf []) (.leaf [])) (.node 1 (.leaf []) (.leaf []))) (.node 2 (.node 1 (.leaf []) (.leaf [])) (.node 1 (.leaf []) (.leaf []))))) (.node 8 (.node 4 (.node 2 (.node 1 (.leaf []) (.leaf [])) (.node 1 (.leaf []) (.leaf []))) (.node 2 (.node 1 (.leaf []) (.leaf [])) (.node 1 (.leaf []) (.leaf [])))) (.node 4 (.node 2 (.node 1 (.leaf []) (.leaf [])) (.node 1 (.leaf []) (.leaf []))) (.node 2 (.node 1 (.leaf []) (.leaf [])) (.node 1 (.leaf []) (.leaf [])))))))) (.node 64 (.node 32 (.node 16 (.node 8 (.node 4 (.node 2 (.node 1 (.leaf []) (.leaf [])) (.node 1 (.leaf []) (.leaf []))) (.node 2 (.node 1 (.leaf []) (.leaf [])) (.node 1 (.leaf []) (.leaf [])))) (.node 4 (.node 2 (.node 1 (.leaf []) (.leaf [])) (.node 1 (.leaf []) (.leaf []))) (.node 2 (.node 1 (.leaf []) (.leaf [])) (.node 1 (.leaf []) (.leaf []))))) (.node 8 (.node 4 (.node 2 (.node 1 (.leaf []) (.leaf [])) (.node 1 (.leaf []) (.leaf []))) (.node 2 (.node 1 (.leaf []) (.leaf [])) (.node 1 (.leaf []) (.leaf [])))) (.node 4 (.node 2 (.node 1 (.leaf []) (.leaf [])) (.node 1 (.leaf []) (.leaf []))) (.node 2 (.node 1 (.leaf []) (.leaf [])) (.node 1 (.leaf []) (.leaf [])))))) (.node 16 (.node 8 (.node 4 (.node 2 (.node 1 (.leaf []) (.leaf [])) (.node 1 (.leaf []) (.leaf []))) (.node 2 (.node 1 (.leaf []) (.leaf [])) (.node 1 (.leaf []) (.leaf [])))) (.node 4 (.node 2 (.node 1 (.leaf []) (.leaf [])) (.node 1 (.leaf []) (.leaf []))) (.node 2 (.node 1 (.leaf []) (.leaf [])) (.node 1 (.leaf []) (.leaf []))))) (.node 8 (.node 4 (.node 2 (.node 1 (.leaf []) (.leaf [])) (.node 1 (.leaf []) (.leaf []))) (.node 2 (.node 1 (.leaf []) (.leaf [])) (.node 1 (.leaf []) (.leaf [])))) (.node 4 (.node 2 (.node 1 (.leaf []) (.leaf [])) (.node 1 (.leaf []) (.leaf []))) (.node 2 (.node 1 (.leaf []) (.leaf [])) (.node 1 (.leaf []) (.leaf []))))))) (.node 32 (.node 16 (.node 8 (.node 4 (.node 2 (.node 1 (.leaf []) (.leaf [])) (.node 1 (.leaf []) (.leaf []))) (.node 2 (.node 1 (.leaf []) (.leaf [])) (.node 1 (.leaf []) (.leaf [1])))) (.node 4 (.node 2 (.node 1 (.leaf [2]) (.leaf [3, 4])) (.node 1 (.leaf [5, 6, 7, 8, 9]) (.leaf [10, 11, 12, 13, 14, 15, 16, 17, 18, 19]))) (.node 2 (.node 1 (.leaf [20, 21]) (.leaf [22, 23])) (.node 1 (.leaf [24, 25]) (.leaf [26, 27, 28]))))) (.node 8 (.node 4 (.node 2 (.node 1 (.leaf [29, 30]) (.leaf [31])) (.node 1 (.leaf [32]) (.leaf [33, 34]))) (.node 2 (.node 1 (.leaf [35, 36]) (.leaf [37])) (.node 1 (.leaf [38]) (.leaf [39, 40, 41])))) (.node 4 (.node 2 (.node 1 (.leaf [42, 43, 44, 45, 46, 47]) (.leaf [48, 49])) (.node 1 (.leaf [50, 51]) (.leaf [52, 53, 54]))) (.node 2 (.node 1 (.leaf [55, 56, 57, 58, 59]) (.leaf [60, 61])) (.node 1 (.leaf [62, 63]) (.leaf [64, 65])))))) (.node 16 (.node 8 (.node 4 (.node 2 (.node 1 (.leaf [66]) (.leaf [67, 68, 69, 70, 71, 72, 73, 74, 75, 76, 77, 78, 79, 80, 81, 82, 83, 84])) (.node 1 (.leaf [85, 86]) (.leaf [87, 88, 89]))) (.node 2 (.node 1 (.leaf [90, 91]) (.leaf [92, 93, 94, 95])) (.node 1 (.leaf [96, 97, 98, 99]) (.leaf [100, 101, 102])))) (.node 4 (.node 2 (.node 1 (.leaf [103]) (.leaf [104, 105, 106, 107])) (.node 1 (.leaf [108, 109]) (.leaf [110]))) (.node 2 (.node 1 (.leaf [111]) (.leaf [112])) (.node 1 (.leaf [113]) (.leaf [114]))))) (.node 8 (.node 4 (.node 2 (.node 1 (.leaf [115, 116]) (.leaf [117, 118])) (.node 1 (.leaf [119]) (.leaf [120, 121]))) (.node 2 (.node 1 (.leaf [122]) (.leaf [123, 124, 125])) (.node 1 (.leaf [126, 127]) (.leaf [128, 129])))) (.node 4 (.node 2 (.node 1 (.leaf [130, 131]) (.leaf [132, 133])) (.node 1 (.leaf [134]) (.leaf [135, 136, 137]))) (.node 2 (.node 1 (.leaf [138, 139]) (.leaf [140])) (.node 1 (.leaf [141, 142]) (.leaf [143]))))))))) (.node 128 (.node 64 (.node 32 (.node 16 (.node 8 (.node 4 (.node 2 (.node 1 (.leaf [144, 145]) (.leaf [146])) (.node 1 (.leaf [147, 148]) (.leaf [149, 150]))) (.node 2 (.node 1 (.leaf [151, 152]) (.leaf [153, 154])) (.node 1 (.leaf [155, 156]) (.leaf [157])))) (.node 4 (.node 2 (.node 1 (.leaf [158, 159, 160]) (.leaf [161, 162])) (.node 1 (.leaf [163, 164]) (.leaf [165, 166, 167, 168, 169, 170]))) (.node 2 (.node 1 (.leaf [171, 172]) (.leaf [173, 174])) (.node 1 (.leaf [175, 176]) (.leaf [177, 178]))))) (.node 8 (.node 4 (.node 2 (.node 1 (.leaf [179, 180, 181]) (.leaf [182])) (.node 1 (.leaf [183, 184, 185, 186, 187]) (.leaf [188, 189, 190, 191, 192, 193, 194, 195, 196, 197, 198]))) (.node 2 (.node 1 (.leaf [199, 200]) (.leaf [201, 202, 203, 204, 205])) (.node 1 (.leaf [206, 207, 208, 209, 210, 211, 212, 213, 214, 215, 216]) (.leaf [217, 218])))) (.node 4 (.node 2 (.node 1 (.leaf [219, 220, 221, 222]) (.leaf [223, 224, 225, 226])) (.node 1 (.leaf [227, 228]) (.leaf [229, 230]))) (.node 2 (.node 1 (.leaf [231, 232, 233, 234, 235, 236, 237]) (.leaf [238, 239, 240, 241])) (.node 1 (.leaf [242, 243]) (.leaf [244, 245])))))) (.node 16 (.node 8 (.node 4 (.node 2 (.node 1 (.leaf [246, 247, 248]) (.leaf [249, 250, 251])) (.node 1 (.leaf [252, 253, 254, 255, 256]) (.leaf [257]))) (.node 2 (.node 1 (.leaf [258]) (.leaf [259, 260, 261, 262, 263, 264])) (.node 1 (.leaf [265, 266, 267, 268, 269, 270]) (.leaf [271, 272])))) (.node 4 (.node 2 (.node 1 (.leaf [273]) (.leaf [274])) (.node 1 (.leaf [275]) (.leaf [276, 277, 278, 279]))) (.node 2 (.node 1 (.leaf [280, 281, 282, 283, 284, 285, 286]) (.leaf [287])) (.node 1 (.leaf [288, 289]) (.leaf [290, 291]))))) (.node 8 (.node 4 (.node 2 (.node 1 (.leaf [292]) (.leaf [293])) (.node 1 (.leaf [294]) (.leaf [295, 296, 297]))) (.node 2 (.node 1 (.leaf [298]) (.leaf [299, 300])) (.node 1 (.leaf [301, 302]) (.leaf [303, 304])))) (.node 4 (.node 2 (.node 1 (.leaf [305, 306]) (.leaf [307])) (.node 1 (.leaf [308]) (.leaf [309, 310]))) (.node 2 (.node 1 (.leaf [311, 312]) (.leaf [313, 314])) (.node 1 (.leaf [315, 316]) (.leaf [317, 318]))))))) (.node 32 (.node 16 (.node 8 (.node 4 (.node 2 (.node 1 (.leaf [319, 320]) (.leaf [321, 322])) (.node 1 (.leaf [323, 324]) (.leaf [325, 326]))) (.node 2 (.node 1 (.leaf [327, 328, 329, 330]) (.leaf [331, 332, 333])) (.node 1 (.leaf [334, 335]) (.leaf [336])))) (.node 4 (.node 2 (.node 1 (.leaf [337, 338]) (.leaf [339])) (.node 1 (.leaf [340, 341, 342]) (.leaf [343, 344, 345, 346, 347, 348, 349, 350, 351, 352]))) (.node 2 (.node 1 (.leaf [353]) (.leaf [354, 355])) (.node 1 (.leaf [356, 357]) .nil)))) .nil) .nil)) .nil))
def firstT : BT Nat := (.node 256 (.node 128 (.node 64 (.node 32 (.node 16 (.node 8 (.node 4 (.node 2 (.node 1 (.leaf 0x1) (.leaf 0x2)) (.node 1 (.leaf 0x4) (.leaf 0x8))) (.node 2 (.node 1 (.leaf 0x10) (.leaf 0x20)) (.node 1 (.leaf 0x40) (.leaf 0x80)))) (.node 4 (.node 2 (.node 1 (.leaf 0x100) (.leaf 0x200)) (.node 1 (.leaf 0x400) (.leaf 0x800))) (.node 2 (.node 1 (.leaf 0x1000) (.leaf 0x2000)) (.node 1 (.leaf 0x4000) (.leaf 0x8000))))) (.node 8 (.node 4 (.node 2 (.node 1 (.leaf 0x10000) (.leaf 0x20000)) (.node 1 (.leaf 0x40000) (.leaf 0x80000))) (.node 2 (.node 1 (.leaf 0x100000) (.leaf 0x200000)) (.node 1 (.leaf 0x400000) (.leaf 0x800000)))) (.node 4 (.node 2 (.node 1 (.leaf 0x1000000) (.leaf 0x2000000)) (.node 1 (.leaf 0x4000000) (.leaf 0x8000000))) (.node 2 (.node 1 (.leaf 0x10000000) (.leaf 0x20000000)) (.node 1 (.leaf 0x40000000) (.leaf 0x80000000)))))) (.node 16 (.node 8 (.node 4 (.node 2 (.node 1 (.leaf 0x100000000) (.leaf 0x200000000)) (.node 1 (.leaf 0x400000000) (.leaf 0x800000000))) (.node 2 (.node 1 (.leaf 0x1000000000) (.leaf 0x2000000000)) (.node 1 (.leaf 0x4000000000) (.leaf 0x8000000000)))) (.node 4 (.node 2 (.node 1 (.leaf 0x10000000000) (.leaf 0x20000000000)) (.node 1 (.leaf 0x40000000000) (.leaf 0x80000000000))) (.node 2 (.node 1 (.leaf 0x100000000000) (.leaf 0x200000000000)) (.node 1 (.leaf 0x400000000000) (.leaf 0x800000000000))))) (.node 8 (.node 4 (.node 2 (.node 1 (.leaf 0x1000000000000) (.leaf 0x2000000000000)) (.node 1 (.leaf 0x4000000000000) (.leaf 0x8000000000000))) (.node 2 (.node 1 (.leaf 0x10000000000000) (.leaf 0x20000000000000)) (.node 1 (.leaf 0x40000000000000) (.leaf 0x80000000000000)))) (.node 4 (.node 2 (.node 1 (.leaf 0x100000000000000) (.leaf 0x200000000000000)) (.node 1 (.leaf 0x400000000000000) (.leaf 0x800000000000000))) (.node 2 (.node 1 (.leaf 0x1000000000000000) (.leaf 0x2000000000000000)) (.node 1 (.leaf 0x4000000000000000) (.leaf 0x8000000000000000))))))) (.node 32 (.node 16 (.node 8 (.node 4 (.node 2 (.node 1 (.leaf 0x10000000000000000) (.leaf 0x20000000000000000)) (.node 1 (.leaf 0x40000000000000000) (.leaf 0x80000000000000000))) (.node 2 (.node 1 (.leaf 0x100000000000000000) (.leaf 0x200000000000000000)) (.node 1 (.leaf 0x400000000000000000) (.leaf 0x800000000000000000)))) (.node 4 (.node 2 (.node 1 (.leaf 0x1000000000000000000) (.leaf 0x2000000000000000000)) (.node 1 (.leaf 0x4000000000000000000) (.leaf 0x8000000000000000000))) (.node 2 (.node 1 (.leaf 0x10000000000000000000) (.leaf 0x20000000000000000000)) (.node 1 (.leaf 0x40000000000000000000) (.leaf 0x80000000000000000000))))) (.node 8 (.node 4 (.node 2 (.node 1 (.leaf 0x100000000000000000000) (.leaf 0x200000000000000000000)) (.node 1 (.leaf 0x400000000000000000000) (.leaf 0x800000000000000000000))) (.node 2 (.node 1 (.leaf 0x1000000000000000000000) (.leaf 0x2000000000000000000000)) (.node 1 (.leaf 0x4000000000000000000000) (.leaf 0x8000000000000000000000)))) (.node 4 (.node 2 (.node 1 (.leaf 0x10000000000000000000000) (.leaf 0x20000000000000000000000)) (.node 1 (.leaf 0x40000000000000000000000) (.leaf 0x80000000000000000000000))) (.node 2 (.node 1 (.leaf 0x100000000000000000000000) (.leaf 0x200000000000000000000000)) (.node 1 (.leaf 0x400000000000000000000000) (.leaf 0x800000000000000000000000)))))) (.node 16 (.node 8 (.node 4 (.node 2 (.node 1 (.leaf 0x1000000000000000000000000) (.leaf 0x2000000000000000000000000)) (.node 1 (.leaf 0x4000000000000000000000000) (.leaf 0x8000000000000000000000000))) (.node 2 (.node 1 (.leaf 0x10000000000000000000000000) (.leaf 0x20000000000000000000000000)) (.node 1 (.leaf 0x40000000000000000000000000) (.leaf 0x80000000000000000000000000)))) (.node 4 (.node 2 (.node 1 (.leaf 0x100000000000000000000000000) (.leaf 0x200000000000000000000000000)) (.node 1 (.leaf 0x400000000000000000000000000) (.leaf 0x800000000000000000000000000))) (.node 2 (.node 1 (.leaf 0x1000000000000000000000000000) (.leaf 0x2000000000000000000000000000)) (.node 1 (.leaf 0x4000000000000000000000000000) (.leaf 0x8000000000000000000000000000))))) (.node 8 (.node 4 (.node 2 (.node 1 (.leaf 0x10000000000000000000000000000) (.leaf 0x20000000000000000000000000000)) (.node 1 (.leaf 0x40000000000000000000000000000) (.leaf 0x80000000000000000000000000000))) (.node 2 (.node 1 (.leaf 0x100000000000000000000000000000) (.leaf 0x200000000000000000000000000000)) (.node 1 (.leaf 0x400000000000000000000000000000) (.leaf 0x800000000000000000000000000000)))) (.node 4 (.node 2 (.node 1 (.leaf 0x1000000000000000000000000000000) (.leaf 0x2000000000000000000000000000000)) (.node 1 (.leaf 0x4000000000000000000000000000000) (.leaf 0x8000000000000000000000000000000))) (.node 2 (.node 1 (.leaf 0x10000000000000000000000000000000) (.leaf 0x20000000000000000000000000000000)) (.node 1 (.leaf 0x40000000000000000000000000000000) (.leaf 0x80000000000000000000000000000000)))))))) (.node 64 (.node 32 (.node 16 (.node 8 (.node 4 (.node 2 (.node 1 (.leaf 0x100000000000000000000000000000000) (.leaf 0x200000000000000000000000000000000)) (.node 1 (.leaf 0x400000000000000000000000000000000) (.leaf 0x800000000000000000000000000000000))) (.node 2 (.node 1 (.leaf 0x1000000000000000000000000000000000) (.leaf 0x2000000000000000000000000000000000)) (.node 1 (.leaf 0x4000000000000000000000000000000000) (.leaf 0x8000000000000000000000000000000000)))) (.node 4 (.node 2 (.node 1 (.leaf 0x10000000000000000000000000000000000) (.leaf 0x20000000000000000000000000000000000)) (.node 1 (.leaf 0x40000000000000000000000000000000000) (.leaf 0x80000000000000000000000000000000000))) (.node 2 (.node 1 (.leaf 0x100000000000000000000000000000000000) (.leaf 0x200000000000000000000000000000000000)) (.node 1 (.leaf 0x400000000000000000000000000000000000) (.leaf 0x800000000000000000000000000000000000))))) (.node 8 (.node 4 (.node 2 (.node 1 (.leaf 0x1000000000000000000000000000000000000) (.leaf 0x2000000000000000000000000000000000000)) (.node 1 (.leaf 0x4000000000000000000000000000000000000) (.leaf 0x8000000000000000000000000000000000000))) (.node 2 (.node 1 (.leaf 0x10000000000000000000000000000000000000) (.leaf 0x20000000000000000000000000000000000000)) (.node 1 (.leaf 0x40000000000000000000000000000000000000) (.leaf 0x80000000000000000000000000000000000000)))) (.node 4 (.node 2 (.node 1 (.leaf 0x100000000000000000000000000000000000000) (.leaf 0x200000000000000000000000000000000000000)) (.node 1 (.leaf 0x400000000000000000000000000000000000000) (.leaf 0x800000000000000000000000000000000000000))) (.node 2 (.node 1 (.leaf 0x1000000000000000000000000000000000000000) (.leaf 0x2000000000000000000000000000000000000000)) (.node 1 (.leaf 0x4000000000000000000000000000000000000000) (.leaf 0x8000000000000000000000000000000000000000)))))) (.node 16 (.node 8 (.node 4 (.node 2 (.node 1 (.leaf 0x10000000000000000000000000000000000000000) (.leaf 0x20000000000000000000000000000000000000000)) (.node 1 (.leaf 0x40000000000000000000000000000000000000000) (.leaf 0x80000000000000000000000000000000000000000))) (.node 2 (.node 1 (.leaf 0x100000000000000000000000000000000000000000) (.leaf 0x200000000000000000000000000000000000000000)) (.node 1 (.leaf 0x400000000000000000000000000000000000000000) (.leaf 0x800000000000000000000000000000000000000000)))) (.node 4 (.node 2 (.node 1 (.leaf 0x1000000000000000000000000000000000000000000) (.leaf 0x2000000000000000000000000000000000000000000)) (.node 1 (.leaf 0x4000000000000000000000000000000000000000000) (.leaf 0x8000000000000000000000000000000000000000000))) (.node 2 (.node 1 (.leaf 0x10000000000000000000000000000000000000000000) (.leaf 0x20000000000000000000000000000000000000000000)) (.node 1 (.leaf 0x40000000000000000000000000000000000000000000) (.leaf 0x80000000000000000000000000000000000000000000))))) (.node 8 (.node 4 (.node 2 (.node 1 (.leaf 0x100000000000000000000000000000000000000000000) (.leaf 0x200000000000000000000000000000000000000000000)) (.node 1 (.leaf 0x400000000000000000000000000000000000000000000) (.leaf 0x800000000000000000000000000000000000000000000))) (.node 2 (.node 1 (.leaf 0x1000000000000000000000000000000000000000000000) (.leaf 0x2000000000000000000000000000000000000000000000)) (.node 1 (.leaf 0x4000000000000000000000000000000000000000000000) (.leaf 0x8000000000000000000000000000000000000000000000)))) (.node 4 (.node 2 (.node 1 (.leaf 0x10000000000000000000000000000000000000000000000) (.leaf 0x20000000000000000000000000000000000000000000000)) (.node 1 (.leaf 0x40000000000000000000000000000000000000000000000) (.leaf 0x80000000000000000000000000000000000000000000000))) (.node 2 (.node 1 (.leaf 0x100000000000000000000000000000000000000000000000) (.leaf 0x200000000000000000000000000000000000000000000000)) (.node 1 (.leaf 0x400000000000000000000000000000000000000000000000) (.leaf 0x800000000000000000000000000000000000000000000000))))))) (.node 32 (.node 16 (.node 8 (.node 4 (.node 2 (.node 1 (.leaf 0x1000000000000000000000000000000000000000000000000) (.leaf 0x2000000000000000000000000000000000000000000000000)) (.node 1 (.leaf 0x4000000000000000000000000000000000000000000000000) (.leaf 0x8000000000000000000000000000000000000000000000000))) (.node 2 (.node 1 (.leaf 0x10000000000000000000000000000000000000000000000000) (.leaf 0x20000000000000000000000000000000000000000000000000)) (.node 1 (.leaf 0x40000000000000000000000000000000000000000000000000) (.leaf 0x2000000003800000000020800088000024430032008408080)))) (.node 4 (.node 2 (.node 1 (.leaf 0x2000000003800000000020800088000024430032008408080) (.leaf 0x2000000003800000000020800088000024430032008408080)) (.node 1 (.leaf 0x2000000003800000000020800088000024430032008408080) (.leaf 0x2000000003800000000020000080000024420030000408080))) (.node 2 (.node 1 (.leaf 0x20000000000000000000000000000) (.leaf 0x8)) (.node 1 (.leaf 0x8) (.leaf 0x3800000000000000000000000000000000000000))))) (.node 8 (.node 4 (.node 2 (.node 1 (.leaf 0x400000000000000000000000000000000000000) (.leaf 0x8000000)) (.node 1 (.leaf 0x10) (.leaf 0x400000))) (.node 2 (.node 1 (.leaf 0x8000000010000000000000) (.leaf 0x8)) (.node 1 (.leaf 0x10) (.leaf 0x2000000000000000000020000000000000000000000000000)))) (.node 4 (.node 2 (.node 1 (.leaf 0x100000000000002000001000008) (.leaf 0x100000000000000000000000008)) (.node 1 (.leaf 0x8000000000000000000000) (.leaf 0x800000000000000002000000000))) (.node 2 (.node 1 (.leaf 0x10000000000) (.leaf 0x80000000000000000000000000000000)) (.node 1 (.leaf 0xe000000000000000000000000000000000000000008) (.leaf 0xe000000000000000000000000000000000000000008)))))) (.node 16 (.node 8 (.node 4 (.node 2 (.node 1 (.leaf 0x8) (.leaf 0x200000001005080034000100000080be2000800)) (.node 1 (.leaf 0x2000000000000000000000000000000000000000000000000) (.leaf 0x2000000000000000000000000000000000000000000000000))) (.node 2 (.node 1 (.leaf 0x26000000000002000100000000000000000000000000) (.leaf 0x26000000000002000100000000000000000000000000)) (.node 1 (.leaf 0x6000000000002000100000000000000000000000000) (.leaf 0xe000000000000000000000000000000000000000000)))) (.node 4 (.node 2 (.node 1 (.leaf 0x20000000000000000000000000000000000000000000) (.leaf 0x80000000000000000000080)) (.node 1 (.leaf 0x80000000000000000000000000000000) (.leaf 0x20000000000000000))) (.node 2 (.node 1 (.leaf 0x80000000000000000000000) (.leaf 0x80000000000000000000000)) (.node 1 (.leaf 0x20000000000) (.leaf 0x8000))))) (.node 8 (.node 4 (.node 2 (.node 1 (.leaf 0x20000000000000) (.leaf 0x2000000000000000000000000000000000000000000000000)) (.node 1 (.leaf 0x4000000000000000) (.leaf 0x8))) (.node 2 (.node 1 (.leaf 0x8) (.leaf 0x2000000000000000000020000000000000400000000000000)) (.node 1 (.leaf 0x2000000000000000000000000000000000400000000000000) (.leaf 0x400000000000000)))) (.node 4 (.node 2 (.node 1 (.leaf 0x2000000000000000000000000000000000000000000000000) (.leaf 0x400000000000000)) (.node 1 (.leaf 0x200000000200000000200) (.leaf 0x200000000200000000200))) (.node 2 (.node 1 (.leaf 0x80000000000000000000000000000) (.leaf 0x400000000000000)) (.node 1 (.leaf 0x1000) (.leaf 0x420600000001c0008002000100012000000001c00000000078))))))))) (.node 128 (.node 64 (.node 32 (.node 16 (.node 8 (.node 4 (.node 2 (.node 1 (.leaf 0x400000000000000000000000) (.leaf 0x400000000000000000000000)) (.node 1 (.leaf 0x800000000000000000000) (.leaf 0x200000000000000000))) (.node 2 (.node 1 (.leaf 0x8000000000000) (.leaf 0x10000000000000000000)) (.node 1 (.leaf 0x420600000001c0008002000100012000000001c00000000078) (.leaf 0x420600000001c0008002000100012000000001c00000000078)))) (.node 4 (.node 2 (.node 1 (.leaf 0x200000040000000000000000000000) (.leaf 0x8)) (.node 1 (.leaf 0x10000000000000000000000000000000) (.leaf 0x1000080000000000000))) (.node 2 (.node 1 (.leaf 0x420600000001c0008002000100012000000001c00000000078) (.leaf 0x400200000001c0000000000100010000000001000000000070)) (.node 1 (.leaf 0x400200000001c0000000000100010000000001000000000070) (.leaf 0x400200000001c0000000000100010000000001000000000070))))) (.node 8 (.node 4 (.node 2 (.node 1 (.leaf 0x400200000001c0000000000100010000000000000000000070) (.leaf 0x420600000001c0008002000100012000000001c00000000078)) (.node 1 (.leaf 0x420600000001c0008002000100012000000001c00000000078) (.leaf 0x420600000001c0008002000100012000000001800000000078))) (.node 2 (.node 1 (.leaf 0x400400000001c0000000000100010000000000000000000078) (.leaf 0x420600000001c0008002000100012000000001800000000078)) (.node 1 (.leaf 0x420600000001c0008002000100012000000001800000000078) (.leaf 0x420600000001c0008002000100012000000001c00000000078)))) (.node 4 (.node 2 (.node 1 (.leaf 0x420600000001c0008002000100012000000001800000000078) (.leaf 0x2000000000000000000000)) (.node 1 (.leaf 0x10000000000000000000000000000) (.leaf 0x2000000000000000000400000000000))) (.node 2 (.node 1 (.leaf 0x420600000001c0008002000100012000000001800000000078) (.leaf 0x8)) (.node 1 (.leaf 0x20000000000000000000) (.leaf 0x200000000000000000000000000)))))) (.node 16 (.node 8 (.node 4 (.node 2 (.node 1 (.leaf 0x1c0000000000000000000000000000000000000000) (.leaf 0x1c0000000000000000000000000000000000000000)) (.node 1 (.leaf 0x1200000000000000000000000000000000000000040) (.leaf 0x800000000000))) (.node 2 (.node 1 (.leaf 0x1000000000000) (.leaf 0xfc0000000000000000000000000000000000)) (.node 1 (.leaf 0x3f000000000000000000000000000000000000) (.leaf 0x3ffc0000000000000000000000000000000000)))) (.node 4 (.node 2 (.node 1 (.leaf 0x8000000000000000000000000000000000) (.leaf 0x420600000001c0008002000100012000000001800000000078)) (.node 1 (.leaf 0x420600000001c0008002000100012000000001800000000078) (.leaf 0x40000000000000000000000000000000000000000000008))) (.node 2 (.node 1 (.leaf 0x400000000001c0000000000100010000000000000000000070) (.leaf 0x10)) (.node 1 (.leaf 0x180000000000000000000000000000000000000) (.leaf 0x60))))) (.node 8 (.node 4 (.node 2 (.node 1 (.leaf 0x40) (.leaf 0x100000000000000000000000000)) (.node 1 (.leaf 0x10000000000000000000000) (.leaf 0x40000000000000000000000000000000000040))) (.node 2 (.node 1 (.leaf 0x40000000000000000000000000000000000000000000000000) (.leaf 0x2000000000000000000000000000000000000000000000008)) (.node 1 (.leaf 0x2000000000000000000000000000000000000000000000008) (.leaf 0x2000000000000000000000000000000000000000000000008)))) (.node 4 (.node 2 (.node 1 (.leaf 0x2000000000000000000000000000000000000000000000008) (.leaf 0x8)) (.node 1 (.leaf 0x8) (.leaf 0x8))) (.node 2 (.node 1 (.leaf 0x8) (.leaf 0x20000000000000000000000000000008)) (.node 1 (.leaf 0x20000000000000000000000000000008) (.leaf 0x20000000000000000000000000000008))))))) (.node 32 (.node 16 (.node 8 (.node 4 (.node 2 (.node 1 (.leaf 0x20000000000000000000000000000008) (.leaf 0x800000000000000000000000000000)) (.node 1 (.leaf 0x800000000000000000000000000000) (.leaf 0x800000000000000000000000000000))) (.node 2 (.node 1 (.leaf 0x10020000004000000000000000004000000000000000) (.leaf 0xc000000000000000000000000000000000000000)) (.node 1 (.leaf 0x20000000000000000000000000000) (.leaf 0x20000000000000000000000000000)))) (.node 4 (.node 2 (.node 1 (.leaf 0x8) (.leaf 0x8)) (.node 1 (.leaf 0x2000000000000000000000000000000000000000000000008) (.leaf 0x108000c0840000000000000000))) (.node 2 (.node 1 (.leaf 0x420600000001c0008002000100012000000001c00000000078) (.leaf 0x10000000000000000000000000000000000000000000000000)) (.node 1 (.leaf 0x8) .nil)))) .nil) .nil)) .nil))
def nullM : Nat := 0x286350000001c0002f3d5002041c20811000000000000000000000000000000000000000000000000000
def frT : BT Nat := (.node 256 (.node 128 (.node 64 (.node 32 (.node 16 (.node 8 (.node 4 (.node 2 (.node 1 (.leaf 0x0) (.leaf 0x0)) (.node 1 (.leaf 0x0) (.leaf 0x0))) (.node 2 (.node 1 (.leaf 0x0) (.leaf 0x0)) (.node 1 (.leaf 0x0) (.leaf 0x0)))) (.node 4 (.node 2 (.node 1 (.leaf 0x0) (.leaf 0x0)) (.node 1 (.leaf 0x0) (.leaf 0x0))) (.node 2 (.node 1 (.leaf 0x0) (.leaf 0x0)) (.node 1 (.leaf 0x0) (.leaf 0x0))))) (.node 8 (.node 4 (.node 2 (.node 1 (.leaf 0x0) (.leaf 0x0)) (.node 1 (.leaf 0x0) (.leaf 0x0))) (.node 2 (.node 1 (.leaf 0x0) (.leaf 0x0)) (.node 1 (.leaf 0x0) (.leaf 0x0)))) (.node 4 (.node 2 (.node 1 (.leaf 0x0) (.leaf 0x0)) (.node 1 (.leaf 0x0) (.leaf 0x0))) (.node 2 (.node 1 (.leaf 0x0) (.leaf 0x0)) (.node 1 (.leaf 0x0) (.leaf 0x0)))))) (.node 16 (.node 8 (.node 4 (.node 2 (.node 1 (.leaf 0x0) (.leaf 0x0)) (.node 1 (.leaf 0x0) (.leaf 0x0))) (.node 2 (.node 1 (.leaf 0x0) (.leaf 0x0)) (.node 1 (.leaf 0x0) (.leaf 0x0)))) (.node 4 (.node 2 (.node 1 (.leaf 0x0) (.leaf 0x0)) (.node 1 (.leaf 0x0) (.leaf 0x0))) (.node 2 (.node 1 (.leaf 0x0) (.leaf 0x0)) (.node 1 (.leaf 0x0) (.leaf 0x0))))) (.node 8 (.node 4 (.node 2 (.node 1 (.leaf 0x0) (.leaf 0x0)) (.node 1 (.leaf 0x0) (.leaf 0x0))) (.node 2 (.node 1 (.leaf 0x0) (.leaf 0x0)) (.node 1 (.leaf 0x0) (.leaf 0x0)))) (.node 4 (.node 2 (.node 1 (.leaf 0x0) (.leaf 0x0)) (.node 1 (.leaf 0x0) (.leaf 0x0))) (.node 2 (.node 1 (.leaf 0x0) (.leaf 0x0)) (.node 1 (.leaf 0x0) (.leaf 0x0))))))) (.node 32 (.node 16 (.node 8 (.node 4 (.node 2 (.node 1 (.leaf 0x0) (.leaf 0x0)) (.node 1 (.leaf 0x0) (.leaf 0x0))) (.node 2 (.node 1 (.leaf 0x0) (.leaf 0x0)) (.node 1 (.leaf 0x0) (.leaf 0x0)))) (.node 4 (.node 2 (.node 1 (.leaf 0x0) (.leaf 0x0)) (.node 1 (.leaf 0x0) (.leaf 0x0))) (.node 2 (.node 1 (.leaf 0x0) (.leaf 0x0)) (.node 1 (.leaf 0x0) (.leaf 0x0))))) (.node 8 (.node 4 (.node 2 (.node 1 (.leaf 0x0) (.leaf 0x0)) (.node 1 (.leaf 0x0) (.leaf 0x0))) (.node 2 (.node 1 (.leaf 0x0) (.leaf 0x0)) (.node 1 (.leaf 0x0) (.leaf 0x0)))) (.node 4 (.node 2 (.node 1 (.leaf 0x0) (.leaf 0x0)) (.node 1 (.leaf 0x0) (.leaf 0x0))) (.node 2 (.node 1 (.leaf 0x0) (.leaf 0x0)) (.node 1 (.leaf 0x0) (.leaf 0x0)))))) (.node 16 (.node 8 (.node 4 (.node 2 (.node 1 (.leaf 0x0) (.leaf 0x0)) (.node 1 (.leaf 0x0) (.leaf 0x0))) (.node 2 (.node 1 (.leaf 0x0) (.leaf 0x0)) (.node 1 (.leaf 0x0) (.leaf 0x0)))) (.node 4 (.node 2 (.node 1 (.leaf 0x0) (.leaf 0x0)) (.node 1 (.leaf 0x0) (.leaf 0x0))) (.node 2 (.node 1 (.leaf 0x0) (.leaf 0x0)) (.node 1 (.leaf 0x0) (.leaf 0x0))))) (.node 8 (.node 4 (.node 2 (.node 1 (.leaf 0x0) (.leaf 0x0)) (.node 1 (.leaf 0x0) (.leaf 0x0))) (.node 2 (.node 1 (.leaf 0x0) (.leaf 0x0)) (.node 1 (.leaf 0x0) (.leaf 0x0)))) (.node 4 (.node 2 (.node 1 (.leaf 0x0) (.leaf 0x0)) (.node 1 (.leaf 0x0) (.leaf 0x0))) (.node 2 (.node 1 (.leaf 0x0) (.leaf 0x0)) (.node 1 (.leaf 0x0) (.leaf 0x0)))))))) (.node 64 (.node 32 (.node 16 (.node 8 (.node 4 (.node 2 (.node 1 (.leaf 0x0) (.leaf 0x0)) (.node 1 (.leaf 0x0) (.leaf 0x0))) (.node 2 (.node 1 (.leaf 0x0) (.leaf 0x0)) (.node 1 (.leaf 0x0) (.leaf 0x0)))) (.node 4 (.node 2 (.node 1 (.leaf 0x0) (.leaf 0x0)) (.node 1 (.leaf 0x0) (.leaf 0x0))) (.node 2 (.node 1 (.leaf 0x0) (.leaf 0x0)) (.node 1 (.leaf 0x0) (.leaf 0x0))))) (.node 8 (.node 4 (.node 2 (.node 1 (.leaf 0x0) (.leaf 0x0)) (.node 1 (.leaf 0x0) (.leaf 0x0))) (.node 2 (.node 1 (.leaf 0x0) (.leaf 0x0)) (.node 1 (.leaf 0x0) (.leaf 0x0)))) (.node 4 (.node 2 (.node 1 (.leaf 0x0) (.leaf 0x0)) (.node 1 (.leaf 0x0) (.leaf 0x0))) (.node 2 (.node 1 (.leaf 0x0) (.leaf 0x0)) (.node 1 (.leaf 0x0) (.leaf 0x0)))))) (.node 16 (.node 8 (.node 4 (.node 2 (.node 1 (.leaf 0x0) (.leaf 0x0)) (.node 1 (.leaf 0x0) (.leaf 0x0))) (.node 2 (.node 1 (.leaf 0x0) (.leaf 0x0)) (.node 1 (.leaf 0x0) (.leaf 0x0)))) (.node 4 (.node 2 (.node 1 (.leaf 0x0) (.leaf 0x0)) (.node 1 (.leaf 0x0) (.leaf 0x0))) (.node 2 (.node 1 (.leaf 0x0) (.leaf 0x0)) (.node 1 (.leaf 0x0) (.leaf 0x0))))) (.node 8 (.node 4 (.node 2 (.node 1 (.leaf 0x0) (.leaf 0x0)) (.node 1 (.leaf 0x0) (.leaf 0x0))) (.node 2 (.node 1 (.leaf 0x0) (.leaf 0x0)) (.node 1 (.leaf 0x0) (.leaf 0x0)))) (.node 4 (.node 2 (.node 1 (.leaf 0x0) (.leaf 0x0)) (.node 1 (.leaf 0x0) (.leaf 0x0))) (.node 2 (.node 1 (.leaf 0x0) (.leaf 0x0)) (.node 1 (.leaf 0x0) (.leaf 0x0))))))) (.node 32 (.node 16 (.node 8 (.node 4 (.node 2 (.node 1 (.leaf 0x0) (.leaf 0x0)) (.node 1 (.leaf 0x0) (.leaf 0x0))) (.node 2 (.node 1 (.leaf 0x0) (.leaf 0x0)) (.node 1 (.leaf 0x0) (.leaf 0x0)))) (.node 4 (.node 2 (.node 1 (.leaf 0x0) (.leaf 0xbc0000000000010000000000000000000000000000000000)) (.node 1 (.leaf 0xbf67c0000000030202000020000000000040000000000000) (.leaf 0x0))) (.node 2 (.node 1 (.leaf 0x0) (.leaf 0x0)) (.node 1 (.leaf 0x0) (.leaf 0xbc0000000000010000000000000000000000000000000000))))) (.node 8 (.node 4 (.node 2 (.node 1 (.leaf 0xbc0000000000010000000000000000000000000000000000) (.leaf 0xa00000000000010000000000000000000000000000000000)) (.node 1 (.leaf 0xa00000000000010000000000000000000000000000000000) (.leaf 0xa00000000000010000000000000000000000000000000000))) (.node 2 (.node 1 (.leaf 0x800000000000010000000000000000000000000000000000) (.leaf 0xbf67c0000000030200000020000000000040000000000000)) (.node 1 (.leaf 0xbf67c0000000030200000020000000000040000000000000) (.leaf 0xbf67c0000000030200000020000000000040000000000000)))) (.node 4 (.node 2 (.node 1 (.leaf 0x800000000000000000000000000000000000000000000000) (.leaf 0x0)) (.node 1 (.leaf 0x100000000000000000000000000000) (.leaf 0x0))) (.node 2 (.node 1 (.leaf 0x0) (.leaf 0x0)) (.node 1 (.leaf 0x0) (.leaf 0x0)))))) (.node 16 (.node 8 (.node 4 (.node 2 (.node 1 (.leaf 0x0) (.leaf 0x0)) (.node 1 (.leaf 0x0) (.leaf 0x0))) (.node 2 (.node 1 (.leaf 0x0) (.leaf 0x0)) (.node 1 (.leaf 0x0) (.leaf 0xbf67c0000000030200000020000000000040000000000000)))) (.node 4 (.node 2 (.node 1 (.leaf 0xbf67c0000000030200000020000000000040000000000000) (.leaf 0xbf67c0000000030200000020000000000040000000000000)) (.node 1 (.leaf 0xbf6600000000010200000000000000000040000000000000) (.leaf 0xbf6600000000010200000000000000000040000000000000))) (.node 2 (.node 1 (.leaf 0xbf6600000000010200000000000000000040000000000000) (.leaf 0xbf6600000000010200000000000000000040000000000000)) (.node 1 (.leaf 0x0) (.leaf 0x0))))) (.node 8 (.node 4 (.node 2 (.node 1 (.leaf 0x0) (.leaf 0x0)) (.node 1 (.leaf 0x0) (.leaf 0x0))) (.node 2 (.node 1 (.leaf 0x0) (.leaf 0x0)) (.node 1 (.leaf 0x0) (.leaf 0x0)))) (.node 4 (.node 2 (.node 1 (.leaf 0x0) (.leaf 0x0)) (.node 1 (.leaf 0x0) (.leaf 0x0))) (.node 2 (.node 1 (.leaf 0x0) (.leaf 0x0)) (.node 1 (.leaf 0x0) (.leaf 0x0))))))))) (.node 128 (.node 64 (.node 32 (.node 16 (.node 8 (.node 4 (.node 2 (.node 1 (.leaf 0x0) (.leaf 0x0)) (.node 1 (.leaf 0x0) (.leaf 0x0))) (.node 2 (.node 1 (.leaf 0x0) (.leaf 0x0)) (.node 1 (.leaf 0x0) (.leaf 0x0)))) (.node 4 (.node 2 (.node 1 (.leaf 0x0) (.leaf 0x0)) (.node 1 (.leaf 0x0) (.leaf 0x0))) (.node 2 (.node 1 (.leaf 0x0) (.leaf 0x0)) (.node 1 (.leaf 0x0) (.leaf 0x0))))) (.node 8 (.node 4 (.node 2 (.node 1 (.leaf 0x0) (.leaf 0x0)) (.node 1 (.leaf 0x0) (.leaf 0x0))) (.node 2 (.node 1 (.leaf 0x0) (.leaf 0x0)) (.node 1 (.leaf 0x0) (.leaf 0x0)))) (.node 4 (.node 2 (.node 1 (.leaf 0x0) (.leaf 0x0)) (.node 1 (.leaf 0x0) (.leaf 0x0))) (.node 2 (.node 1 (.leaf 0x0) (.leaf 0x0)) (.node 1 (.leaf 0x0) (.leaf 0x0)))))) (.node 16 (.node 8 (.node 4 (.node 2 (.node 1 (.leaf 0x0) (.leaf 0x0)) (.node 1 (.leaf 0x0) (.leaf 0x0))) (.node 2 (.node 1 (.leaf 0x0) (.leaf 0x0)) (.node 1 (.leaf 0x0) (.leaf 0x0)))) (.node 4 (.node 2 (.node 1 (.leaf 0x0) (.leaf 0x0)) (.node 1 (.leaf 0x0) (.leaf 0x0))) (.node 2 (.node 1 (.leaf 0x0) (.leaf 0x0)) (.node 1 (.leaf 0x0) (.leaf 0x0))))) (.node 8 (.node 4 (.node 2 (.node 1 (.leaf 0x0) (.leaf 0x0)) (.node 1 (.leaf 0x0) (.leaf 0x0))) (.node 2 (.node 1 (.leaf 0x0) (.leaf 0x0)) (.node 1 (.leaf 0x0) (.leaf 0x0)))) (.node 4 (.node 2 (.node 1 (.leaf 0x0) (.leaf 0x0)) (.node 1 (.leaf 0x0) (.leaf 0x0))) (.node 2 (.node 1 (.leaf 0x0) (.leaf 0x0)) (.node 1 (.leaf 0x0) (.leaf 0x0))))))) (.node 32 (.node 16 (.node 8 (.node 4 (.node 2 (.node 1 (.leaf 0x0) (.leaf 0x0)) (.node 1 (.leaf 0x0) (.leaf 0x0))) (.node 2 (.node 1 (.leaf 0x0) (.leaf 0x0)) (.node 1 (.leaf 0x0) (.leaf 0x0)))) (.node 4 (.node 2 (.node 1 (.leaf 0x0) (.leaf 0x0)) (.node 1 (.leaf 0x0) (.leaf 0x0))) (.node 2 (.node 1 (.leaf 0x0) (.leaf 0x0)) (.node 1 (.leaf 0x0) (.leaf 0x0))))) (.node 8 (.node 4 (.node 2 (.node 1 (.leaf 0x0) (.leaf 0x0)) (.node 1 (.leaf 0x0) (.leaf 0x0))) (.node 2 (.node 1 (.leaf 0x0) (.leaf 0x0)) (.node 1 (.leaf 0x0) (.leaf 0x0)))) (.node 4 (.node 2 (.node 1 (.leaf 0x0) (.leaf 0x0)) (.node 1 (.leaf 0x0) (.leaf 0x0))) (.node 2 (.node 1 (.leaf 0x0) (.leaf 0x0)) (.node 1 (.leaf 0x0) (.leaf 0x0)))))) (.node 16 (.node 8 (.node 4 (.node 2 (.node 1 (.leaf 0x0) (.leaf 0x0)) (.node 1 (.leaf 0x0) (.leaf 0x0))) (.node 2 (.node 1 (.leaf 0x0) (.leaf 0x0)) .nil)) .nil) .nil))) .nil))
def fsT : BT Nat := (.node 256 (.node 128 (.node 64 (.node 32 (.node 16 (.node 8 (.node 4 (.node 2 (.node 1 (.leaf 0x0) (.leaf 0x0)) (.node 1 (.leaf 0x0) (.leaf 0x0))) (.node 2 (.node 1 (.leaf 0x0) (.leaf 0x0)) (.node 1 (.leaf 0x0) (.leaf 0x0)))) (.node 4 (.node 2 (.node 1 (.leaf 0x0) (.leaf 0x0)) (.node 1 (.leaf 0x0) (.leaf 0x0))) (.node 2 (.node 1 (.leaf 0x0) (.leaf 0x0)) (.node 1 (.leaf 0x0) (.leaf 0x0))))) (.node 8 (.node 4 (.node 2 (.node 1 (.leaf 0x0) (.leaf 0x0)) (.node 1 (.leaf 0x0) (.leaf 0x0))) (.node 2 (.node 1 (.leaf 0x0) (.leaf 0x0)) (.node 1 (.leaf 0x0) (.leaf 0x0)))) (.node 4 (.node 2 (.node 1 (.leaf 0x0) (.leaf 0x0)) (.node 1 (.leaf 0x0) (.leaf 0x0))) (.node 2 (.node 1 (.leaf 0x0) (.leaf 0x0)) (.node 1 (.leaf 0x0) (.leaf 0x0)))))) (.node 16 (.node 8 (.node 4 (.node 2 (.node 1 (.leaf 0x0) (.leaf 0x0)) (.node 1 (.leaf 0x0) (.leaf 0x0))) (.node 2 (.node 1 (.leaf 0x0) (.leaf 0x0)) (.node 1 (.leaf 0x0) (.leaf 0x0)))) (.node 4 (.node 2 (.node 1 (.leaf 0x0) (.leaf 0x0)) (.node 1 (.leaf 0x0) (.leaf 0x0))) (.node 2 (.node 1 (.leaf 0x0) (.leaf 0x0)) (.node 1 (.leaf 0x0) (.leaf 0x0))))) (.node 8 (.node 4 (.node 2 (.node 1 (.leaf 0x0) (.leaf 0x0)) (.node 1 (.leaf 0x0) (.leaf 0x0))) (.node 2 (.node 1 (.leaf 0x0) (.leaf 0x0)) (.node 1 (.leaf 0x0) (.leaf 0x0)))) (.node 4 (.node 2 (.node 1 (.leaf 0x0) (.leaf 0x0)) (.node 1 (.leaf 0x0) (.leaf 0x0))) (.node 2 (.node 1 (.leaf 0x0) (.leaf 0x0)) (.node 1 (.leaf 0x0) (.leaf 0x0))))))) (.node 32 (.node 16 (.node 8 (.node 4 (.node 2 (.node 1 (.leaf 0x0) (.leaf 0x0)) (.node 1 (.leaf 0x0) (.leaf 0x0))) (.node 2 (.node 1 (.leaf 0x0) (.leaf 0x0)) (.node 1 (.leaf 0x0) (.leaf 0x0)))) (.node 4 (.node 2 (.node 1 (.leaf 0x0) (.leaf 0x0)) (.node 1 (.leaf 0x0) (.leaf 0x0))) (.node 2 (.node 1 (.leaf 0x0) (.leaf 0x0)) (.node 1 (.leaf 0x0) (.leaf 0x0))))) (.node 8 (.node 4 (.node 2 (.node 1 (.leaf 0x0) (.leaf 0x0)) (.node 1 (.leaf 0x0) (.leaf 0x0))) (.node 2 (.node 1 (.leaf 0x0) (.leaf 0x0)) (.node 1 (.leaf 0x0) (.leaf 0x0)))) (.node 4 (.node 2 (.node 1 (.leaf 0x0) (.leaf 0x0)) (.node 1 (.leaf 0x0) (.leaf 0x0))) (.node 2 (.node 1 (.leaf 0x0) (.leaf 0x0)) (.node 1 (.leaf 0x0) (.leaf 0x0)))))) (.node 16 (.node 8 (.node 4 (.node 2 (.node 1 (.leaf 0x0) (.leaf 0x0)) (.node 1 (.leaf 0x0) (.leaf 0x0))) (.node 2 (.node 1 (.leaf 0x0) (.leaf 0x0)) (.node 1 (.leaf 0x0) (.leaf 0x0)))) (.node 4 (.node 2 (.node 1 (.leaf 0x0) (.leaf 0x0)) (.node 1 (.leaf 0x0) (.leaf 0x0))) (.node 2 (.node 1 (.leaf 0x0) (.leaf 0x0)) (.node 1 (.leaf 0x0) (.leaf 0x0))))) (.node 8 (.node 4 (.node 2 (.node 1 (.leaf 0x0) (.leaf 0x0)) (.node 1 (.leaf 0x0) (.leaf 0x0))) (.node 2 (.node 1 (.leaf 0x0) (.leaf 0x0)) (.node 1 (.leaf 0x0) (.leaf 0x0)))) (.node 4 (.node 2 (.node 1 (.leaf 0x0) (.leaf 0x0)) (.node 1 (.leaf 0x0) (.leaf 0x0))) (.node 2 (.node 1 (.leaf 0x0) (.leaf 0x0)) (.node 1 (.leaf 0x0) (.leaf 0x0)))))))) (.node 64 (.node 32 (.node 16 (.node 8 (.node 4 (.node 2 (.node 1 (.leaf 0x0) (.leaf 0x0)) (.node 1 (.leaf 0x0) (.leaf 0x0))) (.node 2 (.node 1 (.leaf 0x0) (.leaf 0x0)) (.node 1 (.leaf 0x0) (.leaf 0x0)))) (.node 4 (.node 2 (.node 1 (.leaf 0x0) (.leaf 0x0)) (.node 1 (.leaf 0x0) (.leaf 0x0))) (.node 2 (.node 1 (.leaf 0x0) (.leaf 0x0)) (.node 1 (.leaf 0x0) (.leaf 0x0))))) (.node 8 (.node 4 (.node 2 (.node 1 (.leaf 0x0) (.leaf 0x0)) (.node 1 (.leaf 0x0) (.leaf 0x0))) (.node 2 (.node 1 (.leaf 0x0) (.leaf 0x0)) (.node 1 (.leaf 0x0) (.leaf 0x0)))) (.node 4 (.node 2 (.node 1 (.leaf 0x0) (.leaf 0x0)) (.node 1 (.leaf 0x0) (.leaf 0x0))) (.node 2 (.node 1 (.leaf 0x0) (.leaf 0x0)) (.node 1 (.leaf 0x0) (.leaf 0x0)))))) (.node 16 (.node 8 (.node 4 (.node 2 (.node 1 (.leaf 0x0) (.leaf 0x0)) (.node 1 (.leaf 0x0) (.leaf 0x0))) (.node 2 (.node 1 (.leaf 0x0) (.leaf 0x0)) (.node 1 (.leaf 0x0) (.leaf 0x0)))) (.node 4 (.node 2 (.node 1 (.leaf 0x0) (.leaf 0x0)) (.node 1 (.leaf 0x0) (.leaf 0x0))) (.node 2 (.node 1 (.leaf 0x0) (.leaf 0x0)) (.node 1 (.leaf 0x0) (.leaf 0x0))))) (.node 8 (.node 4 (.node 2 (.node 1 (.leaf 0x0) (.leaf 0x0)) (.node 1 (.leaf 0x0) (.leaf 0x0))) (.node 2 (.node 1 (.leaf 0x0) (.leaf 0x0)) (.node 1 (.leaf 0x0) (.leaf 0x0)))) (.node 4 (.node 2 (.node 1 (.leaf 0x0) (.leaf 0x0)) (.node 1 (.leaf 0x0) (.leaf 0x0))) (.node 2 (.node 1 (.leaf 0x0) (.leaf 0x0)) (.node 1 (.leaf 0x0) (.leaf 0x0))))))) (.node 32 (.node 16 (.node 8 (.node 4 (.node 2 (.node 1 (.leaf 0x0) (.leaf 0x0)) (.node 1 (.leaf 0x0) (.leaf 0x0))) (.node 2 (.node 1 (.leaf 0x0) (.leaf 0x0)) (.node 1 (.leaf 0x0) (.leaf 0x0)))) (.node 4 (.node 2 (.node 1 (.leaf 0x0) (.leaf 0x367c0000000020202000020000000000040000000000000)) (.node 1 (.leaf 0x0) (.leaf 0x0))) (.node 2 (.node 1 (.leaf 0x0) (.leaf 0x0)) (.node 1 (.leaf 0x0) (.leaf 0x367c0000000020202000020000000000040000000000000))))) (.node 8 (.node 4 (.node 2 (.node 1 (.leaf 0x367c0000000020202000020000000000040000000000000) (.leaf 0x1f67c0000000020202000020000000000040000000000000)) (.node 1 (.leaf 0x1f67c0000000020202000020000000000040000000000000) (.leaf 0x1f67c0000000020202000020000000000040000000000000))) (.node 2 (.node 1 (.leaf 0x3f67c0000000020202000020000000000040000000000000) (.leaf 0x1c0000000020002000020000000000000000000000000)) (.node 1 (.leaf 0x1c0000000020002000020000000000000000000000000) (.leaf 0x1c0000000020002000020000000000000000000000000)))) (.node 4 (.node 2 (.node 1 (.leaf 0x3f67c0000000030202000020000000000040000000000000) (.leaf 0x1000100000000000000000000000000000)) (.node 1 (.leaf 0x1000000000000000000000000000000000) (.leaf 0x0))) (.node 2 (.node 1 (.leaf 0x0) (.leaf 0x0)) (.node 1 (.leaf 0x0) (.leaf 0x0)))))) (.node 16 (.node 8 (.node 4 (.node 2 (.node 1 (.leaf 0x0) (.leaf 0x0)) (.node 1 (.leaf 0x0) (.leaf 0x0))) (.node 2 (.node 1 (.leaf 0x0) (.leaf 0x0)) (.node 1 (.leaf 0x0) (.leaf 0x1c0000000020002000020000000000000000000000000)))) (.node 4 (.node 2 (.node 1 (.leaf 0x1c0000000020002000020000000000000000000000000) (.leaf 0x1c0000000020002000020000000000000000000000000)) (.node 1 (.leaf 0x67c0000000020002000020000000000000000000000000) (.leaf 0x67c0000000020002000020000000000000000000000000))) (.node 2 (.node 1 (.leaf 0x67c0000000020002000020000000000000000000000000) (.leaf 0x67c0000000020002000020000000000000000000000000)) (.node 1 (.leaf 0x0) (.leaf 0x0))))) (.node 8 (.node 4 (.node 2 (.node 1 (.leaf 0x0) (.leaf 0x0)) (.node 1 (.leaf 0x0) (.leaf 0x0))) (.node 2 (.node 1 (.leaf 0x0) (.leaf 0x0)) (.node 1 (.leaf 0x0) (.leaf 0x0)))) (.node 4 (.node 2 (.node 1 (.leaf 0x0) (.leaf 0x0)) (.node 1 (.leaf 0x0) (.leaf 0x0))) (.node 2 (.node 1 (.leaf 0x0) (.leaf 0x0)) (.node 1 (.leaf 0x0) (.leaf 0x0))))))))) (.node 128 (.node 64 (.node 32 (.node 16 (.node 8 (.node 4 (.node 2 (.node 1 (.leaf 0x0) (.leaf 0x0)) (.node 1 (.leaf 0x0) (.leaf 0x0))) (.node 2 (.node 1 (.leaf 0x0) (.leaf 0x0)) (.node 1 (.leaf 0x0) (.leaf 0x0)))) (.node 4 (.node 2 (.node 1 (.leaf 0x0) (.leaf 0x0)) (.node 1 (.leaf 0x0) (.leaf 0x0))) (.node 2 (.node 1 (.leaf 0x0) (.leaf 0x0)) (.node 1 (.leaf 0x0) (.leaf 0x0))))) (.node 8 (.node 4 (.node 2 (.node 1 (.leaf 0x0) (.leaf 0x0)) (.node 1 (.leaf 0x0) (.leaf 0x0))) (.node 2 (.node 1 (.leaf 0x0) (.leaf 0x0)) (.node 1 (.leaf 0x0) (.leaf 0x0)))) (.node 4 (.node 2 (.node 1 (.leaf 0x0) (.leaf 0x0)) (.node 1 (.leaf 0x0) (.leaf 0x0))) (.node 2 (.node 1 (.leaf 0x0) (.leaf 0x0)) (.node 1 (.leaf 0x0) (.leaf 0x0)))))) (.node 16 (.node 8 (.node 4 (.node 2 (.node 1 (.leaf 0x0) (.leaf 0x0)) (.node 1 (.leaf 0x0) (.leaf 0x0))) (.node 2 (.node 1 (.leaf 0x0) (.leaf 0x0)) (.node 1 (.leaf 0x0) (.leaf 0x0)))) (.node 4 (.node 2 (.node 1 (.leaf 0x0) (.leaf 0x0)) (.node 1 (.leaf 0x0) (.leaf 0x0))) (.node 2 (.node 1 (.leaf 0x0) (.leaf 0x0)) (.node 1 (.leaf 0x0) (.leaf 0x0))))) (.node 8 (.node 4 (.node 2 (.node 1 (.leaf 0x0) (.leaf 0x0)) (.node 1 (.leaf 0x0) (.leaf 0x0))) (.node 2 (.node 1 (.leaf 0x0) (.leaf 0x0)) (.node 1 (.leaf 0x0) (.leaf 0x0)))) (.node 4 (.node 2 (.node 1 (.leaf 0x0) (.leaf 0x0)) (.node 1 (.leaf 0x0) (.leaf 0x0))) (.node 2 (.node 1 (.leaf 0x0) (.leaf 0x0)) (.node 1 (.leaf 0x0) (.leaf 0x0))))))) (.node 32 (.node 16 (.node 8 (.node 4 (.node 2 (.node 1 (.leaf 0x0) (.leaf 0x0)) (.node 1 (.leaf 0x0) (.leaf 0x0))) (.node 2 (.node 1 (.leaf 0x0) (.leaf 0x0)) (.node 1 (.leaf 0x0) (.leaf 0x0)))) (.node 4 (.node 2 (.node 1 (.leaf 0x0) (.leaf 0x0)) (.node 1 (.leaf 0x0) (.leaf 0x0))) (.node 2 (.node 1 (.leaf 0x0) (.leaf 0x0)) (.node 1 (.leaf 0x0) (.leaf 0x0))))) (.node 8 (.node 4 (.node 2 (.node 1 (.leaf 0x0) (.leaf 0x0)) (.node 1 (.leaf 0x0) (.leaf 0x0))) (.node 2 (.node 1 (.leaf 0x0) (.leaf 0x0)) (.node 1 (.leaf 0x0) (.leaf 0x0)))) (.node 4 (.node 2 (.node 1 (.leaf 0x0) (.leaf 0x0)) (.node 1 (.leaf 0x0) (.leaf 0x0))) (.node 2 (.node 1 (.leaf 0x0) (.leaf 0x0)) (.node 1 (.leaf 0x0) (.leaf 0x0)))))) (.node 16 (.node 8 (.node 4 (.node 2 (.node 1 (.leaf 0x0) (.leaf 0x0)) (.node 1 (.leaf 0x0) (.leaf 0x0))) (.node 2 (.node 1 (.leaf 0x0) (.leaf 0x0)) .nil)) .nil) .nil))) .nil))
/-- weight + 100 -/
def wT : BT Nat := (.node 256 (.node 128 (.node 64 (.node 32 (.node 16 (.node 8 (.node 4 (.node 2 (.node 1 (.leaf 109) (.leaf 109)) (.node 1 (.leaf 109) (.leaf 109))) (.node 2 (.node 1 (.leaf 109) (.leaf 109)) (.node 1 (.leaf 109) (.leaf 109)))) (.node 4 (.node 2 (.node 1 (.leaf 109) (.leaf 109)) (.node 1 (.leaf 109) (.leaf 109))) (.node 2 (.node 1 (.leaf 109) (.leaf 109)) (.node 1 (.leaf 109) (.leaf 109))))) (.node 8 (.node 4 (.node 2 (.node 1 (.leaf 109) (.leaf 109)) (.node 1 (.leaf 109) (.leaf 109))) (.node 2 (.node 1 (.leaf 109) (.leaf 109)) (.node 1 (.leaf 109) (.leaf 109)))) (.node 4 (.node 2 (.node 1 (.leaf 109) (.leaf 109)) (.node 1 (.leaf 109) (.leaf 109))) (.node 2 (.node 1 (.leaf 109) (.leaf 109)) (.node 1 (.leaf 109) (.leaf 109)))))) (.node 16 (.node 8 (.node 4 (.node 2 (.node 1 (.leaf 109) (.leaf 109)) (.node 1 (.leaf 109) (.leaf 109))) (.node 2 (.node 1 (.leaf 109) (.leaf 109)) (.node 1 (.leaf 109) (.leaf 109)))) (.node 4 (.node 2 (.node 1 (.leaf 109) (.leaf 109)) (.node 1 (.leaf 109) (.leaf 109))) (.node 2 (.node 1 (.leaf 109) (.leaf 109)) (.node 1 (.leaf 109) (.leaf 109))))) (.node 8 (.node 4 (.node 2 (.node 1 (.leaf 109) (.leaf 109)) (.node 1 (.leaf 109) (.leaf 109))) (.node 2 (.node 1 (.leaf 109) (.leaf 109)) (.node 1 (.leaf 109) (.leaf 109)))) (.node 4 (.node 2 (.node 1 (.leaf 109) (.leaf 109)) (.node 1 (.leaf 109) (.leaf 109))) (.node 2 (.node 1 (.leaf 109) (.leaf 109)) (.node 1 (.leaf 109) (.leaf 109))))))) (.node 32 (.node 16 (.node 8 (.node 4 (.node 2 (.node 1 (.leaf 109) (.leaf 109)) (.node 1 (.leaf 109) (.leaf 109))) (.node 2 (.node 1 (.leaf 109) (.leaf 109)) (.node 1 (.leaf 109) (.leaf 109)))) (.node 4 (.node 2 (.node 1 (.leaf 109) (.leaf 109)) (.node 1 (.leaf 109) (.leaf 109))) (.node 2 (.node 1 (.leaf 109) (.leaf 109)) (.node 1 (.leaf 109) (.leaf 109))))) (.node 8 (.node 4 (.node 2 (.node 1 (.leaf 109) (.leaf 109)) (.node 1 (.leaf 109) (.leaf 109))) (.node 2 (.node 1 (.leaf 109) (.leaf 109)) (.node 1 (.leaf 109) (.leaf 109)))) (.node 4 (.node 2 (.node 1 (.leaf 109) (.leaf 109)) (.node 1 (.leaf 109) (.leaf 109))) (.node 2 (.node 1 (.leaf 109) (.leaf 109)) (.node 1 (.leaf 109) (.leaf 109)))))) (.node 16 (.node 8 (.node 4 (.node 2 (.node 1 (.leaf 109) (.leaf 109)) (.node 1 (.leaf 109) (.leaf 109))) (.node 2 (.node 1 (.leaf 109) (.leaf 109)) (.node 1 (.leaf 109) (.leaf 109)))) (.node 4 (.node 2 (.node 1 (.leaf 109) (.leaf 109)) (.node 1 (.leaf 109) (.leaf 109))) (.node 2 (.node 1 (.leaf 109) (.leaf 109)) (.node 1 (.leaf 109) (.leaf 109))))) (.node 8 (.node 4 (.node 2 (.node 1 (.leaf 109) (.leaf 109)) (.node 1 (.leaf 109) (.leaf 109))) (.node 2 (.node 1 (.leaf 109) (.leaf 109)) (.node 1 (.leaf 109) (.leaf 109)))) (.node 4 (.node 2 (.node 1 (.leaf 109) (.leaf 109)) (.node 1 (.leaf 109) (.leaf 109))) (.node 2 (.node 1 (.leaf 109) (.leaf 109)) (.node 1 (.leaf 109) (.leaf 109)))))))) (.node 64 (.node 32 (.node 16 (.node 8 (.node 4 (.node 2 (.node 1 (.leaf 109) (.leaf 109)) (.node 1 (.leaf 109) (.leaf 109))) (.node 2 (.node 1 (.leaf 109) (.leaf 109)) (.node 1 (.leaf 109) (.leaf 109)))) (.node 4 (.node 2 (.node 1 (.leaf 109) (.leaf 109)) (.node 1 (.leaf 109) (.leaf 109))) (.node 2 (.node 1 (.leaf 109) (.leaf 109)) (.node 1 (.leaf 109) (.leaf 109))))) (.node 8 (.node 4 (.node 2 (.node 1 (.leaf 109) (.leaf 109)) (.node 1 (.leaf 109) (.leaf 109))) (.node 2 (.node 1 (.leaf 109) (.leaf 109)) (.node 1 (.leaf 109) (.leaf 109)))) (.node 4 (.node 2 (.node 1 (.leaf 109) (.leaf 109)) (.node 1 (.leaf 109) (.leaf 109))) (.node 2 (.node 1 (.leaf 109) (.leaf 109)) (.node 1 (.leaf 109) (.leaf 109)))))) (.node 16 (.node 8 (.node 4 (.node 2 (.node 1 (.leaf 109) (.leaf 109)) (.node 1 (.leaf 109) (.leaf 109))) (.node 2 (.node 1 (.leaf 109) (.leaf 109)) (.node 1 (.leaf 109) (.leaf 109)))) (.node 4 (.node 2 (.node 1 (.leaf 109) (.leaf 109)) (.node 1 (.leaf 109) (.leaf 109))) (.node 2 (.node 1 (.leaf 109) (.leaf 109)) (.node 1 (.leaf 109) (.leaf 109))))) (.node 8 (.node 4 (.node 2 (.node 1 (.leaf 109) (.leaf 109)) (.node 1 (.leaf 109) (.leaf 109))) (.node 2 (.node 1 (.leaf 109) (.leaf 109)) (.node 1 (.leaf 109) (.leaf 109)))) (.node 4 (.node 2 (.node 1 (.leaf 109) (.leaf 109)) (.node 1 (.leaf 109) (.leaf 109))) (.node 2 (.node 1 (.leaf 109) (.leaf 109)) (.node 1 (.leaf 109) (.leaf 109))))))) (.node 32 (.node 16 (.node 8 (.node 4 (.node 2 (.node 1 (.leaf 109) (.leaf 109)) (.node 1 (.leaf 109) (.leaf 109))) (.node 2 (.node 1 (.leaf 109) (.leaf 109)) (.node 1 (.leaf 109) (.leaf 98)))) (.node 4 (.node 2 (.node 1 (.leaf 90) (.leaf 92)) (.node 1 (.leaf 93) (.leaf 95))) (.node 2 (.node 1 (.leaf 99) (.leaf 107)) (.node 1 (.leaf 108) (.leaf 107))))) (.node 8 (.node 4 (.node 2 (.node 1 (.leaf 99) (.leaf 134)) (.node 1 (.leaf 108) (.leaf 117))) (.node 2 (.node 1 (.leaf 131) (.leaf 108)) (.node 1 (.leaf 108) (.leaf 99)))) (.node 4 (.node 2 (.node 1 (.leaf 116) (.leaf 117)) (.node 1 (.leaf 132) (.leaf 116))) (.node 2 (.node 1 (.leaf 128) (.leaf 99)) (.node 1 (.leaf 112) (.leaf 113)))))) (.node 16 (.node 8 (.node 4 (.node 2 (.node 1 (.leaf 114) (.leaf 107)) (.node 1 (.leaf 99) (.leaf 99))) (.node 2 (.node 1 (.leaf 99) (.leaf 107)) (.node 1 (.leaf 108) (.leaf 134)))) (.node 4 (.node 2 (.node 1 (.leaf 115) (.leaf 124)) (.node 1 (.leaf 99) (.leaf 148))) (.node 2 (.node 1 (.leaf 124) (.leaf 125)) (.node 1 (.leaf 124) (.leaf 116))))) (.node 8 (.node 4 (.node 2 (.node 1 (.leaf 122) (.leaf 99)) (.node 1 (.leaf 142) (.leaf 119))) (.node 2 (.node 1 (.leaf 120) (.leaf 96)) (.node 1 (.leaf 100) (.leaf 101)))) (.node 4 (.node 2 (.node 1 (.leaf 115) (.leaf 98)) (.node 1 (.leaf 106) (.leaf 108))) (.node 2 (.node 1 (.leaf 99) (.leaf 102)) (.node 1 (.leaf 99) (.leaf 99))))))))) (.node 128 (.node 64 (.node 32 (.node 16 (.node 8 (.node 4 (.node 2 (.node 1 (.leaf 99) (.leaf 111)) (.node 1 (.leaf 99) (.leaf 99))) (.node 2 (.node 1 (.leaf 99) (.leaf 99)) (.node 1 (.leaf 99) (.leaf 100)))) (.node 4 (.node 2 (.node 1 (.leaf 99) (.leaf 99)) (.node 1 (.leaf 99) (.leaf 99))) (.node 2 (.node 1 (.leaf 100) (.leaf 99)) (.node 1 (.leaf 103) (.leaf 104))))) (.node 8 (.node 4 (.node 2 (.node 1 (.leaf 105) (.leaf 101)) (.node 1 (.leaf 103) (.leaf 104))) (.node 2 (.node 1 (.leaf 105) (.leaf 112)) (.node 1 (.leaf 115) (.leaf 114)))) (.node 4 (.node 2 (.node 1 (.leaf 128) (.leaf 140)) (.node 1 (.leaf 123) (.leaf 124))) (.node 2 (.node 1 (.leaf 116) (.leaf 124)) (.node 1 (.leaf 99) (.leaf 99)))))) (.node 16 (.node 8 (.node 4 (.node 2 (.node 1 (.leaf 99) (.leaf 108)) (.node 1 (.leaf 108) (.leaf 146))) (.node 2 (.node 1 (.leaf 145) (.leaf 108)) (.node 1 (.leaf 108) (.leaf 107)))) (.node 4 (.node 2 (.node 1 (.leaf 126) (.leaf 129)) (.node 1 (.leaf 129) (.leaf 108))) (.node 2 (.node 1 (.leaf 106) (.leaf 108)) (.node 1 (.leaf 108) (.leaf 107))))) (.node 8 (.node 4 (.node 2 (.node 1 (.leaf 108) (.leaf 108)) (.node 1 (.leaf 117) (.leaf 115))) (.node 2 (.node 1 (.leaf 108) (.leaf 103)) (.node 1 (.leaf 104) (.leaf 105)))) (.node 4 (.node 2 (.node 1 (.leaf 103) (.leaf 106)) (.node 1 (.leaf 107) (.leaf 108))) (.node 2 (.node 1 (.leaf 99) (.leaf 107)) (.node 1 (.leaf 99) (.leaf 108))))))) (.node 32 (.node 16 (.node 8 (.node 4 (.node 2 (.node 1 (.leaf 99) (.leaf 99)) (.node 1 (.leaf 114) (.leaf 115))) (.node 2 (.node 1 (.leaf 108) (.leaf 99)) (.node 1 (.leaf 99) (.leaf 139)))) (.node 4 (.node 2 (.node 1 (.leaf 131) (.leaf 132)) (.node 1 (.leaf 126) (.leaf 99))) (.node 2 (.node 1 (.leaf 102) (.leaf 99)) (.node 1 (.leaf 108) .nil)))) .nil) .nil)) .nil))
def st0 : St := .mk (.cons 1 0 0x1 .nil) (.cons 200 0x1 (.cons 201 0x10000000000000000000000000000000000000000000000001 (.cons 202 0x10000000000000000000000000000000000000000000000001 (.cons 203 0x10000000000000000000020000000000000000000000000001 (.cons 207 0x10000000000000000000020000000000000000000000000001 (.cons 209 0x10000000000000000000020000000000000000000000000001 (.cons 211 0x10000000000000000000020000000000000000000000000001 (.cons 212 0x10000000000000000000000000000000000000000000000001 (.cons 218 0x10000000000000000000000000000000000000000000000001 (.cons 219 0x10000000000000000000000000000000000000000000000001 (.cons 220 0x10000000000000000000020000000000000000000000000001 (.cons 233 0x10000000000000000000020000000000000000000000000001 (.cons 235 0x10000000000000000000020000000000000000000000000001 (.cons 238 0x10000000000000000000020000000000000000000000000001 (.cons 239 0x10000000000000000000020000000000000000000000000001 (.cons 240 0x10000000000000000000020000000000000000000000000001 (.cons 242 0x10000000000000000000020000000000000000000000000001 (.cons 245 0x10000000000000000000020000000000000000000000000001 (.cons 326 0x2000000000000000000000000000000000400000000000000 (.cons 327 0x2000000000000000000000000000000000400000000000000 .nil)))))))))))))))))))) (.cons 4 0x80 (.cons 6 0x8000 (.cons 8 0x400000 (.cons 10 0x8000000 (.cons 12 0x2000000000 (.cons 14 0x10000000000 (.cons 16 0x20000000000 (.cons 18 0x10000000000000 (.cons 20 0x20000000000000 (.cons 22 0x4000000000000000 (.cons 24 0x20000000000000000 (.cons 26 0x8000000000000000000000 (.cons 28 0x80000000000000000000000 (.cons 30 0x800000000000000000000000000 (.cons 32 0x20000000000000000000000000000 (.cons 34 0x800000000000000000000000000000000000000 (.cons 36 0x1000000000000000000000000000000000000000 (.cons 38 0x2000000000000000000000000000000000000000 (.cons 671 0x7fffffffffc7fffffffffdf7fff77ffffdbfcffcdff7bf7f7f .nil)))))))))))))))))))
def st1 : St := .mk (.cons 106 1 0x10000000000000000000020000000000000000000000000001 .nil) .nil (.cons 0 0x7ffffffffffffffffffffffffffffffffffffffffff7ffffff (.cons 80 0x8000000 .nil))
def st2 : St := .mk (.cons 114 1 0x10000000000000000000020000000000000000000000000001 .nil) (.cons 315 0x10000000000000000000020000000000000000000000000001 .nil) (.cons 0 0x7ffffffffffffffffffffffffffffffffffffffffffffffff7 (.cons 82 0x8 .nil))
def st3 : St := .mk (.cons 33 1 0x10000000000000000000020000000000000000000000000001 (.cons 34 1 0x10000000000000000000020000000000000000000000000001 .nil)) .nil (.cons 0 0x7ffffffffffffffffffffffffffffffffffffffffffffffff7 (.cons 86 0x8 .nil))
def st4 : St := .mk (.cons 31 1 0x10000000000000000000020000000000000000000000000001 .nil) .nil (.cons 0 0x7ffffffffffffffffffffffffffffffffffffffffffffffff7 (.cons 88 0x8 .nil))
def st5 : St := .mk (.cons 54 1 0x10000000000000000000000000000000000000000000000001 .nil) (.cons 315 0x10000000000000000000000000000000000000000000000001 .nil) (.cons 0 0x7ffffffffffffffffffffffffffffffffffffffffffffffff7 (.cons 82 0x8 .nil))
def st6 : St := .mk (.cons 55 1 0x10000000000000000000020000000000000000000000000001 (.cons 56 1 0x10000000000000000000020000000000000000000000000001 (.cons 57 1 0x10000000000000000000020000000000000000000000000001 (.cons 58 1 0x10000000000000000000020000000000000000000000000001 (.cons 59 1 0x10000000000000000000020000000000000000000000000001 .nil))))) .nil (.cons 0 0x7fffffffffffffffffffff7ffffffeffbfffffffffffffffff (.cons 92 0x400000000000000000 (.cons 94 0x100000000000000000000 (.cons 96 0x8000000000000000000000000000 .nil))))
def st7 : St := .mk (.cons 113 1 0x10000000000000000000020000000000000000000000000001 .nil) .nil (.cons 0 0x7fffffffffffffffffffffffffbfffffffffffffffffffffff (.cons 98 0x400000000000000000000000 .nil))
def st8 : St := .mk (.cons 35 1 0x10000000000000000000000000000000000000000000000001 .nil) .nil (.cons 0 0x7fffffffffffffffffffffffffbfffffffffffffffffffffff (.cons 100 0x400000000000000000000000 .nil))
def st9 : St := .mk (.cons 115 1 0x10000000000000000000020000000000000000000000000001 (.cons 116 1 0x10000000000000000000020000000000000000000000000001 .nil)) .nil (.cons 0 0x7ffffffffffffffffffffffffbffffffffffffffffffffffff (.cons 102 0x4000000000000000000000000 .nil))
def st10 : St := .mk (.cons 119 1 0x10000000000000000000020000000000000000000000000001 .nil) (.cons 314 0x8000000000000000000000000000000 (.cons 315 0x8000000000000000000000000000000 .nil)) (.cons 0 0x7ffffffffffffffffffffffffffffffffffffffffffffffff7 (.cons 82 0x8 .nil))
def st11 : St := .mk (.cons 110 1 0x10000000000000000000020000000000000000000000000001 .nil) .nil (.cons 0 0x7ffffffffffffffffffffffffffffeffffffffffffffffffff (.cons 108 0x100000000000000000000 .nil))
def st12 : St := .mk (.cons 36 1 0x10000000000000000000000000000000000000000000000001 (.cons 50 1 0x10000000000000000000000000000000000000000000000001 (.cons 51 1 0x10000000000000000000000000000000000000000000000001 .nil))) (.cons 248 0x2000000000000000000000000000000000 (.cons 315 0x2000000000400000000000000000000000 .nil)) (.cons 0 0x7dfffffffffffffffffffffffffffffffffffffffffffffff7 (.cons 82 0x8 (.cons 110 0x2000000000000000000000000000000000000000000000000 .nil)))
def st13 : St := .mk (.cons 104 1 0x10000000000000000000020000000000000000000000000001 (.cons 105 1 0x10000000000000000000020000000000000000000000000001 (.cons 107 1 0x10000000000000000000020000000000000000000000000001 .nil))) .nil (.cons 0 0x7fffffffffffffffffffff7ffffffeffbfffffffffffffffff (.cons 116 0x400000000000000000 (.cons 118 0x100000000000000000000 (.cons 120 0x8000000000000000000000000000 .nil))))
def st14 : St := .mk (.cons 52 1 0x10000000000000000000000000000000000000000000000001 (.cons 53 1 0x10000000000000000000000000000000000000000000000001 .nil)) .nil (.cons 0 0x7fffffffffffffffffffffffffffffffffeffffffffff7ffff (.cons 122 0x80000 (.cons 124 0x1000000000000000 .nil)))
def st15 : St := .mk (.cons 336 1 0x2000000000000000000000000000000000400000000000000 .nil) (.cons 328 0x22000000000000000000000000000000000400000000000000 (.cons 329 0x22000000000000000000000000000000000400000000000000 .nil)) (.cons 0 0x7ffffffffffffffffffffffffffffffffffffffffffffffff7 (.cons 126 0x8 .nil))
def st16 : St := .mk (.cons 26 1 0x10000000000000000000020000000000000000000000000001 .nil) (.cons 208 0x10000000000000000000020000000000000000000000000001 .nil) (.cons 61 0x7ffffffffffbffffffffffffffffffffffffffffffffffffff (.cons 132 0x400000000000000000000000000000000000000 .nil))
def st17 : St := .mk (.cons 28 1 0x10000000000000000000020000000000000000000000000001 .nil) (.cons 208 0x10000000000000000000020000000000000000000000000001 .nil) (.cons 61 0x7ffffffffffbffffffffffffffffffffffffffffffffffffff (.cons 132 0x400000000000000000000000000000000000000 .nil))
def st18 : St := .mk (.cons 27 1 0x10000000000000000000020000000000000000000000000001 .nil) (.cons 208 0x10000000000000000000020000000000000000000000000001 .nil) (.cons 61 0x7ffffffffffbffffffffffffffffffffffffffffffffffffff (.cons 132 0x400000000000000000000000000000000000000 .nil))
def st19 : St := .mk (.cons 1 1 0x1 .nil) .nil (.cons 0 0x7ffffffffffffffffffffffffffffffffffffffffffffffffe (.cons 140 0x1 .nil))
def st20 : St := .mk (.cons 2 1 0x1 (.cons 4 1 0x10000000000000000000000000000000000000000000000001 .nil)) (.cons 333 0x1 .nil) (.cons 142 0x10000000000000000000000000000000000000000000000000 (.cons 711 0x6fffffffffffffffffffffffffffffffffffffffffffffffff .nil))
def st21 : St := .mk (.cons 3 1 0x10000000000000000000000000000000000000000000000001 .nil) .nil (.cons 7 0x7fffffffffffffffffffffffffffffffffffffffffffffffff .nil)
def st22 : St := .mk (.cons 6 1 0x10000000000000000000000000000000000000000000000001 .nil) (.cons 204 0x10000000000000000000000000000000000000000000000001 .nil) (.cons 43 0x7ffffffffffffffffffffdffffffffffffffffffffffffffff (.cons 146 0x20000000000000000000000000000 .nil))
def st23 : St := .mk (.cons 19 1 0x10000000000000000000020000000000000000000000000001 .nil) .nil (.cons 39 0x7fffffffffffffffffffffffffffffffffffffffffffffffff .nil)
def st24 : St := .mk (.cons 5 1 0x10000000000000000000000000000000000000000000000001 .nil) (.cons 204 0x10000000000000000000000000000000000000000000000001 .nil) (.cons 43 0x7ffffffffffffffffffffdffffffffffffffffffffffffffff (.cons 146 0x20000000000000000000000000000 .nil))
def st25 : St := .mk (.cons 18 1 0x10000000000000000000020000000000000000000000000001 .nil) .nil (.cons 37 0x7fffffffffffffffffffffffffffffffffffffffffffffffff .nil)
def st26 : St := .mk (.cons 8 1 0x10000000000000000000000000000000000000000000000001 .nil) .nil (.cons 17 0x7fffffffffffffffffffffffffffffffffffffffffffffffff .nil)
def st27 : St := .mk (.cons 9 1 0x10000000000000000000000000000000000000000000000001 .nil) .nil (.cons 19 0x7fffffffffffffffffffffffffffffffffffffffffffffffff .nil)
def st28 : St := .mk (.cons 7 1 0x10000000000000000000000000000000000000000000000001 .nil) .nil (.cons 15 0x7fffffffffffffffffffffffffffffffffffffffffffffffff .nil)
def st29 : St := .mk (.cons 11 1 0x10000000000000000000020000000000000000000000000001 .nil) .nil (.cons 23 0x7fffffffffffffffffffffffffffffffffffffffffffffffff .nil)
def st30 : St := .mk (.cons 16 1 0x10000000000000000000020000000000000000000000000001 .nil) .nil (.cons 33 0x7fffffffffffffffffffffffffffffffffffffffffffffffff .nil)
def st31 : St := .mk (.cons 17 1 0x10000000000000000000020000000000000000000000000001 .nil) .nil (.cons 35 0x7fffffffffffffffffffffffffffffffffffffffffffffffff .nil)
def st32 : St := .mk (.cons 13 1 0x10000000000000000000020000000000000000000000000001 .nil) .nil (.cons 27 0x7fffffffffffffffffffffffffffffffffffffffffffffffff .nil)
def st33 : St := .mk (.cons 14 1 0x10000000000000000000020000000000000000000000000001 .nil) .nil (.cons 29 0x7fffffffffffffffffffffffffffffffffffffffffffffffff .nil)
def st34 : St := .mk (.cons 12 1 0x10000000000000000000020000000000000000000000000001 .nil) .nil (.cons 25 0x7fffffffffffffffffffffffffffffffffffffffffffffffff .nil)
def st35 : St := .mk (.cons 15 1 0x10000000000000000000020000000000000000000000000001 .nil) .nil (.cons 31 0x7fffffffffffffffffffffffffffffffffffffffffffffffff .nil)
def st36 : St := .mk (.cons 10 1 0x10000000000000000000020000000000000000000000000001 .nil) .nil (.cons 21 0x7fffffffffffffffffffffffffffffffffffffffffffffffff .nil)
def st37 : St := .mk (.cons 123 1 0x14000000000000000000020000000000000000000000000001 (.cons 124 1 0x14000000000000000000020000000000000000000000000001 (.cons 125 1 0x14000000000000000000020000000000000000000000000001 .nil))) (.cons 248 0x14000000000000000000020000000200000000200000000201 (.cons 249 0x14000000000000000000020000000000000000000000000001 (.cons 253 0x14000000000000000000820000000211000080200000000201 .nil))) (.cons 0 0x7dfffffffffffffffffffffffffffffffffbffffffffffffff (.cons 110 0x2000000000000000000000000000000000000000000000000 (.cons 152 0x400000000000000 .nil)))
def st38 : St := .mk (.cons 334 1 0x2000000000000000000000000000000000400000000000000 .nil) .nil (.cons 669 0x7fffffffffffffffffffffffffffffffffffffffffffffffff .nil)
def st39 : St := .mk (.cons 106 2 0x10000000000000000000020000000000000000000000000001 .nil) .nil (.cons 0 0x7ffffffffffffffffffffffffffffffffffffffffffffffff7 (.cons 160 0x8 .nil))
def st40 : St := .mk (.cons 309 1 0x3600002600000000282a820118c80ed1a48480200004000209 (.cons 310 1 0x3600002600000000282a820118c80ed1a48480200004000209 .nil)) .nil (.cons 162 0x8000000000000000000000000000000000000000000000000 (.cons 619 0x77ffffffffffffffffffffffffffffffffffffffffffffffff .nil))
def st41 : St := .mk (.cons 114 2 0x10000000000000000000020000000000000000000000000001 .nil) .nil (.cons 229 0x7fffffffffffffffffffffffffffffffffffffffffffffffff .nil)
def st42 : St := .mk (.cons 33 2 0x10000000000000000000020000000000000000000000000001 (.cons 34 2 0x10000000000000000000020000000000000000000000000001 .nil)) .nil (.cons 67 0x7dffffffffffffffffffffffffffffffffffffffffffffffff (.cons 164 0x2000000000000000000000000000000000000000000000000 .nil))
def st43 : St := .mk (.cons 31 2 0x10000000000000000000020000000000000000000000000001 .nil) .nil (.cons 0 0x7fffffffffffffffffffffffffbfffffffffffffffffffffff (.cons 166 0x400000000000000000000000 .nil))
def st44 : St := .mk (.cons 54 2 0x10000000000000000000000000000000000000000000000001 .nil) .nil (.cons 109 0x7fffffffffffffffffffffffffffffffffffffffffffffffff .nil)
def st45 : St := .mk (.cons 58 2 0x10000000000000000000020000000000000000000000000001 .nil) (.cons 221 0x800000000000000000000000000000008 .nil) (.cons 123 0x7fffffffffffffffff7fffffffffffffffffffffffffffffff (.cons 168 0x80000000000000000000000000000000 .nil))
def st46 : St := .mk (.cons 55 2 0x10000000000000000000020000000000000000000000000001 (.cons 56 2 0x10000000000000000000020000000000000000000000000001 (.cons 57 2 0x10000000000000000000020000000000000000000000000001 .nil))) (.cons 221 0x8 .nil) (.cons 123 0x7fffffffffffffffff7fffffffffffffffffffffffffffffff (.cons 168 0x80000000000000000000000000000000 .nil))
def st47 : St := .mk (.cons 59 2 0x10000000000000000000020000000000000000000000000001 .nil) (.cons 221 0x8 .nil) (.cons 123 0x7fffffffffffffffff7fffffffffffffffffffffffffffffff (.cons 168 0x80000000000000000000000000000000 .nil))
def st48 : St := .mk (.cons 113 2 0x10000000000000000000020000000000000000000000000001 .nil) (.cons 315 0x10000000000000000000020000000800000000000000000001 .nil) (.cons 0 0x7ffffffffffffffffffffffffffffffffffffffffffffffff7 (.cons 82 0x8 .nil))
def st49 : St := .mk (.cons 35 2 0x10000000000000000000000000000000000000000000000001 .nil) (.cons 213 0x200000000000000000000000 .nil) (.cons 0 0x7ffffffffffffffffffffffffffffffffffffffffffffffff7 (.cons 178 0x8 .nil))
def st50 : St := .mk (.cons 115 2 0x10000000000000000000020000000000000000000000000001 (.cons 116 2 0x10000000000000000000020000000000000000000000000001 .nil)) (.cons 315 0x2000000000000000000000000000000008400000000000000 .nil) (.cons 0 0x7ffffffffffffffffffffffffffffffffffffffffffffffff7 (.cons 82 0x8 .nil))
def st51 : St := .mk (.cons 119 2 0x10000000000000000000020000000000000000000000000001 .nil) .nil (.cons 0 0x7ffffffffffffffffff7ffffffffffffffffffffffffffffff (.cons 184 0x8000000000000000000000000000000 .nil))
def st52 : St := .mk (.cons 308 1 0x8000000000000000000000000000000 .nil) .nil (.cons 617 0x7fffffffffffffffffffffffffffffffffffffffffffffffff .nil)
def st53 : St := .mk (.cons 110 2 0x10000000000000000000020000000000000000000000000001 .nil) (.cons 234 0x8 .nil) (.cons 186 0x80000000000000000000000000000000 (.cons 219 0x7fffffffffffffffff7fffffffffffffffffffffffffffffff .nil))
def st54 : St := .mk (.cons 130 1 0x36000000000000002000820000000211000480200000000201 (.cons 131 1 0x36000000000000002000820000000211000480200000000201 .nil)) (.cons 248 0x4000000000000000000000000000000000000000000000000 (.cons 249 0x4000000000000000000000000000000000000000000000000 (.cons 253 0x4000000000000000000800000000211000080200000000200 .nil))) (.cons 0 0x7dfffffffffffffffffffffffffffffffffbffffffffffffff (.cons 110 0x2000000000000000000000000000000000000000000000000 (.cons 152 0x400000000000000 .nil)))
def st55 : St := .mk (.cons 51 2 0x10000000000000000000000000000000000000000000000001 .nil) .nil (.cons 0 0x7fffffffffffffffdfffffffffffffffffffffffffffffffff (.cons 194 0x2000000000000000000000000000000000 .nil))
def st56 : St := .mk (.cons 36 2 0x10000000000000000000000000000000000000000000000001 (.cons 50 2 0x10000000000000000000000000000000000000000000000001 .nil)) .nil (.cons 0 0x7fffffffffffffffdfffffffffbfffffffffffffffffffffff (.cons 196 0x400000000000000000000000 (.cons 198 0x2000000000000000000000000000000000 .nil)))
def st57 : St := .mk (.cons 107 2 0x10000000000000000000020000000000000000000000000001 .nil) (.cons 234 0x8 .nil) (.cons 186 0x80000000000000000000000000000000 (.cons 219 0x7fffffffffffffffff7fffffffffffffffffffffffffffffff .nil))
def st58 : St := .mk (.cons 104 2 0x10000000000000000000020000000000000000000000000001 .nil) (.cons 234 0x8 .nil) (.cons 186 0x80000000000000000000000000000000 (.cons 219 0x7fffffffffffffffff7fffffffffffffffffffffffffffffff .nil))
def st59 : St := .mk (.cons 105 2 0x10000000000000000000020000000000000000000000000001 .nil) (.cons 234 0x8 .nil) (.cons 186 0x80000000000000000000000000000000 (.cons 219 0x7fffffffffffffffff7fffffffffffffffffffffffffffffff .nil))
def st60 : St := .mk (.cons 53 2 0x10000000000000000000000000000000000000000000000001 .nil) (.cons 315 0x10000000000000000000000000000000000000000000000001 .nil) (.cons 0 0x7ffffffffffffffffffffffffffffffffffffffffffffffff7 (.cons 82 0x8 .nil))
def st61 : St := .mk (.cons 52 2 0x10000000000000000000000000000000000000000000000001 .nil) .nil (.cons 105 0x7fffffffffffffffffffffffffffffffffffffffffffffffff .nil)
def st62 : St := .mk (.cons 339 1 0x22000000000000000000000000000000000400000000000000 .nil) .nil (.cons 0 0x7fffffffffffffffffdfffffffffffffffffffffffffffffff (.cons 208 0x20000000000000000000000000000000 .nil))
def st63 : St := .mk (.cons 336 2 0x2000000000000000000000000000000000400000000000000 (.cons 338 1 0x22000000000000000000000000000000000400000000000000 .nil)) .nil (.cons 210 0x20000000000000000000000000000000000000000000000000 (.cons 673 0x5fffffffffffffffffffffffffffffffffffffffffffffffff .nil))
def st64 : St := .mk (.cons 337 1 0x22000000000000000000000000000000000400000000000000 .nil) .nil (.cons 675 0x7fffffffffffffffffffffffffffffffffffffffffffffffff .nil)
def st65 : St := .mk (.cons 29 1 0x10000000000000000000020000000000000000000000000001 .nil) .nil (.cons 59 0x7fffffffffffffffffffffffffffffffffffffffffffffffff .nil)
def st66 : St := .mk (.cons 26 2 0x10000000000000000000020000000000000000000000000001 .nil) .nil (.cons 53 0x7fffffffffffffffffffffffffffffffffffffffffffffffff .nil)
def st67 : St := .mk (.cons 28 2 0x10000000000000000000020000000000000000000000000001 .nil) .nil (.cons 57 0x7fffffffffffffffffffffffffffffffffffffffffffffffff .nil)
def st68 : St := .mk (.cons 27 2 0x10000000000000000000020000000000000000000000000001 .nil) .nil (.cons 55 0x7fffffffffffffffffffffffffffffffffffffffffffffffff .nil)
def st69 : St := .mk (.cons 1 2 0x1 .nil) .nil (.cons 3 0x7fffffffffffffffffffffffffffffffffffffffffffffffff .nil)
def st70 : St := .mk (.cons 4 2 0x10000000000000000000000000000000000000000000000001 (.cons 354 1 0x1 .nil)) (.cons 202 0x10000000000000000000000000000000000000000000000001 (.cons 203 0x10000000000000000000020000000000000000000000000001 (.cons 207 0x10000000000000000000020000000000000000000000000001 (.cons 209 0x10000000000000000000020000000000000000000000000001 (.cons 211 0x10000000000000000000020000000000000000000000000001 (.cons 212 0x10000000000000000000000000000000000000000000000001 (.cons 218 0x10000000000000000000000000000000000000000000000001 (.cons 219 0x10000000000000000000000000000000000000000000000001 (.cons 220 0x10000000000000000000020000000000000000000000000001 (.cons 233 0x10000000000000000000020000000000000000000000000001 (.cons 235 0x10000000000000000000020000000000000000000000000001 (.cons 238 0x10000000000000000000020000000000000000000000000001 (.cons 239 0x10000000000000000000020000000000000000000000000001 (.cons 240 0x10000000000000000000020000000000000000000000000001 (.cons 242 0x10000000000000000000020000000000000000000000000001 (.cons 245 0x10000000000000000000020000000000000000000000000001 (.cons 326 0x2000000000000000000000000000000000400000000000000 (.cons 327 0x2000000000000000000000000000000000400000000000000 .nil)))))))))))))))))) (.cons 4 0x80 (.cons 6 0x8000 (.cons 8 0x400000 (.cons 10 0x8000000 (.cons 12 0x2000000000 (.cons 14 0x10000000000 (.cons 16 0x20000000000 (.cons 18 0x10000000000000 (.cons 20 0x20000000000000 (.cons 22 0x4000000000000000 (.cons 24 0x20000000000000000 (.cons 26 0x8000000000000000000000 (.cons 28 0x80000000000000000000000 (.cons 30 0x800000000000000000000000000 (.cons 32 0x20000000000000000000000000000 (.cons 34 0x800000000000000000000000000000000000000 (.cons 36 0x1000000000000000000000000000000000000000 (.cons 38 0x2000000000000000000000000000000000000000 (.cons 671 0x7fffffffffc7fffffffffdf7fff77ffffdbfcffcdff7bf7f7e (.cons 709 0x1 .nil))))))))))))))))))))
def st71 : St := .mk (.cons 2 2 0x1 .nil) .nil (.cons 5 0x7fffffffffffffffffffffffffffffffffffffffffffffffff .nil)
def st72 : St := .mk (.cons 20 1 0x10000000000000000000000000000000000000000000000001 .nil) .nil (.cons 0 0x7ffffffffffffffffffffffffdffffffffffffffffffffffff (.cons 214 0x2000000000000000000000000 .nil))
def st73 : St := .mk (.cons 6 2 0x10000000000000000000000000000000000000000000000001 .nil) .nil (.cons 13 0x7fffffffffffffffffffffffffffffffffffffffffffffffff .nil)
def st74 : St := .mk (.cons 5 2 0x10000000000000000000000000000000000000000000000001 .nil) .nil (.cons 11 0x7fffffffffffffffffffffffffffffffffffffffffffffffff .nil)
def st75 : St := .mk (.cons 140 1 0x14000000000000000000820000000211000080200000000201 .nil) (.cons 266 0x420600000001c0008002000100012000000001c00000001078 .nil) (.cons 216 0x10000000000000000000000000000000 (.cons 329 0x7fffffffffffffffffefffffffffffffffffffffffffffffff .nil))
def st76 : St := .mk (.cons 123 2 0x14000000000000000000020000000000000000000000000001 (.cons 125 2 0x14000000000000000000020000000000000000000000000001 .nil)) (.cons 250 0x2000000000000000000000000000000000400000000000000 (.cons 251 0x2000000000000000000080000000000000400000000000000 .nil)) (.cons 220 0x200 (.cons 222 0x200000000000 (.cons 224 0x200000000000000000000 (.cons 247 0x7ffffffffffffffffffffffffffffdffffffffdffffffffdff .nil))))
def st77 : St := .mk (.cons 124 2 0x14000000000000000000020000000000000000000000000001 .nil) .nil (.cons 249 0x7fffffffffffffffffffffffffffffffffffffffffffffffff .nil)
def st78 : St := .mk (.cons 132 1 0x14000000000000000000020000000000000000000000000001 (.cons 133 1 0x14000000000000000000020000000000000000000000000001 .nil)) (.cons 250 0x2000000000000000000000000000000000400000000000000 (.cons 251 0x2000000000000000000080000000000000400000000000000 (.cons 261 0x14000000000000000000820000000001000080000000000001 .nil))) (.cons 220 0x200 (.cons 222 0x200000000000 (.cons 224 0x200000000000000000000 (.cons 230 0x10000000000000000000 (.cons 309 0x7ffffffffffffffffffffffffffffdefffffffdffffffffdff .nil)))))
def st79 : St := .mk (.cons 106 3 0x10000000000000000000020000000000000000000000000001 .nil) .nil (.cons 213 0x7fffffffffffffffffffffffffffffffffffffffffffffffff .nil)
def st80 : St := .mk (.cons 310 2 0x3600002600000000282a820118c80ed1a48480200004000209 .nil) .nil (.cons 0 0x7ffffffffffffffffffffffffffffffffffffffffffffffff7 (.cons 236 0x8 .nil))
def st81 : St := .mk (.cons 34 3 0x10000000000000000000020000000000000000000000000001 .nil) (.cons 269 0x4000000000000000000000000000000000000000000000000 (.cons 270 0x24000000000000000000000000000000000000000000000000 (.cons 271 0x24000000000000000000000000000000000000000000000000 (.cons 272 0x24000000000000000000000000000000000000000000000000 (.cons 300 0x24000000000000000000000000000000000000000000000000 (.cons 301 0x24000000000000000000000000000000000000000000000000 (.cons 302 0x24000000000000000000000000000000000000000000000000 (.cons 303 0x24000000000000000000000000000000000000000000000000 (.cons 304 0x24000000000000000000000000000000000000000000000000 (.cons 305 0x24000000000000000000000000000000000000000000000000 (.cons 306 0x24000000000000000000000000000000000000000000000000 (.cons 307 0x24000000000000000000000000000000000000000000000000 (.cons 308 0x24000000000000000000000000000000000000000000000000 .nil))))))))))))) (.cons 238 0x10 (.cons 240 0x20 (.cons 242 0x40 (.cons 244 0x1000000000000 (.cons 246 0x10000000000000000000000 (.cons 248 0x100000000000000000000000000 (.cons 250 0x40000000000000000000000000000000000000 (.cons 252 0x80000000000000000000000000000000000000 (.cons 254 0x100000000000000000000000000000000000000 (.cons 256 0x20000000000000000000000000000000000000000000000 (.cons 258 0x40000000000000000000000000000000000000000000000000 (.cons 349 0x3ffdfffffffe3ffffffffffefffefffffffffeffffffffff8f .nil))))))))))))
def st82 : St := .mk (.cons 31 3 0x10000000000000000000020000000000000000000000000001 .nil) (.cons 210 0x10000000000000000000020000000000000000000000000001 .nil) (.cons 0 0x7fffffffffffffffffffffffffffffffffffffffffffffffef (.cons 286 0x10 .nil))
def st83 : St := .mk (.cons 60 1 0x800000000000000000000000000000008 .nil) .nil (.cons 0 0x7ffffffffffffffffffdffffffffffffffffffffffffffffff (.cons 290 0x2000000000000000000000000000000 .nil))
def st84 : St := .mk (.cons 58 3 0x10000000000000000000020000000000000000000000000001 .nil) (.cons 316 0x800000000000000000000000000000000 .nil) (.cons 292 0x8 (.cons 625 0x7ffffffffffffffffffffffffffffffffffffffffffffffff7 .nil))
def st85 : St := .mk (.cons 55 3 0x10000000000000000000020000000000000000000000000001 (.cons 56 3 0x10000000000000000000020000000000000000000000000001 (.cons 57 3 0x10000000000000000000020000000000000000000000000001 .nil))) (.cons 315 0x2000000000000000020000000400000000000000000000000 .nil) (.cons 0 0x7ffffffffffffffffffffffffffffffffffffffffffffffff7 (.cons 82 0x8 .nil))
def st86 : St := .mk (.cons 59 3 0x10000000000000000000020000000000000000000000000001 .nil) (.cons 315 0x2000000000000000020000000000000000000000000000000 .nil) (.cons 0 0x7ffffffffffffffffffffffffffffffffffffffffffffffff7 (.cons 82 0x8 .nil))
def st87 : St := .mk (.cons 113 3 0x10000000000000000000020000000000000000000000000001 .nil) (.cons 258 0x10000000000000000000020000000000000000000000000001 .nil) (.cons 297 0x7ffffffffffffffffffffffffffff7ffffffffffffffffffff (.cons 300 0x800000000000000000000 .nil))
def st88 : St := .mk (.cons 37 1 0x24000000000000000000000000200000000000000000000000 .nil) .nil (.cons 75 0x7fffffffffffffffffffffffffffffffffffffffffffffffff .nil)
def st89 : St := .mk (.cons 35 3 0x10000000000000000000000000000000000000000000000001 .nil) .nil (.cons 0 0x7fffffffffffffffffffffffffdfffffffffffffffffffffff (.cons 304 0x200000000000000000000000 .nil))
def st90 : St := .mk (.cons 115 3 0x10000000000000000000020000000000000000000000000001 (.cons 116 3 0x10000000000000000000020000000000000000000000000001 .nil)) (.cons 241 0x8400000000000000 .nil) (.cons 237 0x7dffffffffffffffffffffffffffffffffffffffffffffffff (.cons 306 0x2000000000000000000000000000000000000000000000000 .nil))
def st91 : St := .mk (.cons 119 3 0x10000000000000000000020000000000000000000000000001 .nil) (.cons 243 0x30000000000000000000020000000800000000000000000001 (.cons 244 0x30000000000000000000020000000800000000000000000001 .nil)) (.cons 0 0x7ffffffffffffffffffffffffffffffffffffffffffffffff7 (.cons 310 0x8 .nil))
def st92 : St := .mk (.cons 108 1 0x8 .nil) .nil (.cons 0 0x7fffffffffffffffffffffffffffffffffffffbfffffffffff (.cons 316 0x400000000000 .nil))
def st93 : St := .mk (.cons 110 3 0x10000000000000000000020000000000000000000000000001 .nil) (.cons 315 0x80000000000000000000000 .nil) (.cons 0 0x7ffffffffffffffffffffffffffffffffffffffffffffffff7 (.cons 82 0x8 .nil))
def st94 : St := .mk (.cons 131 2 0x36000000000000002000820000000211000480200000000201 .nil) .nil (.cons 0 0x7bffffffffffffffffffffffffffffffffffffffffffffffff (.cons 320 0x4000000000000000000000000000000000000000000000000 .nil))
def st95 : St := .mk (.cons 130 2 0x36000000000000002000820000000211000480200000000201 .nil) .nil (.cons 0 0x7bffffffffffffffffffffffffffffffffffffffffffffffff (.cons 322 0x4000000000000000000000000000000000000000000000000 .nil))
def st96 : St := .mk (.cons 51 3 0x10000000000000000000000000000000000000000000000001 .nil) (.cons 214 0x12000000000000000000020000000000000000000000000001 .nil) (.cons 0 0x7fffffffffffffffffffffffffffffffffffffffffffffffef (.cons 324 0x10 .nil))
def st97 : St := .mk (.cons 36 3 0x10000000000000000000000000000000000000000000000001 .nil) (.cons 214 0x12000000000000000000020000000800000000000000000001 .nil) (.cons 0 0x7fffffffffffffffffffffffffffffffffffffffffffffffef (.cons 324 0x10 .nil))
def st98 : St := .mk (.cons 50 3 0x10000000000000000000000000000000000000000000000001 .nil) (.cons 214 0x12000000000000000000020000000000000000000000000001 .nil) (.cons 0 0x7fffffffffffffffffffffffffffffffffffffffffffffffef (.cons 324 0x10 .nil))
def st99 : St := .mk (.cons 107 3 0x10000000000000000000020000000000000000000000000001 .nil) .nil (.cons 0 0x7ffffffffffffffffffffffffffffffffffffffffffffffff7 (.cons 332 0x8 .nil))
def st100 : St := .mk (.cons 104 3 0x10000000000000000000020000000000000000000000000001 .nil) (.cons 315 0x10000000000000000000020000000000000000000000000001 .nil) (.cons 0 0x7ffffffffffffffffffffffffffffffffffffffffffffffff7 (.cons 82 0x8 .nil))
def st101 : St := .mk (.cons 105 3 0x10000000000000000000020000000000000000000000000001 .nil) (.cons 315 0x10000000000000000000020000000000000000000000000001 .nil) (.cons 0 0x7ffffffffffffffffffffffffffffffffffffffffffffffff7 (.cons 82 0x8 .nil))
def st102 : St := .mk (.cons 53 3 0x10000000000000000000000000000000000000000000000001 .nil) .nil (.cons 107 0x7fffffffffffffffffffffffffffffffffffffffffffffffff .nil)
def st103 : St := .mk (.cons 339 2 0x22000000000000000000000000000000000400000000000000 .nil) (.cons 248 0x22000000000000000000000000000000000400000000000000 .nil) (.cons 0 0x7dffffffffffffffffffffffffffffffffffffffffffffffff (.cons 110 0x2000000000000000000000000000000000000000000000000 .nil))
def st104 : St := .mk (.cons 338 2 0x22000000000000000000000000000000000400000000000000 .nil) (.cons 329 0x22000000000000000000000000000000000400000000000000 .nil) (.cons 0 0x7ffffffffffffffffffffffffffffffffffffffffffffffff7 (.cons 126 0x8 .nil))
def st105 : St := .mk (.cons 4 3 0x10000000000000000000000000000000000000000000000001 .nil) .nil (.cons 9 0x7fffffffffffffffffffffffffffffffffffffffffffffffff .nil)
def st106 : St := .mk (.cons 20 2 0x10000000000000000000000000000000000000000000000001 .nil) .nil (.cons 0 0x7dffffffffffffffffffffffffffffffffffffffffffffffff (.cons 342 0x2000000000000000000000000000000000000000000000000 .nil))
def st107 : St := .mk (.cons 163 1 0x420600000001c0008002000100012000000001c00000001078 .nil) (.cons 304 0x420600000001c0008002000100012000000001c00000001078 .nil) (.cons 0 0x7fffffffffffffffffffffffffffffffffffffffffffffffbf (.cons 344 0x40 .nil))
def st108 : St := .mk (.cons 140 2 0x14000000000000000000820000000211000080200000000201 .nil) (.cons 254 0x420600000001c0008002000100012000000001c00000000078 .nil) (.cons 285 0x7fffffffffffffffffffffffffffffffffffffffffffffefff (.cons 348 0x1000 .nil))
def st109 : St := .mk (.cons 136 1 0x2000000000000000000080000000000000400000000000000 .nil) .nil (.cons 273 0x7fffffffffffffffffffffffffffffffffffffffffffffffff .nil)
def st110 : St := .mk (.cons 137 1 0x2000000000000000000080000000000000400000000000000 .nil) .nil (.cons 275 0x7fffffffffffffffffffffffffffffffffffffffffffffffff .nil)
def st111 : St := .mk (.cons 135 1 0x2000000000000000000080000000000000400000000000000 .nil) .nil (.cons 271 0x7fffffffffffffffffffffffffffffffffffffffffffffffff .nil)
def st112 : St := .mk (.cons 125 3 0x14000000000000000000020000000000000000000000000001 .nil) (.cons 246 0x14000000000000000000020000000011000080000000000001 (.cons 247 0x14000000000000000000020000000011000080000000000001 (.cons 248 0x14000000000000000000020000000011000080000000000001 (.cons 253 0x14000000000000000000020000000211000080200000000201 .nil)))) (.cons 0 0x7dfffffffffffffffffffffffffffffffffbffffffffffffff (.cons 110 0x2000000000000000000000000000000000000000000000000 (.cons 152 0x400000000000000 .nil)))
def st113 : St := .mk (.cons 134 1 0x2000000000000000000000000000000000400000000000000 .nil) (.cons 252 0x2000000000000000000000000000000000400000000000000 .nil) (.cons 279 0x7ffffffffffffffffffff7ffffffffffffffffffffffffffff (.cons 360 0x80000000000000000000000000000 .nil))
def st114 : St := .mk (.cons 153 1 0x140000001c0000000000820000000001000080000000000001 .nil) .nil (.cons 0 0x7fffffffffffffffffbfffffffffffffffffffffffffffffff (.cons 364 0x40000000000000000000000000000000 .nil))
def st115 : St := .mk (.cons 133 2 0x14000000000000000000020000000000000000000000000001 .nil) (.cons 246 0x14000000000000000000820000000011000080000000000001 (.cons 247 0x14000000000000000000820000000011000080000000000001 (.cons 248 0x14000000000000000000820000000011000080000000000001 (.cons 253 0x14000000000000000000820000000211000080200000000201 .nil)))) (.cons 0 0x7dfffffffffffffffffffffffffffffffffbffffffffffffff (.cons 110 0x2000000000000000000000000000000000000000000000000 (.cons 152 0x400000000000000 .nil)))
def st116 : St := .mk (.cons 132 2 0x14000000000000000000020000000000000000000000000001 .nil) (.cons 267 0x14000000000000000000820000000000000000000000000001 .nil) (.cons 341 0x7ffffffffffffffffffffffffffffffeffff7fffffffffffff (.cons 368 0x80000000000000 (.cons 370 0x1000000000000000000 .nil)))
def st117 : St := .mk (.cons 310 3 0x3600002600000000282a820118c80ed1a48480200004000209 .nil) .nil (.cons 621 0x7fffffffffffffffffffffffffffffffffffffffffffffffff .nil)
def st118 : St := .mk (.cons 287 1 0x35bf67c01c0000031b22f32038d40ed1a400c8200004020209 .nil) .nil (.cons 575 0x7fffffffffffffffffffffffffffffffffffffffffffffffff .nil)
def st119 : St := .mk (.cons 290 1 0x35bf67c01c0000031b22f32038d40ed1a400c8200004020209 .nil) .nil (.cons 581 0x7fffffffffffffffffffffffffffffffffffffffffffffffff .nil)
def st120 : St := .mk (.cons 292 1 0x35bf67c01c0000031b22f32038d40ed1a400c8200004020209 (.cons 295 1 0x35bf67c01c0000031b22f32038d40ed1a400c8200004020209 .nil)) (.cons 293 0x35bf67c01c0000031b22f32038d40ed1a400c8200004020209 (.cons 294 0x35bf67c01c0000031b22f32038d40ed1a400c8200004020209 (.cons 295 0x35bf67c01c0000031b22f32038d40ed1a400c8200004020209 .nil))) (.cons 374 0x40000000000000000000000000000000000 (.cons 376 0x80000000000000000000000000000000000 (.cons 378 0x100000000000000000000000000000000000 (.cons 380 0x200000000000000000000000000000000000 (.cons 382 0x400000000000000000000000000000000000 (.cons 384 0x800000000000000000000000000000000000 (.cons 386 0x1000000000000000000000000000000000000 (.cons 388 0x2000000000000000000000000000000000000 (.cons 390 0x4000000000000000000000000000000000000 (.cons 392 0x8000000000000000000000000000000000000 (.cons 394 0x10000000000000000000000000000000000000 (.cons 396 0x20000000000000000000000000000000000000 (.cons 585 0x7fffffffffffc003ffffffffffffffffffffffffffffffffff .nil)))))))))))))
def st121 : St := .mk (.cons 178 1 0x24000000000000000000000000000000000000000000000000 .nil) .nil (.cons 0 0x7dffffffffffffffffffffffffffffffffffffffffffffffff (.cons 404 0x2000000000000000000000000000000000000000000000000 .nil))
def st122 : St := .mk (.cons 294 1 0x35bf67c01c0000031b22f32038d40ed1a400c8200004020209 .nil) .nil (.cons 0 0x7fffffffffffffffffffffffffffffffffffffffffffffffef (.cons 406 0x10 .nil))
def st123 : St := .mk (.cons 293 1 0x35bf67c01c0000031b22f32038d40ed1a400c8200004020209 .nil) .nil (.cons 587 0x7fffffffffffffffffffffffffffffffffffffffffffffffff .nil)
def st124 : St := .mk (.cons 296 1 0x35bf67c01c0000031b22f32038d40ed1a400c8200004020209 (.cons 297 1 0x35bf67c01c0000031b22f32038d40ed1a400c8200004020209 .nil)) .nil (.cons 0 0x7fffffffffffffffffffffffffffffffffffffffffffffffef (.cons 408 0x10 .nil))
def st125 : St := .mk (.cons 288 1 0x35bf67c01c0000031b22f32038d40ed1a400c8200004020209 .nil) .nil (.cons 577 0x7fffffffffffffffffffffffffffffffffffffffffffffffff .nil)
def st126 : St := .mk (.cons 289 1 0x35bf67c01c0000031b22f32038d40ed1a400c8200004020209 .nil) .nil (.cons 579 0x7fffffffffffffffffffffffffffffffffffffffffffffffff .nil)
def st127 : St := .mk (.cons 180 1 0x24000000000000000020000000000000000000000000000000 (.cons 181 1 0x24000000000000000020000000000000000000000000000000 .nil)) (.cons 303 0x24000000000000000020000000000000000000000000000000 (.cons 304 0x24000000000000000020000000000000000000000000000000 (.cons 307 0x24000000000000000020000000000000000000000000000000 .nil))) (.cons 0 0x7fffffffffffbfffffffffffffffffffffffffffffffffff9f (.cons 240 0x20 (.cons 242 0x40 (.cons 250 0x40000000000000000000000000000000000000 .nil))))
def st128 : St := .mk (.cons 298 1 0x35bf67c01c0000031b22f32038d40ed1a400c8200004020209 .nil) .nil (.cons 597 0x7fffffffffffffffffffffffffffffffffffffffffffffffff .nil)
def st129 : St := .mk (.cons 34 4 0x10000000000000000000020000000000000000000000000001 .nil) .nil (.cons 0 0x7bffffffffffffffffffffffffffffffffffffffffffffffff (.cons 414 0x4000000000000000000000000000000000000000000000000 .nil))
def st130 : St := .mk (.cons 173 1 0x4000000000000000000000000000000000000000000000000 (.cons 176 1 0x24000000000000000000000000000000000000000000000000 .nil)) .nil (.cons 347 0x5fffffffffffffffffffffffffffffffffffffffffffffffff (.cons 416 0x20000000000000000000000000000000000000000000000000 .nil))
def st131 : St := .mk (.cons 175 1 0x24000000000000000000000000000000000000000000000000 .nil) .nil (.cons 351 0x7fffffffffffffffffffffffffffffffffffffffffffffffff .nil)
def st132 : St := .mk (.cons 177 1 0x24000000000000000000000000000000000000000000000000 .nil) .nil (.cons 355 0x7fffffffffffffffffffffffffffffffffffffffffffffffff .nil)
def st133 : St := .mk (.cons 179 1 0x24000000000000000020000000000000000000000000000000 .nil) .nil (.cons 359 0x7fffffffffffffffffffffffffffffffffffffffffffffffff .nil)
def st134 : St := .mk (.cons 280 1 0x35bf67c01c0000031b22f32038d40ed1a400c8200004020209 .nil) .nil (.cons 561 0x7fffffffffffffffffffffffffffffffffffffffffffffffff .nil)
def st135 : St := .mk (.cons 281 1 0x35bf67c01c0000031b22f32038d40ed1a400c8200004020209 .nil) .nil (.cons 563 0x7fffffffffffffffffffffffffffffffffffffffffffffffff .nil)
def st136 : St := .mk (.cons 282 1 0x35bf67c01c0000031b22f32038d40ed1a400c8200004020209 .nil) .nil (.cons 565 0x7fffffffffffffffffffffffffffffffffffffffffffffffff .nil)
def st137 : St := .mk (.cons 291 1 0x35bf67c01c0000031b22f32038d40ed1a400c8200004020209 .nil) .nil (.cons 583 0x7fffffffffffffffffffffffffffffffffffffffffffffffff .nil)
def st138 : St := .mk (.cons 283 1 0x35bf67c01c0000031b22f32038d40ed1a400c8200004020209 .nil) .nil (.cons 567 0x7fffffffffffffffffffffffffffffffffffffffffffffffff .nil)
def st139 : St := .mk (.cons 284 1 0x35bf67c01c0000031b22f32038d40ed1a400c8200004020209 .nil) .nil (.cons 569 0x7fffffffffffffffffffffffffffffffffffffffffffffffff .nil)
def st140 : St := .mk (.cons 285 1 0x35bf67c01c0000031b22f32038d40ed1a400c8200004020209 .nil) .nil (.cons 571 0x7fffffffffffffffffffffffffffffffffffffffffffffffff .nil)
def st141 : St := .mk (.cons 286 1 0x35bf67c01c0000031b22f32038d40ed1a400c8200004020209 .nil) .nil (.cons 573 0x7fffffffffffffffffffffffffffffffffffffffffffffffff .nil)
def st142 : St := .mk (.cons 32 1 0x10000000000000000000020000000000000000000000000001 .nil) .nil (.cons 65 0x7fffffffffffffffffffffffffffffffffffffffffffffffff .nil)
def st143 : St := .mk (.cons 31 4 0x10000000000000000000020000000000000000000000000001 .nil) .nil (.cons 63 0x7fffffffffffffffffffffffffffffffffffffffffffffffff .nil)
def st144 : St := .mk (.cons 60 2 0x800000000000000000000000000000008 .nil) .nil (.cons 0 0x7fffffffffffffffffffffffffffffffffffffbfffffffffff (.cons 418 0x400000000000 .nil))
def st145 : St := .mk (.cons 311 1 0x800000000000000000000000000000000 .nil) .nil (.cons 623 0x7fffffffffffffffffffffffffffffffffffffffffffffffff .nil)
def st146 : St := .mk (.cons 58 4 0x10000000000000000000020000000000000000000000000001 .nil) .nil (.cons 0 0x7ffffffffffffffff7ffffffffffffffffffffffffffffffff (.cons 420 0x800000000000000000000000000000000 .nil))
def st147 : St := .mk (.cons 55 4 0x10000000000000000000020000000000000000000000000001 (.cons 56 4 0x10000000000000000000020000000000000000000000000001 (.cons 57 4 0x10000000000000000000020000000000000000000000000001 .nil))) .nil (.cons 0 0x7dffffffffffffffffdfffffffbfffffffffffffffffffffff (.cons 422 0x400000000000000000000000 (.cons 424 0x20000000000000000000000000000000 (.cons 426 0x2000000000000000000000000000000000000000000000000 .nil))))
def st148 : St := .mk (.cons 59 4 0x10000000000000000000020000000000000000000000000001 .nil) (.cons 241 0x20000000000000000000000000000000 .nil) (.cons 237 0x7dffffffffffffffffffffffffffffffffffffffffffffffff (.cons 306 0x2000000000000000000000000000000000000000000000000 .nil))
def st149 : St := .mk (.cons 147 1 0x14000000000000000000820000000211200080200000000201 .nil) (.cons 274 0x14000000000000001000920000000211200080200000000201 (.cons 275 0x14bf67c00000000313029200200002112000c0200000020201 (.cons 276 0x14bf67c00000000313029200200002112000c0200000020201 (.cons 277 0x14bf67c00000000313029200200002112000c0200000020201 (.cons 278 0x14bf67c00000000313029200200002112000c0200000020201 (.cons 279 0x14000000000000001000920000000211200080200000000201 (.cons 280 0x14000000000000001000920000000211200080200000000201 (.cons 281 0x14bf67c00000000313029200200002112000c0200000020201 (.cons 283 0x14000000000000001000920000000211200080200000000201 (.cons 284 0x14bf67c00000000313029200200002112000c0200000020201 (.cons 285 0x14bf67c00000000313029200200002112000c0200000020201 (.cons 291 0x14bf67c00000000313029200200002112000c0200000020201 (.cons 292 0x14bf67c00000000313029200200002112000c0200000020201 (.cons 296 0x14bf67c00000000313029200200002112000c0200000020201 (.cons 297 0x14bf67c00000000313029200200002112000c0200000020201 (.cons 298 0x14000000000000001000920000000211200080200000000201 (.cons 299 0x14bf67c00000000313029200200002112000c0200000020201 (.cons 300 0x14bf67c00000000313029200200002112000c0200000020201 (.cons 301 0x14bf67c00000000313029200200002112000c0200000020201 (.cons 302 0x14bf67c00000000313029200200002112000c0200000020201 (.cons 303 0x14bf67c00000000313029200200002112000c0200000020201 (.cons 304 0x14bf67c00000000313029200200002112000c0200000020201 (.cons 305 0x14bf67c00000000313029200200002112000c0200000020201 (.cons 306 0x14bf67c00000000313029200200002112000c0200000020201 (.cons 307 0x14bf67c00000000313029200200002112000c0200000020201 (.cons 308 0x14bf67c00000000313029200200002112000c0200000020201 .nil)))))))))))))))))))))))))) (.cons 0 0x3df9fffffffe3fff7ffdfffefffedffffffffe3fffffffff87 (.cons 238 0x10 (.cons 240 0x20 (.cons 242 0x40 (.cons 246 0x10000000000000000000000 (.cons 248 0x100000000000000000000000000 (.cons 250 0x40000000000000000000000000000000000000 (.cons 252 0x80000000000000000000000000000000000000 (.cons 254 0x100000000000000000000000000000000000000 (.cons 258 0x40000000000000000000000000000000000000000000000000 (.cons 430 0x8 (.cons 432 0x400000000000 (.cons 434 0x800000000000 (.cons 436 0x1000000000000 (.cons 438 0x2000000000000000000000 (.cons 440 0x2000000000000000000000000000000 (.cons 442 0x8000000000000000000000000000000000 (.cons 444 0x20000000000000000000000000000000000000000000000 (.cons 446 0x40000000000000000000000000000000000000000000000 (.cons 448 0x2000000000000000000000000000000000000000000000000 .nil))))))))))))))))))))
def st150 : St := .mk (.cons 113 4 0x10000000000000000000020000000000000000000000000001 .nil) .nil (.cons 227 0x7fffffffffffffffffffffffffffffffffffffffffffffffff .nil)
def st151 : St := .mk (.cons 35 4 0x10000000000000000000000000000000000000000000000001 .nil) (.cons 214 0x4000000000000000000000000 .nil) (.cons 0 0x7fffffffffffffffffffffffffffffffffffffffffffffffef (.cons 324 0x10 .nil))
def st152 : St := .mk (.cons 117 1 0x24000026000000000022000100000000008400000000000000 .nil) (.cons 334 0x24000000000000000000000000000000000000000000000000 .nil) (.cons 0 0x7ffffffffffffffffffffffffffffffffffffffffffffffff7 (.cons 488 0x8 .nil))
def st153 : St := .mk (.cons 115 4 0x10000000000000000000020000000000000000000000000001 (.cons 116 4 0x10000000000000000000020000000000000000000000000001 .nil)) (.cons 249 0x10000000000000000000020000000000000000000000000001 (.cons 253 0x10000000000000000000820000000211000080200000000201 .nil)) (.cons 0 0x7fffffffffffffffffffffffffffffffff7bffffffffffffff (.cons 152 0x400000000000000 (.cons 492 0x8000000000000000 .nil)))
def st154 : St := .mk (.cons 122 1 0x30000000000000000000020000000800000000000000000001 .nil) .nil (.cons 0 0x7fffffbfffffffffffffffffffffffffffffffffffffffffff (.cons 496 0x40000000000000000000000000000000000000000000 .nil))
def st155 : St := .mk (.cons 119 4 0x10000000000000000000020000000000000000000000000001 (.cons 121 1 0x30000000000000000000020000000800000000000000000001 .nil)) (.cons 258 0x10000000000000000000020000000000000000000000000001 .nil) (.cons 297 0x5ffffffffffffffffffffffffffff7ffffffffffffffffffff (.cons 300 0x800000000000000000000 (.cons 498 0x20000000000000000000000000000000000000000000000000 .nil)))
def st156 : St := .mk (.cons 120 1 0x30000000000000000000020000000800000000000000000001 .nil) .nil (.cons 241 0x7fffffffffffffffffffffffffffffffffffffffffffffffff .nil)
def st157 : St := .mk (.cons 108 2 0x8 .nil) .nil (.cons 217 0x7fffffffffffffffffffffffffffffffffffffffffffffffff .nil)
def st158 : St := .mk (.cons 110 4 0x10000000000000000000020000000000000000000000000001 .nil) (.cons 236 0x10000000000000000000020000000000000000000000000001 (.cons 237 0x10000000000000000000020000000000000000000000000001 .nil)) (.cons 0 0x7ffffffffffffffffffffffffff7ffffffffffffffffffffff (.cons 502 0x80000000000000000000000 .nil))
def st159 : St := .mk (.cons 131 3 0x36000000000000002000820000000211000480200000000201 .nil) .nil (.cons 263 0x7fffffffffffffffffffffffffffffffffffffffffffffffff .nil)
def st160 : St := .mk (.cons 130 3 0x36000000000000002000820000000211000480200000000201 .nil) .nil (.cons 261 0x7fffffffffffffffffffffffffffffffffffffffffffffffff .nil)
def st161 : St := .mk (.cons 38 1 0x12000000000000000000020004000800000000000000000001 .nil) .nil (.cons 77 0x7fffffffffffffffffffffffffffffffffffffffffffffffff .nil)
def st162 : St := .mk (.cons 51 4 0x10000000000000000000000000000000000000000000000001 .nil) (.cons 215 0x10000000000000000000000000000000000000000000000001 .nil) (.cons 83 0x7dfffffffffffffffffffdffffffffffffffffffffffffffff (.cons 508 0x20000000000000000000000000000 (.cons 510 0x2000000000000000000000000000000000000000000000000 .nil)))
def st163 : St := .mk (.cons 36 4 0x10000000000000000000000000000000000000000000000001 .nil) (.cons 215 0x10000000000000000000000000000800000000000000000001 .nil) (.cons 83 0x7dfffffffffffffffffffdffffffffffffffffffffffffffff (.cons 508 0x20000000000000000000000000000 (.cons 510 0x2000000000000000000000000000000000000000000000000 .nil)))
def st164 : St := .mk (.cons 50 4 0x10000000000000000000000000000000000000000000000001 .nil) (.cons 215 0x10000000000000000000000000000000000000000000000001 .nil) (.cons 83 0x7dfffffffffffffffffffdffffffffffffffffffffffffffff (.cons 508 0x20000000000000000000000000000 (.cons 510 0x2000000000000000000000000000000000000000000000000 .nil)))
def st165 : St := .mk (.cons 107 4 0x10000000000000000000020000000000000000000000000001 .nil) .nil (.cons 215 0x7fffffffffffffffffffffffffffffffffffffffffffffffff .nil)
def st166 : St := .mk (.cons 104 4 0x10000000000000000000020000000000000000000000000001 .nil) .nil (.cons 209 0x7fffffffffffffffffffffffffffffffffffffffffffffffff .nil)
def st167 : St := .mk (.cons 105 4 0x10000000000000000000020000000000000000000000000001 .nil) .nil (.cons 211 0x7fffffffffffffffffffffffffffffffffffffffffffffffff .nil)
def st168 : St := .mk (.cons 339 3 0x22000000000000000000000000000000000400000000000000 .nil) .nil (.cons 679 0x7fffffffffffffffffffffffffffffffffffffffffffffffff .nil)
def st169 : St := .mk (.cons 338 3 0x22000000000000000000000000000000000400000000000000 .nil) .nil (.cons 677 0x7fffffffffffffffffffffffffffffffffffffffffffffffff .nil)
def st170 : St := .mk (.cons 20 3 0x10000000000000000000000000000000000000000000000001 .nil) (.cons 205 0x24000000000000000000000000000000000000000000000000 (.cons 206 0x24000000000000000000000000000000000000000000000000 .nil)) (.cons 0 0x7ffffffffffffffffffffffffffffffffffffffffffffffff7 (.cons 518 0x8 .nil))
def st171 : St := .mk (.cons 292 1 0x430600000001c0008002000100012000000001c00000001078 .nil) .nil (.cons 585 0x7fffffffffffffffffffffffffffffffffffffffffffffffff .nil)
def st172 : St := .mk (.cons 163 2 0x420600000001c0008002000100012000000001c00000001078 .nil) .nil (.cons 327 0x7fffffffffffffffffffffffffffffffffffffffffffffffff .nil)
def st173 : St := .mk (.cons 141 1 0x420600000001c0008002000100012000000001c00000000078 .nil) .nil (.cons 283 0x7fffffffffffffffffffffffffffffffffffffffffffffffff .nil)
def st174 : St := .mk (.cons 140 3 0x14000000000000000000820000000211000080200000000201 .nil) (.cons 255 0x14000000000000000000820000400a11200080200000000201 (.cons 268 0x34000000000000000000820000400a11200080200000000201 (.cons 273 0x34000000000000000000820000400a11200080200000000201 (.cons 274 0x34000000000000001020920000400a11200080200000000209 (.cons 275 0x34bf67c0000000031322920020400a112000c0200000020209 (.cons 276 0x34bf67c0000000031322920020400a112000c0200000020209 (.cons 277 0x34bf67c0000000031322920020400a112000c0200000020209 (.cons 278 0x34bf67c0000000031322920020400a112000c0200000020209 (.cons 279 0x34000000000000001020920000400a11200080200000000209 (.cons 280 0x34000000000000001020920000400a11200080200000000209 (.cons 281 0x34bf67c0000000031322920020400a112000c0200000020209 (.cons 283 0x34000000000000001020920000400a11200080200000000209 (.cons 284 0x34bf67c0000000031322920020400a112000c0200000020209 (.cons 285 0x34bf67c0000000031322920020400a112000c0200000020209 (.cons 291 0x34bf67c0000000031322920020400a112000c0200000020209 (.cons 292 0x34bf67c0000000031322920020400a112000c0200000020209 (.cons 296 0x34bf67c0000000031322920020400a112000c0200000020209 (.cons 297 0x34bf67c0000000031322920020400a112000c0200000020209 (.cons 298 0x34000000000000001020920000400a11200080200000000209 (.cons 299 0x34bf67c0000000031322920020400a112000c0200000020209 (.cons 300 0x34bf67c0000000031322920020400a112000c0200000020209 (.cons 301 0x34bf67c0000000031322920020400a112000c0200000020209 (.cons 302 0x34bf67c0000000031322920020400a112000c0200000020209 (.cons 303 0x34bf67c0000000031322920020400a112000c0200000020209 (.cons 304 0x34bf67c0000000031322920020400a112000c0200000020209 (.cons 305 0x34bf67c0000000031322920020400a112000c0200000020209 (.cons 306 0x34bf67c0000000031322920020400a112000c0200000020209 (.cons 307 0x34bf67c0000000031322920020400a112000c0200000020209 (.cons 308 0x34bf67c0000000031322920020400a112000c0200000020209 .nil))))))))))))))))))))))))))))) (.cons 0 0x3df9fffffffe3fff7ffdfffefffedffffffffe3fffffffff87 (.cons 238 0x10 (.cons 240 0x20 (.cons 242 0x40 (.cons 246 0x10000000000000000000000 (.cons 248 0x100000000000000000000000000 (.cons 250 0x40000000000000000000000000000000000000 (.cons 252 0x80000000000000000000000000000000000000 (.cons 254 0x100000000000000000000000000000000000000 (.cons 258 0x40000000000000000000000000000000000000000000000000 (.cons 430 0x8 (.cons 432 0x400000000000 (.cons 434 0x800000000000 (.cons 436 0x1000000000000 (.cons 438 0x2000000000000000000000 (.cons 440 0x2000000000000000000000000000000 (.cons 442 0x8000000000000000000000000000000000 (.cons 444 0x20000000000000000000000000000000000000000000000 (.cons 446 0x40000000000000000000000000000000000000000000000 (.cons 448 0x2000000000000000000000000000000000000000000000000 .nil))))))))))))))))))))
def st175 : St := .mk (.cons 125 4 0x14000000000000000000020000000000000000000000000001 .nil) (.cons 261 0x14000000000000000000020000000001000080000000000001 .nil) (.cons 230 0x10000000000000000000 (.cons 309 0x7fffffffffffffffffffffffffffffefffffffffffffffffff .nil))
def st176 : St := .mk (.cons 127 1 0x14000000000000000000820000000011000080000000000001 .nil) .nil (.cons 255 0x7fffffffffffffffffffffffffffffffffffffffffffffffff .nil)
def st177 : St := .mk (.cons 126 1 0x14000000000000000000820000000011000080000000000001 .nil) .nil (.cons 253 0x7fffffffffffffffffffffffffffffffffffffffffffffffff .nil)
def st178 : St := .mk (.cons 128 1 0x14000000000000000000820000000011000080000000000001 (.cons 129 1 0x14000000000000000000820000000011000080000000000001 .nil)) (.cons 250 0x2000000000000000000000000000000000400000000000000 (.cons 251 0x2000000000000000000080000000000000400000000000000 .nil)) (.cons 220 0x200 (.cons 222 0x200000000000 (.cons 224 0x200000000000000000000 (.cons 257 0x7ffffffffffffffffffffffffffffdffffffffdffffffffdff .nil))))
def st179 : St := .mk (.cons 138 1 0x2000000000000000000000000000000000400000000000000 .nil) .nil (.cons 277 0x7fffffffffffffffffffffffffffffffffffffffffffffffff .nil)
def st180 : St := .mk (.cons 134 2 0x2000000000000000000000000000000000400000000000000 .nil) .nil (.cons 269 0x7fffffffffffffffffffffffffffffffffffffffffffffffff .nil)
def st181 : St := .mk (.cons 153 2 0x140000001c0000000000820000000001000080000000000001 .nil) (.cons 262 0x340000001c0000000000820000000001000080000000000001 (.cons 263 0x340000001c0000000000820000000001000080000000000001 (.cons 274 0x340000001c0000001000b20000040001000080000000000009 (.cons 275 0x34bf67c01c0000031302b200200400010000c0000000020009 (.cons 276 0x34bf67c01c0000031302b200200400010000c0000000020009 (.cons 277 0x34bf67c01c0000031302b200200400010000c0000000020009 (.cons 278 0x34bf67c01c0000031302b200200400010000c0000000020009 (.cons 279 0x340000001c0000001000b20000040001000080000000000009 (.cons 280 0x340000001c0000001000b20000040001000080000000000009 (.cons 281 0x34bf67c01c0000031302b200200400010000c0000000020009 (.cons 283 0x340000001c0000001000b20000040001000080000000000009 (.cons 284 0x34bf67c01c0000031302b200200400010000c0000000020009 (.cons 285 0x34bf67c01c0000031302b200200400010000c0000000020009 (.cons 291 0x34bf67c01c0000031302b200200400010000c0000000020009 (.cons 292 0x34bf67c01c0000031302b200200400010000c0000000020009 (.cons 296 0x34bf67c01c0000031302b200200400010000c0000000020009 (.cons 297 0x34bf67c01c0000031302b200200400010000c0000000020009 (.cons 298 0x340000001c0000001000b20000040001000080000000000009 (.cons 299 0x34bf67c01c0000031302b200200400010000c0000000020009 (.cons 300 0x34bf67c01c0000031302b200200400010000c0000000020009 (.cons 301 0x34bf67c01c0000031302b200200400010000c0000000020009 (.cons 302 0x34bf67c01c0000031302b200200400010000c0000000020009 (.cons 303 0x34bf67c01c0000031302b200200400010000c0000000020009 (.cons 304 0x34bf67c01c0000031302b200200400010000c0000000020009 (.cons 305 0x34bf67c01c0000031302b200200400010000c0000000020009 (.cons 306 0x34bf67c01c0000031302b200200400010000c0000000020009 (.cons 307 0x34bf67c01c0000031302b200200400010000c0000000020009 (.cons 308 0x34bf67c01c0000031302b200200400010000c0000000020009 .nil)))))))))))))))))))))))))))) (.cons 0 0x3df9fffffffe3fff7ffdfffefffedffffffffe3fffffffff87 (.cons 238 0x10 (.cons 240 0x20 (.cons 242 0x40 (.cons 246 0x10000000000000000000000 (.cons 248 0x100000000000000000000000000 (.cons 250 0x40000000000000000000000000000000000000 (.cons 252 0x80000000000000000000000000000000000000 (.cons 254 0x100000000000000000000000000000000000000 (.cons 258 0x40000000000000000000000000000000000000000000000000 (.cons 430 0x8 (.cons 432 0x400000000000 (.cons 434 0x800000000000 (.cons 436 0x1000000000000 (.cons 438 0x2000000000000000000000 (.cons 440 0x2000000000000000000000000000000 (.cons 442 0x8000000000000000000000000000000000 (.cons 444 0x20000000000000000000000000000000000000000000000 (.cons 446 0x40000000000000000000000000000000000000000000000 (.cons 448 0x2000000000000000000000000000000000000000000000000 .nil))))))))))))))))))))
def st182 : St := .mk (.cons 133 3 0x14000000000000000000020000000000000000000000000001 .nil) (.cons 261 0x14000000000000000000820000000001000080000000000001 .nil) (.cons 230 0x10000000000000000000 (.cons 309 0x7fffffffffffffffffffffffffffffefffffffffffffffffff .nil))
def st183 : St := .mk (.cons 166 1 0x14000000000000000000820000000000000000000000000001 .nil) (.cons 274 0x14000000000000001000920000000000000000000000000001 (.cons 275 0x14bf67c0000000031302920020000000000040000000020001 (.cons 276 0x14bf67c0000000031302920020000000000040000000020001 (.cons 277 0x14bf67c0000000031302920020000000000040000000020001 (.cons 278 0x14bf67c0000000031302920020000000000040000000020001 (.cons 279 0x14000000000000001000920000000000000000000000000001 (.cons 280 0x14000000000000001000920000000000000000000000000001 (.cons 281 0x14bf67c0000000031302920020000000000040000000020001 (.cons 283 0x14000000000000001000920000000000000000000000000001 (.cons 284 0x14bf67c0000000031302920020000000000040000000020001 (.cons 285 0x14bf67c0000000031302920020000000000040000000020001 (.cons 291 0x14bf67c0000000031302920020000000000040000000020001 (.cons 292 0x14bf67c0000000031302920020000000000040000000020001 (.cons 296 0x14bf67c0000000031302920020000000000040000000020001 (.cons 297 0x14bf67c0000000031302920020000000000040000000020001 (.cons 298 0x14000000000000001000920000000000000000000000000001 (.cons 299 0x14bf67c0000000031302920020000000000040000000020001 (.cons 300 0x14bf67c0000000031302920020000000000040000000020001 (.cons 301 0x14bf67c0000000031302920020000000000040000000020001 (.cons 302 0x14bf67c0000000031302920020000000000040000000020001 (.cons 303 0x14bf67c0000000031302920020000000000040000000020001 (.cons 304 0x14bf67c0000000031302920020000000000040000000020001 (.cons 305 0x14bf67c0000000031302920020000000000040000000020001 (.cons 306 0x14bf67c0000000031302920020000000000040000000020001 (.cons 307 0x14bf67c0000000031302920020000000000040000000020001 (.cons 308 0x14bf67c0000000031302920020000000000040000000020001 .nil)))))))))))))))))))))))))) (.cons 0 0x3df9fffffffe3fff7ffdfffefffedffffffffe3fffffffff87 (.cons 238 0x10 (.cons 240 0x20 (.cons 242 0x40 (.cons 246 0x10000000000000000000000 (.cons 248 0x100000000000000000000000000 (.cons 250 0x40000000000000000000000000000000000000 (.cons 252 0x80000000000000000000000000000000000000 (.cons 254 0x100000000000000000000000000000000000000 (.cons 258 0x40000000000000000000000000000000000000000000000000 (.cons 430 0x8 (.cons 432 0x400000000000 (.cons 434 0x800000000000 (.cons 436 0x1000000000000 (.cons 438 0x2000000000000000000000 (.cons 440 0x2000000000000000000000000000000 (.cons 442 0x8000000000000000000000000000000000 (.cons 444 0x20000000000000000000000000000000000000000000000 (.cons 446 0x40000000000000000000000000000000000000000000000 (.cons 448 0x2000000000000000000000000000000000000000000000000 .nil))))))))))))))))))))
def st184 : St := .mk (.cons 165 1 0x14000000000000000000820000000000000000000000000001 (.cons 167 1 0x14000000000000000000820000000000000000000000000001 (.cons 168 1 0x14000000000000000000820000000000000000000000000001 (.cons 169 1 0x14000000000000000000820000000000000000000000000001 .nil)))) (.cons 274 0x14000000000000001000920000000000000080000000000001 (.cons 275 0x14bf67c00000000313029200200000000000c0000000020001 (.cons 276 0x14bf67c00000000313029200200000000000c0000000020001 (.cons 277 0x14bf67c00000000313029200200000000000c0000000020001 (.cons 278 0x14bf67c00000000313029200200000000000c0000000020001 (.cons 279 0x14000000000000001000920000000000000080000000000001 (.cons 280 0x14000000000000001000920000000000000080000000000001 (.cons 281 0x14bf67c00000000313029200200000000000c0000000020001 (.cons 283 0x14000000000000001000920000000000000080000000000001 (.cons 284 0x14bf67c00000000313029200200000000000c0000000020001 (.cons 285 0x14bf67c00000000313029200200000000000c0000000020001 (.cons 291 0x14bf67c00000000313029200200000000000c0000000020001 (.cons 292 0x14bf67c00000000313029200200000000000c0000000020001 (.cons 296 0x14bf67c00000000313029200200000000000c0000000020001 (.cons 297 0x14bf67c00000000313029200200000000000c0000000020001 (.cons 298 0x14000000000000001000920000000000000080000000000001 (.cons 299 0x14bf67c00000000313029200200000000000c0000000020001 (.cons 300 0x14bf67c00000000313029200200000000000c0000000020001 (.cons 301 0x14bf67c00000000313029200200000000000c0000000020001 (.cons 302 0x14bf67c00000000313029200200000000000c0000000020001 (.cons 303 0x14bf67c00000000313029200200000000000c0000000020001 (.cons 304 0x14bf67c00000000313029200200000000000c0000000020001 (.cons 305 0x14bf67c00000000313029200200000000000c0000000020001 (.cons 306 0x14bf67c00000000313029200200000000000c0000000020001 (.cons 307 0x14bf67c00000000313029200200000000000c0000000020001 (.cons 308 0x14bf67c00000000313029200200000000000c0000000020001 .nil)))))))))))))))))))))))))) (.cons 0 0x3df9fffffffe3fff7ffdf7fefffedffffffffe3fffffffff87 (.cons 238 0x10 (.cons 240 0x20 (.cons 242 0x40 (.cons 246 0x10000000000000000000000 (.cons 248 0x100000000000000000000000000 (.cons 250 0x40000000000000000000000000000000000000 (.cons 252 0x80000000000000000000000000000000000000 (.cons 254 0x100000000000000000000000000000000000000 (.cons 258 0x40000000000000000000000000000000000000000000000000 (.cons 430 0x8 (.cons 432 0x400000000000 (.cons 434 0x800000000000 (.cons 436 0x1000000000000 (.cons 438 0x2000000000000000000000 (.cons 440 0x2000000000000000000000000000000 (.cons 442 0x8000000000000000000000000000000000 (.cons 444 0x20000000000000000000000000000000000000000000000 (.cons 446 0x40000000000000000000000000000000000000000000000 (.cons 448 0x2000000000000000000000000000000000000000000000000 (.cons 546 0x80000000000000000000000000000 .nil)))))))))))))))))))))
def st185 : St := .mk (.cons 132 3 0x14000000000000000000020000000000000000000000000001 .nil) (.cons 321 0x14000000000000000000020000000000000000000000000001 (.cons 322 0x14000000000000000000820000000000000000000000000001 (.cons 323 0x14000000000000000000820000000000000000000000000001 .nil))) (.cons 550 0x800000000000000000000000000000 (.cons 645 0x7fffffffffffffffffff7fffffffffffffffffffffffffffff .nil))
def st186 : St := .mk (.cons 259 1 0x35bf67c01c0000031b22f32038d40ed1a400c8200004020209 .nil) .nil (.cons 519 0x7fffffffffffffffffffffffffffffffffffffffffffffffff .nil)
def st187 : St := .mk (.cons 260 1 0x35bf67c01c0000031b22f32038d40ed1a400c8200004020209 .nil) .nil (.cons 521 0x7fffffffffffffffffffffffffffffffffffffffffffffffff .nil)
def st188 : St := .mk (.cons 261 1 0x35bf67c01c0000031b22f32038d40ed1a400c8200004020209 .nil) .nil (.cons 523 0x7fffffffffffffffffffffffffffffffffffffffffffffffff .nil)
def st189 : St := .mk (.cons 262 1 0x35bf67c01c0000031b22f32038d40ed1a400c8200004020209 .nil) .nil (.cons 525 0x7fffffffffffffffffffffffffffffffffffffffffffffffff .nil)
def st190 : St := .mk (.cons 263 1 0x35bf67c01c0000031b22f32038d40ed1a400c8200004020209 .nil) .nil (.cons 527 0x7fffffffffffffffffffffffffffffffffffffffffffffffff .nil)
def st191 : St := .mk (.cons 264 1 0x35bf67c01c0000031b22f32038d40ed1a400c8200004020209 .nil) .nil (.cons 529 0x7fffffffffffffffffffffffffffffffffffffffffffffffff .nil)
def st192 : St := .mk (.cons 265 1 0x35bf67c01c0000031b22f32038d40ed1a400c8200004020209 .nil) .nil (.cons 531 0x7fffffffffffffffffffffffffffffffffffffffffffffffff .nil)
def st193 : St := .mk (.cons 266 1 0x35bf67c01c0000031b22f32038d40ed1a400c8200004020209 .nil) .nil (.cons 533 0x7fffffffffffffffffffffffffffffffffffffffffffffffff .nil)
def st194 : St := .mk (.cons 267 1 0x35bf67c01c0000031b22f32038d40ed1a400c8200004020209 .nil) .nil (.cons 535 0x7fffffffffffffffffffffffffffffffffffffffffffffffff .nil)
def st195 : St := .mk (.cons 268 1 0x35bf67c01c0000031b22f32038d40ed1a400c8200004020209 .nil) .nil (.cons 537 0x7fffffffffffffffffffffffffffffffffffffffffffffffff .nil)
def st196 : St := .mk (.cons 269 1 0x35bf67c01c0000031b22f32038d40ed1a400c8200004020209 .nil) .nil (.cons 539 0x7fffffffffffffffffffffffffffffffffffffffffffffffff .nil)
def st197 : St := .mk (.cons 270 1 0x35bf67c01c0000031b22f32038d40ed1a400c8200004020209 .nil) .nil (.cons 541 0x7fffffffffffffffffffffffffffffffffffffffffffffffff .nil)
def st198 : St := .mk (.cons 271 1 0x35bf67c01c0000031b22f32038d40ed1a400c8200004020209 .nil) .nil (.cons 543 0x7fffffffffffffffffffffffffffffffffffffffffffffffff .nil)
def st199 : St := .mk (.cons 272 1 0x35bf67c01c0000031b22f32038d40ed1a400c8200004020209 .nil) .nil (.cons 545 0x7fffffffffffffffffffffffffffffffffffffffffffffffff .nil)
def st200 : St := .mk (.cons 295 2 0x35bf67c01c0000031b22f32038d40ed1a400c8200004020209 .nil) .nil (.cons 591 0x7fffffffffffffffffffffffffffffffffffffffffffffffff .nil)
def st201 : St := .mk (.cons 178 2 0x24000000000000000000000000000000000000000000000000 .nil) (.cons 272 0x20000000000000000000000000000000 (.cons 300 0x20000000000000000000000000000000 (.cons 301 0x20000000000000000000000000000000 (.cons 302 0x20000000000000000000000000000000 (.cons 303 0x20000000000000000000000000000000 (.cons 304 0x20000000000000000000000000000000 (.cons 305 0x20000000000000000000000000000000 (.cons 306 0x20000000000000000000000000000000 (.cons 307 0x20000000000000000000000000000000 (.cons 308 0x20000000000000000000000000000000 .nil)))))))))) (.cons 0 0x3ffdfffffffe3ffffffffffefffeffffffffffffffffffff8f (.cons 238 0x10 (.cons 240 0x20 (.cons 242 0x40 (.cons 246 0x10000000000000000000000 (.cons 248 0x100000000000000000000000000 (.cons 250 0x40000000000000000000000000000000000000 (.cons 252 0x80000000000000000000000000000000000000 (.cons 254 0x100000000000000000000000000000000000000 (.cons 256 0x20000000000000000000000000000000000000000000000 (.cons 258 0x40000000000000000000000000000000000000000000000000 .nil)))))))))))
def st202 : St := .mk (.cons 294 2 0x35bf67c01c0000031b22f32038d40ed1a400c8200004020209 .nil) .nil (.cons 589 0x7fffffffffffffffffffffffffffffffffffffffffffffffff .nil)
def st203 : St := .mk (.cons 296 2 0x35bf67c01c0000031b22f32038d40ed1a400c8200004020209 (.cons 297 2 0x35bf67c01c0000031b22f32038d40ed1a400c8200004020209 .nil)) (.cons 293 0x35bf67c01c0000031b22f32038d40ed1a400c8200004020209 .nil) (.cons 374 0x40000000000000000000000000000000000 (.cons 376 0x80000000000000000000000000000000000 (.cons 378 0x100000000000000000000000000000000000 (.cons 380 0x200000000000000000000000000000000000 (.cons 382 0x400000000000000000000000000000000000 (.cons 384 0x800000000000000000000000000000000000 (.cons 595 0x7fffffffffffff03ffffffffffffffffffffffffffffffffff .nil)))))))
def st204 : St := .mk (.cons 180 2 0x24000000000000000020000000000000000000000000000000 .nil) .nil (.cons 361 0x7fffffffffffffffffffffffffffffffffffffffffffffffff .nil)
def st205 : St := .mk (.cons 181 2 0x24000000000000000020000000000000000000000000000000 .nil) .nil (.cons 363 0x7fffffffffffffffffffffffffffffffffffffffffffffffff .nil)
def st206 : St := .mk (.cons 34 5 0x10000000000000000000020000000000000000000000000001 .nil) .nil (.cons 69 0x7fffffffffffffffffffffffffffffffffffffffffffffffff .nil)
def st207 : St := .mk (.cons 176 2 0x24000000000000000000000000000000000000000000000000 .nil) (.cons 271 0x24000000000000000000000000000000000000000000000000 (.cons 272 0x24000000000000000000000000000000000000000000000000 (.cons 300 0x24000000000000000000000000000000000000000000000000 (.cons 301 0x24000000000000000000000000000000000000000000000000 (.cons 302 0x24000000000000000000000000000000000000000000000000 (.cons 303 0x24000000000000000000000000000000000000000000000000 (.cons 304 0x24000000000000000000000000000000000000000000000000 (.cons 305 0x24000000000000000000000000000000000000000000000000 (.cons 306 0x24000000000000000000000000000000000000000000000000 (.cons 307 0x24000000000000000000000000000000000000000000000000 (.cons 308 0x24000000000000000000000000000000000000000000000000 .nil))))))))))) (.cons 0 0x3ffdfffffffe3ffffffffffefffefffffffffeffffffffff8f (.cons 238 0x10 (.cons 240 0x20 (.cons 242 0x40 (.cons 244 0x1000000000000 (.cons 246 0x10000000000000000000000 (.cons 248 0x100000000000000000000000000 (.cons 250 0x40000000000000000000000000000000000000 (.cons 252 0x80000000000000000000000000000000000000 (.cons 254 0x100000000000000000000000000000000000000 (.cons 256 0x20000000000000000000000000000000000000000000000 (.cons 258 0x40000000000000000000000000000000000000000000000000 .nil))))))))))))
def st208 : St := .mk (.cons 60 3 0x800000000000000000000000000000008 .nil) .nil (.cons 121 0x7fffffffffffffffffffffffffffffffffffffffffffffffff .nil)
def st209 : St := .mk (.cons 58 5 0x10000000000000000000020000000000000000000000000001 .nil) (.cons 315 0x2000000000000000000000000000000000000000000000000 .nil) (.cons 0 0x7ffffffffffffffffffffffffffffffffffffffffffffffff7 (.cons 82 0x8 .nil))
def st210 : St := .mk (.cons 55 5 0x10000000000000000000020000000000000000000000000001 .nil) .nil (.cons 0 0x7ffffffffffffffffffffffffffffffffffffffffffffffff7 (.cons 566 0x8 .nil))
def st211 : St := .mk (.cons 57 5 0x10000000000000000000020000000000000000000000000001 .nil) (.cons 245 0x10000000000000000000020000000000000000000000000001 (.cons 326 0x2000000000000000000000000000000000400000000000000 (.cons 327 0x2000000000000000000000000000000000400000000000000 .nil))) (.cons 32 0x20000000000000000000000000000 (.cons 671 0x7ffffffffffffffffffffdffffffffffffffffffffffffffff .nil))
def st212 : St := .mk (.cons 56 5 0x10000000000000000000020000000000000000000000000001 .nil) (.cons 222 0x24000000000000000000000000000000000000000000000000 (.cons 223 0x24000000000000000000000000000000000000000000000000 (.cons 224 0x24000000000000000000000000000000000000000000000000 (.cons 231 0x24000000000000000000000000000000000000000000000000 .nil)))) (.cons 0 0x7ffffff1fffffffffffffffffffffffffffffffffffffffff7 (.cons 570 0x8 (.cons 572 0x2000000000000000000000000000000000000000000 (.cons 574 0x4000000000000000000000000000000000000000000 (.cons 576 0x8000000000000000000000000000000000000000000 .nil)))))
def st213 : St := .mk (.cons 59 5 0x10000000000000000000020000000000000000000000000001 .nil) .nil (.cons 0 0x7fffffffffffffffffdfffffffffffffffffffffffffffffff (.cons 586 0x20000000000000000000000000000000 .nil))
def st214 : St := .mk (.cons 238 1 0x35bf67c01c0000031b22f32038d40ed1a400c8200004020209 (.cons 239 1 0x35bf67c01c0000031b22f32038d40ed1a400c8200004020209 (.cons 240 1 0x35bf67c01c0000031b22f32038d40ed1a400c8200004020209 (.cons 241 1 0x35bf67c01c0000031b22f32038d40ed1a400c8200004020209 (.cons 276 1 0x35bf67c01c0000031b22f32038d40ed1a400c8200004020209 (.cons 277 1 0x35bf67c01c0000031b22f32038d40ed1a400c8200004020209 (.cons 279 1 0x35bf67c01c0000031b22f32038d40ed1a400c8200004020209 .nil))))))) .nil (.cons 553 0x75ffffffffffffffffffffffffffffffffffffffffffffffff (.cons 588 0x2000000000000000000000000000000000000000000000000 (.cons 590 0x8000000000000000000000000000000000000000000000000 .nil)))
def st215 : St := .mk (.cons 229 1 0x350000001c0000001820f32018d40ed1a40088200004000209 .nil) .nil (.cons 0 0x7dffffffffffffffffffffffffffffffffffffffffffffffff (.cons 592 0x2000000000000000000000000000000000000000000000000 .nil))
def st216 : St := .mk (.cons 257 1 0x35bf67c01c0000031b22f32038d40ed1a400c8200004020209 .nil) .nil (.cons 0 0x7dffffffffffffffffffffffffffffffffffffffffffffffff (.cons 594 0x2000000000000000000000000000000000000000000000000 .nil))
def st217 : St := .mk (.cons 258 1 0x35bf67c01c0000031b22f32038d40ed1a400c8200004020209 .nil) .nil (.cons 0 0x7dffffffffffffffffffffffffffffffffffffffffffffffff (.cons 596 0x2000000000000000000000000000000000000000000000000 .nil))
def st218 : St := .mk (.cons 223 1 0x35bf67c01c0000031b22f32038d40ed1a400c8200004020209 (.cons 224 1 0x35bf67c01c0000031b22f32038d40ed1a400c8200004020209 (.cons 225 1 0x35bf67c01c0000031b22f32038d40ed1a400c8200004020209 (.cons 226 1 0x35bf67c01c0000031b22f32038d40ed1a400c8200004020209 .nil)))) (.cons 274 0x1000110000000000000000000000000000 (.cons 275 0xbf67c0000000031302110020000000000040000000020000 (.cons 276 0xbf67c0000000031302110020000000000040000000020000 (.cons 277 0xbf67c0000000031302110020000000000040000000020000 (.cons 278 0xbf67c0000000031302110020000000000040000000020000 (.cons 279 0x1000110000000000000000000000000000 (.cons 280 0x1000110000000000000000000000000000 (.cons 281 0xbf67c0000000031302110020000000000040000000020000 (.cons 282 0x410000100000000000000000000000 (.cons 283 0x1000110000000000000000000000000000 (.cons 284 0xbf67c0000000031302110020000000000040000000020000 (.cons 285 0xbf67c0000000031302110020000000000040000000020000 (.cons 291 0xbf67c0000000031302110020000000000040000000020000 (.cons 292 0xbf67c0000000031302110020000000000040000000020000 (.cons 296 0xbf67c0000000031302110020000000000040000000020000 (.cons 297 0xbf67c0000000031302110020000000000040000000020000 (.cons 298 0x1000110000000000000000000000000000 (.cons 299 0xbf67c0000000031302110020000000000040000000020000 (.cons 300 0xbf67c0000000031302110020000000000040000000020000 (.cons 301 0xbf67c0000000031302110020000000000040000000020000 (.cons 302 0xbf67c0000000031302110020000000000040000000020000 (.cons 303 0xbf67c0000000031302110020000000000040000000020000 (.cons 304 0xbf67c0000000031302110020000000000040000000020000 (.cons 305 0xbf67c0000000031302110020000000000040000000020000 (.cons 306 0xbf67c0000000031302110020000000000040000000020000 (.cons 307 0xbf67c0000000031302110020000000000040000000020000 (.cons 308 0xbf67c0000000031302110020000000000040000000020000 .nil))))))))))))))))))))))))))) (.cons 0 0x3df9fffffffe3fff7ffdfefefffedffffffffe3fffffffff87 (.cons 238 0x10 (.cons 240 0x20 (.cons 242 0x40 (.cons 246 0x10000000000000000000000 (.cons 248 0x100000000000000000000000000 (.cons 250 0x40000000000000000000000000000000000000 (.cons 252 0x80000000000000000000000000000000000000 (.cons 254 0x100000000000000000000000000000000000000 (.cons 258 0x40000000000000000000000000000000000000000000000000 (.cons 430 0x8 (.cons 432 0x400000000000 (.cons 434 0x800000000000 (.cons 436 0x1000000000000 (.cons 438 0x2000000000000000000000 (.cons 440 0x2000000000000000000000000000000 (.cons 442 0x8000000000000000000000000000000000 (.cons 444 0x20000000000000000000000000000000000000000000000 (.cons 446 0x40000000000000000000000000000000000000000000000 (.cons 448 0x2000000000000000000000000000000000000000000000000 (.cons 598 0x10000000000000000000000000000 .nil)))))))))))))))))))))
def st219 : St := .mk (.cons 202 1 0x35bf67c01c0000031b22f32038d40ed1a400c8200004020209 (.cons 230 1 0x350000001c0000001820f32018d40ed1a40088200004000209 .nil)) (.cons 275 0x35bf67c01c0000031b22f32038d40ed1a400c8200004020209 (.cons 276 0x35bf67c01c0000031b22f32038d40ed1a400c8200004020209 (.cons 277 0x35bf67c01c0000031b22f32038d40ed1a400c8200004020209 (.cons 278 0x35bf67c01c0000031b22f32038d40ed1a400c8200004020209 (.cons 281 0x35bf67c01c0000031b22f32038d40ed1a400c8200004020209 (.cons 284 0x35bf67c01c0000031b22f32038d40ed1a400c8200004020209 (.cons 285 0x35bf67c01c0000031b22f32038d40ed1a400c8200004020209 (.cons 291 0x35bf67c01c0000031b22f32038d40ed1a400c8200004020209 (.cons 292 0x35bf67c01c0000031b22f32038d40ed1a400c8200004020209 (.cons 296 0x35bf67c01c0000031b22f32038d40ed1a400c8200004020209 (.cons 297 0x35bf67c01c0000031b22f32038d40ed1a400c8200004020209 (.cons 299 0x35bf67c01c0000031b22f32038d40ed1a400c8200004020209 (.cons 300 0x35bf67c01c0000031b22f32038d40ed1a400c8200004020209 (.cons 301 0x35bf67c01c0000031b22f32038d40ed1a400c8200004020209 (.cons 302 0x35bf67c01c0000031b22f32038d40ed1a400c8200004020209 (.cons 303 0x35bf67c01c0000031b22f32038d40ed1a400c8200004020209 (.cons 304 0x35bf67c01c0000031b22f32038d40ed1a400c8200004020209 (.cons 305 0x35bf67c01c0000031b22f32038d40ed1a400c8200004020209 (.cons 306 0x35bf67c01c0000031b22f32038d40ed1a400c8200004020209 (.cons 307 0x35bf67c01c0000031b22f32038d40ed1a400c8200004020209 (.cons 308 0x35bf67c01c0000031b22f32038d40ed1a400c8200004020209 .nil))))))))))))))))))))) (.cons 0 0x3df9fffffffe3fff7ffdfffefffedffffffffe3fffffffff87 (.cons 238 0x10 (.cons 240 0x20 (.cons 242 0x40 (.cons 246 0x10000000000000000000000 (.cons 248 0x100000000000000000000000000 (.cons 250 0x40000000000000000000000000000000000000 (.cons 252 0x80000000000000000000000000000000000000 (.cons 254 0x100000000000000000000000000000000000000 (.cons 258 0x40000000000000000000000000000000000000000000000000 (.cons 430 0x8 (.cons 434 0x800000000000 (.cons 436 0x1000000000000 (.cons 438 0x2000000000000000000000 (.cons 442 0x8000000000000000000000000000000000 (.cons 444 0x20000000000000000000000000000000000000000000000 (.cons 446 0x40000000000000000000000000000000000000000000000 (.cons 448 0x2000000000000000000000000000000000000000000000000 (.cons 604 0x400000000000 (.cons 606 0x2000000000000000000000000000000 .nil))))))))))))))))))))
def st220 : St := .mk (.cons 273 1 0x35bf67c01c0000031b22f32038d40ed1a400c8200004020209 .nil) .nil (.cons 0 0x7f7fffffffffffffffffffffffffffffffffffffffffffffff (.cons 610 0x800000000000000000000000000000000000000000000000 .nil))
def st221 : St := .mk (.cons 201 1 0x35bf67c01c0000031b22f32038d40ed1a400c8200004020209 .nil) (.cons 275 0x35bf67c01c0000031b22f32038d40ed1a400c8200004020209 (.cons 276 0x35bf67c01c0000031b22f32038d40ed1a400c8200004020209 (.cons 277 0x35bf67c01c0000031b22f32038d40ed1a400c8200004020209 (.cons 278 0x35bf67c01c0000031b22f32038d40ed1a400c8200004020209 (.cons 281 0x35bf67c01c0000031b22f32038d40ed1a400c8200004020209 (.cons 284 0x35bf67c01c0000031b22f32038d40ed1a400c8200004020209 (.cons 285 0x35bf67c01c0000031b22f32038d40ed1a400c8200004020209 (.cons 291 0x35bf67c01c0000031b22f32038d40ed1a400c8200004020209 (.cons 292 0x35bf67c01c0000031b22f32038d40ed1a400c8200004020209 (.cons 296 0x35bf67c01c0000031b22f32038d40ed1a400c8200004020209 (.cons 297 0x35bf67c01c0000031b22f32038d40ed1a400c8200004020209 (.cons 299 0x35bf67c01c0000031b22f32038d40ed1a400c8200004020209 (.cons 300 0x35bf67c01c0000031b22f32038d40ed1a400c8200004020209 (.cons 301 0x35bf67c01c0000031b22f32038d40ed1a400c8200004020209 (.cons 302 0x35bf67c01c0000031b22f32038d40ed1a400c8200004020209 (.cons 303 0x35bf67c01c0000031b22f32038d40ed1a400c8200004020209 (.cons 304 0x35bf67c01c0000031b22f32038d40ed1a400c8200004020209 (.cons 305 0x35bf67c01c0000031b22f32038d40ed1a400c8200004020209 (.cons 306 0x35bf67c01c0000031b22f32038d40ed1a400c8200004020209 (.cons 307 0x35bf67c01c0000031b22f32038d40ed1a400c8200004020209 (.cons 308 0x35bf67c01c0000031b22f32038d40ed1a400c8200004020209 .nil))))))))))))))))))))) (.cons 0 0x3df9fffffffe3fff7ffdfffefffedffffffffe7fffffffff87 (.cons 238 0x10 (.cons 240 0x20 (.cons 242 0x40 (.cons 246 0x10000000000000000000000 (.cons 248 0x100000000000000000000000000 (.cons 250 0x40000000000000000000000000000000000000 (.cons 252 0x80000000000000000000000000000000000000 (.cons 254 0x100000000000000000000000000000000000000 (.cons 258 0x40000000000000000000000000000000000000000000000000 (.cons 430 0x8 (.cons 434 0x800000000000 (.cons 436 0x1000000000000 (.cons 438 0x2000000000000000000000 (.cons 442 0x8000000000000000000000000000000000 (.cons 444 0x20000000000000000000000000000000000000000000000 (.cons 446 0x40000000000000000000000000000000000000000000000 (.cons 448 0x2000000000000000000000000000000000000000000000000 (.cons 606 0x2000000000000000000000000000000 .nil)))))))))))))))))))
def st222 : St := .mk (.cons 278 1 0x35bf67c01c0000031b22f32038d40ed1a400c8200004020209 .nil) .nil (.cons 557 0x7fffffffffffffffffffffffffffffffffffffffffffffffff .nil)
def st223 : St := .mk (.cons 188 1 0x35bf67c01c0000031b22f32038d40ed1a400c8200004020209 (.cons 198 1 0x35bf67c01c0000031b22f32038d40ed1a400c8200004020209 .nil)) (.cons 249 0x4000000000000000000000000000000000000000000000000 (.cons 253 0x4000000000000000000800000000211000080200000000200 (.cons 274 0x4000000000000001000100000000000000000000000000000 (.cons 275 0x4bf67c0000000031302100020000000000040000000020000 (.cons 276 0x4bf67c0000000031302100020000000000040000000020000 (.cons 277 0x4bf67c0000000031302100020000000000040000000020000 (.cons 278 0x4bf67c0000000031302100020000000000040000000020000 (.cons 279 0x4000000000000001000100000000000000000000000000000 (.cons 280 0x4000000000000001000100000000000000000000000000000 (.cons 281 0x4bf67c0000000031302100020000000000040000000020000 (.cons 283 0x4000000000000001000100000000000000000000000000000 (.cons 284 0x4bf67c0000000031302100020000000000040000000020000 (.cons 285 0x4bf67c0000000031302100020000000000040000000020000 (.cons 291 0x4bf67c0000000031302100020000000000040000000020000 (.cons 292 0x4bf67c0000000031302100020000000000040000000020000 (.cons 296 0x4bf67c0000000031302100020000000000040000000020000 (.cons 297 0x4bf67c0000000031302100020000000000040000000020000 (.cons 298 0x4000000000000001000100000000000000000000000000000 (.cons 299 0x4bf67c0000000031302100020000000000040000000020000 (.cons 300 0x4bf67c0000000031302100020000000000040000000020000 (.cons 301 0x4bf67c0000000031302100020000000000040000000020000 (.cons 302 0x4bf67c0000000031302100020000000000040000000020000 (.cons 303 0x4bf67c0000000031302100020000000000040000000020000 (.cons 304 0x4bf67c0000000031302100020000000000040000000020000 (.cons 305 0x4bf67c0000000031302100020000000000040000000020000 (.cons 306 0x4bf67c0000000031302100020000000000040000000020000 (.cons 307 0x4bf67c0000000031302100020000000000040000000020000 (.cons 308 0x4bf67c0000000031302100020000000000040000000020000 .nil)))))))))))))))))))))))))))) (.cons 0 0x3df9fffffffe3fff7ffdfffefffedffffffbfe3fffffffff87 (.cons 152 0x400000000000000 (.cons 238 0x10 (.cons 240 0x20 (.cons 242 0x40 (.cons 246 0x10000000000000000000000 (.cons 248 0x100000000000000000000000000 (.cons 250 0x40000000000000000000000000000000000000 (.cons 252 0x80000000000000000000000000000000000000 (.cons 254 0x100000000000000000000000000000000000000 (.cons 258 0x40000000000000000000000000000000000000000000000000 (.cons 430 0x8 (.cons 432 0x400000000000 (.cons 434 0x800000000000 (.cons 436 0x1000000000000 (.cons 438 0x2000000000000000000000 (.cons 440 0x2000000000000000000000000000000 (.cons 442 0x8000000000000000000000000000000000 (.cons 444 0x20000000000000000000000000000000000000000000000 (.cons 446 0x40000000000000000000000000000000000000000000000 (.cons 448 0x2000000000000000000000000000000000000000000000000 .nil)))))))))))))))))))))
def st224 : St := .mk (.cons 147 2 0x14000000000000000000820000000211200080200000000201 (.cons 217 1 0x14000000000000001000920000000211200080200000000201 (.cons 218 1 0x14000000000000001000920000000211200080200000000201 .nil))) .nil (.cons 295 0x7fffffffffffffffefffefffffffffffffffffffffffffffff (.cons 618 0x100000000000000000000000000000 (.cons 620 0x1000000000000000000000000000000000 .nil)))
def st225 : St := .mk (.cons 183 1 0x350000001c0000001820f32018d40ed1a40088200004000209 (.cons 203 1 0x35bf67c01c0000031b22f32038d40ed1a400c8200004020209 (.cons 204 1 0x35bf67c01c0000031b22f32038d40ed1a400c8200004020209 (.cons 205 1 0x35bf67c01c0000031b22f32038d40ed1a400c8200004020209 (.cons 207 1 0x35bf67c01c0000031b22f32038d40ed1a400c8200004020209 (.cons 208 1 0x35bf67c01c0000031b22f32038d40ed1a400c8200004020209 (.cons 209 1 0x35bf67c01c0000031b22f32038d40ed1a400c8200004020209 (.cons 210 1 0x35bf67c01c0000031b22f32038d40ed1a400c8200004020209 (.cons 211 1 0x35bf67c01c0000031b22f32038d40ed1a400c8200004020209 (.cons 212 1 0x35bf67c01c0000031b22f32038d40ed1a400c8200004020209 (.cons 213 1 0x35bf67c01c0000031b22f32038d40ed1a400c8200004020209 (.cons 214 1 0x35bf67c01c0000031b22f32038d40ed1a400c8200004020209 (.cons 215 1 0x35bf67c01c0000031b22f32038d40ed1a400c8200004020209 (.cons 216 1 0x35bf67c01c0000031b22f32038d40ed1a400c8200004020209 (.cons 219 1 0x350000001c0000001820f32018d40ed1a40088200004000209 (.cons 220 1 0x350000001c0000001820f32018d40ed1a40088200004000209 (.cons 221 1 0x350000001c0000001820f32018d40ed1a40088200004000209 (.cons 222 1 0x350000001c0000001820f32018d40ed1a40088200004000209 (.cons 231 1 0x35bf67c01c0000031b22f32038d40ed1a400c8200004020209 (.cons 232 1 0x35bf67c01c0000031b22f32038d40ed1a400c8200004020209 (.cons 233 1 0x35bf67c01c0000031b22f32038d40ed1a400c8200004020209 (.cons 234 1 0x35bf67c01c0000031b22f32038d40ed1a400c8200004020209 (.cons 235 1 0x35bf67c01c0000031b22f32038d40ed1a400c8200004020209 (.cons 236 1 0x35bf67c01c0000031b22f32038d40ed1a400c8200004020209 (.cons 237 1 0x35bf67c01c0000031b22f32038d40ed1a400c8200004020209 (.cons 274 1 0x35bf67c01c0000031b22f32038d40ed1a400c8200004020209 (.cons 275 1 0x350000001c0000001820f32018d40ed1a40088200004000209 .nil))))))))))))))))))))))))))) .nil (.cons 367 0x7f40983ffffffffcfcfdffffdfffffffffffbffffffffdffff (.cons 622 0x20000 (.cons 624 0x40000000000000 (.cons 626 0x20000000000000000000000000 (.cons 628 0x2000000000000000000000000000000 (.cons 630 0x100000000000000000000000000000000 (.cons 632 0x200000000000000000000000000000000 (.cons 634 0x10000000000000000000000000000000000 (.cons 636 0x20000000000000000000000000000000000 (.cons 638 0x40000000000000000000000000000000000000000000 (.cons 640 0x80000000000000000000000000000000000000000000 (.cons 642 0x100000000000000000000000000000000000000000000 (.cons 644 0x200000000000000000000000000000000000000000000 (.cons 646 0x400000000000000000000000000000000000000000000 (.cons 648 0x2000000000000000000000000000000000000000000000 (.cons 650 0x4000000000000000000000000000000000000000000000 (.cons 652 0x10000000000000000000000000000000000000000000000 (.cons 654 0x20000000000000000000000000000000000000000000000 (.cons 656 0x40000000000000000000000000000000000000000000000 (.cons 658 0x80000000000000000000000000000000000000000000000 (.cons 660 0x100000000000000000000000000000000000000000000000 (.cons 662 0x200000000000000000000000000000000000000000000000 (.cons 664 0x800000000000000000000000000000000000000000000000 .nil)))))))))))))))))))))))
def st226 : St := .mk (.cons 190 1 0x35bf67c01c0000031b22f32038d40ed1a400c8200004020209 .nil) .nil (.cons 381 0x7fffffffffffffffffffffffffffffffffffffffffffffffff .nil)
def st227 : St := .mk (.cons 191 1 0x35bf67c01c0000031b22f32038d40ed1a400c8200004020209 .nil) .nil (.cons 383 0x7fffffffffffffffffffffffffffffffffffffffffffffffff .nil)
def st228 : St := .mk (.cons 192 1 0x35bf67c01c0000031b22f32038d40ed1a400c8200004020209 .nil) .nil (.cons 385 0x7fffffffffffffffffffffffffffffffffffffffffffffffff .nil)
def st229 : St := .mk (.cons 185 1 0x350000001c0000001820f32018d40ed1a40088200004000209 .nil) .nil (.cons 371 0x7fffffffffffffffffffffffffffffffffffffffffffffffff .nil)
def st230 : St := .mk (.cons 187 1 0x350000001c0000001820f32018d40ed1a40088200004000209 .nil) .nil (.cons 375 0x7fffffffffffffffffffffffffffffffffffffffffffffffff .nil)
def st231 : St := .mk (.cons 193 1 0x35bf67c01c0000031b22f32038d40ed1a400c8200004020209 .nil) .nil (.cons 387 0x7fffffffffffffffffffffffffffffffffffffffffffffffff .nil)
def st232 : St := .mk (.cons 186 1 0x350000001c0000001820f32018d40ed1a40088200004000209 .nil) .nil (.cons 373 0x7fffffffffffffffffffffffffffffffffffffffffffffffff .nil)
def st233 : St := .mk (.cons 206 1 0x35bf67c01c0000031b22f32038d40ed1a400c8200004020209 .nil) .nil (.cons 413 0x7fffffffffffffffffffffffffffffffffffffffffffffffff .nil)
def st234 : St := .mk (.cons 194 1 0x35bf67c01c0000031b22f32038d40ed1a400c8200004020209 .nil) .nil (.cons 389 0x7fffffffffffffffffffffffffffffffffffffffffffffffff .nil)
def st235 : St := .mk (.cons 195 1 0x35bf67c01c0000031b22f32038d40ed1a400c8200004020209 .nil) .nil (.cons 391 0x7fffffffffffffffffffffffffffffffffffffffffffffffff .nil)
def st236 : St := .mk (.cons 196 1 0x35bf67c01c0000031b22f32038d40ed1a400c8200004020209 .nil) .nil (.cons 393 0x7fffffffffffffffffffffffffffffffffffffffffffffffff .nil)
def st237 : St := .mk (.cons 197 1 0x35bf67c01c0000031b22f32038d40ed1a400c8200004020209 .nil) .nil (.cons 395 0x7fffffffffffffffffffffffffffffffffffffffffffffffff .nil)
def st238 : St := .mk (.cons 189 1 0x35bf67c01c0000031b22f32038d40ed1a400c8200004020209 .nil) .nil (.cons 379 0x7fffffffffffffffffffffffffffffffffffffffffffffffff .nil)
def st239 : St := .mk (.cons 184 1 0x350000001c0000001820f32018d40ed1a40088200004000209 .nil) .nil (.cons 369 0x7fffffffffffffffffffffffffffffffffffffffffffffffff .nil)
def st240 : St := .mk (.cons 199 1 0x35bf67c01c0000031b22f32038d40ed1a400c8200004020209 .nil) .nil (.cons 399 0x7fffffffffffffffffffffffffffffffffffffffffffffffff .nil)
def st241 : St := .mk (.cons 200 1 0x35bf67c01c0000031b22f32038d40ed1a400c8200004020209 .nil) .nil (.cons 401 0x7fffffffffffffffffffffffffffffffffffffffffffffffff .nil)
def st242 : St := .mk (.cons 35 5 0x10000000000000000000000000000000000000000000000001 .nil) .nil (.cons 0 0x7ffffffffffffffffffffffffbffffffffffffffffffffffff (.cons 666 0x4000000000000000000000000 .nil))
def st243 : St := .mk (.cons 356 1 0x3400000000c000000000820000000000000000000000000001 .nil) .nil (.cons 713 0x7fffffffffffffffffffffffffffffffffffffffffffffffff .nil)
def st244 : St := .mk (.cons 117 2 0x24000026000000000022000100000000008400000000000000 (.cons 357 1 0x24000000000000000000000000000000000000000000000000 .nil)) .nil (.cons 0 0x5bffffffffffffffffffffffffffffffffffffffffffffffff (.cons 668 0x4000000000000000000000000000000000000000000000000 (.cons 670 0x20000000000000000000000000000000000000000000000000 .nil)))
def st245 : St := .mk (.cons 115 5 0x10000000000000000000020000000000000000000000000001 .nil) .nil (.cons 0 0x7dffffffffffffffffffffffffffffffffffffffffffffffff (.cons 672 0x2000000000000000000000000000000000000000000000000 .nil))
def st246 : St := .mk (.cons 116 5 0x10000000000000000000020000000000000000000000000001 .nil) .nil (.cons 233 0x7fffffffffffffffffffffffffffffffffffffffffffffffff .nil)
def st247 : St := .mk (.cons 122 2 0x30000000000000000000020000000800000000000000000001 .nil) (.cons 274 0x30000000000000001000120000000800000000000000000001 (.cons 275 0x30bf67c0000000031302120020000800000040000000020001 (.cons 276 0x30bf67c0000000031302120020000800000040000000020001 (.cons 277 0x30bf67c0000000031302120020000800000040000000020001 (.cons 278 0x30bf67c0000000031302120020000800000040000000020001 (.cons 279 0x30000000000000001000120000000800000000000000000001 (.cons 280 0x30000000000000001000120000000800000000000000000001 (.cons 281 0x30bf67c0000000031302120020000800000040000000020001 (.cons 283 0x30000000000000001000120000000800000000000000000001 (.cons 284 0x30bf67c0000000031302120020000800000040000000020001 (.cons 285 0x30bf67c0000000031302120020000800000040000000020001 (.cons 291 0x30bf67c0000000031302120020000800000040000000020001 (.cons 292 0x30bf67c0000000031302120020000800000040000000020001 (.cons 296 0x30bf67c0000000031302120020000800000040000000020001 (.cons 297 0x30bf67c0000000031302120020000800000040000000020001 (.cons 298 0x30000000000000001000120000000800000000000000000001 (.cons 299 0x30bf67c0000000031302120020000800000040000000020001 (.cons 300 0x30bf67c0000000031302120020000800000040000000020001 (.cons 301 0x30bf67c0000000031302120020000800000040000000020001 (.cons 302 0x30bf67c0000000031302120020000800000040000000020001 (.cons 303 0x30bf67c0000000031302120020000800000040000000020001 (.cons 304 0x30bf67c0000000031302120020000800000040000000020001 (.cons 305 0x30bf67c0000000031302120020000800000040000000020001 (.cons 306 0x30bf67c0000000031302120020000800000040000000020001 (.cons 307 0x30bf67c0000000031302120020000800000040000000020001 (.cons 308 0x30bf67c0000000031302120020000800000040000000020001 .nil)))))))))))))))))))))))))) (.cons 0 0x3df9fffffffe3fff7ffdfffefffedffffffffe3fffffffff87 (.cons 238 0x10 (.cons 240 0x20 (.cons 242 0x40 (.cons 246 0x10000000000000000000000 (.cons 248 0x100000000000000000000000000 (.cons 250 0x40000000000000000000000000000000000000 (.cons 252 0x80000000000000000000000000000000000000 (.cons 254 0x100000000000000000000000000000000000000 (.cons 258 0x40000000000000000000000000000000000000000000000000 (.cons 430 0x8 (.cons 432 0x400000000000 (.cons 434 0x800000000000 (.cons 436 0x1000000000000 (.cons 438 0x2000000000000000000000 (.cons 440 0x2000000000000000000000000000000 (.cons 442 0x8000000000000000000000000000000000 (.cons 444 0x20000000000000000000000000000000000000000000000 (.cons 446 0x40000000000000000000000000000000000000000000000 (.cons 448 0x2000000000000000000000000000000000000000000000000 .nil))))))))))))))))))))
def st248 : St := .mk (.cons 121 2 0x30000000000000000000020000000800000000000000000001 .nil) (.cons 244 0x30000000000000000000020000000800000000000000000001 .nil) (.cons 0 0x7ffffffffffffffffffffffffffffffffffffffffffffffff7 (.cons 310 0x8 .nil))
def st249 : St := .mk (.cons 119 5 0x10000000000000000000020000000000000000000000000001 .nil) .nil (.cons 239 0x7fffffffffffffffffffffffffffffffffffffffffffffffff .nil)
def st250 : St := .mk (.cons 112 1 0x10000000000000000000020000000000000000000000000001 .nil) .nil (.cons 0 0x7fffffffffffffffffffffffffffffffffffffff7fffffffff (.cons 678 0x8000000000 .nil))
def st251 : St := .mk (.cons 110 5 0x10000000000000000000020000000000000000000000000001 .nil) .nil (.cons 221 0x7fffffffffffffffffffffffffffffffffffffffffffffffff .nil)
def st252 : St := .mk (.cons 111 1 0x10000000000000000000020000000000000000000000000001 .nil) .nil (.cons 223 0x7fffffffffffffffffffffffffffffffffffffffffffffffff .nil)
def st253 : St := .mk (.cons 39 1 0x10000000000000000000000000000800000000000000000001 .nil) .nil (.cons 0 0x7dffffffffffffffffffffffffffffffffffffffffffffffff (.cons 680 0x2000000000000000000000000000000000000000000000000 .nil))
def st254 : St := .mk (.cons 40 1 0x10000000000000000000000000000800000000000000000001 .nil) (.cons 216 0x24000000000000000000000000000000000000000000000000 (.cons 217 0x24000000000000000000000000000000000000000000000000 .nil)) (.cons 0 0x7ffffffffffffffffffffffefffffffffffffdfffffefffff7 (.cons 682 0x8 (.cons 684 0x1000000 (.cons 686 0x2000000000000 (.cons 688 0x100000000000000000000000000 .nil)))))
def st255 : St := .mk (.cons 51 5 0x10000000000000000000000000000000000000000000000001 .nil) .nil (.cons 103 0x7fffffffffffffffffffffffffffffffffffffffffffffffff .nil)
def st256 : St := .mk (.cons 36 5 0x10000000000000000000000000000000000000000000000001 .nil) (.cons 258 0x10000000000000000000000000000000000000000000000001 .nil) (.cons 297 0x7ffffffffffffffffffffffffffff7ffffffffffffffffffff (.cons 300 0x800000000000000000000 .nil))
def st257 : St := .mk (.cons 50 5 0x10000000000000000000000000000000000000000000000001 .nil) .nil (.cons 101 0x7fffffffffffffffffffffffffffffffffffffffffffffffff .nil)
def st258 : St := .mk (.cons 24 1 0x24000000000000000000000000000000000000000000000000 (.cons 25 1 0x24000000000000000000000000000000000000000000000000 .nil)) .nil (.cons 49 0x7dffffffffffffffffffffffffffffffffffffffffffffffff (.cons 696 0x2000000000000000000000000000000000000000000000000 .nil))
def st259 : St := .mk (.cons 20 4 0x10000000000000000000000000000000000000000000000001 (.cons 23 1 0x24000000000000000000000000000000000000000000000000 .nil)) .nil (.cons 0 0x5bffffffffffffffffffffffffffffffffffffffffffffffff (.cons 698 0x4000000000000000000000000000000000000000000000000 (.cons 700 0x20000000000000000000000000000000000000000000000000 .nil)))
def st260 : St := .mk (.cons 22 1 0x24000000000000000000000000000000000000000000000000 .nil) .nil (.cons 45 0x7fffffffffffffffffffffffffffffffffffffffffffffffff .nil)
def st261 : St := .mk (.cons 140 4 0x14000000000000000000820000000211000080200000000201 .nil) (.cons 256 0x14000000000000000000820000000a11200080200000000201 (.cons 257 0x14000000000000000000820000000a11200080200000000201 .nil)) (.cons 291 0x7fffffffffffffffffffffffffbfffffffffffffffffffffff (.cons 702 0x400000000000000000000000 .nil))
def st262 : St := .mk (.cons 143 1 0x14000000000000000000820000400a11200080200000000201 (.cons 172 1 0x34000000000000000000820000400a11200080200000000201 .nil)) .nil (.cons 287 0x5fffffffffffffffffffffffffffffffffffffffffffffffff (.cons 708 0x20000000000000000000000000000000000000000000000000 .nil))
def st263 : St := .mk (.cons 171 1 0x350000001c0000000000820000400a11200088200000000201 .nil) .nil (.cons 343 0x7fffffffffffffffffffffffffffffffffffffffffffffffff .nil)
def st264 : St := .mk (.cons 182 1 0x350000001c0000000000820000400a11200088200000000201 (.cons 217 1 0x350000001c0000001020920000400a11200088200000000209 (.cons 218 1 0x350000001c0000001020920000400a11200088200000000209 .nil))) (.cons 319 0x350000001c0000000000820000400a11200088200000000201 (.cons 320 0x350000001c0000000000820000400a11200088200000000201 .nil)) (.cons 618 0x100000000000000000000000000000 (.cons 620 0x1000000000000000000000000000000000 (.cons 641 0x7fffffffffffffffefdfeffffffffffffffffffffffffffff7 (.cons 710 0x8 (.cons 712 0x20000000000000000000000000000000 .nil)))))
def st265 : St := .mk (.cons 125 5 0x14000000000000000000020000000000000000000000000001 .nil) (.cons 267 0x14000000000000000000020000000000000000000000000001 .nil) (.cons 341 0x7ffffffffffffffffffffffffffffffeffff7fffffffffffff (.cons 368 0x80000000000000 (.cons 370 0x1000000000000000000 .nil)))
def st266 : St := .mk (.cons 129 2 0x14000000000000000000820000000011000080000000000001 .nil) (.cons 246 0x14000000000000000000820000000011000080000000000001 (.cons 247 0x14000000000000000000820000000011000080000000000001 (.cons 248 0x14000000000000000000820000000011000080000000000001 (.cons 253 0x14000000000000000000820000000211000080200000000201 .nil)))) (.cons 0 0x7dfffffffffffffffffffffffffffffffffbffffffffffffff (.cons 110 0x2000000000000000000000000000000000000000000000000 (.cons 152 0x400000000000000 .nil)))
def st267 : St := .mk (.cons 153 3 0x140000001c0000000000820000000001000080000000000001 (.cons 156 1 0x340000001c0000000000820000000001000080000000000001 .nil)) .nil (.cons 307 0x5fffffffffffffffffffffffffffffffffffffffffffffffff (.cons 722 0x20000000000000000000000000000000000000000000000000 .nil))
def st268 : St := .mk (.cons 155 1 0x340000001c0000000000820000000001000080000000000001 .nil) .nil (.cons 311 0x7fffffffffffffffffffffffffffffffffffffffffffffffff .nil)
def st269 : St := .mk (.cons 157 1 0x340000001c0000000000820000000001000080000000000001 (.cons 217 1 0x340000001c0000001000b20000040001000080000000000009 (.cons 218 1 0x340000001c0000001000b20000040001000080000000000009 .nil))) (.cons 264 0x340000001c0000000000820000000001000080000000000009 .nil) (.cons 321 0x7fffffffffffffffefffcffffffbffffffffffffffffffffff (.cons 618 0x100000000000000000000000000000 (.cons 620 0x1000000000000000000000000000000000 (.cons 724 0x40000000000000000000000 (.cons 726 0x200000000000000000000000000000 .nil)))))
def st270 : St := .mk (.cons 133 4 0x14000000000000000000020000000000000000000000000001 .nil) (.cons 267 0x14000000000000000000820000000000000000000000000001 .nil) (.cons 341 0x7ffffffffffffffffffffffffffffffeffff7fffffffffffff (.cons 368 0x80000000000000 (.cons 370 0x1000000000000000000 .nil)))
def st271 : St := .mk (.cons 166 2 0x14000000000000000000820000000000000000000000000001 (.cons 217 1 0x14000000000000001000920000000000000000000000000001 (.cons 218 1 0x14000000000000001000920000000000000000000000000001 .nil))) .nil (.cons 333 0x7fffffffffffffffefffefffffffffffffffffffffffffffff (.cons 618 0x100000000000000000000000000000 (.cons 620 0x1000000000000000000000000000000000 .nil)))
def st272 : St := .mk (.cons 168 2 0x14000000000000000000820000000000000000000000000001 (.cons 169 2 0x14000000000000000000820000000000000000000000000001 .nil)) .nil (.cons 337 0x7fffffffffffffffffffffffffffffffffff7fffffffffffff (.cons 732 0x80000000000000 .nil))
def st273 : St := .mk (.cons 165 2 0x14000000000000000000820000000000000000000000000001 (.cons 167 2 0x14000000000000000000820000000000000000000000000001 (.cons 217 1 0x14000000000000001000920000000000000080000000000001 (.cons 218 1 0x14000000000000001000920000000000000080000000000001 .nil)))) .nil (.cons 331 0x7fffffffffffffffefffefffffffffffffff7fffffffffffff (.cons 618 0x100000000000000000000000000000 (.cons 620 0x1000000000000000000000000000000000 (.cons 734 0x80000000000000 .nil))))
def st274 : St := .mk (.cons 325 1 0x14000000000000000000820000000000000000000000000001 (.cons 326 1 0x14000000000000000000820000000000000000000000000001 .nil)) (.cons 324 0x1400000000c000000400820000000000000000000000000001 .nil) (.cons 0 0x7fffffeffdffffffbfffffffffffffffffbfffffffffffffff (.cons 736 0x4000000000000000 (.cons 738 0x4000000000000000000000000000000000 (.cons 740 0x20000000000000000000000000000000000000000 (.cons 742 0x10000000000000000000000000000000000000000000 .nil)))))
def st275 : St := .mk (.cons 132 4 0x14000000000000000000020000000000000000000000000001 .nil) .nil (.cons 265 0x7fffffffffffffffffffffffffffffffffffffffffffffffff .nil)
def st276 : St := .mk (.cons 321 1 0x14000000000000000000020000000000000000000000000001 (.cons 324 1 0x14000000000000000000820000000000000000000000000001 .nil)) (.cons 323 0x14000000000000000000820000000000000000000000000001 .nil) (.cons 550 0x800000000000000000000000000000 (.cons 643 0x7fffffffffffffffffff7fffffffffffffffffffffffffffff .nil))
def st277 : St := .mk (.cons 323 1 0x14000000000000000000820000000000000000000000000001 .nil) .nil (.cons 647 0x7fffffffffffffffffffffffffffffffffffffffffffffffff .nil)
def st278 : St := .mk (.cons 178 3 0x24000000000000000000000000000000000000000000000000 .nil) .nil (.cons 0 0x7fffffffffffffffffdfffffffffffffffffffffffffffffff (.cons 748 0x20000000000000000000000000000000 .nil))
def st279 : St := .mk (.cons 296 3 0x35bf67c01c0000031b22f32038d40ed1a400c8200004020209 .nil) .nil (.cons 593 0x7fffffffffffffffffffffffffffffffffffffffffffffffff .nil)
def st280 : St := .mk (.cons 176 3 0x24000000000000000000000000000000000000000000000000 .nil) .nil (.cons 353 0x7fffffffffffffffffffffffffffffffffffffffffffffffff .nil)
def st281 : St := .mk (.cons 58 6 0x10000000000000000000020000000000000000000000000001 .nil) .nil (.cons 0 0x7dffffffffffffffffffffffffffffffffffffffffffffffff (.cons 750 0x2000000000000000000000000000000000000000000000000 .nil))
def st282 : St := .mk (.cons 55 6 0x10000000000000000000020000000000000000000000000001 .nil) .nil (.cons 0 0x7fffffffffffffffffffffffffdfffffffffffffffffffffff (.cons 752 0x200000000000000000000000 .nil))
def st283 : St := .mk (.cons 57 6 0x10000000000000000000020000000000000000000000000001 .nil) .nil (.cons 115 0x7fffffffffffffffffffffffffffffffffffffffffffffffff .nil)
def st284 : St := .mk (.cons 66 1 0x24000000000000000000000000000000000000000000000000 .nil) (.cons 225 0x24000026000000000002000100000000000000000000000000 .nil) (.cons 0 0x7ffffffffffdfffffffeffaf7ffcbfffeffffff7f41dfff7ff (.cons 754 0x800 (.cons 756 0x2000000 (.cons 758 0x20000000 (.cons 760 0x40000000 (.cons 762 0x80000000 (.cons 764 0x100000000 (.cons 766 0x200000000 (.cons 768 0x800000000 (.cons 770 0x80000000000 (.cons 772 0x100000000000000000 (.cons 774 0x4000000000000000000000 (.cons 776 0x10000000000000000000000 (.cons 778 0x20000000000000000000000 (.cons 780 0x80000000000000000000000000 (.cons 782 0x1000000000000000000000000000 (.cons 784 0x4000000000000000000000000000 (.cons 786 0x1000000000000000000000000000000 (.cons 788 0x200000000000000000000000000000000000000 .nil)))))))))))))))))))
def st285 : St := .mk (.cons 101 1 0x24000000000000000000000000000000000000000000000000 .nil) .nil (.cons 0 0x7dffffffffffffffffffffffffffffffffffffffffffffffff (.cons 792 0x2000000000000000000000000000000000000000000000000 .nil))
def st286 : St := .mk (.cons 100 1 0x24000000000000000000000000000000000000000000000000 .nil) .nil (.cons 0 0x7fffffefffffffffffffffffffffffffffffffffffffffffff (.cons 794 0x10000000000000000000000000000000000000000000 .nil))
def st287 : St := .mk (.cons 102 1 0x24000000000000000000000000000000000000000000000000 .nil) .nil (.cons 0 0x7fffffefffffffffffffffffffffffffffffffffffffffffff (.cons 796 0x10000000000000000000000000000000000000000000 .nil))
def st288 : St := .mk (.cons 56 6 0x10000000000000000000020000000000000000000000000001 (.cons 63 1 0x24000000000000000000000000000000000000000000000000 .nil)) .nil (.cons 0 0x5bffffffffffffffffffffffffffffffffffffffffffffffff (.cons 798 0x4000000000000000000000000000000000000000000000000 (.cons 800 0x20000000000000000000000000000000000000000000000000 .nil)))
def st289 : St := .mk (.cons 62 1 0x24000000000000000000000000000000000000000000000000 .nil) .nil (.cons 125 0x7fffffffffffffffffffffffffffffffffffffffffffffffff .nil)
def st290 : St := .mk (.cons 64 1 0x24000000000000000000000000000000000000000000000000 .nil) .nil (.cons 129 0x7fffffffffffffffffffffffffffffffffffffffffffffffff .nil)
def st291 : St := .mk (.cons 65 1 0x24000000000000000000000000000000000000000000000000 .nil) .nil (.cons 131 0x7fffffffffffffffffffffffffffffffffffffffffffffffff .nil)
def st292 : St := .mk (.cons 59 6 0x10000000000000000000020000000000000000000000000001 .nil) (.cons 245 0x10000000000000000000020000000000000000000000000001 (.cons 326 0x2000000000000000000000000000000000400000000000000 (.cons 327 0x2000000000000000000000000000000000400000000000000 .nil))) (.cons 32 0x20000000000000000000000000000 (.cons 671 0x7ffffffffffffffffffffdffffffffffffffffffffffffffff .nil))
def st293 : St := .mk (.cons 238 2 0x35bf67c01c0000031b22f32038d40ed1a400c8200004020209 (.cons 239 2 0x35bf67c01c0000031b22f32038d40ed1a400c8200004020209 .nil)) (.cons 254 0x420600000001c0008002000100012000000001c00000000078 .nil) (.cons 285 0x7bffffffffffffffffffffffffffffffffffffffffffffefff (.cons 348 0x1000 (.cons 804 0x4000000000000000000000000000000000000000000000000 .nil)))
def st294 : St := .mk (.cons 240 2 0x35bf67c01c0000031b22f32038d40ed1a400c8200004020209 (.cons 241 2 0x35bf67c01c0000031b22f32038d40ed1a400c8200004020209 (.cons 277 2 0x35bf67c01c0000031b22f32038d40ed1a400c8200004020209 (.cons 279 2 0x35bf67c01c0000031b22f32038d40ed1a400c8200004020209 .nil)))) .nil (.cons 0 0x7ffbfffffffffffffffffffffffffffffffffffffffffffff7 (.cons 808 0x8 (.cons 810 0x40000000000000000000000000000000000000000000000 .nil)))
def st295 : St := .mk (.cons 229 2 0x350000001c0000001820f32018d40ed1a40088200004000209 .nil) (.cons 249 0x4000000000000000000000000000000000000000000000000 (.cons 253 0x4000000000000000000800000000211000080200000000200 .nil)) (.cons 0 0x7ffffffffffffffffffffffffffffffffffbffffffffffffff (.cons 152 0x400000000000000 .nil))
def st296 : St := .mk (.cons 257 2 0x35bf67c01c0000031b22f32038d40ed1a400c8200004020209 .nil) (.cons 293 0x400000000000000000000000 .nil) (.cons 0 0x7fffffffffffff03ffffffffffffffffffffffffffffffffff (.cons 374 0x40000000000000000000000000000000000 (.cons 376 0x80000000000000000000000000000000000 (.cons 378 0x100000000000000000000000000000000000 (.cons 380 0x200000000000000000000000000000000000 (.cons 382 0x400000000000000000000000000000000000 (.cons 384 0x800000000000000000000000000000000000 .nil)))))))
def st297 : St := .mk (.cons 258 2 0x35bf67c01c0000031b22f32038d40ed1a400c8200004020209 .nil) (.cons 274 0x1020100000000000000000000000000000 (.cons 275 0xbf67c0000000031322100020000000000040000000020000 (.cons 276 0xbf67c0000000031322100020000000000040000000020000 (.cons 277 0xbf67c0000000031322100020000000000040000000020000 (.cons 278 0xbf67c0000000031322100020000000000040000000020000 (.cons 279 0x1020100000000000000000000000000000 (.cons 280 0x1020100000000000000000000000000000 (.cons 281 0xbf67c0000000031322100020000000000040000000020000 (.cons 283 0x1020100000000000000000000000000000 (.cons 284 0xbf67c0000000031322100020000000000040000000020000 (.cons 285 0xbf67c0000000031322100020000000000040000000020000 (.cons 291 0xbf67c0000000031322100020000000000040000000020000 (.cons 292 0xbf67c0000000031322100020000000000040000000020000 (.cons 296 0xbf67c0000000031322100020000000000040000000020000 (.cons 297 0xbf67c0000000031322100020000000000040000000020000 (.cons 298 0x1020100000000000000000000000000000 (.cons 299 0xbf67c0000000031322100020000000000040000000020000 (.cons 300 0xbf67c0000000031322100020000000000040000000020000 (.cons 301 0xbf67c0000000031322100020000000000040000000020000 (.cons 302 0xbf67c0000000031322100020000000000040000000020000 (.cons 303 0xbf67c0000000031322100020000000000040000000020000 (.cons 304 0xbf67c0000000031322100020000000000040000000020000 (.cons 305 0xbf67c0000000031322100020000000000040000000020000 (.cons 306 0xbf67c0000000031322100020000000000040000000020000 (.cons 307 0xbf67c0000000031322100020000000000040000000020000 (.cons 308 0xbf67c0000000031322100020000000000040000000020000 .nil)))))))))))))))))))))))))) (.cons 0 0x3df9fffffffe3fff7ffdfffefffedffffffffe3fffffffff87 (.cons 238 0x10 (.cons 240 0x20 (.cons 242 0x40 (.cons 246 0x10000000000000000000000 (.cons 248 0x100000000000000000000000000 (.cons 250 0x40000000000000000000000000000000000000 (.cons 252 0x80000000000000000000000000000000000000 (.cons 254 0x100000000000000000000000000000000000000 (.cons 258 0x40000000000000000000000000000000000000000000000000 (.cons 430 0x8 (.cons 432 0x400000000000 (.cons 434 0x800000000000 (.cons 436 0x1000000000000 (.cons 438 0x2000000000000000000000 (.cons 440 0x2000000000000000000000000000000 (.cons 442 0x8000000000000000000000000000000000 (.cons 444 0x20000000000000000000000000000000000000000000000 (.cons 446 0x40000000000000000000000000000000000000000000000 (.cons 448 0x2000000000000000000000000000000000000000000000000 .nil))))))))))))))))))))
def st298 : St := .mk (.cons 227 1 0x410000100000000000000000000000 .nil) (.cons 274 0x1000102000000000000000000000000000 (.cons 275 0xbf67c0000000031302102020000000000040000000020000 (.cons 276 0xbf67c0000000031302102020000000000040000000020000 (.cons 277 0xbf67c0000000031302102020000000000040000000020000 (.cons 278 0xbf67c0000000031302102020000000000040000000020000 (.cons 279 0x1000102000000000000000000000000000 (.cons 280 0x1000102000000000000000000000000000 (.cons 281 0xbf67c0000000031302102020000000000040000000020000 (.cons 283 0x1000102000000000000000000000000000 (.cons 284 0xbf67c0000000031302102020000000000040000000020000 (.cons 285 0xbf67c0000000031302102020000000000040000000020000 (.cons 291 0xbf67c0000000031302102020000000000040000000020000 (.cons 292 0xbf67c0000000031302102020000000000040000000020000 (.cons 296 0xbf67c0000000031302102020000000000040000000020000 (.cons 297 0xbf67c0000000031302102020000000000040000000020000 (.cons 298 0x1000102000000000000000000000000000 (.cons 299 0xbf67c0000000031302102020000000000040000000020000 (.cons 300 0xbf67c0000000031302102020000000000040000000020000 (.cons 301 0xbf67c0000000031302102020000000000040000000020000 (.cons 302 0xbf67c0000000031302102020000000000040000000020000 (.cons 303 0xbf67c0000000031302102020000000000040000000020000 (.cons 304 0xbf67c0000000031302102020000000000040000000020000 (.cons 305 0xbf67c0000000031302102020000000000040000000020000 (.cons 306 0xbf67c0000000031302102020000000000040000000020000 (.cons 307 0xbf67c0000000031302102020000000000040000000020000 (.cons 308 0xbf67c0000000031302102020000000000040000000020000 .nil)))))))))))))))))))))))))) (.cons 0 0x3df9fffffffe3fff7ffdfffefffedffffffffe3fffffffff87 (.cons 238 0x10 (.cons 240 0x20 (.cons 242 0x40 (.cons 246 0x10000000000000000000000 (.cons 248 0x100000000000000000000000000 (.cons 250 0x40000000000000000000000000000000000000 (.cons 252 0x80000000000000000000000000000000000000 (.cons 254 0x100000000000000000000000000000000000000 (.cons 258 0x40000000000000000000000000000000000000000000000000 (.cons 430 0x8 (.cons 432 0x400000000000 (.cons 434 0x800000000000 (.cons 436 0x1000000000000 (.cons 438 0x2000000000000000000000 (.cons 440 0x2000000000000000000000000000000 (.cons 442 0x8000000000000000000000000000000000 (.cons 444 0x20000000000000000000000000000000000000000000000 (.cons 446 0x40000000000000000000000000000000000000000000000 (.cons 448 0x2000000000000000000000000000000000000000000000000 .nil))))))))))))))))))))
def st299 : St := .mk (.cons 217 1 0x1000110000000000000000000000000000 (.cons 218 1 0x1000110000000000000000000000000000 (.cons 223 2 0x35bf67c01c0000031b22f32038d40ed1a400c8200004020209 (.cons 224 2 0x35bf67c01c0000031b22f32038d40ed1a400c8200004020209 .nil)))) (.cons 282 0x410000100000000000000000000000 .nil) (.cons 0 0x7fffffffffffffffefffeeffffffffffffffffffffffffffff (.cons 598 0x10000000000000000000000000000 (.cons 618 0x100000000000000000000000000000 (.cons 620 0x1000000000000000000000000000000000 .nil))))
def st300 : St := .mk (.cons 225 2 0x35bf67c01c0000031b22f32038d40ed1a400c8200004020209 (.cons 226 2 0x35bf67c01c0000031b22f32038d40ed1a400c8200004020209 (.cons 228 1 0x410000100000000000000000000000 .nil))) .nil (.cons 0 0x7fffffffffffffffffffbeffffefffffffffffffffffffffff (.cons 822 0x100000000000000000000000 (.cons 824 0x10000000000000000000000000000 (.cons 826 0x400000000000000000000000000000 .nil))))
def st301 : St := .mk (.cons 230 2 0x350000001c0000001820f32018d40ed1a40088200004000209 .nil) .nil (.cons 0 0x7dffffffffffffffffffffffffffffffffffffffffffffffff (.cons 828 0x2000000000000000000000000000000000000000000000000 .nil))
def st302 : St := .mk (.cons 202 1 0x35bf67c01c0000031b22f32038d40ed1a400c8200004020209 .nil) (.cons 275 0x35bf67c01c0000031b22f32038d40ed1a400c8200004020209 (.cons 276 0x35bf67c01c0000031b22f32038d40ed1a400c8200004020209 (.cons 277 0x35bf67c01c0000031b22f32038d40ed1a400c8200004020209 (.cons 278 0x35bf67c01c0000031b22f32038d40ed1a400c8200004020209 (.cons 281 0x35bf67c01c0000031b22f32038d40ed1a400c8200004020209 (.cons 284 0x35bf67c01c0000031b22f32038d40ed1a400c8200004020209 (.cons 285 0x35bf67c01c0000031b22f32038d40ed1a400c8200004020209 (.cons 291 0x35bf67c01c0000031b22f32038d40ed1a400c8200004020209 (.cons 292 0x35bf67c01c0000031b22f32038d40ed1a400c8200004020209 (.cons 296 0x35bf67c01c0000031b22f32038d40ed1a400c8200004020209 (.cons 297 0x35bf67c01c0000031b22f32038d40ed1a400c8200004020209 (.cons 299 0x35bf67c01c0000031b22f32038d40ed1a400c8200004020209 (.cons 300 0x35bf67c01c0000031b22f32038d40ed1a400c8200004020209 (.cons 301 0x35bf67c01c0000031b22f32038d40ed1a400c8200004020209 (.cons 302 0x35bf67c01c0000031b22f32038d40ed1a400c8200004020209 (.cons 303 0x35bf67c01c0000031b22f32038d40ed1a400c8200004020209 (.cons 304 0x35bf67c01c0000031b22f32038d40ed1a400c8200004020209 (.cons 305 0x35bf67c01c0000031b22f32038d40ed1a400c8200004020209 (.cons 306 0x35bf67c01c0000031b22f32038d40ed1a400c8200004020209 (.cons 307 0x35bf67c01c0000031b22f32038d40ed1a400c8200004020209 (.cons 308 0x35bf67c01c0000031b22f32038d40ed1a400c8200004020209 .nil))))))))))))))))))))) (.cons 0 0x3df9fffffffe3fff7ffdfffefffedffffffffe7fffffffff87 (.cons 238 0x10 (.cons 240 0x20 (.cons 242 0x40 (.cons 246 0x10000000000000000000000 (.cons 248 0x100000000000000000000000000 (.cons 250 0x40000000000000000000000000000000000000 (.cons 252 0x80000000000000000000000000000000000000 (.cons 254 0x100000000000000000000000000000000000000 (.cons 258 0x40000000000000000000000000000000000000000000000000 (.cons 430 0x8 (.cons 434 0x800000000000 (.cons 436 0x1000000000000 (.cons 438 0x2000000000000000000000 (.cons 442 0x8000000000000000000000000000000000 (.cons 444 0x20000000000000000000000000000000000000000000000 (.cons 446 0x40000000000000000000000000000000000000000000000 (.cons 448 0x2000000000000000000000000000000000000000000000000 (.cons 606 0x2000000000000000000000000000000 .nil)))))))))))))))))))
def st303 : St := .mk (.cons 202 2 0x35bf67c01c0000031b22f32038d40ed1a400c8200004020209 (.cons 203 1 0x35bf67c01c0000031b22f32038d40ed1a400c8200004020209 (.cons 204 1 0x35bf67c01c0000031b22f32038d40ed1a400c8200004020209 (.cons 205 1 0x35bf67c01c0000031b22f32038d40ed1a400c8200004020209 (.cons 207 1 0x35bf67c01c0000031b22f32038d40ed1a400c8200004020209 (.cons 208 1 0x35bf67c01c0000031b22f32038d40ed1a400c8200004020209 (.cons 209 1 0x35bf67c01c0000031b22f32038d40ed1a400c8200004020209 (.cons 210 1 0x35bf67c01c0000031b22f32038d40ed1a400c8200004020209 (.cons 211 1 0x35bf67c01c0000031b22f32038d40ed1a400c8200004020209 (.cons 212 1 0x35bf67c01c0000031b22f32038d40ed1a400c8200004020209 (.cons 213 1 0x35bf67c01c0000031b22f32038d40ed1a400c8200004020209 (.cons 214 1 0x35bf67c01c0000031b22f32038d40ed1a400c8200004020209 (.cons 215 1 0x35bf67c01c0000031b22f32038d40ed1a400c8200004020209 (.cons 216 1 0x35bf67c01c0000031b22f32038d40ed1a400c8200004020209 (.cons 231 1 0x35bf67c01c0000031b22f32038d40ed1a400c8200004020209 (.cons 232 1 0x35bf67c01c0000031b22f32038d40ed1a400c8200004020209 (.cons 233 1 0x35bf67c01c0000031b22f32038d40ed1a400c8200004020209 (.cons 234 1 0x35bf67c01c0000031b22f32038d40ed1a400c8200004020209 (.cons 235 1 0x35bf67c01c0000031b22f32038d40ed1a400c8200004020209 (.cons 236 1 0x35bf67c01c0000031b22f32038d40ed1a400c8200004020209 (.cons 237 1 0x35bf67c01c0000031b22f32038d40ed1a400c8200004020209 (.cons 274 1 0x35bf67c01c0000031b22f32038d40ed1a400c8200004020209 .nil)))))))))))))))))))))) .nil (.cons 405 0x7f40983ffffffffcfdfdffffdfffffffffffbfffffffffffff (.cons 624 0x40000000000000 (.cons 626 0x20000000000000000000000000 (.cons 632 0x200000000000000000000000000000000 (.cons 634 0x10000000000000000000000000000000000 (.cons 636 0x20000000000000000000000000000000000 (.cons 638 0x40000000000000000000000000000000000000000000 (.cons 640 0x80000000000000000000000000000000000000000000 (.cons 642 0x100000000000000000000000000000000000000000000 (.cons 644 0x200000000000000000000000000000000000000000000 (.cons 646 0x400000000000000000000000000000000000000000000 (.cons 648 0x2000000000000000000000000000000000000000000000 (.cons 650 0x4000000000000000000000000000000000000000000000 (.cons 652 0x10000000000000000000000000000000000000000000000 (.cons 654 0x20000000000000000000000000000000000000000000000 (.cons 656 0x40000000000000000000000000000000000000000000000 (.cons 658 0x80000000000000000000000000000000000000000000000 (.cons 660 0x100000000000000000000000000000000000000000000000 (.cons 662 0x200000000000000000000000000000000000000000000000 (.cons 664 0x800000000000000000000000000000000000000000000000 (.cons 830 0x2000000000000000000000000000000 .nil)))))))))))))))))))))
def st304 : St := .mk (.cons 273 2 0x35bf67c01c0000031b22f32038d40ed1a400c8200004020209 .nil) (.cons 268 0x21000000000000000000000000000000000000000000000000 (.cons 273 0x21000000000000000000000000000000000000000000000000 (.cons 274 0x21000000000000001020100000000000000000000000000008 (.cons 275 0x21bf67c0000000031322100020000000000040000000020008 (.cons 276 0x21bf67c0000000031322100020000000000040000000020008 (.cons 277 0x21bf67c0000000031322100020000000000040000000020008 (.cons 278 0x21bf67c0000000031322100020000000000040000000020008 (.cons 279 0x21000000000000001020100000000000000000000000000008 (.cons 280 0x21000000000000001020100000000000000000000000000008 (.cons 281 0x21bf67c0000000031322100020000000000040000000020008 (.cons 283 0x21000000000000001020100000000000000000000000000008 (.cons 284 0x21bf67c0000000031322100020000000000040000000020008 (.cons 285 0x21bf67c0000000031322100020000000000040000000020008 (.cons 291 0x21bf67c0000000031322100020000000000040000000020008 (.cons 292 0x21bf67c0000000031322100020000000000040000000020008 (.cons 296 0x21bf67c0000000031322100020000000000040000000020008 (.cons 297 0x21bf67c0000000031322100020000000000040000000020008 (.cons 298 0x21000000000000001020100000000000000000000000000008 (.cons 299 0x21bf67c0000000031322100020000000000040000000020008 (.cons 300 0x21bf67c0000000031322100020000000000040000000020008 (.cons 301 0x21bf67c0000000031322100020000000000040000000020008 (.cons 302 0x21bf67c0000000031322100020000000000040000000020008 (.cons 303 0x21bf67c0000000031322100020000000000040000000020008 (.cons 304 0x21bf67c0000000031322100020000000000040000000020008 (.cons 305 0x21bf67c0000000031322100020000000000040000000020008 (.cons 306 0x21bf67c0000000031322100020000000000040000000020008 (.cons 307 0x21bf67c0000000031322100020000000000040000000020008 (.cons 308 0x21bf67c0000000031322100020000000000040000000020008 .nil)))))))))))))))))))))))))))) (.cons 0 0x3df9fffffffe3fff7ffdfffefffedffffffffe3fffffffff87 (.cons 238 0x10 (.cons 240 0x20 (.cons 242 0x40 (.cons 246 0x10000000000000000000000 (.cons 248 0x100000000000000000000000000 (.cons 250 0x40000000000000000000000000000000000000 (.cons 252 0x80000000000000000000000000000000000000 (.cons 254 0x100000000000000000000000000000000000000 (.cons 258 0x40000000000000000000000000000000000000000000000000 (.cons 430 0x8 (.cons 432 0x400000000000 (.cons 434 0x800000000000 (.cons 436 0x1000000000000 (.cons 438 0x2000000000000000000000 (.cons 440 0x2000000000000000000000000000000 (.cons 442 0x8000000000000000000000000000000000 (.cons 444 0x20000000000000000000000000000000000000000000000 (.cons 446 0x40000000000000000000000000000000000000000000000 (.cons 448 0x2000000000000000000000000000000000000000000000000 .nil))))))))))))))))))))
def st305 : St := .mk (.cons 201 2 0x35bf67c01c0000031b22f32038d40ed1a400c8200004020209 (.cons 203 1 0x35bf67c01c0000031b22f32038d40ed1a400c8200004020209 (.cons 204 1 0x35bf67c01c0000031b22f32038d40ed1a400c8200004020209 (.cons 205 1 0x35bf67c01c0000031b22f32038d40ed1a400c8200004020209 (.cons 207 1 0x35bf67c01c0000031b22f32038d40ed1a400c8200004020209 (.cons 208 1 0x35bf67c01c0000031b22f32038d40ed1a400c8200004020209 (.cons 209 1 0x35bf67c01c0000031b22f32038d40ed1a400c8200004020209 (.cons 210 1 0x35bf67c01c0000031b22f32038d40ed1a400c8200004020209 (.cons 211 1 0x35bf67c01c0000031b22f32038d40ed1a400c8200004020209 (.cons 212 1 0x35bf67c01c0000031b22f32038d40ed1a400c8200004020209 (.cons 213 1 0x35bf67c01c0000031b22f32038d40ed1a400c8200004020209 (.cons 214 1 0x35bf67c01c0000031b22f32038d40ed1a400c8200004020209 (.cons 215 1 0x35bf67c01c0000031b22f32038d40ed1a400c8200004020209 (.cons 216 1 0x35bf67c01c0000031b22f32038d40ed1a400c8200004020209 (.cons 231 1 0x35bf67c01c0000031b22f32038d40ed1a400c8200004020209 (.cons 232 1 0x35bf67c01c0000031b22f32038d40ed1a400c8200004020209 (.cons 233 1 0x35bf67c01c0000031b22f32038d40ed1a400c8200004020209 (.cons 234 1 0x35bf67c01c0000031b22f32038d40ed1a400c8200004020209 (.cons 235 1 0x35bf67c01c0000031b22f32038d40ed1a400c8200004020209 (.cons 236 1 0x35bf67c01c0000031b22f32038d40ed1a400c8200004020209 (.cons 237 1 0x35bf67c01c0000031b22f32038d40ed1a400c8200004020209 (.cons 274 1 0x35bf67c01c0000031b22f32038d40ed1a400c8200004020209 .nil)))))))))))))))))))))) .nil (.cons 403 0x7f43fffffffffffeffffffffffffffffffffffffffffffffff (.cons 634 0x10000000000000000000000000000000000 (.cons 656 0x40000000000000000000000000000000000000000000000 (.cons 658 0x80000000000000000000000000000000000000000000000 (.cons 660 0x100000000000000000000000000000000000000000000000 (.cons 662 0x200000000000000000000000000000000000000000000000 (.cons 664 0x800000000000000000000000000000000000000000000000 .nil)))))))
def st306 : St := .mk (.cons 198 2 0x35bf67c01c0000031b22f32038d40ed1a400c8200004020209 .nil) .nil (.cons 0 0x7bffffffffffffffffffffffffffffffffffffffffffffffff (.cons 834 0x4000000000000000000000000000000000000000000000000 .nil))
def st307 : St := .mk (.cons 188 2 0x35bf67c01c0000031b22f32038d40ed1a400c8200004020209 (.cons 217 1 0x4000000000000001000100000000000000000000000000000 (.cons 218 1 0x4000000000000001000100000000000000000000000000000 .nil))) .nil (.cons 0 0x7bffffffffffffffefffefffffffffffffffffffffffffffff (.cons 618 0x100000000000000000000000000000 (.cons 620 0x1000000000000000000000000000000000 (.cons 836 0x4000000000000000000000000000000000000000000000000 .nil))))
def st308 : St := .mk (.cons 217 2 0x350000001c0000001820f32018d40ed1a40088200004000209 .nil) (.cons 274 0x350000001c0000001820f32018d40ed1a40088200004000209 (.cons 275 0x35bf67c01c0000031b22f32038d40ed1a400c8200004020209 (.cons 276 0x35bf67c01c0000031b22f32038d40ed1a400c8200004020209 (.cons 277 0x35bf67c01c0000031b22f32038d40ed1a400c8200004020209 (.cons 278 0x35bf67c01c0000031b22f32038d40ed1a400c8200004020209 (.cons 279 0x350000001c0000001820f32018d40ed1a40088200004000209 (.cons 280 0x350000001c0000001820f32018d40ed1a40088200004000209 (.cons 281 0x35bf67c01c0000031b22f32038d40ed1a400c8200004020209 (.cons 283 0x350000001c0000001820f32018d40ed1a40088200004000209 (.cons 284 0x35bf67c01c0000031b22f32038d40ed1a400c8200004020209 (.cons 285 0x35bf67c01c0000031b22f32038d40ed1a400c8200004020209 (.cons 291 0x35bf67c01c0000031b22f32038d40ed1a400c8200004020209 (.cons 292 0x35bf67c01c0000031b22f32038d40ed1a400c8200004020209 (.cons 296 0x35bf67c01c0000031b22f32038d40ed1a400c8200004020209 (.cons 297 0x35bf67c01c0000031b22f32038d40ed1a400c8200004020209 (.cons 298 0x350000001c0000001820f32018d40ed1a40088200004000209 (.cons 299 0x35bf67c01c0000031b22f32038d40ed1a400c8200004020209 (.cons 300 0x35bf67c01c0000031b22f32038d40ed1a400c8200004020209 (.cons 301 0x35bf67c01c0000031b22f32038d40ed1a400c8200004020209 (.cons 302 0x35bf67c01c0000031b22f32038d40ed1a400c8200004020209 (.cons 303 0x35bf67c01c0000031b22f32038d40ed1a400c8200004020209 (.cons 304 0x35bf67c01c0000031b22f32038d40ed1a400c8200004020209 (.cons 305 0x35bf67c01c0000031b22f32038d40ed1a400c8200004020209 (.cons 306 0x35bf67c01c0000031b22f32038d40ed1a400c8200004020209 (.cons 307 0x35bf67c01c0000031b22f32038d40ed1a400c8200004020209 (.cons 308 0x35bf67c01c0000031b22f32038d40ed1a400c8200004020209 .nil)))))))))))))))))))))))))) (.cons 0 0x3df9fffffffe3fff7ffdfffefffedffffffffe3fffffffff87 (.cons 238 0x10 (.cons 240 0x20 (.cons 242 0x40 (.cons 246 0x10000000000000000000000 (.cons 248 0x100000000000000000000000000 (.cons 250 0x40000000000000000000000000000000000000 (.cons 252 0x80000000000000000000000000000000000000 (.cons 254 0x100000000000000000000000000000000000000 (.cons 258 0x40000000000000000000000000000000000000000000000000 (.cons 430 0x8 (.cons 432 0x400000000000 (.cons 434 0x800000000000 (.cons 436 0x1000000000000 (.cons 438 0x2000000000000000000000 (.cons 440 0x2000000000000000000000000000000 (.cons 442 0x8000000000000000000000000000000000 (.cons 444 0x20000000000000000000000000000000000000000000000 (.cons 446 0x40000000000000000000000000000000000000000000000 (.cons 448 0x2000000000000000000000000000000000000000000000000 .nil))))))))))))))))))))
def st309 : St := .mk (.cons 218 2 0x350000001c0000001820f32018d40ed1a40088200004000209 .nil) (.cons 274 0x350000001c0000001820f32018d40ed1a40088200004000209 (.cons 275 0x35bf67c01c0000031b22f32038d40ed1a400c8200004020209 (.cons 276 0x35bf67c01c0000031b22f32038d40ed1a400c8200004020209 (.cons 277 0x35bf67c01c0000031b22f32038d40ed1a400c8200004020209 (.cons 278 0x35bf67c01c0000031b22f32038d40ed1a400c8200004020209 (.cons 279 0x350000001c0000001820f32018d40ed1a40088200004000209 (.cons 280 0x350000001c0000001820f32018d40ed1a40088200004000209 (.cons 281 0x35bf67c01c0000031b22f32038d40ed1a400c8200004020209 (.cons 283 0x350000001c0000001820f32018d40ed1a40088200004000209 (.cons 284 0x35bf67c01c0000031b22f32038d40ed1a400c8200004020209 (.cons 285 0x35bf67c01c0000031b22f32038d40ed1a400c8200004020209 (.cons 291 0x35bf67c01c0000031b22f32038d40ed1a400c8200004020209 (.cons 292 0x35bf67c01c0000031b22f32038d40ed1a400c8200004020209 (.cons 296 0x35bf67c01c0000031b22f32038d40ed1a400c8200004020209 (.cons 297 0x35bf67c01c0000031b22f32038d40ed1a400c8200004020209 (.cons 298 0x350000001c0000001820f32018d40ed1a40088200004000209 (.cons 299 0x35bf67c01c0000031b22f32038d40ed1a400c8200004020209 (.cons 300 0x35bf67c01c0000031b22f32038d40ed1a400c8200004020209 (.cons 301 0x35bf67c01c0000031b22f32038d40ed1a400c8200004020209 (.cons 302 0x35bf67c01c0000031b22f32038d40ed1a400c8200004020209 (.cons 303 0x35bf67c01c0000031b22f32038d40ed1a400c8200004020209 (.cons 304 0x35bf67c01c0000031b22f32038d40ed1a400c8200004020209 (.cons 305 0x35bf67c01c0000031b22f32038d40ed1a400c8200004020209 (.cons 306 0x35bf67c01c0000031b22f32038d40ed1a400c8200004020209 (.cons 307 0x35bf67c01c0000031b22f32038d40ed1a400c8200004020209 (.cons 308 0x35bf67c01c0000031b22f32038d40ed1a400c8200004020209 .nil)))))))))))))))))))))))))) (.cons 0 0x3df9fffffffe3fff7ffdfffefffedffffffffe3fffffffff87 (.cons 238 0x10 (.cons 240 0x20 (.cons 242 0x40 (.cons 246 0x10000000000000000000000 (.cons 248 0x100000000000000000000000000 (.cons 250 0x40000000000000000000000000000000000000 (.cons 252 0x80000000000000000000000000000000000000 (.cons 254 0x100000000000000000000000000000000000000 (.cons 258 0x40000000000000000000000000000000000000000000000000 (.cons 430 0x8 (.cons 432 0x400000000000 (.cons 434 0x800000000000 (.cons 436 0x1000000000000 (.cons 438 0x2000000000000000000000 (.cons 440 0x2000000000000000000000000000000 (.cons 442 0x8000000000000000000000000000000000 (.cons 444 0x20000000000000000000000000000000000000000000000 (.cons 446 0x40000000000000000000000000000000000000000000000 (.cons 448 0x2000000000000000000000000000000000000000000000000 .nil))))))))))))))))))))
def st310 : St := .mk (.cons 275 2 0x350000001c0000001820f32018d40ed1a40088200004000209 .nil) (.cons 275 0xbf67c0000000030202100020000000000040000000000000 (.cons 276 0xbf67c0000000030202100020000000000040000000000000 (.cons 277 0xbf67c0000000030202100020000000000040000000000000 (.cons 278 0xbf67c0000000030202100020000000000040000000000000 (.cons 281 0xbf67c0000000030202100020000000000040000000000000 (.cons 284 0xbf67c0000000030202100020000000000040000000000000 (.cons 285 0xbf67c0000000030202100020000000000040000000000000 (.cons 291 0xbf67c0000000030202100020000000000040000000000000 (.cons 292 0xbf67c0000000030202100020000000000040000000000000 (.cons 296 0xbf67c0000000030202100020000000000040000000000000 (.cons 297 0xbf67c0000000030202100020000000000040000000000000 (.cons 299 0xbf67c0000000030202100020000000000040000000000000 (.cons 300 0xbf67c0000000030202100020000000000040000000000000 (.cons 301 0xbf67c0000000030202100020000000000040000000000000 (.cons 302 0xbf67c0000000030202100020000000000040000000000000 (.cons 303 0xbf67c0000000030202100020000000000040000000000000 (.cons 304 0xbf67c0000000030202100020000000000040000000000000 (.cons 305 0xbf67c0000000030202100020000000000040000000000000 (.cons 306 0xbf67c0000000030202100020000000000040000000000000 (.cons 307 0xbf67c0000000030202100020000000000040000000000000 (.cons 308 0xbf67c0000000030202100020000000000040000000000000 .nil))))))))))))))))))))) (.cons 0 0x3df9fffffffe3fff7ffdfffefffedffffffffe7fffffffff87 (.cons 238 0x10 (.cons 240 0x20 (.cons 242 0x40 (.cons 246 0x10000000000000000000000 (.cons 248 0x100000000000000000000000000 (.cons 250 0x40000000000000000000000000000000000000 (.cons 252 0x80000000000000000000000000000000000000 (.cons 254 0x100000000000000000000000000000000000000 (.cons 258 0x40000000000000000000000000000000000000000000000000 (.cons 430 0x8 (.cons 434 0x800000000000 (.cons 436 0x1000000000000 (.cons 438 0x2000000000000000000000 (.cons 442 0x8000000000000000000000000000000000 (.cons 444 0x20000000000000000000000000000000000000000000000 (.cons 446 0x40000000000000000000000000000000000000000000000 (.cons 448 0x2000000000000000000000000000000000000000000000000 (.cons 606 0x2000000000000000000000000000000 .nil)))))))))))))))))))
def st311 : St := .mk (.cons 203 2 0x35bf67c01c0000031b22f32038d40ed1a400c8200004020209 .nil) .nil (.cons 407 0x7fffffffffffffffffffffffffffffffffffffffffffffffff .nil)
def st312 : St := .mk (.cons 213 2 0x35bf67c01c0000031b22f32038d40ed1a400c8200004020209 .nil) (.cons 275 0x35bf67c01c0000031b22f32038d40ed1a400c8200004020209 (.cons 276 0x35bf67c01c0000031b22f32038d40ed1a400c8200004020209 (.cons 277 0x35bf67c01c0000031b22f32038d40ed1a400c8200004020209 (.cons 278 0x35bf67c01c0000031b22f32038d40ed1a400c8200004020209 (.cons 281 0x35bf67c01c0000031b22f32038d40ed1a400c8200004020209 (.cons 284 0x35bf67c01c0000031b22f32038d40ed1a400c8200004020209 (.cons 285 0x35bf67c01c0000031b22f32038d40ed1a400c8200004020209 (.cons 291 0x35bf67c01c0000031b22f32038d40ed1a400c8200004020209 (.cons 292 0x35bf67c01c0000031b22f32038d40ed1a400c8200004020209 (.cons 296 0x35bf67c01c0000031b22f32038d40ed1a400c8200004020209 (.cons 297 0x35bf67c01c0000031b22f32038d40ed1a400c8200004020209 (.cons 299 0x35bf67c01c0000031b22f32038d40ed1a400c8200004020209 (.cons 300 0x35bf67c01c0000031b22f32038d40ed1a400c8200004020209 (.cons 301 0x35bf67c01c0000031b22f32038d40ed1a400c8200004020209 (.cons 302 0x35bf67c01c0000031b22f32038d40ed1a400c8200004020209 (.cons 303 0x35bf67c01c0000031b22f32038d40ed1a400c8200004020209 (.cons 304 0x35bf67c01c0000031b22f32038d40ed1a400c8200004020209 (.cons 305 0x35bf67c01c0000031b22f32038d40ed1a400c8200004020209 (.cons 306 0x35bf67c01c0000031b22f32038d40ed1a400c8200004020209 (.cons 307 0x35bf67c01c0000031b22f32038d40ed1a400c8200004020209 (.cons 308 0x35bf67c01c0000031b22f32038d40ed1a400c8200004020209 .nil))))))))))))))))))))) (.cons 0 0x3df9fffffffe3fff7ffdfffefffedffffffffe7fffffffff87 (.cons 238 0x10 (.cons 240 0x20 (.cons 242 0x40 (.cons 246 0x10000000000000000000000 (.cons 248 0x100000000000000000000000000 (.cons 250 0x40000000000000000000000000000000000000 (.cons 252 0x80000000000000000000000000000000000000 (.cons 254 0x100000000000000000000000000000000000000 (.cons 258 0x40000000000000000000000000000000000000000000000000 (.cons 430 0x8 (.cons 434 0x800000000000 (.cons 436 0x1000000000000 (.cons 438 0x2000000000000000000000 (.cons 442 0x8000000000000000000000000000000000 (.cons 444 0x20000000000000000000000000000000000000000000000 (.cons 446 0x40000000000000000000000000000000000000000000000 (.cons 448 0x2000000000000000000000000000000000000000000000000 (.cons 606 0x2000000000000000000000000000000 .nil)))))))))))))))))))
def st313 : St := .mk (.cons 214 2 0x35bf67c01c0000031b22f32038d40ed1a400c8200004020209 (.cons 220 2 0x350000001c0000001820f32018d40ed1a40088200004000209 (.cons 222 2 0x350000001c0000001820f32018d40ed1a40088200004000209 .nil))) .nil (.cons 0 0x7ffffffffffffffffeffffffdfffffffffffffffffffffffff (.cons 846 0x20000000000000000000000000 (.cons 848 0x100000000000000000000000000000000 .nil)))
def st314 : St := .mk (.cons 219 2 0x350000001c0000001820f32018d40ed1a40088200004000209 (.cons 221 2 0x350000001c0000001820f32018d40ed1a40088200004000209 .nil)) .nil (.cons 0 0x7dffffffffffffffffffffffffffffffffffffffffffffffff (.cons 850 0x2000000000000000000000000000000000000000000000000 .nil))
def st315 : St := .mk (.cons 204 2 0x35bf67c01c0000031b22f32038d40ed1a400c8200004020209 (.cons 205 2 0x35bf67c01c0000031b22f32038d40ed1a400c8200004020209 .nil)) .nil (.cons 0 0x7ffffffffffffffffffdfffeffffffffffffffffffffffffff (.cons 852 0x100000000000000000000000000 (.cons 854 0x2000000000000000000000000000000 .nil)))
def st316 : St := .mk (.cons 216 2 0x35bf67c01c0000031b22f32038d40ed1a400c8200004020209 .nil) (.cons 275 0x35bf67c01c0000031b22f32038d40ed1a400c8200004020209 (.cons 276 0x35bf67c01c0000031b22f32038d40ed1a400c8200004020209 (.cons 277 0x35bf67c01c0000031b22f32038d40ed1a400c8200004020209 (.cons 278 0x35bf67c01c0000031b22f32038d40ed1a400c8200004020209 (.cons 281 0x35bf67c01c0000031b22f32038d40ed1a400c8200004020209 (.cons 284 0x35bf67c01c0000031b22f32038d40ed1a400c8200004020209 (.cons 285 0x35bf67c01c0000031b22f32038d40ed1a400c8200004020209 (.cons 291 0x35bf67c01c0000031b22f32038d40ed1a400c8200004020209 (.cons 292 0x35bf67c01c0000031b22f32038d40ed1a400c8200004020209 (.cons 296 0x35bf67c01c0000031b22f32038d40ed1a400c8200004020209 (.cons 297 0x35bf67c01c0000031b22f32038d40ed1a400c8200004020209 (.cons 299 0x35bf67c01c0000031b22f32038d40ed1a400c8200004020209 (.cons 300 0x35bf67c01c0000031b22f32038d40ed1a400c8200004020209 (.cons 301 0x35bf67c01c0000031b22f32038d40ed1a400c8200004020209 (.cons 302 0x35bf67c01c0000031b22f32038d40ed1a400c8200004020209 (.cons 303 0x35bf67c01c0000031b22f32038d40ed1a400c8200004020209 (.cons 304 0x35bf67c01c0000031b22f32038d40ed1a400c8200004020209 (.cons 305 0x35bf67c01c0000031b22f32038d40ed1a400c8200004020209 (.cons 306 0x35bf67c01c0000031b22f32038d40ed1a400c8200004020209 (.cons 307 0x35bf67c01c0000031b22f32038d40ed1a400c8200004020209 (.cons 308 0x35bf67c01c0000031b22f32038d40ed1a400c8200004020209 .nil))))))))))))))))))))) (.cons 0 0x3df9fffffffe3fff7ffdfffefffedffffffffe7fffffffff87 (.cons 238 0x10 (.cons 240 0x20 (.cons 242 0x40 (.cons 246 0x10000000000000000000000 (.cons 248 0x100000000000000000000000000 (.cons 250 0x40000000000000000000000000000000000000 (.cons 252 0x80000000000000000000000000000000000000 (.cons 254 0x100000000000000000000000000000000000000 (.cons 258 0x40000000000000000000000000000000000000000000000000 (.cons 430 0x8 (.cons 434 0x800000000000 (.cons 436 0x1000000000000 (.cons 438 0x2000000000000000000000 (.cons 442 0x8000000000000000000000000000000000 (.cons 444 0x20000000000000000000000000000000000000000000000 (.cons 446 0x40000000000000000000000000000000000000000000000 (.cons 448 0x2000000000000000000000000000000000000000000000000 (.cons 606 0x2000000000000000000000000000000 .nil)))))))))))))))))))
def st317 : St := .mk (.cons 215 2 0x35bf67c01c0000031b22f32038d40ed1a400c8200004020209 .nil) (.cons 275 0x35bf67c01c0000031b22f32038d40ed1a400c8200004020209 (.cons 276 0x35bf67c01c0000031b22f32038d40ed1a400c8200004020209 (.cons 277 0x35bf67c01c0000031b22f32038d40ed1a400c8200004020209 (.cons 278 0x35bf67c01c0000031b22f32038d40ed1a400c8200004020209 (.cons 281 0x35bf67c01c0000031b22f32038d40ed1a400c8200004020209 (.cons 284 0x35bf67c01c0000031b22f32038d40ed1a400c8200004020209 (.cons 285 0x35bf67c01c0000031b22f32038d40ed1a400c8200004020209 (.cons 291 0x35bf67c01c0000031b22f32038d40ed1a400c8200004020209 (.cons 292 0x35bf67c01c0000031b22f32038d40ed1a400c8200004020209 (.cons 296 0x35bf67c01c0000031b22f32038d40ed1a400c8200004020209 (.cons 297 0x35bf67c01c0000031b22f32038d40ed1a400c8200004020209 (.cons 299 0x35bf67c01c0000031b22f32038d40ed1a400c8200004020209 (.cons 300 0x35bf67c01c0000031b22f32038d40ed1a400c8200004020209 (.cons 301 0x35bf67c01c0000031b22f32038d40ed1a400c8200004020209 (.cons 302 0x35bf67c01c0000031b22f32038d40ed1a400c8200004020209 (.cons 303 0x35bf67c01c0000031b22f32038d40ed1a400c8200004020209 (.cons 304 0x35bf67c01c0000031b22f32038d40ed1a400c8200004020209 (.cons 305 0x35bf67c01c0000031b22f32038d40ed1a400c8200004020209 (.cons 306 0x35bf67c01c0000031b22f32038d40ed1a400c8200004020209 (.cons 307 0x35bf67c01c0000031b22f32038d40ed1a400c8200004020209 (.cons 308 0x35bf67c01c0000031b22f32038d40ed1a400c8200004020209 .nil))))))))))))))))))))) (.cons 0 0x3df9fffffffe3fff7ffdfffefffedffffffffe7fffffffff87 (.cons 238 0x10 (.cons 240 0x20 (.cons 242 0x40 (.cons 246 0x10000000000000000000000 (.cons 248 0x100000000000000000000000000 (.cons 250 0x40000000000000000000000000000000000000 (.cons 252 0x80000000000000000000000000000000000000 (.cons 254 0x100000000000000000000000000000000000000 (.cons 258 0x40000000000000000000000000000000000000000000000000 (.cons 430 0x8 (.cons 434 0x800000000000 (.cons 436 0x1000000000000 (.cons 438 0x2000000000000000000000 (.cons 442 0x8000000000000000000000000000000000 (.cons 444 0x20000000000000000000000000000000000000000000000 (.cons 446 0x40000000000000000000000000000000000000000000000 (.cons 448 0x2000000000000000000000000000000000000000000000000 (.cons 606 0x2000000000000000000000000000000 .nil)))))))))))))))))))
def st318 : St := .mk (.cons 231 2 0x35bf67c01c0000031b22f32038d40ed1a400c8200004020209 .nil) (.cons 275 0x35bf67c01c0000031b22f32038d40ed1a400c8200004020209 (.cons 276 0x35bf67c01c0000031b22f32038d40ed1a400c8200004020209 (.cons 277 0x35bf67c01c0000031b22f32038d40ed1a400c8200004020209 (.cons 278 0x35bf67c01c0000031b22f32038d40ed1a400c8200004020209 (.cons 281 0x35bf67c01c0000031b22f32038d40ed1a400c8200004020209 (.cons 284 0x35bf67c01c0000031b22f32038d40ed1a400c8200004020209 (.cons 285 0x35bf67c01c0000031b22f32038d40ed1a400c8200004020209 (.cons 291 0x35bf67c01c0000031b22f32038d40ed1a400c8200004020209 (.cons 292 0x35bf67c01c0000031b22f32038d40ed1a400c8200004020209 (.cons 296 0x35bf67c01c0000031b22f32038d40ed1a400c8200004020209 (.cons 297 0x35bf67c01c0000031b22f32038d40ed1a400c8200004020209 (.cons 299 0x35bf67c01c0000031b22f32038d40ed1a400c8200004020209 (.cons 300 0x35bf67c01c0000031b22f32038d40ed1a400c8200004020209 (.cons 301 0x35bf67c01c0000031b22f32038d40ed1a400c8200004020209 (.cons 302 0x35bf67c01c0000031b22f32038d40ed1a400c8200004020209 (.cons 303 0x35bf67c01c0000031b22f32038d40ed1a400c8200004020209 (.cons 304 0x35bf67c01c0000031b22f32038d40ed1a400c8200004020209 (.cons 305 0x35bf67c01c0000031b22f32038d40ed1a400c8200004020209 (.cons 306 0x35bf67c01c0000031b22f32038d40ed1a400c8200004020209 (.cons 307 0x35bf67c01c0000031b22f32038d40ed1a400c8200004020209 (.cons 308 0x35bf67c01c0000031b22f32038d40ed1a400c8200004020209 .nil))))))))))))))))))))) (.cons 0 0x3df9fffffffe3fff7ffdfffefffedffffffffe7fffffffff87 (.cons 238 0x10 (.cons 240 0x20 (.cons 242 0x40 (.cons 246 0x10000000000000000000000 (.cons 248 0x100000000000000000000000000 (.cons 250 0x40000000000000000000000000000000000000 (.cons 252 0x80000000000000000000000000000000000000 (.cons 254 0x100000000000000000000000000000000000000 (.cons 258 0x40000000000000000000000000000000000000000000000000 (.cons 430 0x8 (.cons 434 0x800000000000 (.cons 436 0x1000000000000 (.cons 438 0x2000000000000000000000 (.cons 442 0x8000000000000000000000000000000000 (.cons 444 0x20000000000000000000000000000000000000000000000 (.cons 446 0x40000000000000000000000000000000000000000000000 (.cons 448 0x2000000000000000000000000000000000000000000000000 (.cons 606 0x2000000000000000000000000000000 .nil)))))))))))))))))))
def st319 : St := .mk (.cons 232 2 0x35bf67c01c0000031b22f32038d40ed1a400c8200004020209 .nil) (.cons 275 0x35bf67c01c0000031b22f32038d40ed1a400c8200004020209 (.cons 276 0x35bf67c01c0000031b22f32038d40ed1a400c8200004020209 (.cons 277 0x35bf67c01c0000031b22f32038d40ed1a400c8200004020209 (.cons 278 0x35bf67c01c0000031b22f32038d40ed1a400c8200004020209 (.cons 281 0x35bf67c01c0000031b22f32038d40ed1a400c8200004020209 (.cons 284 0x35bf67c01c0000031b22f32038d40ed1a400c8200004020209 (.cons 285 0x35bf67c01c0000031b22f32038d40ed1a400c8200004020209 (.cons 291 0x35bf67c01c0000031b22f32038d40ed1a400c8200004020209 (.cons 292 0x35bf67c01c0000031b22f32038d40ed1a400c8200004020209 (.cons 296 0x35bf67c01c0000031b22f32038d40ed1a400c8200004020209 (.cons 297 0x35bf67c01c0000031b22f32038d40ed1a400c8200004020209 (.cons 299 0x35bf67c01c0000031b22f32038d40ed1a400c8200004020209 (.cons 300 0x35bf67c01c0000031b22f32038d40ed1a400c8200004020209 (.cons 301 0x35bf67c01c0000031b22f32038d40ed1a400c8200004020209 (.cons 302 0x35bf67c01c0000031b22f32038d40ed1a400c8200004020209 (.cons 303 0x35bf67c01c0000031b22f32038d40ed1a400c8200004020209 (.cons 304 0x35bf67c01c0000031b22f32038d40ed1a400c8200004020209 (.cons 305 0x35bf67c01c0000031b22f32038d40ed1a400c8200004020209 (.cons 306 0x35bf67c01c0000031b22f32038d40ed1a400c8200004020209 (.cons 307 0x35bf67c01c0000031b22f32038d40ed1a400c8200004020209 (.cons 308 0x35bf67c01c0000031b22f32038d40ed1a400c8200004020209 .nil))))))))))))))))))))) (.cons 0 0x3df9fffffffe3fff7ffdfffefffedffffffffe7fffffffff87 (.cons 238 0x10 (.cons 240 0x20 (.cons 242 0x40 (.cons 246 0x10000000000000000000000 (.cons 248 0x100000000000000000000000000 (.cons 250 0x40000000000000000000000000000000000000 (.cons 252 0x80000000000000000000000000000000000000 (.cons 254 0x100000000000000000000000000000000000000 (.cons 258 0x40000000000000000000000000000000000000000000000000 (.cons 430 0x8 (.cons 434 0x800000000000 (.cons 436 0x1000000000000 (.cons 438 0x2000000000000000000000 (.cons 442 0x8000000000000000000000000000000000 (.cons 444 0x20000000000000000000000000000000000000000000000 (.cons 446 0x40000000000000000000000000000000000000000000000 (.cons 448 0x2000000000000000000000000000000000000000000000000 (.cons 606 0x2000000000000000000000000000000 .nil)))))))))))))))))))
def st320 : St := .mk (.cons 233 2 0x35bf67c01c0000031b22f32038d40ed1a400c8200004020209 .nil) (.cons 275 0x35bf67c01c0000031b22f32038d40ed1a400c8200004020209 (.cons 276 0x35bf67c01c0000031b22f32038d40ed1a400c8200004020209 (.cons 277 0x35bf67c01c0000031b22f32038d40ed1a400c8200004020209 (.cons 278 0x35bf67c01c0000031b22f32038d40ed1a400c8200004020209 (.cons 281 0x35bf67c01c0000031b22f32038d40ed1a400c8200004020209 (.cons 284 0x35bf67c01c0000031b22f32038d40ed1a400c8200004020209 (.cons 285 0x35bf67c01c0000031b22f32038d40ed1a400c8200004020209 (.cons 291 0x35bf67c01c0000031b22f32038d40ed1a400c8200004020209 (.cons 292 0x35bf67c01c0000031b22f32038d40ed1a400c8200004020209 (.cons 296 0x35bf67c01c0000031b22f32038d40ed1a400c8200004020209 (.cons 297 0x35bf67c01c0000031b22f32038d40ed1a400c8200004020209 (.cons 299 0x35bf67c01c0000031b22f32038d40ed1a400c8200004020209 (.cons 300 0x35bf67c01c0000031b22f32038d40ed1a400c8200004020209 (.cons 301 0x35bf67c01c0000031b22f32038d40ed1a400c8200004020209 (.cons 302 0x35bf67c01c0000031b22f32038d40ed1a400c8200004020209 (.cons 303 0x35bf67c01c0000031b22f32038d40ed1a400c8200004020209 (.cons 304 0x35bf67c01c0000031b22f32038d40ed1a400c8200004020209 (.cons 305 0x35bf67c01c0000031b22f32038d40ed1a400c8200004020209 (.cons 306 0x35bf67c01c0000031b22f32038d40ed1a400c8200004020209 (.cons 307 0x35bf67c01c0000031b22f32038d40ed1a400c8200004020209 (.cons 308 0x35bf67c01c0000031b22f32038d40ed1a400c8200004020209 .nil))))))))))))))))))))) (.cons 0 0x3df9fffffffe3fff7ffdfffefffedffffffffe7fffffffff87 (.cons 238 0x10 (.cons 240 0x20 (.cons 242 0x40 (.cons 246 0x10000000000000000000000 (.cons 248 0x100000000000000000000000000 (.cons 250 0x40000000000000000000000000000000000000 (.cons 252 0x80000000000000000000000000000000000000 (.cons 254 0x100000000000000000000000000000000000000 (.cons 258 0x40000000000000000000000000000000000000000000000000 (.cons 430 0x8 (.cons 434 0x800000000000 (.cons 436 0x1000000000000 (.cons 438 0x2000000000000000000000 (.cons 442 0x8000000000000000000000000000000000 (.cons 444 0x20000000000000000000000000000000000000000000000 (.cons 446 0x40000000000000000000000000000000000000000000000 (.cons 448 0x2000000000000000000000000000000000000000000000000 (.cons 606 0x2000000000000000000000000000000 .nil)))))))))))))))))))
def st321 : St := .mk (.cons 234 2 0x35bf67c01c0000031b22f32038d40ed1a400c8200004020209 .nil) (.cons 275 0x35bf67c01c0000031b22f32038d40ed1a400c8200004020209 (.cons 276 0x35bf67c01c0000031b22f32038d40ed1a400c8200004020209 (.cons 277 0x35bf67c01c0000031b22f32038d40ed1a400c8200004020209 (.cons 278 0x35bf67c01c0000031b22f32038d40ed1a400c8200004020209 (.cons 281 0x35bf67c01c0000031b22f32038d40ed1a400c8200004020209 (.cons 284 0x35bf67c01c0000031b22f32038d40ed1a400c8200004020209 (.cons 285 0x35bf67c01c0000031b22f32038d40ed1a400c8200004020209 (.cons 291 0x35bf67c01c0000031b22f32038d40ed1a400c8200004020209 (.cons 292 0x35bf67c01c0000031b22f32038d40ed1a400c8200004020209 (.cons 296 0x35bf67c01c0000031b22f32038d40ed1a400c8200004020209 (.cons 297 0x35bf67c01c0000031b22f32038d40ed1a400c8200004020209 (.cons 299 0x35bf67c01c0000031b22f32038d40ed1a400c8200004020209 (.cons 300 0x35bf67c01c0000031b22f32038d40ed1a400c8200004020209 (.cons 301 0x35bf67c01c0000031b22f32038d40ed1a400c8200004020209 (.cons 302 0x35bf67c01c0000031b22f32038d40ed1a400c8200004020209 (.cons 303 0x35bf67c01c0000031b22f32038d40ed1a400c8200004020209 (.cons 304 0x35bf67c01c0000031b22f32038d40ed1a400c8200004020209 (.cons 305 0x35bf67c01c0000031b22f32038d40ed1a400c8200004020209 (.cons 306 0x35bf67c01c0000031b22f32038d40ed1a400c8200004020209 (.cons 307 0x35bf67c01c0000031b22f32038d40ed1a400c8200004020209 (.cons 308 0x35bf67c01c0000031b22f32038d40ed1a400c8200004020209 .nil))))))))))))))))))))) (.cons 0 0x3df9fffffffe3fff7ffdfffefffedffffffffe7fffffffff87 (.cons 238 0x10 (.cons 240 0x20 (.cons 242 0x40 (.cons 246 0x10000000000000000000000 (.cons 248 0x100000000000000000000000000 (.cons 250 0x40000000000000000000000000000000000000 (.cons 252 0x80000000000000000000000000000000000000 (.cons 254 0x100000000000000000000000000000000000000 (.cons 258 0x40000000000000000000000000000000000000000000000000 (.cons 430 0x8 (.cons 434 0x800000000000 (.cons 436 0x1000000000000 (.cons 438 0x2000000000000000000000 (.cons 442 0x8000000000000000000000000000000000 (.cons 444 0x20000000000000000000000000000000000000000000000 (.cons 446 0x40000000000000000000000000000000000000000000000 (.cons 448 0x2000000000000000000000000000000000000000000000000 (.cons 606 0x2000000000000000000000000000000 .nil)))))))))))))))))))
def st322 : St := .mk (.cons 235 2 0x35bf67c01c0000031b22f32038d40ed1a400c8200004020209 .nil) (.cons 275 0x35bf67c01c0000031b22f32038d40ed1a400c8200004020209 (.cons 276 0x35bf67c01c0000031b22f32038d40ed1a400c8200004020209 (.cons 277 0x35bf67c01c0000031b22f32038d40ed1a400c8200004020209 (.cons 278 0x35bf67c01c0000031b22f32038d40ed1a400c8200004020209 (.cons 281 0x35bf67c01c0000031b22f32038d40ed1a400c8200004020209 (.cons 284 0x35bf67c01c0000031b22f32038d40ed1a400c8200004020209 (.cons 285 0x35bf67c01c0000031b22f32038d40ed1a400c8200004020209 (.cons 291 0x35bf67c01c0000031b22f32038d40ed1a400c8200004020209 (.cons 292 0x35bf67c01c0000031b22f32038d40ed1a400c8200004020209 (.cons 296 0x35bf67c01c0000031b22f32038d40ed1a400c8200004020209 (.cons 297 0x35bf67c01c0000031b22f32038d40ed1a400c8200004020209 (.cons 299 0x35bf67c01c0000031b22f32038d40ed1a400c8200004020209 (.cons 300 0x35bf67c01c0000031b22f32038d40ed1a400c8200004020209 (.cons 301 0x35bf67c01c0000031b22f32038d40ed1a400c8200004020209 (.cons 302 0x35bf67c01c0000031b22f32038d40ed1a400c8200004020209 (.cons 303 0x35bf67c01c0000031b22f32038d40ed1a400c8200004020209 (.cons 304 0x35bf67c01c0000031b22f32038d40ed1a400c8200004020209 (.cons 305 0x35bf67c01c0000031b22f32038d40ed1a400c8200004020209 (.cons 306 0x35bf67c01c0000031b22f32038d40ed1a400c8200004020209 (.cons 307 0x35bf67c01c0000031b22f32038d40ed1a400c8200004020209 (.cons 308 0x35bf67c01c0000031b22f32038d40ed1a400c8200004020209 .nil))))))))))))))))))))) (.cons 0 0x3df9fffffffe3fff7ffdfffefffedffffffffe7fffffffff87 (.cons 238 0x10 (.cons 240 0x20 (.cons 242 0x40 (.cons 246 0x10000000000000000000000 (.cons 248 0x100000000000000000000000000 (.cons 250 0x40000000000000000000000000000000000000 (.cons 252 0x80000000000000000000000000000000000000 (.cons 254 0x100000000000000000000000000000000000000 (.cons 258 0x40000000000000000000000000000000000000000000000000 (.cons 430 0x8 (.cons 434 0x800000000000 (.cons 436 0x1000000000000 (.cons 438 0x2000000000000000000000 (.cons 442 0x8000000000000000000000000000000000 (.cons 444 0x20000000000000000000000000000000000000000000000 (.cons 446 0x40000000000000000000000000000000000000000000000 (.cons 448 0x2000000000000000000000000000000000000000000000000 (.cons 606 0x2000000000000000000000000000000 .nil)))))))))))))))))))
def st323 : St := .mk (.cons 236 2 0x35bf67c01c0000031b22f32038d40ed1a400c8200004020209 .nil) (.cons 275 0x35bf67c01c0000031b22f32038d40ed1a400c8200004020209 (.cons 276 0x35bf67c01c0000031b22f32038d40ed1a400c8200004020209 (.cons 277 0x35bf67c01c0000031b22f32038d40ed1a400c8200004020209 (.cons 278 0x35bf67c01c0000031b22f32038d40ed1a400c8200004020209 (.cons 281 0x35bf67c01c0000031b22f32038d40ed1a400c8200004020209 (.cons 284 0x35bf67c01c0000031b22f32038d40ed1a400c8200004020209 (.cons 285 0x35bf67c01c0000031b22f32038d40ed1a400c8200004020209 (.cons 291 0x35bf67c01c0000031b22f32038d40ed1a400c8200004020209 (.cons 292 0x35bf67c01c0000031b22f32038d40ed1a400c8200004020209 (.cons 296 0x35bf67c01c0000031b22f32038d40ed1a400c8200004020209 (.cons 297 0x35bf67c01c0000031b22f32038d40ed1a400c8200004020209 (.cons 299 0x35bf67c01c0000031b22f32038d40ed1a400c8200004020209 (.cons 300 0x35bf67c01c0000031b22f32038d40ed1a400c8200004020209 (.cons 301 0x35bf67c01c0000031b22f32038d40ed1a400c8200004020209 (.cons 302 0x35bf67c01c0000031b22f32038d40ed1a400c8200004020209 (.cons 303 0x35bf67c01c0000031b22f32038d40ed1a400c8200004020209 (.cons 304 0x35bf67c01c0000031b22f32038d40ed1a400c8200004020209 (.cons 305 0x35bf67c01c0000031b22f32038d40ed1a400c8200004020209 (.cons 306 0x35bf67c01c0000031b22f32038d40ed1a400c8200004020209 (.cons 307 0x35bf67c01c0000031b22f32038d40ed1a400c8200004020209 (.cons 308 0x35bf67c01c0000031b22f32038d40ed1a400c8200004020209 .nil))))))))))))))))))))) (.cons 0 0x3df9fffffffe3fff7ffdfffefffedffffffffe7fffffffff87 (.cons 238 0x10 (.cons 240 0x20 (.cons 242 0x40 (.cons 246 0x10000000000000000000000 (.cons 248 0x100000000000000000000000000 (.cons 250 0x40000000000000000000000000000000000000 (.cons 252 0x80000000000000000000000000000000000000 (.cons 254 0x100000000000000000000000000000000000000 (.cons 258 0x40000000000000000000000000000000000000000000000000 (.cons 430 0x8 (.cons 434 0x800000000000 (.cons 436 0x1000000000000 (.cons 438 0x2000000000000000000000 (.cons 442 0x8000000000000000000000000000000000 (.cons 444 0x20000000000000000000000000000000000000000000000 (.cons 446 0x40000000000000000000000000000000000000000000000 (.cons 448 0x2000000000000000000000000000000000000000000000000 (.cons 606 0x2000000000000000000000000000000 .nil)))))))))))))))))))
def st324 : St := .mk (.cons 237 2 0x35bf67c01c0000031b22f32038d40ed1a400c8200004020209 .nil) (.cons 275 0x35bf67c01c0000031b22f32038d40ed1a400c8200004020209 (.cons 276 0x35bf67c01c0000031b22f32038d40ed1a400c8200004020209 (.cons 277 0x35bf67c01c0000031b22f32038d40ed1a400c8200004020209 (.cons 278 0x35bf67c01c0000031b22f32038d40ed1a400c8200004020209 (.cons 281 0x35bf67c01c0000031b22f32038d40ed1a400c8200004020209 (.cons 284 0x35bf67c01c0000031b22f32038d40ed1a400c8200004020209 (.cons 285 0x35bf67c01c0000031b22f32038d40ed1a400c8200004020209 (.cons 291 0x35bf67c01c0000031b22f32038d40ed1a400c8200004020209 (.cons 292 0x35bf67c01c0000031b22f32038d40ed1a400c8200004020209 (.cons 296 0x35bf67c01c0000031b22f32038d40ed1a400c8200004020209 (.cons 297 0x35bf67c01c0000031b22f32038d40ed1a400c8200004020209 (.cons 299 0x35bf67c01c0000031b22f32038d40ed1a400c8200004020209 (.cons 300 0x35bf67c01c0000031b22f32038d40ed1a400c8200004020209 (.cons 301 0x35bf67c01c0000031b22f32038d40ed1a400c8200004020209 (.cons 302 0x35bf67c01c0000031b22f32038d40ed1a400c8200004020209 (.cons 303 0x35bf67c01c0000031b22f32038d40ed1a400c8200004020209 (.cons 304 0x35bf67c01c0000031b22f32038d40ed1a400c8200004020209 (.cons 305 0x35bf67c01c0000031b22f32038d40ed1a400c8200004020209 (.cons 306 0x35bf67c01c0000031b22f32038d40ed1a400c8200004020209 (.cons 307 0x35bf67c01c0000031b22f32038d40ed1a400c8200004020209 (.cons 308 0x35bf67c01c0000031b22f32038d40ed1a400c8200004020209 .nil))))))))))))))))))))) (.cons 0 0x3df9fffffffe3fff7ffdfffefffedffffffffe7fffffffff87 (.cons 238 0x10 (.cons 240 0x20 (.cons 242 0x40 (.cons 246 0x10000000000000000000000 (.cons 248 0x100000000000000000000000000 (.cons 250 0x40000000000000000000000000000000000000 (.cons 252 0x80000000000000000000000000000000000000 (.cons 254 0x100000000000000000000000000000000000000 (.cons 258 0x40000000000000000000000000000000000000000000000000 (.cons 430 0x8 (.cons 434 0x800000000000 (.cons 436 0x1000000000000 (.cons 438 0x2000000000000000000000 (.cons 442 0x8000000000000000000000000000000000 (.cons 444 0x20000000000000000000000000000000000000000000000 (.cons 446 0x40000000000000000000000000000000000000000000000 (.cons 448 0x2000000000000000000000000000000000000000000000000 (.cons 606 0x2000000000000000000000000000000 .nil)))))))))))))))))))
def st325 : St := .mk (.cons 208 2 0x35bf67c01c0000031b22f32038d40ed1a400c8200004020209 .nil) (.cons 275 0x35bf67c01c0000031b22f32038d40ed1a400c8200004020209 (.cons 276 0x35bf67c01c0000031b22f32038d40ed1a400c8200004020209 (.cons 277 0x35bf67c01c0000031b22f32038d40ed1a400c8200004020209 (.cons 278 0x35bf67c01c0000031b22f32038d40ed1a400c8200004020209 (.cons 281 0x35bf67c01c0000031b22f32038d40ed1a400c8200004020209 (.cons 284 0x35bf67c01c0000031b22f32038d40ed1a400c8200004020209 (.cons 285 0x35bf67c01c0000031b22f32038d40ed1a400c8200004020209 (.cons 291 0x35bf67c01c0000031b22f32038d40ed1a400c8200004020209 (.cons 292 0x35bf67c01c0000031b22f32038d40ed1a400c8200004020209 (.cons 296 0x35bf67c01c0000031b22f32038d40ed1a400c8200004020209 (.cons 297 0x35bf67c01c0000031b22f32038d40ed1a400c8200004020209 (.cons 299 0x35bf67c01c0000031b22f32038d40ed1a400c8200004020209 (.cons 300 0x35bf67c01c0000031b22f32038d40ed1a400c8200004020209 (.cons 301 0x35bf67c01c0000031b22f32038d40ed1a400c8200004020209 (.cons 302 0x35bf67c01c0000031b22f32038d40ed1a400c8200004020209 (.cons 303 0x35bf67c01c0000031b22f32038d40ed1a400c8200004020209 (.cons 304 0x35bf67c01c0000031b22f32038d40ed1a400c8200004020209 (.cons 305 0x35bf67c01c0000031b22f32038d40ed1a400c8200004020209 (.cons 306 0x35bf67c01c0000031b22f32038d40ed1a400c8200004020209 (.cons 307 0x35bf67c01c0000031b22f32038d40ed1a400c8200004020209 (.cons 308 0x35bf67c01c0000031b22f32038d40ed1a400c8200004020209 .nil))))))))))))))))))))) (.cons 0 0x3df9fffffffe3fff7ffdfffefffedffffffffe7fffffffff87 (.cons 238 0x10 (.cons 240 0x20 (.cons 242 0x40 (.cons 246 0x10000000000000000000000 (.cons 248 0x100000000000000000000000000 (.cons 250 0x40000000000000000000000000000000000000 (.cons 252 0x80000000000000000000000000000000000000 (.cons 254 0x100000000000000000000000000000000000000 (.cons 258 0x40000000000000000000000000000000000000000000000000 (.cons 430 0x8 (.cons 434 0x800000000000 (.cons 436 0x1000000000000 (.cons 438 0x2000000000000000000000 (.cons 442 0x8000000000000000000000000000000000 (.cons 444 0x20000000000000000000000000000000000000000000000 (.cons 446 0x40000000000000000000000000000000000000000000000 (.cons 448 0x2000000000000000000000000000000000000000000000000 (.cons 606 0x2000000000000000000000000000000 .nil)))))))))))))))))))
def st326 : St := .mk (.cons 207 2 0x35bf67c01c0000031b22f32038d40ed1a400c8200004020209 .nil) (.cons 275 0x35bf67c01c0000031b22f32038d40ed1a400c8200004020209 (.cons 276 0x35bf67c01c0000031b22f32038d40ed1a400c8200004020209 (.cons 277 0x35bf67c01c0000031b22f32038d40ed1a400c8200004020209 (.cons 278 0x35bf67c01c0000031b22f32038d40ed1a400c8200004020209 (.cons 281 0x35bf67c01c0000031b22f32038d40ed1a400c8200004020209 (.cons 284 0x35bf67c01c0000031b22f32038d40ed1a400c8200004020209 (.cons 285 0x35bf67c01c0000031b22f32038d40ed1a400c8200004020209 (.cons 291 0x35bf67c01c0000031b22f32038d40ed1a400c8200004020209 (.cons 292 0x35bf67c01c0000031b22f32038d40ed1a400c8200004020209 (.cons 296 0x35bf67c01c0000031b22f32038d40ed1a400c8200004020209 (.cons 297 0x35bf67c01c0000031b22f32038d40ed1a400c8200004020209 (.cons 299 0x35bf67c01c0000031b22f32038d40ed1a400c8200004020209 (.cons 300 0x35bf67c01c0000031b22f32038d40ed1a400c8200004020209 (.cons 301 0x35bf67c01c0000031b22f32038d40ed1a400c8200004020209 (.cons 302 0x35bf67c01c0000031b22f32038d40ed1a400c8200004020209 (.cons 303 0x35bf67c01c0000031b22f32038d40ed1a400c8200004020209 (.cons 304 0x35bf67c01c0000031b22f32038d40ed1a400c8200004020209 (.cons 305 0x35bf67c01c0000031b22f32038d40ed1a400c8200004020209 (.cons 306 0x35bf67c01c0000031b22f32038d40ed1a400c8200004020209 (.cons 307 0x35bf67c01c0000031b22f32038d40ed1a400c8200004020209 (.cons 308 0x35bf67c01c0000031b22f32038d40ed1a400c8200004020209 .nil))))))))))))))))))))) (.cons 0 0x3df9fffffffe3fff7ffdfffefffedffffffffe7fffffffff87 (.cons 238 0x10 (.cons 240 0x20 (.cons 242 0x40 (.cons 246 0x10000000000000000000000 (.cons 248 0x100000000000000000000000000 (.cons 250 0x40000000000000000000000000000000000000 (.cons 252 0x80000000000000000000000000000000000000 (.cons 254 0x100000000000000000000000000000000000000 (.cons 258 0x40000000000000000000000000000000000000000000000000 (.cons 430 0x8 (.cons 434 0x800000000000 (.cons 436 0x1000000000000 (.cons 438 0x2000000000000000000000 (.cons 442 0x8000000000000000000000000000000000 (.cons 444 0x20000000000000000000000000000000000000000000000 (.cons 446 0x40000000000000000000000000000000000000000000000 (.cons 448 0x2000000000000000000000000000000000000000000000000 (.cons 606 0x2000000000000000000000000000000 .nil)))))))))))))))))))
def st327 : St := .mk (.cons 210 2 0x35bf67c01c0000031b22f32038d40ed1a400c8200004020209 .nil) (.cons 275 0x35bf67c01c0000031b22f32038d40ed1a400c8200004020209 (.cons 276 0x35bf67c01c0000031b22f32038d40ed1a400c8200004020209 (.cons 277 0x35bf67c01c0000031b22f32038d40ed1a400c8200004020209 (.cons 278 0x35bf67c01c0000031b22f32038d40ed1a400c8200004020209 (.cons 281 0x35bf67c01c0000031b22f32038d40ed1a400c8200004020209 (.cons 284 0x35bf67c01c0000031b22f32038d40ed1a400c8200004020209 (.cons 285 0x35bf67c01c0000031b22f32038d40ed1a400c8200004020209 (.cons 291 0x35bf67c01c0000031b22f32038d40ed1a400c8200004020209 (.cons 292 0x35bf67c01c0000031b22f32038d40ed1a400c8200004020209 (.cons 296 0x35bf67c01c0000031b22f32038d40ed1a400c8200004020209 (.cons 297 0x35bf67c01c0000031b22f32038d40ed1a400c8200004020209 (.cons 299 0x35bf67c01c0000031b22f32038d40ed1a400c8200004020209 (.cons 300 0x35bf67c01c0000031b22f32038d40ed1a400c8200004020209 (.cons 301 0x35bf67c01c0000031b22f32038d40ed1a400c8200004020209 (.cons 302 0x35bf67c01c0000031b22f32038d40ed1a400c8200004020209 (.cons 303 0x35bf67c01c0000031b22f32038d40ed1a400c8200004020209 (.cons 304 0x35bf67c01c0000031b22f32038d40ed1a400c8200004020209 (.cons 305 0x35bf67c01c0000031b22f32038d40ed1a400c8200004020209 (.cons 306 0x35bf67c01c0000031b22f32038d40ed1a400c8200004020209 (.cons 307 0x35bf67c01c0000031b22f32038d40ed1a400c8200004020209 (.cons 308 0x35bf67c01c0000031b22f32038d40ed1a400c8200004020209 .nil))))))))))))))))))))) (.cons 0 0x3df9fffffffe3fff7ffdfffefffedffffffffe7fffffffff87 (.cons 238 0x10 (.cons 240 0x20 (.cons 242 0x40 (.cons 246 0x10000000000000000000000 (.cons 248 0x100000000000000000000000000 (.cons 250 0x40000000000000000000000000000000000000 (.cons 252 0x80000000000000000000000000000000000000 (.cons 254 0x100000000000000000000000000000000000000 (.cons 258 0x40000000000000000000000000000000000000000000000000 (.cons 430 0x8 (.cons 434 0x800000000000 (.cons 436 0x1000000000000 (.cons 438 0x2000000000000000000000 (.cons 442 0x8000000000000000000000000000000000 (.cons 444 0x20000000000000000000000000000000000000000000000 (.cons 446 0x40000000000000000000000000000000000000000000000 (.cons 448 0x2000000000000000000000000000000000000000000000000 (.cons 606 0x2000000000000000000000000000000 .nil)))))))))))))))))))
def st328 : St := .mk (.cons 209 2 0x35bf67c01c0000031b22f32038d40ed1a400c8200004020209 .nil) (.cons 275 0x35bf67c01c0000031b22f32038d40ed1a400c8200004020209 (.cons 276 0x35bf67c01c0000031b22f32038d40ed1a400c8200004020209 (.cons 277 0x35bf67c01c0000031b22f32038d40ed1a400c8200004020209 (.cons 278 0x35bf67c01c0000031b22f32038d40ed1a400c8200004020209 (.cons 281 0x35bf67c01c0000031b22f32038d40ed1a400c8200004020209 (.cons 284 0x35bf67c01c0000031b22f32038d40ed1a400c8200004020209 (.cons 285 0x35bf67c01c0000031b22f32038d40ed1a400c8200004020209 (.cons 291 0x35bf67c01c0000031b22f32038d40ed1a400c8200004020209 (.cons 292 0x35bf67c01c0000031b22f32038d40ed1a400c8200004020209 (.cons 296 0x35bf67c01c0000031b22f32038d40ed1a400c8200004020209 (.cons 297 0x35bf67c01c0000031b22f32038d40ed1a400c8200004020209 (.cons 299 0x35bf67c01c0000031b22f32038d40ed1a400c8200004020209 (.cons 300 0x35bf67c01c0000031b22f32038d40ed1a400c8200004020209 (.cons 301 0x35bf67c01c0000031b22f32038d40ed1a400c8200004020209 (.cons 302 0x35bf67c01c0000031b22f32038d40ed1a400c8200004020209 (.cons 303 0x35bf67c01c0000031b22f32038d40ed1a400c8200004020209 (.cons 304 0x35bf67c01c0000031b22f32038d40ed1a400c8200004020209 (.cons 305 0x35bf67c01c0000031b22f32038d40ed1a400c8200004020209 (.cons 306 0x35bf67c01c0000031b22f32038d40ed1a400c8200004020209 (.cons 307 0x35bf67c01c0000031b22f32038d40ed1a400c8200004020209 (.cons 308 0x35bf67c01c0000031b22f32038d40ed1a400c8200004020209 .nil))))))))))))))))))))) (.cons 0 0x3df9fffffffe3fff7ffdfffefffedffffffffe7fffffffff87 (.cons 238 0x10 (.cons 240 0x20 (.cons 242 0x40 (.cons 246 0x10000000000000000000000 (.cons 248 0x100000000000000000000000000 (.cons 250 0x40000000000000000000000000000000000000 (.cons 252 0x80000000000000000000000000000000000000 (.cons 254 0x100000000000000000000000000000000000000 (.cons 258 0x40000000000000000000000000000000000000000000000000 (.cons 430 0x8 (.cons 434 0x800000000000 (.cons 436 0x1000000000000 (.cons 438 0x2000000000000000000000 (.cons 442 0x8000000000000000000000000000000000 (.cons 444 0x20000000000000000000000000000000000000000000000 (.cons 446 0x40000000000000000000000000000000000000000000000 (.cons 448 0x2000000000000000000000000000000000000000000000000 (.cons 606 0x2000000000000000000000000000000 .nil)))))))))))))))))))
def st329 : St := .mk (.cons 211 2 0x35bf67c01c0000031b22f32038d40ed1a400c8200004020209 .nil) (.cons 275 0x35bf67c01c0000031b22f32038d40ed1a400c8200004020209 (.cons 276 0x35bf67c01c0000031b22f32038d40ed1a400c8200004020209 (.cons 277 0x35bf67c01c0000031b22f32038d40ed1a400c8200004020209 (.cons 278 0x35bf67c01c0000031b22f32038d40ed1a400c8200004020209 (.cons 281 0x35bf67c01c0000031b22f32038d40ed1a400c8200004020209 (.cons 284 0x35bf67c01c0000031b22f32038d40ed1a400c8200004020209 (.cons 285 0x35bf67c01c0000031b22f32038d40ed1a400c8200004020209 (.cons 291 0x35bf67c01c0000031b22f32038d40ed1a400c8200004020209 (.cons 292 0x35bf67c01c0000031b22f32038d40ed1a400c8200004020209 (.cons 296 0x35bf67c01c0000031b22f32038d40ed1a400c8200004020209 (.cons 297 0x35bf67c01c0000031b22f32038d40ed1a400c8200004020209 (.cons 299 0x35bf67c01c0000031b22f32038d40ed1a400c8200004020209 (.cons 300 0x35bf67c01c0000031b22f32038d40ed1a400c8200004020209 (.cons 301 0x35bf67c01c0000031b22f32038d40ed1a400c8200004020209 (.cons 302 0x35bf67c01c0000031b22f32038d40ed1a400c8200004020209 (.cons 303 0x35bf67c01c0000031b22f32038d40ed1a400c8200004020209 (.cons 304 0x35bf67c01c0000031b22f32038d40ed1a400c8200004020209 (.cons 305 0x35bf67c01c0000031b22f32038d40ed1a400c8200004020209 (.cons 306 0x35bf67c01c0000031b22f32038d40ed1a400c8200004020209 (.cons 307 0x35bf67c01c0000031b22f32038d40ed1a400c8200004020209 (.cons 308 0x35bf67c01c0000031b22f32038d40ed1a400c8200004020209 .nil))))))))))))))))))))) (.cons 0 0x3df9fffffffe3fff7ffdfffefffedffffffffe7fffffffff87 (.cons 238 0x10 (.cons 240 0x20 (.cons 242 0x40 (.cons 246 0x10000000000000000000000 (.cons 248 0x100000000000000000000000000 (.cons 250 0x40000000000000000000000000000000000000 (.cons 252 0x80000000000000000000000000000000000000 (.cons 254 0x100000000000000000000000000000000000000 (.cons 258 0x40000000000000000000000000000000000000000000000000 (.cons 430 0x8 (.cons 434 0x800000000000 (.cons 436 0x1000000000000 (.cons 438 0x2000000000000000000000 (.cons 442 0x8000000000000000000000000000000000 (.cons 444 0x20000000000000000000000000000000000000000000000 (.cons 446 0x40000000000000000000000000000000000000000000000 (.cons 448 0x2000000000000000000000000000000000000000000000000 (.cons 606 0x2000000000000000000000000000000 .nil)))))))))))))))))))
def st330 : St := .mk (.cons 212 2 0x35bf67c01c0000031b22f32038d40ed1a400c8200004020209 .nil) (.cons 275 0x35bf67c01c0000031b22f32038d40ed1a400c8200004020209 (.cons 276 0x35bf67c01c0000031b22f32038d40ed1a400c8200004020209 (.cons 277 0x35bf67c01c0000031b22f32038d40ed1a400c8200004020209 (.cons 278 0x35bf67c01c0000031b22f32038d40ed1a400c8200004020209 (.cons 281 0x35bf67c01c0000031b22f32038d40ed1a400c8200004020209 (.cons 284 0x35bf67c01c0000031b22f32038d40ed1a400c8200004020209 (.cons 285 0x35bf67c01c0000031b22f32038d40ed1a400c8200004020209 (.cons 291 0x35bf67c01c0000031b22f32038d40ed1a400c8200004020209 (.cons 292 0x35bf67c01c0000031b22f32038d40ed1a400c8200004020209 (.cons 296 0x35bf67c01c0000031b22f32038d40ed1a400c8200004020209 (.cons 297 0x35bf67c01c0000031b22f32038d40ed1a400c8200004020209 (.cons 299 0x35bf67c01c0000031b22f32038d40ed1a400c8200004020209 (.cons 300 0x35bf67c01c0000031b22f32038d40ed1a400c8200004020209 (.cons 301 0x35bf67c01c0000031b22f32038d40ed1a400c8200004020209 (.cons 302 0x35bf67c01c0000031b22f32038d40ed1a400c8200004020209 (.cons 303 0x35bf67c01c0000031b22f32038d40ed1a400c8200004020209 (.cons 304 0x35bf67c01c0000031b22f32038d40ed1a400c8200004020209 (.cons 305 0x35bf67c01c0000031b22f32038d40ed1a400c8200004020209 (.cons 306 0x35bf67c01c0000031b22f32038d40ed1a400c8200004020209 (.cons 307 0x35bf67c01c0000031b22f32038d40ed1a400c8200004020209 (.cons 308 0x35bf67c01c0000031b22f32038d40ed1a400c8200004020209 .nil))))))))))))))))))))) (.cons 0 0x3df9fffffffe3fff7ffdfffefffedffffffffe7fffffffff87 (.cons 238 0x10 (.cons 240 0x20 (.cons 242 0x40 (.cons 246 0x10000000000000000000000 (.cons 248 0x100000000000000000000000000 (.cons 250 0x40000000000000000000000000000000000000 (.cons 252 0x80000000000000000000000000000000000000 (.cons 254 0x100000000000000000000000000000000000000 (.cons 258 0x40000000000000000000000000000000000000000000000000 (.cons 430 0x8 (.cons 434 0x800000000000 (.cons 436 0x1000000000000 (.cons 438 0x2000000000000000000000 (.cons 442 0x8000000000000000000000000000000000 (.cons 444 0x20000000000000000000000000000000000000000000000 (.cons 446 0x40000000000000000000000000000000000000000000000 (.cons 448 0x2000000000000000000000000000000000000000000000000 (.cons 606 0x2000000000000000000000000000000 .nil)))))))))))))))))))
def st331 : St := .mk (.cons 274 2 0x35bf67c01c0000031b22f32038d40ed1a400c8200004020209 .nil) (.cons 304 0x1000000000000000000000000000000000000000000000000 .nil) (.cons 0 0x7fffffffffffffffffffffffffffffffffffffffffffffffbf (.cons 344 0x40 .nil))
def st332 : St := .mk (.cons 35 6 0x10000000000000000000000000000000000000000000000001 .nil) (.cons 315 0x10000000000000000000000000000000000000000000000001 .nil) (.cons 0 0x7ffffffffffffffffffffffffffffffffffffffffffffffff7 (.cons 82 0x8 .nil))
def st333 : St := .mk (.cons 117 3 0x24000026000000000022000100000000008400000000000000 .nil) .nil (.cons 235 0x7fffffffffffffffffffffffffffffffffffffffffffffffff .nil)
def st334 : St := .mk (.cons 357 2 0x3400000000c000000000820000000000000000000000000001 .nil) .nil (.cons 0 0x7ffffffffffffffffffffffffffffffffffffffffffffffff7 (.cons 890 0x8 .nil))
def st335 : St := .mk (.cons 115 6 0x10000000000000000000020000000000000000000000000001 .nil) (.cons 270 0x24000000000000000000000000000000000000000000000000 (.cons 271 0x24000000000000000000000000000000000000000000000000 (.cons 272 0x24000000000000000000000000000000000000000000000000 (.cons 300 0x24000000000000000000000000000000000000000000000000 (.cons 301 0x24000000000000000000000000000000000000000000000000 (.cons 302 0x24000000000000000000000000000000000000000000000000 (.cons 303 0x24000000000000000000000000000000000000000000000000 (.cons 304 0x24000000000000000000000000000000000000000000000000 (.cons 305 0x24000000000000000000000000000000000000000000000000 (.cons 306 0x24000000000000000000000000000000000000000000000000 (.cons 307 0x24000000000000000000000000000000000000000000000000 (.cons 308 0x24000000000000000000000000000000000000000000000000 .nil)))))))))))) (.cons 0 0x3ffdfffffffe3ffffffffffefffefffffffffeffffffffff8f (.cons 238 0x10 (.cons 240 0x20 (.cons 242 0x40 (.cons 244 0x1000000000000 (.cons 246 0x10000000000000000000000 (.cons 248 0x100000000000000000000000000 (.cons 250 0x40000000000000000000000000000000000000 (.cons 252 0x80000000000000000000000000000000000000 (.cons 254 0x100000000000000000000000000000000000000 (.cons 256 0x20000000000000000000000000000000000000000000000 (.cons 258 0x40000000000000000000000000000000000000000000000000 .nil))))))))))))
def st336 : St := .mk (.cons 122 3 0x30000000000000000000020000000800000000000000000001 (.cons 217 1 0x30000000000000001000120000000800000000000000000001 (.cons 218 1 0x30000000000000001000120000000800000000000000000001 .nil))) .nil (.cons 245 0x7fffffffffffffffefffefffffffffffffffffffffffffffff (.cons 618 0x100000000000000000000000000000 (.cons 620 0x1000000000000000000000000000000000 .nil)))
def st337 : St := .mk (.cons 121 3 0x30000000000000000000020000000800000000000000000001 .nil) .nil (.cons 243 0x7fffffffffffffffffffffffffffffffffffffffffffffffff .nil)
def st338 : St := .mk (.cons 112 2 0x10000000000000000000020000000000000000000000000001 .nil) (.cons 234 0x8 .nil) (.cons 186 0x80000000000000000000000000000000 (.cons 219 0x7fffffffffffffffff7fffffffffffffffffffffffffffffff .nil))
def st339 : St := .mk (.cons 39 2 0x10000000000000000000000000000800000000000000000001 .nil) (.cons 216 0x24000000000000000000000000000000000000000000000000 (.cons 217 0x24000000000000000000000000000000000000000000000000 .nil)) (.cons 0 0x7ffffffffffffffffffffffefffffffffffffdfffffefffff7 (.cons 682 0x8 (.cons 684 0x1000000 (.cons 686 0x2000000000000 (.cons 688 0x100000000000000000000000000 .nil)))))
def st340 : St := .mk (.cons 48 1 0x24000000000000000000000000000000000000000000000000 .nil) .nil (.cons 0 0x7fffffffffffffffffffffffffffffffffffffffffffffffef (.cons 898 0x10 .nil))
def st341 : St := .mk (.cons 45 1 0x24000000000000000000000000000000000000000000000000 .nil) .nil (.cons 0 0x7fffffffffffffffffffffffffffffffffffffffffffffffef (.cons 900 0x10 .nil))
def st342 : St := .mk (.cons 43 1 0x24000000000000000000000000000000000000000000000000 .nil) (.cons 213 0x24000000000000000000000000000000000000000000000000 .nil) (.cons 0 0x7ffffffffffffffffffffffffffffffffffffffffffffffff7 (.cons 178 0x8 .nil))
def st343 : St := .mk (.cons 49 1 0x24000000000000000000000000000000000000000000000000 .nil) .nil (.cons 0 0x7fffffffffffffffffffffffffffffffffffffffffffffffef (.cons 904 0x10 .nil))
def st344 : St := .mk (.cons 40 2 0x10000000000000000000000000000800000000000000000001 (.cons 42 1 0x24000000000000000000000000000000000000000000000000 (.cons 44 1 0x24000000000000000000000000000000000000000000000000 (.cons 46 1 0x24000000000000000000000000000000000000000000000000 .nil)))) .nil (.cons 0 0x5bffffffffffffffffffffffffffffffffffffffffffffffff (.cons 906 0x4000000000000000000000000000000000000000000000000 (.cons 908 0x20000000000000000000000000000000000000000000000000 .nil)))
def st345 : St := .mk (.cons 47 1 0x24000000000000000000000000000000000000000000000000 .nil) .nil (.cons 95 0x7fffffffffffffffffffffffffffffffffffffffffffffffff .nil)
def st346 : St := .mk (.cons 36 6 0x10000000000000000000000000000000000000000000000001 .nil) .nil (.cons 73 0x7fffffffffffffffffffffffffffffffffffffffffffffffff .nil)
def st347 : St := .mk (.cons 25 2 0x24000000000000000000000000000000000000000000000000 .nil) (.cons 270 0x24000000000000000000000000000000000000000000000000 (.cons 271 0x24000000000000000000000000000000000000000000000000 (.cons 272 0x24000000000000000000000000000000000000000000000000 (.cons 300 0x24000000000000000000000000000000000000000000000000 (.cons 301 0x24000000000000000000000000000000000000000000000000 (.cons 302 0x24000000000000000000000000000000000000000000000000 (.cons 303 0x24000000000000000000000000000000000000000000000000 (.cons 304 0x24000000000000000000000000000000000000000000000000 (.cons 305 0x24000000000000000000000000000000000000000000000000 (.cons 306 0x24000000000000000000000000000000000000000000000000 (.cons 307 0x24000000000000000000000000000000000000000000000000 (.cons 308 0x24000000000000000000000000000000000000000000000000 .nil)))))))))))) (.cons 0 0x3ffdfffffffe3ffffffffffefffefffffffffeffffffffff8f (.cons 238 0x10 (.cons 240 0x20 (.cons 242 0x40 (.cons 244 0x1000000000000 (.cons 246 0x10000000000000000000000 (.cons 248 0x100000000000000000000000000 (.cons 250 0x40000000000000000000000000000000000000 (.cons 252 0x80000000000000000000000000000000000000 (.cons 254 0x100000000000000000000000000000000000000 (.cons 256 0x20000000000000000000000000000000000000000000000 (.cons 258 0x40000000000000000000000000000000000000000000000000 .nil))))))))))))
def st348 : St := .mk (.cons 20 5 0x10000000000000000000000000000000000000000000000001 .nil) .nil (.cons 41 0x7fffffffffffffffffffffffffffffffffffffffffffffffff .nil)
def st349 : St := .mk (.cons 23 2 0x24000000000000000000000000000000000000000000000000 .nil) (.cons 206 0x24000000000000000000000000000000000000000000000000 .nil) (.cons 0 0x7ffffffffffffffffffffffffffffffffffffffffffffffff7 (.cons 518 0x8 .nil))
def st350 : St := .mk (.cons 146 1 0x14000000000000000000820000000a11200080200000000201 .nil) (.cons 309 0x14000000000000000000820000000a11200080200000000201 (.cons 310 0x34000000000000000000820018800ad1a40080200004000201 (.cons 311 0x34000000000000000000820018800ad1a40080200004000201 (.cons 312 0x20000000000000000000000000000000000000000000000000 (.cons 313 0x34000000000000000000820018800ad1a40080200004000201 (.cons 315 0x34000000000000000020820018800ad1a40080200004000209 (.cons 330 0x34000000000000000000820018800ad1a40080200004000201 .nil))))))) (.cons 0 0x7dfffffffffffffffffffffffffffffffffffffffffffffff7 (.cons 82 0x8 (.cons 914 0x2000000000000000000000000000000000000000000000000 .nil)))
def st351 : St := .mk (.cons 140 5 0x14000000000000000000820000000211000080200000000201 .nil) (.cons 258 0x14000000000000000000820000000211200080200000000201 .nil) (.cons 297 0x7ffffffffffffffffffffffffffff7ffffffffffffffffffff (.cons 300 0x800000000000000000000 .nil))
def st352 : St := .mk (.cons 144 1 0x14000000000000000000820000000a11200080200000000201 .nil) .nil (.cons 289 0x7fffffffffffffffffffffffffffffffffffffffffffffffff .nil)
def st353 : St := .mk (.cons 172 2 0x350000001c0000000000820000400a11200088200000000201 .nil) (.cons 273 0x350000001c0000000000820000400a11200088200000000201 (.cons 274 0x350000001c0000001020920000400a11200088200000000209 (.cons 275 0x35bf67c01c0000031322920020400a112000c8200000020209 (.cons 276 0x35bf67c01c0000031322920020400a112000c8200000020209 (.cons 277 0x35bf67c01c0000031322920020400a112000c8200000020209 (.cons 278 0x35bf67c01c0000031322920020400a112000c8200000020209 (.cons 279 0x350000001c0000001020920000400a11200088200000000209 (.cons 280 0x350000001c0000001020920000400a11200088200000000209 (.cons 281 0x35bf67c01c0000031322920020400a112000c8200000020209 (.cons 283 0x350000001c0000001020920000400a11200088200000000209 (.cons 284 0x35bf67c01c0000031322920020400a112000c8200000020209 (.cons 285 0x35bf67c01c0000031322920020400a112000c8200000020209 (.cons 291 0x35bf67c01c0000031322920020400a112000c8200000020209 (.cons 292 0x35bf67c01c0000031322920020400a112000c8200000020209 (.cons 296 0x35bf67c01c0000031322920020400a112000c8200000020209 (.cons 297 0x35bf67c01c0000031322920020400a112000c8200000020209 (.cons 298 0x350000001c0000001020920000400a11200088200000000209 (.cons 299 0x35bf67c01c0000031322920020400a112000c8200000020209 (.cons 300 0x35bf67c01c0000031322920020400a112000c8200000020209 (.cons 301 0x35bf67c01c0000031322920020400a112000c8200000020209 (.cons 302 0x35bf67c01c0000031322920020400a112000c8200000020209 (.cons 303 0x35bf67c01c0000031322920020400a112000c8200000020209 (.cons 304 0x35bf67c01c0000031322920020400a112000c8200000020209 (.cons 305 0x35bf67c01c0000031322920020400a112000c8200000020209 (.cons 306 0x35bf67c01c0000031322920020400a112000c8200000020209 (.cons 307 0x35bf67c01c0000031322920020400a112000c8200000020209 (.cons 308 0x35bf67c01c0000031322920020400a112000c8200000020209 .nil))))))))))))))))))))))))))) (.cons 0 0x3df9fffffffe3fff7ffdfffefffedffffffffe3fffffffff87 (.cons 238 0x10 (.cons 240 0x20 (.cons 242 0x40 (.cons 246 0x10000000000000000000000 (.cons 248 0x100000000000000000000000000 (.cons 250 0x40000000000000000000000000000000000000 (.cons 252 0x80000000000000000000000000000000000000 (.cons 254 0x100000000000000000000000000000000000000 (.cons 258 0x40000000000000000000000000000000000000000000000000 (.cons 430 0x8 (.cons 432 0x400000000000 (.cons 434 0x800000000000 (.cons 436 0x1000000000000 (.cons 438 0x2000000000000000000000 (.cons 440 0x2000000000000000000000000000000 (.cons 442 0x8000000000000000000000000000000000 (.cons 444 0x20000000000000000000000000000000000000000000000 (.cons 446 0x40000000000000000000000000000000000000000000000 (.cons 448 0x2000000000000000000000000000000000000000000000000 .nil))))))))))))))))))))
def st354 : St := .mk (.cons 318 1 0x350000001c0000000800820018c00ed1a40088200004000201 .nil) .nil (.cons 637 0x7fffffffffffffffffffffffffffffffffffffffffffffffff .nil)
def st355 : St := .mk (.cons 317 1 0x350000001c0000000000820000400a11200088200000000201 .nil) .nil (.cons 0 0x7ffffffffffffffffffffffffffffffffffffffffffffffff7 (.cons 934 0x8 .nil))
def st356 : St := .mk (.cons 319 1 0x350000001c0000000000820000400a11200088200000000201 .nil) .nil (.cons 639 0x7fffffffffffffffffffffffffffffffffffffffffffffffff .nil)
def st357 : St := .mk (.cons 182 2 0x350000001c0000000000820000400a11200088200000000201 .nil) .nil (.cons 365 0x7fffffffffffffffffffffffffffffffffffffffffffffffff .nil)
def st358 : St := .mk (.cons 125 6 0x14000000000000000000020000000000000000000000000001 .nil) .nil (.cons 251 0x7fffffffffffffffffffffffffffffffffffffffffffffffff .nil)
def st359 : St := .mk (.cons 129 3 0x14000000000000000000820000000011000080000000000001 .nil) .nil (.cons 259 0x7fffffffffffffffffffffffffffffffffffffffffffffffff .nil)
def st360 : St := .mk (.cons 156 2 0x340000001c0000000000820000000001000080000000000001 .nil) (.cons 263 0x340000001c0000000000820000000001000080000000000001 (.cons 274 0x340000001c0000001000b20000040001000080000000000009 (.cons 275 0x34bf67c01c0000031302b200200400010000c0000000020009 (.cons 276 0x34bf67c01c0000031302b200200400010000c0000000020009 (.cons 277 0x34bf67c01c0000031302b200200400010000c0000000020009 (.cons 278 0x34bf67c01c0000031302b200200400010000c0000000020009 (.cons 279 0x340000001c0000001000b20000040001000080000000000009 (.cons 280 0x340000001c0000001000b20000040001000080000000000009 (.cons 281 0x34bf67c01c0000031302b200200400010000c0000000020009 (.cons 283 0x340000001c0000001000b20000040001000080000000000009 (.cons 284 0x34bf67c01c0000031302b200200400010000c0000000020009 (.cons 285 0x34bf67c01c0000031302b200200400010000c0000000020009 (.cons 291 0x34bf67c01c0000031302b200200400010000c0000000020009 (.cons 292 0x34bf67c01c0000031302b200200400010000c0000000020009 (.cons 296 0x34bf67c01c0000031302b200200400010000c0000000020009 (.cons 297 0x34bf67c01c0000031302b200200400010000c0000000020009 (.cons 298 0x340000001c0000001000b20000040001000080000000000009 (.cons 299 0x34bf67c01c0000031302b200200400010000c0000000020009 (.cons 300 0x34bf67c01c0000031302b200200400010000c0000000020009 (.cons 301 0x34bf67c01c0000031302b200200400010000c0000000020009 (.cons 302 0x34bf67c01c0000031302b200200400010000c0000000020009 (.cons 303 0x34bf67c01c0000031302b200200400010000c0000000020009 (.cons 304 0x34bf67c01c0000031302b200200400010000c0000000020009 (.cons 305 0x34bf67c01c0000031302b200200400010000c0000000020009 (.cons 306 0x34bf67c01c0000031302b200200400010000c0000000020009 (.cons 307 0x34bf67c01c0000031302b200200400010000c0000000020009 (.cons 308 0x34bf67c01c0000031302b200200400010000c0000000020009 .nil))))))))))))))))))))))))))) (.cons 0 0x3df9fffffffe3fff7ffdfffefffedffffffffe3fffffffff87 (.cons 238 0x10 (.cons 240 0x20 (.cons 242 0x40 (.cons 246 0x10000000000000000000000 (.cons 248 0x100000000000000000000000000 (.cons 250 0x40000000000000000000000000000000000000 (.cons 252 0x80000000000000000000000000000000000000 (.cons 254 0x100000000000000000000000000000000000000 (.cons 258 0x40000000000000000000000000000000000000000000000000 (.cons 430 0x8 (.cons 432 0x400000000000 (.cons 434 0x800000000000 (.cons 436 0x1000000000000 (.cons 438 0x2000000000000000000000 (.cons 440 0x2000000000000000000000000000000 (.cons 442 0x8000000000000000000000000000000000 (.cons 444 0x20000000000000000000000000000000000000000000000 (.cons 446 0x40000000000000000000000000000000000000000000000 (.cons 448 0x2000000000000000000000000000000000000000000000000 .nil))))))))))))))))))))
def st361 : St := .mk (.cons 159 1 0x340000001c0000000000820000000001000080000000000009 .nil) .nil (.cons 319 0x7fffffffffffffffffffffffffffffffffffffffffffffffff .nil)
def st362 : St := .mk (.cons 158 1 0x340000001c0000000000820000000001000080000000000009 .nil) .nil (.cons 317 0x7fffffffffffffffffffffffffffffffffffffffffffffffff .nil)
def st363 : St := .mk (.cons 157 2 0x340000001c0000000000820000000001000080000000000001 .nil) (.cons 265 0x340000001c0000000000820000000001000080000000000001 .nil) (.cons 323 0x7ffffffffffffffffffffffffffffffffffffffffffffffff7 (.cons 938 0x8 .nil))
def st364 : St := .mk (.cons 133 5 0x14000000000000000000020000000000000000000000000001 .nil) (.cons 321 0x14000000000000000000020000000000000000000000000001 (.cons 322 0x14000000000000000000820000000000000000000000000001 (.cons 323 0x14000000000000000000820000000000000000000000000001 .nil))) (.cons 550 0x800000000000000000000000000000 (.cons 645 0x7fffffffffffffffffff7fffffffffffffffffffffffffffff .nil))
def st365 : St := .mk (.cons 169 3 0x14000000000000000000820000000000000000000000000001 .nil) (.cons 274 0x14000000000000001000920000000000000000000000000001 (.cons 275 0x14bf67c0000000031302920020000000000040000000020001 (.cons 276 0x14bf67c0000000031302920020000000000040000000020001 (.cons 277 0x14bf67c0000000031302920020000000000040000000020001 (.cons 278 0x14bf67c0000000031302920020000000000040000000020001 (.cons 279 0x14000000000000001000920000000000000000000000000001 (.cons 280 0x14000000000000001000920000000000000000000000000001 (.cons 281 0x14bf67c0000000031302920020000000000040000000020001 (.cons 283 0x14000000000000001000920000000000000000000000000001 (.cons 284 0x14bf67c0000000031302920020000000000040000000020001 (.cons 285 0x14bf67c0000000031302920020000000000040000000020001 (.cons 291 0x14bf67c0000000031302920020000000000040000000020001 (.cons 292 0x14bf67c0000000031302920020000000000040000000020001 (.cons 296 0x14bf67c0000000031302920020000000000040000000020001 (.cons 297 0x14bf67c0000000031302920020000000000040000000020001 (.cons 298 0x14000000000000001000920000000000000000000000000001 (.cons 299 0x14bf67c0000000031302920020000000000040000000020001 (.cons 300 0x14bf67c0000000031302920020000000000040000000020001 (.cons 301 0x14bf67c0000000031302920020000000000040000000020001 (.cons 302 0x14bf67c0000000031302920020000000000040000000020001 (.cons 303 0x14bf67c0000000031302920020000000000040000000020001 (.cons 304 0x14bf67c0000000031302920020000000000040000000020001 (.cons 305 0x14bf67c0000000031302920020000000000040000000020001 (.cons 306 0x14bf67c0000000031302920020000000000040000000020001 (.cons 307 0x14bf67c0000000031302920020000000000040000000020001 (.cons 308 0x14bf67c0000000031302920020000000000040000000020001 .nil)))))))))))))))))))))))))) (.cons 0 0x3df9fffffffe3fff7ffdfffefffedffffffffe3fffffffff87 (.cons 238 0x10 (.cons 240 0x20 (.cons 242 0x40 (.cons 246 0x10000000000000000000000 (.cons 248 0x100000000000000000000000000 (.cons 250 0x40000000000000000000000000000000000000 (.cons 252 0x80000000000000000000000000000000000000 (.cons 254 0x100000000000000000000000000000000000000 (.cons 258 0x40000000000000000000000000000000000000000000000000 (.cons 430 0x8 (.cons 432 0x400000000000 (.cons 434 0x800000000000 (.cons 436 0x1000000000000 (.cons 438 0x2000000000000000000000 (.cons 440 0x2000000000000000000000000000000 (.cons 442 0x8000000000000000000000000000000000 (.cons 444 0x20000000000000000000000000000000000000000000000 (.cons 446 0x40000000000000000000000000000000000000000000000 (.cons 448 0x2000000000000000000000000000000000000000000000000 .nil))))))))))))))))))))
def st366 : St := .mk (.cons 167 3 0x14000000000000000000820000000000000000000000000001 .nil) (.cons 274 0x14000000000000001000920000000000000000000000000001 (.cons 275 0x14bf67c0000000031302920020000000000040000000020001 (.cons 276 0x14bf67c0000000031302920020000000000040000000020001 (.cons 277 0x14bf67c0000000031302920020000000000040000000020001 (.cons 278 0x14bf67c0000000031302920020000000000040000000020001 (.cons 279 0x14000000000000001000920000000000000000000000000001 (.cons 280 0x14000000000000001000920000000000000000000000000001 (.cons 281 0x14bf67c0000000031302920020000000000040000000020001 (.cons 283 0x14000000000000001000920000000000000000000000000001 (.cons 284 0x14bf67c0000000031302920020000000000040000000020001 (.cons 285 0x14bf67c0000000031302920020000000000040000000020001 (.cons 291 0x14bf67c0000000031302920020000000000040000000020001 (.cons 292 0x14bf67c0000000031302920020000000000040000000020001 (.cons 296 0x14bf67c0000000031302920020000000000040000000020001 (.cons 297 0x14bf67c0000000031302920020000000000040000000020001 (.cons 298 0x14000000000000001000920000000000000000000000000001 (.cons 299 0x14bf67c0000000031302920020000000000040000000020001 (.cons 300 0x14bf67c0000000031302920020000000000040000000020001 (.cons 301 0x14bf67c0000000031302920020000000000040000000020001 (.cons 302 0x14bf67c0000000031302920020000000000040000000020001 (.cons 303 0x14bf67c0000000031302920020000000000040000000020001 (.cons 304 0x14bf67c0000000031302920020000000000040000000020001 (.cons 305 0x14bf67c0000000031302920020000000000040000000020001 (.cons 306 0x14bf67c0000000031302920020000000000040000000020001 (.cons 307 0x14bf67c0000000031302920020000000000040000000020001 (.cons 308 0x14bf67c0000000031302920020000000000040000000020001 .nil)))))))))))))))))))))))))) (.cons 0 0x3df9fffffffe3fff7ffdfffefffedffffffffe3fffffffff87 (.cons 238 0x10 (.cons 240 0x20 (.cons 242 0x40 (.cons 246 0x10000000000000000000000 (.cons 248 0x100000000000000000000000000 (.cons 250 0x40000000000000000000000000000000000000 (.cons 252 0x80000000000000000000000000000000000000 (.cons 254 0x100000000000000000000000000000000000000 (.cons 258 0x40000000000000000000000000000000000000000000000000 (.cons 430 0x8 (.cons 432 0x400000000000 (.cons 434 0x800000000000 (.cons 436 0x1000000000000 (.cons 438 0x2000000000000000000000 (.cons 440 0x2000000000000000000000000000000 (.cons 442 0x8000000000000000000000000000000000 (.cons 444 0x20000000000000000000000000000000000000000000000 (.cons 446 0x40000000000000000000000000000000000000000000000 (.cons 448 0x2000000000000000000000000000000000000000000000000 .nil))))))))))))))))))))
def st367 : St := .mk (.cons 327 1 0x1400000000c000000400820000000000000000000000000001 .nil) .nil (.cons 655 0x7fffffffffffffffffffffffffffffffffffffffffffffffff .nil)
def st368 : St := .mk (.cons 328 1 0x1400000000c000000400820000000000000000000000000001 .nil) .nil (.cons 0 0x7fffffefffffffffffffffffffffffffffffffffffffffffff (.cons 948 0x10000000000000000000000000000000000000000000 .nil))
def st369 : St := .mk (.cons 329 1 0x1400000000c000000400820000000000000000000000000001 .nil) .nil (.cons 659 0x7fffffffffffffffffffffffffffffffffffffffffffffffff .nil)
def st370 : St := .mk (.cons 330 1 0x1400000000c000000400820000000000000000000000000001 .nil) .nil (.cons 0 0x7ffffffffdffffffffffffffffffffffffffffffffffffffff (.cons 950 0x20000000000000000000000000000000000000000 .nil))
def st371 : St := .mk (.cons 325 2 0x14000000000000000000820000000000000000000000000001 (.cons 326 2 0x14000000000000000000820000000000000000000000000001 .nil)) (.cons 325 0x14000000000000000000820000000000000000000000000001 .nil) (.cons 667 0x7fffffffff3ffffffbffffffffffffffffffffffffffffffff (.cons 952 0x400000000000000000000000000000000 (.cons 954 0x4000000000000000000000000000000000000000 (.cons 956 0x8000000000000000000000000000000000000000 .nil))))
def st372 : St := .mk (.cons 324 2 0x14000000000000000000820000000000000000000000000001 .nil) .nil (.cons 649 0x7fffffffffffffffffffffffffffffffffffffffffffffffff .nil)
def st373 : St := .mk (.cons 178 4 0x24000000000000000000000000000000000000000000000000 .nil) (.cons 225 0x4000000000000000000000000000000000000000000000000 .nil) (.cons 0 0x7ffffffffffdfffffffeffaf7ffcbfffeffffff7f41dfff7ff (.cons 754 0x800 (.cons 756 0x2000000 (.cons 758 0x20000000 (.cons 760 0x40000000 (.cons 762 0x80000000 (.cons 764 0x100000000 (.cons 766 0x200000000 (.cons 768 0x800000000 (.cons 770 0x80000000000 (.cons 772 0x100000000000000000 (.cons 774 0x4000000000000000000000 (.cons 776 0x10000000000000000000000 (.cons 778 0x20000000000000000000000 (.cons 780 0x80000000000000000000000000 (.cons 782 0x1000000000000000000000000000 (.cons 784 0x4000000000000000000000000000 (.cons 786 0x1000000000000000000000000000000 (.cons 788 0x200000000000000000000000000000000000000 .nil)))))))))))))))))))
def st374 : St := .mk (.cons 58 7 0x10000000000000000000020000000000000000000000000001 .nil) (.cons 334 0x24000000000000000000000000000000000000000000000000 .nil) (.cons 0 0x7ffffffffffffffffffffffffffffffffffffffffffffffff7 (.cons 488 0x8 .nil))
def st375 : St := .mk (.cons 55 7 0x10000000000000000000020000000000000000000000000001 .nil) (.cons 214 0x10000000000000000000020000000000000000000000000001 .nil) (.cons 0 0x7fffffffffffffffffffffffffffffffffffffffffffffffef (.cons 324 0x10 .nil))
def st376 : St := .mk (.cons 83 1 0x24000026000000000002000100000000000000000000000000 .nil) .nil (.cons 167 0x7fffffffffffffffffffffffffffffffffffffffffffffffff .nil)
def st377 : St := .mk (.cons 77 1 0x24000026000000000002000100000000000000000000000000 .nil) .nil (.cons 155 0x7fffffffffffffffffffffffffffffffffffffffffffffffff .nil)
def st378 : St := .mk (.cons 70 1 0x24000026000000000002000100000000000000000000000000 .nil) .nil (.cons 0 0x7dffffffffffffffffffffffffffffffffffffffffffffffff (.cons 966 0x2000000000000000000000000000000000000000000000000 .nil))
def st379 : St := .mk (.cons 79 1 0x24000026000000000002000100000000000000000000000000 .nil) .nil (.cons 159 0x7fffffffffffffffffffffffffffffffffffffffffffffffff .nil)
def st380 : St := .mk (.cons 73 1 0x24000026000000000002000100000000000000000000000000 .nil) (.cons 227 0x24000026000000000002000100000000000000000000000000 .nil) (.cons 179 0x7dffffffffffffffffffffffffffffffffffffffffffffffff (.cons 968 0x2000000000000000000000000000000000000000000000000 .nil))
def st381 : St := .mk (.cons 80 1 0x24000026000000000002000100000000000000000000000000 .nil) .nil (.cons 161 0x7fffffffffffffffffffffffffffffffffffffffffffffffff .nil)
def st382 : St := .mk (.cons 67 1 0x24000026000000000002000100000000000000000000000000 .nil) .nil (.cons 135 0x7fffffffffffffffffffffffffffffffffffffffffffffffff .nil)
def st383 : St := .mk (.cons 84 1 0x24000026000000000002000100000000000000000000000000 .nil) .nil (.cons 0 0x7dffffffffffffffffffffffffffffffffffffffffffffffff (.cons 972 0x2000000000000000000000000000000000000000000000000 .nil))
def st384 : St := .mk (.cons 74 1 0x24000026000000000002000100000000000000000000000000 .nil) .nil (.cons 149 0x7fffffffffffffffffffffffffffffffffffffffffffffffff .nil)
def st385 : St := .mk (.cons 75 1 0x24000026000000000002000100000000000000000000000000 .nil) .nil (.cons 151 0x7fffffffffffffffffffffffffffffffffffffffffffffffff .nil)
def st386 : St := .mk (.cons 69 1 0x24000026000000000002000100000000000000000000000000 .nil) .nil (.cons 0 0x7dffffffffffffffffffffffffffffffffffffffffffffffff (.cons 974 0x2000000000000000000000000000000000000000000000000 .nil))
def st387 : St := .mk (.cons 71 1 0x24000026000000000002000100000000000000000000000000 .nil) .nil (.cons 143 0x7fffffffffffffffffffffffffffffffffffffffffffffffff .nil)
def st388 : St := .mk (.cons 72 1 0x24000026000000000002000100000000000000000000000000 .nil) .nil (.cons 145 0x7fffffffffffffffffffffffffffffffffffffffffffffffff .nil)
def st389 : St := .mk (.cons 78 1 0x24000026000000000002000100000000000000000000000000 .nil) .nil (.cons 157 0x7fffffffffffffffffffffffffffffffffffffffffffffffff .nil)
def st390 : St := .mk (.cons 81 1 0x24000026000000000002000100000000000000000000000000 .nil) .nil (.cons 163 0x7fffffffffffffffffffffffffffffffffffffffffffffffff .nil)
def st391 : St := .mk (.cons 82 1 0x24000026000000000002000100000000000000000000000000 .nil) (.cons 226 0x24000026000000000002000100000000000000000000000000 .nil) (.cons 173 0x7dffffffffffffffffffffffffffffffffffffffffffffffff (.cons 976 0x2000000000000000000000000000000000000000000000000 .nil))
def st392 : St := .mk (.cons 76 1 0x24000026000000000002000100000000000000000000000000 .nil) .nil (.cons 153 0x7fffffffffffffffffffffffffffffffffffffffffffffffff .nil)
def st393 : St := .mk (.cons 68 1 0x24000026000000000002000100000000000000000000000000 .nil) .nil (.cons 137 0x7fffffffffffffffffffffffffffffffffffffffffffffffff .nil)
def st394 : St := .mk (.cons 66 2 0x24000000000000000000000000000000000000000000000000 .nil) (.cons 228 0x24000000000000000000000000000000000000000000000000 (.cons 229 0x24000026000000000002000100000000000000000000000000 (.cons 230 0x24000026000000000002000100000000000000000000000000 (.cons 232 0x24000026000000000002000100000000000000000000000000 .nil)))) (.cons 183 0x7fffffd9fffffffffffdfffeffffffffffffffffffffffffff (.cons 980 0x100000000000000000000000000 (.cons 982 0x2000000000000000000000000000000 (.cons 984 0x2000000000000000000000000000000000000000000 (.cons 986 0x4000000000000000000000000000000000000000000 (.cons 988 0x20000000000000000000000000000000000000000000 .nil))))))
def st395 : St := .mk (.cons 101 2 0x24000000000000000000000000000000000000000000000000 .nil) (.cons 334 0x24000000000000000000000000000000000000000000000000 .nil) (.cons 0 0x7ffffffffffffffffffffffffffffffffffffffffffffffff7 (.cons 488 0x8 .nil))
def st396 : St := .mk (.cons 100 2 0x24000000000000000000000000000000000000000000000000 .nil) .nil (.cons 0 0x7dffffffffffffffffffffffffffffffffffffffffffffffff (.cons 1000 0x2000000000000000000000000000000000000000000000000 .nil))
def st397 : St := .mk (.cons 102 2 0x24000000000000000000000000000000000000000000000000 .nil) .nil (.cons 0 0x7dffffffffffffffffffffffffffffffffffffffffffffffff (.cons 1002 0x2000000000000000000000000000000000000000000000000 .nil))
def st398 : St := .mk (.cons 56 7 0x10000000000000000000020000000000000000000000000001 .nil) .nil (.cons 113 0x7fffffffffffffffffffffffffffffffffffffffffffffffff .nil)
def st399 : St := .mk (.cons 63 2 0x24000000000000000000000000000000000000000000000000 .nil) (.cons 223 0x24000000000000000000000000000000000000000000000000 (.cons 224 0x24000000000000000000000000000000000000000000000000 (.cons 231 0x24000000000000000000000000000000000000000000000000 .nil))) (.cons 0 0x7ffffff1fffffffffffffffffffffffffffffffffffffffff7 (.cons 570 0x8 (.cons 572 0x2000000000000000000000000000000000000000000 (.cons 574 0x4000000000000000000000000000000000000000000 (.cons 576 0x8000000000000000000000000000000000000000000 .nil)))))
def st400 : St := .mk (.cons 59 7 0x10000000000000000000020000000000000000000000000001 .nil) .nil (.cons 119 0x7fffffffffffffffffffffffffffffffffffffffffffffffff .nil)
def st401 : St := .mk (.cons 238 3 0x35bf67c01c0000031b22f32038d40ed1a400c8200004020209 .nil) (.cons 286 0x35bf67c01c0000031b22f32038d40ed1a400c8200004020209 .nil) (.cons 487 0x7fffffffffffffffffffffffffffffdfffffffffffffffffff (.cons 1006 0x20000000000000000000 .nil))
def st402 : St := .mk (.cons 239 3 0x35bf67c01c0000031b22f32038d40ed1a400c8200004020209 .nil) (.cons 268 0x24000000000000000000000000000000000000000000000000 (.cons 273 0x24000000000000000000000000000000000000000000000000 (.cons 274 0x24000000000000001020100000000000000000000000000008 (.cons 275 0x24bf67c0000000031322100020000000000040000000020008 (.cons 276 0x24bf67c0000000031322100020000000000040000000020008 (.cons 277 0x24bf67c0000000031322100020000000000040000000020008 (.cons 278 0x24bf67c0000000031322100020000000000040000000020008 (.cons 279 0x24000000000000001020100000000000000000000000000008 (.cons 280 0x24000000000000001020100000000000000000000000000008 (.cons 281 0x24bf67c0000000031322100020000000000040000000020008 (.cons 283 0x24000000000000001020100000000000000000000000000008 (.cons 284 0x24bf67c0000000031322100020000000000040000000020008 (.cons 285 0x24bf67c0000000031322100020000000000040000000020008 (.cons 291 0x24bf67c0000000031322100020000000000040000000020008 (.cons 292 0x24bf67c0000000031322100020000000000040000000020008 (.cons 296 0x24bf67c0000000031322100020000000000040000000020008 (.cons 297 0x24bf67c0000000031322100020000000000040000000020008 (.cons 298 0x24000000000000001020100000000000000000000000000008 (.cons 299 0x24bf67c0000000031322100020000000000040000000020008 (.cons 300 0x24bf67c0000000031322100020000000000040000000020008 (.cons 301 0x24bf67c0000000031322100020000000000040000000020008 (.cons 302 0x24bf67c0000000031322100020000000000040000000020008 (.cons 303 0x24bf67c0000000031322100020000000000040000000020008 (.cons 304 0x24bf67c0000000031322100020000000000040000000020008 (.cons 305 0x24bf67c0000000031322100020000000000040000000020008 (.cons 306 0x24bf67c0000000031322100020000000000040000000020008 (.cons 307 0x24bf67c0000000031322100020000000000040000000020008 (.cons 308 0x24bf67c0000000031322100020000000000040000000020008 .nil)))))))))))))))))))))))))))) (.cons 0 0x3df9fffffffe3fff7ffdfffefffedffffffffe3fffffffff87 (.cons 238 0x10 (.cons 240 0x20 (.cons 242 0x40 (.cons 246 0x10000000000000000000000 (.cons 248 0x100000000000000000000000000 (.cons 250 0x40000000000000000000000000000000000000 (.cons 252 0x80000000000000000000000000000000000000 (.cons 254 0x100000000000000000000000000000000000000 (.cons 258 0x40000000000000000000000000000000000000000000000000 (.cons 430 0x8 (.cons 432 0x400000000000 (.cons 434 0x800000000000 (.cons 436 0x1000000000000 (.cons 438 0x2000000000000000000000 (.cons 440 0x2000000000000000000000000000000 (.cons 442 0x8000000000000000000000000000000000 (.cons 444 0x20000000000000000000000000000000000000000000000 (.cons 446 0x40000000000000000000000000000000000000000000000 (.cons 448 0x2000000000000000000000000000000000000000000000000 .nil))))))))))))))))))))
def st403 : St := .mk (.cons 240 3 0x35bf67c01c0000031b22f32038d40ed1a400c8200004020209 (.cons 241 3 0x35bf67c01c0000031b22f32038d40ed1a400c8200004020209 (.cons 277 3 0x35bf67c01c0000031b22f32038d40ed1a400c8200004020209 .nil))) .nil (.cons 555 0x7dffffffffffffffffffffffffffffffffffffffffffffffff (.cons 1012 0x2000000000000000000000000000000000000000000000000 .nil))
def st404 : St := .mk (.cons 279 3 0x35bf67c01c0000031b22f32038d40ed1a400c8200004020209 .nil) .nil (.cons 559 0x7fffffffffffffffffffffffffffffffffffffffffffffffff .nil)
def st405 : St := .mk (.cons 229 3 0x350000001c0000001820f32018d40ed1a40088200004000209 .nil) .nil (.cons 0 0x7bffffffffffffffffffffffffffffffffffffffffffffffff (.cons 1014 0x4000000000000000000000000000000000000000000000000 .nil))
def st406 : St := .mk (.cons 257 3 0x35bf67c01c0000031b22f32038d40ed1a400c8200004020209 .nil) .nil (.cons 0 0x7fffffffffffffffffffffffffbfffffffffffffffffffffff (.cons 1016 0x400000000000000000000000 .nil))
def st407 : St := .mk (.cons 217 1 0x1020100000000000000000000000000000 (.cons 218 1 0x1020100000000000000000000000000000 (.cons 258 3 0x35bf67c01c0000031b22f32038d40ed1a400c8200004020209 .nil))) .nil (.cons 0 0x7fffffffffffffffefdfefffffffffffffffffffffffffffff (.cons 618 0x100000000000000000000000000000 (.cons 620 0x1000000000000000000000000000000000 (.cons 1018 0x20000000000000000000000000000000 .nil))))
def st408 : St := .mk (.cons 217 1 0x1000102000000000000000000000000000 (.cons 218 1 0x1000102000000000000000000000000000 (.cons 227 2 0x410000100000000000000000000000 .nil))) .nil (.cons 0 0x7fffffffffffffffefffefdfffffffffffffffffffffffffff (.cons 618 0x100000000000000000000000000000 (.cons 620 0x1000000000000000000000000000000000 (.cons 1020 0x2000000000000000000000000000 .nil))))
def st409 : St := .mk (.cons 223 3 0x35bf67c01c0000031b22f32038d40ed1a400c8200004020209 (.cons 224 3 0x35bf67c01c0000031b22f32038d40ed1a400c8200004020209 (.cons 228 1 0x410000100000000000000000000000 .nil))) .nil (.cons 0 0x7fffffffffffffffffffbeffffefffffffffffffffffffffff (.cons 824 0x10000000000000000000000000000 (.cons 1022 0x100000000000000000000000 (.cons 1024 0x400000000000000000000000000000 .nil))))
def st410 : St := .mk (.cons 226 3 0x35bf67c01c0000031b22f32038d40ed1a400c8200004020209 .nil) (.cons 274 0x1000500000000000000000000000000000 (.cons 275 0xbf67c0000000031302500020000000000040000000020000 (.cons 276 0xbf67c0000000031302500020000000000040000000020000 (.cons 277 0xbf67c0000000031302500020000000000040000000020000 (.cons 278 0xbf67c0000000031302500020000000000040000000020000 (.cons 279 0x1000500000000000000000000000000000 (.cons 280 0x1000500000000000000000000000000000 (.cons 281 0xbf67c0000000031302500020000000000040000000020000 (.cons 283 0x1000500000000000000000000000000000 (.cons 284 0xbf67c0000000031302500020000000000040000000020000 (.cons 285 0xbf67c0000000031302500020000000000040000000020000 (.cons 291 0xbf67c0000000031302500020000000000040000000020000 (.cons 292 0xbf67c0000000031302500020000000000040000000020000 (.cons 296 0xbf67c0000000031302500020000000000040000000020000 (.cons 297 0xbf67c0000000031302500020000000000040000000020000 (.cons 298 0x1000500000000000000000000000000000 (.cons 299 0xbf67c0000000031302500020000000000040000000020000 (.cons 300 0xbf67c0000000031302500020000000000040000000020000 (.cons 301 0xbf67c0000000031302500020000000000040000000020000 (.cons 302 0xbf67c0000000031302500020000000000040000000020000 (.cons 303 0xbf67c0000000031302500020000000000040000000020000 (.cons 304 0xbf67c0000000031302500020000000000040000000020000 (.cons 305 0xbf67c0000000031302500020000000000040000000020000 (.cons 306 0xbf67c0000000031302500020000000000040000000020000 (.cons 307 0xbf67c0000000031302500020000000000040000000020000 (.cons 308 0xbf67c0000000031302500020000000000040000000020000 .nil)))))))))))))))))))))))))) (.cons 0 0x3df9fffffffe3fff7ffdfffefffedffffffffe3fffffffff87 (.cons 238 0x10 (.cons 240 0x20 (.cons 242 0x40 (.cons 246 0x10000000000000000000000 (.cons 248 0x100000000000000000000000000 (.cons 250 0x40000000000000000000000000000000000000 (.cons 252 0x80000000000000000000000000000000000000 (.cons 254 0x100000000000000000000000000000000000000 (.cons 258 0x40000000000000000000000000000000000000000000000000 (.cons 430 0x8 (.cons 432 0x400000000000 (.cons 434 0x800000000000 (.cons 436 0x1000000000000 (.cons 438 0x2000000000000000000000 (.cons 440 0x2000000000000000000000000000000 (.cons 442 0x8000000000000000000000000000000000 (.cons 444 0x20000000000000000000000000000000000000000000000 (.cons 446 0x40000000000000000000000000000000000000000000000 (.cons 448 0x2000000000000000000000000000000000000000000000000 .nil))))))))))))))))))))
def st411 : St := .mk (.cons 228 2 0x410000100000000000000000000000 .nil) (.cons 274 0x1000102000000000000000000000000000 (.cons 275 0xbf67c0000000031302102020000000000040000000020000 (.cons 276 0xbf67c0000000031302102020000000000040000000020000 (.cons 277 0xbf67c0000000031302102020000000000040000000020000 (.cons 278 0xbf67c0000000031302102020000000000040000000020000 (.cons 279 0x1000102000000000000000000000000000 (.cons 280 0x1000102000000000000000000000000000 (.cons 281 0xbf67c0000000031302102020000000000040000000020000 (.cons 283 0x1000102000000000000000000000000000 (.cons 284 0xbf67c0000000031302102020000000000040000000020000 (.cons 285 0xbf67c0000000031302102020000000000040000000020000 (.cons 291 0xbf67c0000000031302102020000000000040000000020000 (.cons 292 0xbf67c0000000031302102020000000000040000000020000 (.cons 296 0xbf67c0000000031302102020000000000040000000020000 (.cons 297 0xbf67c0000000031302102020000000000040000000020000 (.cons 298 0x1000102000000000000000000000000000 (.cons 299 0xbf67c0000000031302102020000000000040000000020000 (.cons 300 0xbf67c0000000031302102020000000000040000000020000 (.cons 301 0xbf67c0000000031302102020000000000040000000020000 (.cons 302 0xbf67c0000000031302102020000000000040000000020000 (.cons 303 0xbf67c0000000031302102020000000000040000000020000 (.cons 304 0xbf67c0000000031302102020000000000040000000020000 (.cons 305 0xbf67c0000000031302102020000000000040000000020000 (.cons 306 0xbf67c0000000031302102020000000000040000000020000 (.cons 307 0xbf67c0000000031302102020000000000040000000020000 (.cons 308 0xbf67c0000000031302102020000000000040000000020000 .nil)))))))))))))))))))))))))) (.cons 0 0x3df9fffffffe3fff7ffdfffefffedffffffffe3fffffffff87 (.cons 238 0x10 (.cons 240 0x20 (.cons 242 0x40 (.cons 246 0x10000000000000000000000 (.cons 248 0x100000000000000000000000000 (.cons 250 0x40000000000000000000000000000000000000 (.cons 252 0x80000000000000000000000000000000000000 (.cons 254 0x100000000000000000000000000000000000000 (.cons 258 0x40000000000000000000000000000000000000000000000000 (.cons 430 0x8 (.cons 432 0x400000000000 (.cons 434 0x800000000000 (.cons 436 0x1000000000000 (.cons 438 0x2000000000000000000000 (.cons 440 0x2000000000000000000000000000000 (.cons 442 0x8000000000000000000000000000000000 (.cons 444 0x20000000000000000000000000000000000000000000000 (.cons 446 0x40000000000000000000000000000000000000000000000 (.cons 448 0x2000000000000000000000000000000000000000000000000 .nil))))))))))))))))))))
def st412 : St := .mk (.cons 225 3 0x35bf67c01c0000031b22f32038d40ed1a400c8200004020209 .nil) .nil (.cons 451 0x7fffffffffffffffffffffffffffffffffffffffffffffffff .nil)
def st413 : St := .mk (.cons 230 3 0x350000001c0000001820f32018d40ed1a40088200004000209 .nil) (.cons 249 0x4000000000000000000000000000000000000000000000000 (.cons 253 0x4000000000000000000800000000211000080200000000200 .nil)) (.cons 0 0x7ffffffffffffffffffffffffffffffffffbffffffffffffff (.cons 152 0x400000000000000 .nil))
def st414 : St := .mk (.cons 214 2 0x35bf67c01c0000031b22f32038d40ed1a400c8200004020209 .nil) .nil (.cons 0 0x7fffffffffffffffffffffffdfffffffffffffffffffffffff (.cons 846 0x20000000000000000000000000 .nil))
def st415 : St := .mk (.cons 172 1 0x21000000000000000000000000000000000000000000000000 (.cons 273 3 0x35bf67c01c0000031b22f32038d40ed1a400c8200004020209 .nil)) .nil (.cons 0 0x5effffffffffffffffffffffffffffffffffffffffffffffff (.cons 708 0x20000000000000000000000000000000000000000000000000 (.cons 1032 0x1000000000000000000000000000000000000000000000000 .nil)))
def st416 : St := .mk (.cons 198 3 0x35bf67c01c0000031b22f32038d40ed1a400c8200004020209 .nil) .nil (.cons 397 0x7fffffffffffffffffffffffffffffffffffffffffffffffff .nil)
def st417 : St := .mk (.cons 188 3 0x35bf67c01c0000031b22f32038d40ed1a400c8200004020209 .nil) .nil (.cons 377 0x7fffffffffffffffffffffffffffffffffffffffffffffffff .nil)
def st418 : St := .mk (.cons 217 1 0x350000001c0000001820f32018d40ed1a40088200004000209 (.cons 217 3 0x350000001c0000001820f32018d40ed1a40088200004000209 (.cons 218 1 0x350000001c0000001820f32018d40ed1a40088200004000209 .nil))) .nil (.cons 435 0x7fffffffffffffffffffffffffffffffffffffffffffffffff .nil)
def st419 : St := .mk (.cons 217 1 0x350000001c0000001820f32018d40ed1a40088200004000209 (.cons 218 1 0x350000001c0000001820f32018d40ed1a40088200004000209 (.cons 218 3 0x350000001c0000001820f32018d40ed1a40088200004000209 .nil))) .nil (.cons 437 0x7fffffffffffffffffffefffffffffffffffffffffffffffff (.cons 618 0x100000000000000000000000000000 .nil))
def st420 : St := .mk (.cons 203 1 0xbf67c0000000030202100020000000000040000000000000 (.cons 204 1 0xbf67c0000000030202100020000000000040000000000000 (.cons 205 1 0xbf67c0000000030202100020000000000040000000000000 (.cons 207 1 0xbf67c0000000030202100020000000000040000000000000 (.cons 208 1 0xbf67c0000000030202100020000000000040000000000000 (.cons 209 1 0xbf67c0000000030202100020000000000040000000000000 (.cons 210 1 0xbf67c0000000030202100020000000000040000000000000 (.cons 211 1 0xbf67c0000000030202100020000000000040000000000000 (.cons 212 1 0xbf67c0000000030202100020000000000040000000000000 (.cons 213 1 0xbf67c0000000030202100020000000000040000000000000 (.cons 214 1 0xbf67c0000000030202100020000000000040000000000000 (.cons 215 1 0xbf67c0000000030202100020000000000040000000000000 (.cons 216 1 0xbf67c0000000030202100020000000000040000000000000 (.cons 231 1 0xbf67c0000000030202100020000000000040000000000000 (.cons 232 1 0xbf67c0000000030202100020000000000040000000000000 (.cons 233 1 0xbf67c0000000030202100020000000000040000000000000 (.cons 234 1 0xbf67c0000000030202100020000000000040000000000000 (.cons 235 1 0xbf67c0000000030202100020000000000040000000000000 (.cons 236 1 0xbf67c0000000030202100020000000000040000000000000 (.cons 237 1 0xbf67c0000000030202100020000000000040000000000000 (.cons 274 1 0xbf67c0000000030202100020000000000040000000000000 (.cons 275 3 0x350000001c0000001820f32018d40ed1a40088200004000209 .nil)))))))))))))))))))))) .nil (.cons 0 0x7f40983ffffffffcfdfdefffdfffffffffffbfffffffffffff (.cons 624 0x40000000000000 (.cons 626 0x20000000000000000000000000 (.cons 632 0x200000000000000000000000000000000 (.cons 634 0x10000000000000000000000000000000000 (.cons 636 0x20000000000000000000000000000000000 (.cons 638 0x40000000000000000000000000000000000000000000 (.cons 640 0x80000000000000000000000000000000000000000000 (.cons 642 0x100000000000000000000000000000000000000000000 (.cons 644 0x200000000000000000000000000000000000000000000 (.cons 646 0x400000000000000000000000000000000000000000000 (.cons 648 0x2000000000000000000000000000000000000000000000 (.cons 650 0x4000000000000000000000000000000000000000000000 (.cons 652 0x10000000000000000000000000000000000000000000000 (.cons 654 0x20000000000000000000000000000000000000000000000 (.cons 656 0x40000000000000000000000000000000000000000000000 (.cons 658 0x80000000000000000000000000000000000000000000000 (.cons 660 0x100000000000000000000000000000000000000000000000 (.cons 662 0x200000000000000000000000000000000000000000000000 (.cons 664 0x800000000000000000000000000000000000000000000000 (.cons 830 0x2000000000000000000000000000000 (.cons 1034 0x100000000000000000000000000000 .nil))))))))))))))))))))))
def st421 : St := .mk (.cons 203 1 0x35bf67c01c0000031b22f32038d40ed1a400c8200004020209 (.cons 204 1 0x35bf67c01c0000031b22f32038d40ed1a400c8200004020209 (.cons 205 1 0x35bf67c01c0000031b22f32038d40ed1a400c8200004020209 (.cons 207 1 0x35bf67c01c0000031b22f32038d40ed1a400c8200004020209 (.cons 208 1 0x35bf67c01c0000031b22f32038d40ed1a400c8200004020209 (.cons 209 1 0x35bf67c01c0000031b22f32038d40ed1a400c8200004020209 (.cons 210 1 0x35bf67c01c0000031b22f32038d40ed1a400c8200004020209 (.cons 211 1 0x35bf67c01c0000031b22f32038d40ed1a400c8200004020209 (.cons 212 1 0x35bf67c01c0000031b22f32038d40ed1a400c8200004020209 (.cons 213 1 0x35bf67c01c0000031b22f32038d40ed1a400c8200004020209 (.cons 213 3 0x35bf67c01c0000031b22f32038d40ed1a400c8200004020209 (.cons 214 1 0x35bf67c01c0000031b22f32038d40ed1a400c8200004020209 (.cons 215 1 0x35bf67c01c0000031b22f32038d40ed1a400c8200004020209 (.cons 216 1 0x35bf67c01c0000031b22f32038d40ed1a400c8200004020209 (.cons 231 1 0x35bf67c01c0000031b22f32038d40ed1a400c8200004020209 (.cons 232 1 0x35bf67c01c0000031b22f32038d40ed1a400c8200004020209 (.cons 233 1 0x35bf67c01c0000031b22f32038d40ed1a400c8200004020209 (.cons 234 1 0x35bf67c01c0000031b22f32038d40ed1a400c8200004020209 (.cons 235 1 0x35bf67c01c0000031b22f32038d40ed1a400c8200004020209 (.cons 236 1 0x35bf67c01c0000031b22f32038d40ed1a400c8200004020209 (.cons 237 1 0x35bf67c01c0000031b22f32038d40ed1a400c8200004020209 (.cons 274 1 0x35bf67c01c0000031b22f32038d40ed1a400c8200004020209 .nil)))))))))))))))))))))) .nil (.cons 0 0x1c0000000020000000020000000000000000000000000 (.cons 427 0x7f40983ffffffffcfdffffffdfffffffffffbfffffffffffff (.cons 624 0x40000000000000 (.cons 632 0x200000000000000000000000000000000 (.cons 634 0x10000000000000000000000000000000000 (.cons 644 0x200000000000000000000000000000000000000000000 (.cons 646 0x400000000000000000000000000000000000000000000 (.cons 648 0x2000000000000000000000000000000000000000000000 (.cons 650 0x4000000000000000000000000000000000000000000000 (.cons 652 0x10000000000000000000000000000000000000000000000 (.cons 654 0x20000000000000000000000000000000000000000000000 (.cons 656 0x40000000000000000000000000000000000000000000000 (.cons 658 0x80000000000000000000000000000000000000000000000 (.cons 660 0x100000000000000000000000000000000000000000000000 (.cons 662 0x200000000000000000000000000000000000000000000000 (.cons 664 0x800000000000000000000000000000000000000000000000 .nil))))))))))))))))
def st422 : St := .mk (.cons 214 3 0x35bf67c01c0000031b22f32038d40ed1a400c8200004020209 .nil) (.cons 275 0x35bf67c01c0000031b22f32038d40ed1a400c8200004020209 (.cons 276 0x35bf67c01c0000031b22f32038d40ed1a400c8200004020209 (.cons 277 0x35bf67c01c0000031b22f32038d40ed1a400c8200004020209 (.cons 278 0x35bf67c01c0000031b22f32038d40ed1a400c8200004020209 (.cons 281 0x35bf67c01c0000031b22f32038d40ed1a400c8200004020209 (.cons 284 0x35bf67c01c0000031b22f32038d40ed1a400c8200004020209 (.cons 285 0x35bf67c01c0000031b22f32038d40ed1a400c8200004020209 (.cons 291 0x35bf67c01c0000031b22f32038d40ed1a400c8200004020209 (.cons 292 0x35bf67c01c0000031b22f32038d40ed1a400c8200004020209 (.cons 296 0x35bf67c01c0000031b22f32038d40ed1a400c8200004020209 (.cons 297 0x35bf67c01c0000031b22f32038d40ed1a400c8200004020209 (.cons 299 0x35bf67c01c0000031b22f32038d40ed1a400c8200004020209 (.cons 300 0x35bf67c01c0000031b22f32038d40ed1a400c8200004020209 (.cons 301 0x35bf67c01c0000031b22f32038d40ed1a400c8200004020209 (.cons 302 0x35bf67c01c0000031b22f32038d40ed1a400c8200004020209 (.cons 303 0x35bf67c01c0000031b22f32038d40ed1a400c8200004020209 (.cons 304 0x35bf67c01c0000031b22f32038d40ed1a400c8200004020209 (.cons 305 0x35bf67c01c0000031b22f32038d40ed1a400c8200004020209 (.cons 306 0x35bf67c01c0000031b22f32038d40ed1a400c8200004020209 (.cons 307 0x35bf67c01c0000031b22f32038d40ed1a400c8200004020209 (.cons 308 0x35bf67c01c0000031b22f32038d40ed1a400c8200004020209 .nil))))))))))))))))))))) (.cons 0 0x3df9fffffffe3fff7ffdfffefffedffffffffe7fffffffff87 (.cons 238 0x10 (.cons 240 0x20 (.cons 242 0x40 (.cons 246 0x10000000000000000000000 (.cons 248 0x100000000000000000000000000 (.cons 250 0x40000000000000000000000000000000000000 (.cons 252 0x80000000000000000000000000000000000000 (.cons 254 0x100000000000000000000000000000000000000 (.cons 258 0x40000000000000000000000000000000000000000000000000 (.cons 430 0x8 (.cons 434 0x800000000000 (.cons 436 0x1000000000000 (.cons 438 0x2000000000000000000000 (.cons 442 0x8000000000000000000000000000000000 (.cons 444 0x20000000000000000000000000000000000000000000000 (.cons 446 0x40000000000000000000000000000000000000000000000 (.cons 448 0x2000000000000000000000000000000000000000000000000 (.cons 606 0x2000000000000000000000000000000 .nil)))))))))))))))))))
def st423 : St := .mk (.cons 220 3 0x350000001c0000001820f32018d40ed1a40088200004000209 (.cons 222 3 0x350000001c0000001820f32018d40ed1a40088200004000209 .nil)) .nil (.cons 0 0x7dffffffffffffffffffffffffffffffffffffffffffffffff (.cons 1038 0x2000000000000000000000000000000000000000000000000 .nil))
def st424 : St := .mk (.cons 219 3 0x350000001c0000001820f32018d40ed1a40088200004000209 (.cons 221 3 0x350000001c0000001820f32018d40ed1a40088200004000209 .nil)) (.cons 249 0x4000000000000000000000000000000000000000000000000 (.cons 253 0x4000000000000000000800000000211000080200000000200 (.cons 268 0x24000000000000000000000000000000000000000000000000 (.cons 273 0x24000000000000000000000000000000000000000000000000 (.cons 274 0x24000000000000001020100000000000000000000000000008 (.cons 275 0x24bf67c0000000031322100020000000000040000000020008 (.cons 276 0x24bf67c0000000031322100020000000000040000000020008 (.cons 277 0x24bf67c0000000031322100020000000000040000000020008 (.cons 278 0x24bf67c0000000031322100020000000000040000000020008 (.cons 279 0x24000000000000001020100000000000000000000000000008 (.cons 280 0x24000000000000001020100000000000000000000000000008 (.cons 281 0x24bf67c0000000031322100020000000000040000000020008 (.cons 283 0x24000000000000001020100000000000000000000000000008 (.cons 284 0x24bf67c0000000031322100020000000000040000000020008 (.cons 285 0x24bf67c0000000031322100020000000000040000000020008 (.cons 291 0x24bf67c0000000031322100020000000000040000000020008 (.cons 292 0x24bf67c0000000031322100020000000000040000000020008 (.cons 296 0x24bf67c0000000031322100020000000000040000000020008 (.cons 297 0x24bf67c0000000031322100020000000000040000000020008 (.cons 298 0x24000000000000001020100000000000000000000000000008 (.cons 299 0x24bf67c0000000031322100020000000000040000000020008 (.cons 300 0x24bf67c0000000031322100020000000000040000000020008 (.cons 301 0x24bf67c0000000031322100020000000000040000000020008 (.cons 302 0x24bf67c0000000031322100020000000000040000000020008 (.cons 303 0x24bf67c0000000031322100020000000000040000000020008 (.cons 304 0x24bf67c0000000031322100020000000000040000000020008 (.cons 305 0x24bf67c0000000031322100020000000000040000000020008 (.cons 306 0x24bf67c0000000031322100020000000000040000000020008 (.cons 307 0x24bf67c0000000031322100020000000000040000000020008 (.cons 308 0x24bf67c0000000031322100020000000000040000000020008 .nil)))))))))))))))))))))))))))))) (.cons 0 0x3df9fffffffe3fff7ffdfffefffedffffffbfe3fffffffff87 (.cons 152 0x400000000000000 (.cons 238 0x10 (.cons 240 0x20 (.cons 242 0x40 (.cons 246 0x10000000000000000000000 (.cons 248 0x100000000000000000000000000 (.cons 250 0x40000000000000000000000000000000000000 (.cons 252 0x80000000000000000000000000000000000000 (.cons 254 0x100000000000000000000000000000000000000 (.cons 258 0x40000000000000000000000000000000000000000000000000 (.cons 430 0x8 (.cons 432 0x400000000000 (.cons 434 0x800000000000 (.cons 436 0x1000000000000 (.cons 438 0x2000000000000000000000 (.cons 440 0x2000000000000000000000000000000 (.cons 442 0x8000000000000000000000000000000000 (.cons 444 0x20000000000000000000000000000000000000000000000 (.cons 446 0x40000000000000000000000000000000000000000000000 (.cons 448 0x2000000000000000000000000000000000000000000000000 .nil)))))))))))))))))))))
def st425 : St := .mk (.cons 204 3 0x35bf67c01c0000031b22f32038d40ed1a400c8200004020209 .nil) .nil (.cons 409 0x7fffffffffffffffffffffffffffffffffffffffffffffffff .nil)
def st426 : St := .mk (.cons 205 3 0x35bf67c01c0000031b22f32038d40ed1a400c8200004020209 .nil) .nil (.cons 0 0x7ffffffffffffffffffffffeffffffffffffffffffffffffff (.cons 1044 0x100000000000000000000000000 .nil))
def st427 : St := .mk (.cons 203 1 0x35bf67c01c0000031b22f32038d40ed1a400c8200004020209 (.cons 204 1 0x35bf67c01c0000031b22f32038d40ed1a400c8200004020209 (.cons 205 1 0x35bf67c01c0000031b22f32038d40ed1a400c8200004020209 (.cons 207 1 0x35bf67c01c0000031b22f32038d40ed1a400c8200004020209 (.cons 208 1 0x35bf67c01c0000031b22f32038d40ed1a400c8200004020209 (.cons 209 1 0x35bf67c01c0000031b22f32038d40ed1a400c8200004020209 (.cons 210 1 0x35bf67c01c0000031b22f32038d40ed1a400c8200004020209 (.cons 211 1 0x35bf67c01c0000031b22f32038d40ed1a400c8200004020209 (.cons 212 1 0x35bf67c01c0000031b22f32038d40ed1a400c8200004020209 (.cons 213 1 0x35bf67c01c0000031b22f32038d40ed1a400c8200004020209 (.cons 214 1 0x35bf67c01c0000031b22f32038d40ed1a400c8200004020209 (.cons 215 1 0x35bf67c01c0000031b22f32038d40ed1a400c8200004020209 (.cons 216 1 0x35bf67c01c0000031b22f32038d40ed1a400c8200004020209 (.cons 216 3 0x35bf67c01c0000031b22f32038d40ed1a400c8200004020209 (.cons 231 1 0x35bf67c01c0000031b22f32038d40ed1a400c8200004020209 (.cons 232 1 0x35bf67c01c0000031b22f32038d40ed1a400c8200004020209 (.cons 233 1 0x35bf67c01c0000031b22f32038d40ed1a400c8200004020209 (.cons 234 1 0x35bf67c01c0000031b22f32038d40ed1a400c8200004020209 (.cons 235 1 0x35bf67c01c0000031b22f32038d40ed1a400c8200004020209 (.cons 236 1 0x35bf67c01c0000031b22f32038d40ed1a400c8200004020209 (.cons 237 1 0x35bf67c01c0000031b22f32038d40ed1a400c8200004020209 (.cons 274 1 0x35bf67c01c0000031b22f32038d40ed1a400c8200004020209 .nil)))))))))))))))))))))) .nil (.cons 433 0x7f7fffffffffffffffffffffffffffffffffffffffffffffff (.cons 664 0x800000000000000000000000000000000000000000000000 .nil))
def st428 : St := .mk (.cons 203 1 0x35bf67c01c0000031b22f32038d40ed1a400c8200004020209 (.cons 204 1 0x35bf67c01c0000031b22f32038d40ed1a400c8200004020209 (.cons 205 1 0x35bf67c01c0000031b22f32038d40ed1a400c8200004020209 (.cons 207 1 0x35bf67c01c0000031b22f32038d40ed1a400c8200004020209 (.cons 208 1 0x35bf67c01c0000031b22f32038d40ed1a400c8200004020209 (.cons 209 1 0x35bf67c01c0000031b22f32038d40ed1a400c8200004020209 (.cons 210 1 0x35bf67c01c0000031b22f32038d40ed1a400c8200004020209 (.cons 211 1 0x35bf67c01c0000031b22f32038d40ed1a400c8200004020209 (.cons 212 1 0x35bf67c01c0000031b22f32038d40ed1a400c8200004020209 (.cons 213 1 0x35bf67c01c0000031b22f32038d40ed1a400c8200004020209 (.cons 214 1 0x35bf67c01c0000031b22f32038d40ed1a400c8200004020209 (.cons 215 1 0x35bf67c01c0000031b22f32038d40ed1a400c8200004020209 (.cons 215 3 0x35bf67c01c0000031b22f32038d40ed1a400c8200004020209 (.cons 216 1 0x35bf67c01c0000031b22f32038d40ed1a400c8200004020209 (.cons 231 1 0x35bf67c01c0000031b22f32038d40ed1a400c8200004020209 (.cons 232 1 0x35bf67c01c0000031b22f32038d40ed1a400c8200004020209 (.cons 233 1 0x35bf67c01c0000031b22f32038d40ed1a400c8200004020209 (.cons 234 1 0x35bf67c01c0000031b22f32038d40ed1a400c8200004020209 (.cons 235 1 0x35bf67c01c0000031b22f32038d40ed1a400c8200004020209 (.cons 236 1 0x35bf67c01c0000031b22f32038d40ed1a400c8200004020209 (.cons 237 1 0x35bf67c01c0000031b22f32038d40ed1a400c8200004020209 (.cons 274 1 0x35bf67c01c0000031b22f32038d40ed1a400c8200004020209 .nil)))))))))))))))))))))) .nil (.cons 0 0x1c0000000020000000020000000000000000000000000 (.cons 431 0x7f40983ffffffffcfdffffffdfffffffffffbfffffffffffff (.cons 624 0x40000000000000 (.cons 632 0x200000000000000000000000000000000 (.cons 634 0x10000000000000000000000000000000000 (.cons 644 0x200000000000000000000000000000000000000000000 (.cons 646 0x400000000000000000000000000000000000000000000 (.cons 648 0x2000000000000000000000000000000000000000000000 (.cons 650 0x4000000000000000000000000000000000000000000000 (.cons 652 0x10000000000000000000000000000000000000000000000 (.cons 654 0x20000000000000000000000000000000000000000000000 (.cons 656 0x40000000000000000000000000000000000000000000000 (.cons 658 0x80000000000000000000000000000000000000000000000 (.cons 660 0x100000000000000000000000000000000000000000000000 (.cons 662 0x200000000000000000000000000000000000000000000000 (.cons 664 0x800000000000000000000000000000000000000000000000 .nil))))))))))))))))
def st429 : St := .mk (.cons 203 1 0x35bf67c01c0000031b22f32038d40ed1a400c8200004020209 (.cons 204 1 0x35bf67c01c0000031b22f32038d40ed1a400c8200004020209 (.cons 205 1 0x35bf67c01c0000031b22f32038d40ed1a400c8200004020209 (.cons 207 1 0x35bf67c01c0000031b22f32038d40ed1a400c8200004020209 (.cons 208 1 0x35bf67c01c0000031b22f32038d40ed1a400c8200004020209 (.cons 209 1 0x35bf67c01c0000031b22f32038d40ed1a400c8200004020209 (.cons 210 1 0x35bf67c01c0000031b22f32038d40ed1a400c8200004020209 (.cons 211 1 0x35bf67c01c0000031b22f32038d40ed1a400c8200004020209 (.cons 212 1 0x35bf67c01c0000031b22f32038d40ed1a400c8200004020209 (.cons 213 1 0x35bf67c01c0000031b22f32038d40ed1a400c8200004020209 (.cons 214 1 0x35bf67c01c0000031b22f32038d40ed1a400c8200004020209 (.cons 215 1 0x35bf67c01c0000031b22f32038d40ed1a400c8200004020209 (.cons 216 1 0x35bf67c01c0000031b22f32038d40ed1a400c8200004020209 (.cons 231 1 0x35bf67c01c0000031b22f32038d40ed1a400c8200004020209 (.cons 231 3 0x35bf67c01c0000031b22f32038d40ed1a400c8200004020209 (.cons 232 1 0x35bf67c01c0000031b22f32038d40ed1a400c8200004020209 (.cons 233 1 0x35bf67c01c0000031b22f32038d40ed1a400c8200004020209 (.cons 234 1 0x35bf67c01c0000031b22f32038d40ed1a400c8200004020209 (.cons 235 1 0x35bf67c01c0000031b22f32038d40ed1a400c8200004020209 (.cons 236 1 0x35bf67c01c0000031b22f32038d40ed1a400c8200004020209 (.cons 237 1 0x35bf67c01c0000031b22f32038d40ed1a400c8200004020209 (.cons 274 1 0x35bf67c01c0000031b22f32038d40ed1a400c8200004020209 .nil)))))))))))))))))))))) .nil (.cons 0 0x1c0000000020000000020000000000000000000000000 (.cons 463 0x7f40983ffffffffcfdffffffdfffffffffffbfffffffffffff (.cons 624 0x40000000000000 (.cons 632 0x200000000000000000000000000000000 (.cons 634 0x10000000000000000000000000000000000 (.cons 644 0x200000000000000000000000000000000000000000000 (.cons 646 0x400000000000000000000000000000000000000000000 (.cons 648 0x2000000000000000000000000000000000000000000000 (.cons 650 0x4000000000000000000000000000000000000000000000 (.cons 652 0x10000000000000000000000000000000000000000000000 (.cons 654 0x20000000000000000000000000000000000000000000000 (.cons 656 0x40000000000000000000000000000000000000000000000 (.cons 658 0x80000000000000000000000000000000000000000000000 (.cons 660 0x100000000000000000000000000000000000000000000000 (.cons 662 0x200000000000000000000000000000000000000000000000 (.cons 664 0x800000000000000000000000000000000000000000000000 .nil))))))))))))))))
def st430 : St := .mk (.cons 203 1 0x35bf67c01c0000031b22f32038d40ed1a400c8200004020209 (.cons 204 1 0x35bf67c01c0000031b22f32038d40ed1a400c8200004020209 (.cons 205 1 0x35bf67c01c0000031b22f32038d40ed1a400c8200004020209 (.cons 207 1 0x35bf67c01c0000031b22f32038d40ed1a400c8200004020209 (.cons 208 1 0x35bf67c01c0000031b22f32038d40ed1a400c8200004020209 (.cons 209 1 0x35bf67c01c0000031b22f32038d40ed1a400c8200004020209 (.cons 210 1 0x35bf67c01c0000031b22f32038d40ed1a400c8200004020209 (.cons 211 1 0x35bf67c01c0000031b22f32038d40ed1a400c8200004020209 (.cons 212 1 0x35bf67c01c0000031b22f32038d40ed1a400c8200004020209 (.cons 213 1 0x35bf67c01c0000031b22f32038d40ed1a400c8200004020209 (.cons 214 1 0x35bf67c01c0000031b22f32038d40ed1a400c8200004020209 (.cons 215 1 0x35bf67c01c0000031b22f32038d40ed1a400c8200004020209 (.cons 216 1 0x35bf67c01c0000031b22f32038d40ed1a400c8200004020209 (.cons 231 1 0x35bf67c01c0000031b22f32038d40ed1a400c8200004020209 (.cons 232 1 0x35bf67c01c0000031b22f32038d40ed1a400c8200004020209 (.cons 232 3 0x35bf67c01c0000031b22f32038d40ed1a400c8200004020209 (.cons 233 1 0x35bf67c01c0000031b22f32038d40ed1a400c8200004020209 (.cons 234 1 0x35bf67c01c0000031b22f32038d40ed1a400c8200004020209 (.cons 235 1 0x35bf67c01c0000031b22f32038d40ed1a400c8200004020209 (.cons 236 1 0x35bf67c01c0000031b22f32038d40ed1a400c8200004020209 (.cons 237 1 0x35bf67c01c0000031b22f32038d40ed1a400c8200004020209 (.cons 274 1 0x35bf67c01c0000031b22f32038d40ed1a400c8200004020209 .nil)))))))))))))))))))))) .nil (.cons 0 0x1c0000000020000000020000000000000000000000000 (.cons 465 0x7f40983ffffffffcfdffffffdfffffffffffbfffffffffffff (.cons 624 0x40000000000000 (.cons 632 0x200000000000000000000000000000000 (.cons 634 0x10000000000000000000000000000000000 (.cons 644 0x200000000000000000000000000000000000000000000 (.cons 646 0x400000000000000000000000000000000000000000000 (.cons 648 0x2000000000000000000000000000000000000000000000 (.cons 650 0x4000000000000000000000000000000000000000000000 (.cons 652 0x10000000000000000000000000000000000000000000000 (.cons 654 0x20000000000000000000000000000000000000000000000 (.cons 656 0x40000000000000000000000000000000000000000000000 (.cons 658 0x80000000000000000000000000000000000000000000000 (.cons 660 0x100000000000000000000000000000000000000000000000 (.cons 662 0x200000000000000000000000000000000000000000000000 (.cons 664 0x800000000000000000000000000000000000000000000000 .nil))))))))))))))))
def st431 : St := .mk (.cons 203 1 0x35bf67c01c0000031b22f32038d40ed1a400c8200004020209 (.cons 204 1 0x35bf67c01c0000031b22f32038d40ed1a400c8200004020209 (.cons 205 1 0x35bf67c01c0000031b22f32038d40ed1a400c8200004020209 (.cons 207 1 0x35bf67c01c0000031b22f32038d40ed1a400c8200004020209 (.cons 208 1 0x35bf67c01c0000031b22f32038d40ed1a400c8200004020209 (.cons 209 1 0x35bf67c01c0000031b22f32038d40ed1a400c8200004020209 (.cons 210 1 0x35bf67c01c0000031b22f32038d40ed1a400c8200004020209 (.cons 211 1 0x35bf67c01c0000031b22f32038d40ed1a400c8200004020209 (.cons 212 1 0x35bf67c01c0000031b22f32038d40ed1a400c8200004020209 (.cons 213 1 0x35bf67c01c0000031b22f32038d40ed1a400c8200004020209 (.cons 214 1 0x35bf67c01c0000031b22f32038d40ed1a400c8200004020209 (.cons 215 1 0x35bf67c01c0000031b22f32038d40ed1a400c8200004020209 (.cons 216 1 0x35bf67c01c0000031b22f32038d40ed1a400c8200004020209 (.cons 231 1 0x35bf67c01c0000031b22f32038d40ed1a400c8200004020209 (.cons 232 1 0x35bf67c01c0000031b22f32038d40ed1a400c8200004020209 (.cons 233 1 0x35bf67c01c0000031b22f32038d40ed1a400c8200004020209 (.cons 233 3 0x35bf67c01c0000031b22f32038d40ed1a400c8200004020209 (.cons 234 1 0x35bf67c01c0000031b22f32038d40ed1a400c8200004020209 (.cons 235 1 0x35bf67c01c0000031b22f32038d40ed1a400c8200004020209 (.cons 236 1 0x35bf67c01c0000031b22f32038d40ed1a400c8200004020209 (.cons 237 1 0x35bf67c01c0000031b22f32038d40ed1a400c8200004020209 (.cons 274 1 0x35bf67c01c0000031b22f32038d40ed1a400c8200004020209 .nil)))))))))))))))))))))) .nil (.cons 0 0x1c0000000020000000020000000000000000000000000 (.cons 467 0x7f40983ffffffffcfdffffffdfffffffffffbfffffffffffff (.cons 624 0x40000000000000 (.cons 632 0x200000000000000000000000000000000 (.cons 634 0x10000000000000000000000000000000000 (.cons 644 0x200000000000000000000000000000000000000000000 (.cons 646 0x400000000000000000000000000000000000000000000 (.cons 648 0x2000000000000000000000000000000000000000000000 (.cons 650 0x4000000000000000000000000000000000000000000000 (.cons 652 0x10000000000000000000000000000000000000000000000 (.cons 654 0x20000000000000000000000000000000000000000000000 (.cons 656 0x40000000000000000000000000000000000000000000000 (.cons 658 0x80000000000000000000000000000000000000000000000 (.cons 660 0x100000000000000000000000000000000000000000000000 (.cons 662 0x200000000000000000000000000000000000000000000000 (.cons 664 0x800000000000000000000000000000000000000000000000 .nil))))))))))))))))
def st432 : St := .mk (.cons 203 1 0x35bf67c01c0000031b22f32038d40ed1a400c8200004020209 (.cons 204 1 0x35bf67c01c0000031b22f32038d40ed1a400c8200004020209 (.cons 205 1 0x35bf67c01c0000031b22f32038d40ed1a400c8200004020209 (.cons 207 1 0x35bf67c01c0000031b22f32038d40ed1a400c8200004020209 (.cons 208 1 0x35bf67c01c0000031b22f32038d40ed1a400c8200004020209 (.cons 209 1 0x35bf67c01c0000031b22f32038d40ed1a400c8200004020209 (.cons 210 1 0x35bf67c01c0000031b22f32038d40ed1a400c8200004020209 (.cons 211 1 0x35bf67c01c0000031b22f32038d40ed1a400c8200004020209 (.cons 212 1 0x35bf67c01c0000031b22f32038d40ed1a400c8200004020209 (.cons 213 1 0x35bf67c01c0000031b22f32038d40ed1a400c8200004020209 (.cons 214 1 0x35bf67c01c0000031b22f32038d40ed1a400c8200004020209 (.cons 215 1 0x35bf67c01c0000031b22f32038d40ed1a400c8200004020209 (.cons 216 1 0x35bf67c01c0000031b22f32038d40ed1a400c8200004020209 (.cons 231 1 0x35bf67c01c0000031b22f32038d40ed1a400c8200004020209 (.cons 232 1 0x35bf67c01c0000031b22f32038d40ed1a400c8200004020209 (.cons 233 1 0x35bf67c01c0000031b22f32038d40ed1a400c8200004020209 (.cons 234 1 0x35bf67c01c0000031b22f32038d40ed1a400c8200004020209 (.cons 234 3 0x35bf67c01c0000031b22f32038d40ed1a400c8200004020209 (.cons 235 1 0x35bf67c01c0000031b22f32038d40ed1a400c8200004020209 (.cons 236 1 0x35bf67c01c0000031b22f32038d40ed1a400c8200004020209 (.cons 237 1 0x35bf67c01c0000031b22f32038d40ed1a400c8200004020209 (.cons 274 1 0x35bf67c01c0000031b22f32038d40ed1a400c8200004020209 .nil)))))))))))))))))))))) .nil (.cons 0 0x6600000000000000000000000000000000000000000000 (.cons 469 0x7f4099fffffffffefdffffffffffffffffffbfffffffffffff (.cons 624 0x40000000000000 (.cons 632 0x200000000000000000000000000000000 (.cons 634 0x10000000000000000000000000000000000 (.cons 652 0x10000000000000000000000000000000000000000000000 (.cons 654 0x20000000000000000000000000000000000000000000000 (.cons 656 0x40000000000000000000000000000000000000000000000 (.cons 658 0x80000000000000000000000000000000000000000000000 (.cons 660 0x100000000000000000000000000000000000000000000000 (.cons 662 0x200000000000000000000000000000000000000000000000 (.cons 664 0x800000000000000000000000000000000000000000000000 .nil))))))))))))
def st433 : St := .mk (.cons 203 1 0x35bf67c01c0000031b22f32038d40ed1a400c8200004020209 (.cons 204 1 0x35bf67c01c0000031b22f32038d40ed1a400c8200004020209 (.cons 205 1 0x35bf67c01c0000031b22f32038d40ed1a400c8200004020209 (.cons 207 1 0x35bf67c01c0000031b22f32038d40ed1a400c8200004020209 (.cons 208 1 0x35bf67c01c0000031b22f32038d40ed1a400c8200004020209 (.cons 209 1 0x35bf67c01c0000031b22f32038d40ed1a400c8200004020209 (.cons 210 1 0x35bf67c01c0000031b22f32038d40ed1a400c8200004020209 (.cons 211 1 0x35bf67c01c0000031b22f32038d40ed1a400c8200004020209 (.cons 212 1 0x35bf67c01c0000031b22f32038d40ed1a400c8200004020209 (.cons 213 1 0x35bf67c01c0000031b22f32038d40ed1a400c8200004020209 (.cons 214 1 0x35bf67c01c0000031b22f32038d40ed1a400c8200004020209 (.cons 215 1 0x35bf67c01c0000031b22f32038d40ed1a400c8200004020209 (.cons 216 1 0x35bf67c01c0000031b22f32038d40ed1a400c8200004020209 (.cons 231 1 0x35bf67c01c0000031b22f32038d40ed1a400c8200004020209 (.cons 232 1 0x35bf67c01c0000031b22f32038d40ed1a400c8200004020209 (.cons 233 1 0x35bf67c01c0000031b22f32038d40ed1a400c8200004020209 (.cons 234 1 0x35bf67c01c0000031b22f32038d40ed1a400c8200004020209 (.cons 235 1 0x35bf67c01c0000031b22f32038d40ed1a400c8200004020209 (.cons 235 3 0x35bf67c01c0000031b22f32038d40ed1a400c8200004020209 (.cons 236 1 0x35bf67c01c0000031b22f32038d40ed1a400c8200004020209 (.cons 237 1 0x35bf67c01c0000031b22f32038d40ed1a400c8200004020209 (.cons 274 1 0x35bf67c01c0000031b22f32038d40ed1a400c8200004020209 .nil)))))))))))))))))))))) .nil (.cons 0 0x6600000000000000000000000000000000000000000000 (.cons 471 0x7f4099fffffffffefdffffffffffffffffffbfffffffffffff (.cons 624 0x40000000000000 (.cons 632 0x200000000000000000000000000000000 (.cons 634 0x10000000000000000000000000000000000 (.cons 652 0x10000000000000000000000000000000000000000000000 (.cons 654 0x20000000000000000000000000000000000000000000000 (.cons 656 0x40000000000000000000000000000000000000000000000 (.cons 658 0x80000000000000000000000000000000000000000000000 (.cons 660 0x100000000000000000000000000000000000000000000000 (.cons 662 0x200000000000000000000000000000000000000000000000 (.cons 664 0x800000000000000000000000000000000000000000000000 .nil))))))))))))
def st434 : St := .mk (.cons 203 1 0x35bf67c01c0000031b22f32038d40ed1a400c8200004020209 (.cons 204 1 0x35bf67c01c0000031b22f32038d40ed1a400c8200004020209 (.cons 205 1 0x35bf67c01c0000031b22f32038d40ed1a400c8200004020209 (.cons 207 1 0x35bf67c01c0000031b22f32038d40ed1a400c8200004020209 (.cons 208 1 0x35bf67c01c0000031b22f32038d40ed1a400c8200004020209 (.cons 209 1 0x35bf67c01c0000031b22f32038d40ed1a400c8200004020209 (.cons 210 1 0x35bf67c01c0000031b22f32038d40ed1a400c8200004020209 (.cons 211 1 0x35bf67c01c0000031b22f32038d40ed1a400c8200004020209 (.cons 212 1 0x35bf67c01c0000031b22f32038d40ed1a400c8200004020209 (.cons 213 1 0x35bf67c01c0000031b22f32038d40ed1a400c8200004020209 (.cons 214 1 0x35bf67c01c0000031b22f32038d40ed1a400c8200004020209 (.cons 215 1 0x35bf67c01c0000031b22f32038d40ed1a400c8200004020209 (.cons 216 1 0x35bf67c01c0000031b22f32038d40ed1a400c8200004020209 (.cons 231 1 0x35bf67c01c0000031b22f32038d40ed1a400c8200004020209 (.cons 232 1 0x35bf67c01c0000031b22f32038d40ed1a400c8200004020209 (.cons 233 1 0x35bf67c01c0000031b22f32038d40ed1a400c8200004020209 (.cons 234 1 0x35bf67c01c0000031b22f32038d40ed1a400c8200004020209 (.cons 235 1 0x35bf67c01c0000031b22f32038d40ed1a400c8200004020209 (.cons 236 1 0x35bf67c01c0000031b22f32038d40ed1a400c8200004020209 (.cons 236 3 0x35bf67c01c0000031b22f32038d40ed1a400c8200004020209 (.cons 237 1 0x35bf67c01c0000031b22f32038d40ed1a400c8200004020209 (.cons 274 1 0x35bf67c01c0000031b22f32038d40ed1a400c8200004020209 .nil)))))))))))))))))))))) .nil (.cons 0 0x6600000000000000000000000000000000000000000000 (.cons 473 0x7f4099fffffffffefdffffffffffffffffffbfffffffffffff (.cons 624 0x40000000000000 (.cons 632 0x200000000000000000000000000000000 (.cons 634 0x10000000000000000000000000000000000 (.cons 652 0x10000000000000000000000000000000000000000000000 (.cons 654 0x20000000000000000000000000000000000000000000000 (.cons 656 0x40000000000000000000000000000000000000000000000 (.cons 658 0x80000000000000000000000000000000000000000000000 (.cons 660 0x100000000000000000000000000000000000000000000000 (.cons 662 0x200000000000000000000000000000000000000000000000 (.cons 664 0x800000000000000000000000000000000000000000000000 .nil))))))))))))
def st435 : St := .mk (.cons 203 1 0x35bf67c01c0000031b22f32038d40ed1a400c8200004020209 (.cons 204 1 0x35bf67c01c0000031b22f32038d40ed1a400c8200004020209 (.cons 205 1 0x35bf67c01c0000031b22f32038d40ed1a400c8200004020209 (.cons 207 1 0x35bf67c01c0000031b22f32038d40ed1a400c8200004020209 (.cons 208 1 0x35bf67c01c0000031b22f32038d40ed1a400c8200004020209 (.cons 209 1 0x35bf67c01c0000031b22f32038d40ed1a400c8200004020209 (.cons 210 1 0x35bf67c01c0000031b22f32038d40ed1a400c8200004020209 (.cons 211 1 0x35bf67c01c0000031b22f32038d40ed1a400c8200004020209 (.cons 212 1 0x35bf67c01c0000031b22f32038d40ed1a400c8200004020209 (.cons 213 1 0x35bf67c01c0000031b22f32038d40ed1a400c8200004020209 (.cons 214 1 0x35bf67c01c0000031b22f32038d40ed1a400c8200004020209 (.cons 215 1 0x35bf67c01c0000031b22f32038d40ed1a400c8200004020209 (.cons 216 1 0x35bf67c01c0000031b22f32038d40ed1a400c8200004020209 (.cons 231 1 0x35bf67c01c0000031b22f32038d40ed1a400c8200004020209 (.cons 232 1 0x35bf67c01c0000031b22f32038d40ed1a400c8200004020209 (.cons 233 1 0x35bf67c01c0000031b22f32038d40ed1a400c8200004020209 (.cons 234 1 0x35bf67c01c0000031b22f32038d40ed1a400c8200004020209 (.cons 235 1 0x35bf67c01c0000031b22f32038d40ed1a400c8200004020209 (.cons 236 1 0x35bf67c01c0000031b22f32038d40ed1a400c8200004020209 (.cons 237 1 0x35bf67c01c0000031b22f32038d40ed1a400c8200004020209 (.cons 237 3 0x35bf67c01c0000031b22f32038d40ed1a400c8200004020209 (.cons 274 1 0x35bf67c01c0000031b22f32038d40ed1a400c8200004020209 .nil)))))))))))))))))))))) .nil (.cons 0 0x6600000000000000000000000000000000000000000000 (.cons 475 0x7f4099fffffffffefdffffffffffffffffffbfffffffffffff (.cons 624 0x40000000000000 (.cons 632 0x200000000000000000000000000000000 (.cons 634 0x10000000000000000000000000000000000 (.cons 652 0x10000000000000000000000000000000000000000000000 (.cons 654 0x20000000000000000000000000000000000000000000000 (.cons 656 0x40000000000000000000000000000000000000000000000 (.cons 658 0x80000000000000000000000000000000000000000000000 (.cons 660 0x100000000000000000000000000000000000000000000000 (.cons 662 0x200000000000000000000000000000000000000000000000 (.cons 664 0x800000000000000000000000000000000000000000000000 .nil))))))))))))
def st436 : St := .mk (.cons 203 1 0x35bf67c01c0000031b22f32038d40ed1a400c8200004020209 (.cons 204 1 0x35bf67c01c0000031b22f32038d40ed1a400c8200004020209 (.cons 205 1 0x35bf67c01c0000031b22f32038d40ed1a400c8200004020209 (.cons 207 1 0x35bf67c01c0000031b22f32038d40ed1a400c8200004020209 (.cons 208 1 0x35bf67c01c0000031b22f32038d40ed1a400c8200004020209 (.cons 208 3 0x35bf67c01c0000031b22f32038d40ed1a400c8200004020209 (.cons 209 1 0x35bf67c01c0000031b22f32038d40ed1a400c8200004020209 (.cons 210 1 0x35bf67c01c0000031b22f32038d40ed1a400c8200004020209 (.cons 211 1 0x35bf67c01c0000031b22f32038d40ed1a400c8200004020209 (.cons 212 1 0x35bf67c01c0000031b22f32038d40ed1a400c8200004020209 (.cons 213 1 0x35bf67c01c0000031b22f32038d40ed1a400c8200004020209 (.cons 214 1 0x35bf67c01c0000031b22f32038d40ed1a400c8200004020209 (.cons 215 1 0x35bf67c01c0000031b22f32038d40ed1a400c8200004020209 (.cons 216 1 0x35bf67c01c0000031b22f32038d40ed1a400c8200004020209 (.cons 231 1 0x35bf67c01c0000031b22f32038d40ed1a400c8200004020209 (.cons 232 1 0x35bf67c01c0000031b22f32038d40ed1a400c8200004020209 (.cons 233 1 0x35bf67c01c0000031b22f32038d40ed1a400c8200004020209 (.cons 234 1 0x35bf67c01c0000031b22f32038d40ed1a400c8200004020209 (.cons 235 1 0x35bf67c01c0000031b22f32038d40ed1a400c8200004020209 (.cons 236 1 0x35bf67c01c0000031b22f32038d40ed1a400c8200004020209 (.cons 237 1 0x35bf67c01c0000031b22f32038d40ed1a400c8200004020209 (.cons 274 1 0x35bf67c01c0000031b22f32038d40ed1a400c8200004020209 .nil)))))))))))))))))))))) .nil (.cons 417 0x7f43fffffffffffeffffffffffffffffffffffffffffffffff (.cons 634 0x10000000000000000000000000000000000 (.cons 656 0x40000000000000000000000000000000000000000000000 (.cons 658 0x80000000000000000000000000000000000000000000000 (.cons 660 0x100000000000000000000000000000000000000000000000 (.cons 662 0x200000000000000000000000000000000000000000000000 (.cons 664 0x800000000000000000000000000000000000000000000000 .nil)))))))
def st437 : St := .mk (.cons 203 1 0x35bf67c01c0000031b22f32038d40ed1a400c8200004020209 (.cons 204 1 0x35bf67c01c0000031b22f32038d40ed1a400c8200004020209 (.cons 205 1 0x35bf67c01c0000031b22f32038d40ed1a400c8200004020209 (.cons 207 1 0x35bf67c01c0000031b22f32038d40ed1a400c8200004020209 (.cons 207 3 0x35bf67c01c0000031b22f32038d40ed1a400c8200004020209 (.cons 208 1 0x35bf67c01c0000031b22f32038d40ed1a400c8200004020209 (.cons 209 1 0x35bf67c01c0000031b22f32038d40ed1a400c8200004020209 (.cons 210 1 0x35bf67c01c0000031b22f32038d40ed1a400c8200004020209 (.cons 211 1 0x35bf67c01c0000031b22f32038d40ed1a400c8200004020209 (.cons 212 1 0x35bf67c01c0000031b22f32038d40ed1a400c8200004020209 (.cons 213 1 0x35bf67c01c0000031b22f32038d40ed1a400c8200004020209 (.cons 214 1 0x35bf67c01c0000031b22f32038d40ed1a400c8200004020209 (.cons 215 1 0x35bf67c01c0000031b22f32038d40ed1a400c8200004020209 (.cons 216 1 0x35bf67c01c0000031b22f32038d40ed1a400c8200004020209 (.cons 231 1 0x35bf67c01c0000031b22f32038d40ed1a400c8200004020209 (.cons 232 1 0x35bf67c01c0000031b22f32038d40ed1a400c8200004020209 (.cons 233 1 0x35bf67c01c0000031b22f32038d40ed1a400c8200004020209 (.cons 234 1 0x35bf67c01c0000031b22f32038d40ed1a400c8200004020209 (.cons 235 1 0x35bf67c01c0000031b22f32038d40ed1a400c8200004020209 (.cons 236 1 0x35bf67c01c0000031b22f32038d40ed1a400c8200004020209 (.cons 237 1 0x35bf67c01c0000031b22f32038d40ed1a400c8200004020209 (.cons 274 1 0x35bf67c01c0000031b22f32038d40ed1a400c8200004020209 .nil)))))))))))))))))))))) .nil (.cons 415 0x7f43fffffffffffeffffffffffffffffffffffffffffffffff (.cons 634 0x10000000000000000000000000000000000 (.cons 656 0x40000000000000000000000000000000000000000000000 (.cons 658 0x80000000000000000000000000000000000000000000000 (.cons 660 0x100000000000000000000000000000000000000000000000 (.cons 662 0x200000000000000000000000000000000000000000000000 (.cons 664 0x800000000000000000000000000000000000000000000000 .nil)))))))
def st438 : St := .mk (.cons 203 1 0x35bf67c01c0000031b22f32038d40ed1a400c8200004020209 (.cons 204 1 0x35bf67c01c0000031b22f32038d40ed1a400c8200004020209 (.cons 205 1 0x35bf67c01c0000031b22f32038d40ed1a400c8200004020209 (.cons 207 1 0x35bf67c01c0000031b22f32038d40ed1a400c8200004020209 (.cons 208 1 0x35bf67c01c0000031b22f32038d40ed1a400c8200004020209 (.cons 209 1 0x35bf67c01c0000031b22f32038d40ed1a400c8200004020209 (.cons 210 1 0x35bf67c01c0000031b22f32038d40ed1a400c8200004020209 (.cons 210 3 0x35bf67c01c0000031b22f32038d40ed1a400c8200004020209 (.cons 211 1 0x35bf67c01c0000031b22f32038d40ed1a400c8200004020209 (.cons 212 1 0x35bf67c01c0000031b22f32038d40ed1a400c8200004020209 (.cons 213 1 0x35bf67c01c0000031b22f32038d40ed1a400c8200004020209 (.cons 214 1 0x35bf67c01c0000031b22f32038d40ed1a400c8200004020209 (.cons 215 1 0x35bf67c01c0000031b22f32038d40ed1a400c8200004020209 (.cons 216 1 0x35bf67c01c0000031b22f32038d40ed1a400c8200004020209 (.cons 231 1 0x35bf67c01c0000031b22f32038d40ed1a400c8200004020209 (.cons 232 1 0x35bf67c01c0000031b22f32038d40ed1a400c8200004020209 (.cons 233 1 0x35bf67c01c0000031b22f32038d40ed1a400c8200004020209 (.cons 234 1 0x35bf67c01c0000031b22f32038d40ed1a400c8200004020209 (.cons 235 1 0x35bf67c01c0000031b22f32038d40ed1a400c8200004020209 (.cons 236 1 0x35bf67c01c0000031b22f32038d40ed1a400c8200004020209 (.cons 237 1 0x35bf67c01c0000031b22f32038d40ed1a400c8200004020209 (.cons 274 1 0x35bf67c01c0000031b22f32038d40ed1a400c8200004020209 .nil)))))))))))))))))))))) .nil (.cons 421 0x7f5ffffffffffffeffffffffffffffffffffffffffffffffff (.cons 634 0x10000000000000000000000000000000000 (.cons 662 0x200000000000000000000000000000000000000000000000 (.cons 664 0x800000000000000000000000000000000000000000000000 .nil))))
def st439 : St := .mk (.cons 203 1 0x35bf67c01c0000031b22f32038d40ed1a400c8200004020209 (.cons 204 1 0x35bf67c01c0000031b22f32038d40ed1a400c8200004020209 (.cons 205 1 0x35bf67c01c0000031b22f32038d40ed1a400c8200004020209 (.cons 207 1 0x35bf67c01c0000031b22f32038d40ed1a400c8200004020209 (.cons 208 1 0x35bf67c01c0000031b22f32038d40ed1a400c8200004020209 (.cons 209 1 0x35bf67c01c0000031b22f32038d40ed1a400c8200004020209 (.cons 209 3 0x35bf67c01c0000031b22f32038d40ed1a400c8200004020209 (.cons 210 1 0x35bf67c01c0000031b22f32038d40ed1a400c8200004020209 (.cons 211 1 0x35bf67c01c0000031b22f32038d40ed1a400c8200004020209 (.cons 212 1 0x35bf67c01c0000031b22f32038d40ed1a400c8200004020209 (.cons 213 1 0x35bf67c01c0000031b22f32038d40ed1a400c8200004020209 (.cons 214 1 0x35bf67c01c0000031b22f32038d40ed1a400c8200004020209 (.cons 215 1 0x35bf67c01c0000031b22f32038d40ed1a400c8200004020209 (.cons 216 1 0x35bf67c01c0000031b22f32038d40ed1a400c8200004020209 (.cons 231 1 0x35bf67c01c0000031b22f32038d40ed1a400c8200004020209 (.cons 232 1 0x35bf67c01c0000031b22f32038d40ed1a400c8200004020209 (.cons 233 1 0x35bf67c01c0000031b22f32038d40ed1a400c8200004020209 (.cons 234 1 0x35bf67c01c0000031b22f32038d40ed1a400c8200004020209 (.cons 235 1 0x35bf67c01c0000031b22f32038d40ed1a400c8200004020209 (.cons 236 1 0x35bf67c01c0000031b22f32038d40ed1a400c8200004020209 (.cons 237 1 0x35bf67c01c0000031b22f32038d40ed1a400c8200004020209 (.cons 274 1 0x35bf67c01c0000031b22f32038d40ed1a400c8200004020209 .nil)))))))))))))))))))))) .nil (.cons 419 0x7f5ffffffffffffeffffffffffffffffffffffffffffffffff (.cons 634 0x10000000000000000000000000000000000 (.cons 662 0x200000000000000000000000000000000000000000000000 (.cons 664 0x800000000000000000000000000000000000000000000000 .nil))))
def st440 : St := .mk (.cons 203 1 0x35bf67c01c0000031b22f32038d40ed1a400c8200004020209 (.cons 204 1 0x35bf67c01c0000031b22f32038d40ed1a400c8200004020209 (.cons 205 1 0x35bf67c01c0000031b22f32038d40ed1a400c8200004020209 (.cons 207 1 0x35bf67c01c0000031b22f32038d40ed1a400c8200004020209 (.cons 208 1 0x35bf67c01c0000031b22f32038d40ed1a400c8200004020209 (.cons 209 1 0x35bf67c01c0000031b22f32038d40ed1a400c8200004020209 (.cons 210 1 0x35bf67c01c0000031b22f32038d40ed1a400c8200004020209 (.cons 211 1 0x35bf67c01c0000031b22f32038d40ed1a400c8200004020209 (.cons 211 3 0x35bf67c01c0000031b22f32038d40ed1a400c8200004020209 (.cons 212 1 0x35bf67c01c0000031b22f32038d40ed1a400c8200004020209 (.cons 213 1 0x35bf67c01c0000031b22f32038d40ed1a400c8200004020209 (.cons 214 1 0x35bf67c01c0000031b22f32038d40ed1a400c8200004020209 (.cons 215 1 0x35bf67c01c0000031b22f32038d40ed1a400c8200004020209 (.cons 216 1 0x35bf67c01c0000031b22f32038d40ed1a400c8200004020209 (.cons 231 1 0x35bf67c01c0000031b22f32038d40ed1a400c8200004020209 (.cons 232 1 0x35bf67c01c0000031b22f32038d40ed1a400c8200004020209 (.cons 233 1 0x35bf67c01c0000031b22f32038d40ed1a400c8200004020209 (.cons 234 1 0x35bf67c01c0000031b22f32038d40ed1a400c8200004020209 (.cons 235 1 0x35bf67c01c0000031b22f32038d40ed1a400c8200004020209 (.cons 236 1 0x35bf67c01c0000031b22f32038d40ed1a400c8200004020209 (.cons 237 1 0x35bf67c01c0000031b22f32038d40ed1a400c8200004020209 (.cons 274 1 0x35bf67c01c0000031b22f32038d40ed1a400c8200004020209 .nil)))))))))))))))))))))) .nil (.cons 423 0x7f5ffffffffffffeffffffffffffffffffffffffffffffffff (.cons 634 0x10000000000000000000000000000000000 (.cons 662 0x200000000000000000000000000000000000000000000000 (.cons 664 0x800000000000000000000000000000000000000000000000 .nil))))
def st441 : St := .mk (.cons 203 1 0x35bf67c01c0000031b22f32038d40ed1a400c8200004020209 (.cons 204 1 0x35bf67c01c0000031b22f32038d40ed1a400c8200004020209 (.cons 205 1 0x35bf67c01c0000031b22f32038d40ed1a400c8200004020209 (.cons 207 1 0x35bf67c01c0000031b22f32038d40ed1a400c8200004020209 (.cons 208 1 0x35bf67c01c0000031b22f32038d40ed1a400c8200004020209 (.cons 209 1 0x35bf67c01c0000031b22f32038d40ed1a400c8200004020209 (.cons 210 1 0x35bf67c01c0000031b22f32038d40ed1a400c8200004020209 (.cons 211 1 0x35bf67c01c0000031b22f32038d40ed1a400c8200004020209 (.cons 212 1 0x35bf67c01c0000031b22f32038d40ed1a400c8200004020209 (.cons 212 3 0x35bf67c01c0000031b22f32038d40ed1a400c8200004020209 (.cons 213 1 0x35bf67c01c0000031b22f32038d40ed1a400c8200004020209 (.cons 214 1 0x35bf67c01c0000031b22f32038d40ed1a400c8200004020209 (.cons 215 1 0x35bf67c01c0000031b22f32038d40ed1a400c8200004020209 (.cons 216 1 0x35bf67c01c0000031b22f32038d40ed1a400c8200004020209 (.cons 231 1 0x35bf67c01c0000031b22f32038d40ed1a400c8200004020209 (.cons 232 1 0x35bf67c01c0000031b22f32038d40ed1a400c8200004020209 (.cons 233 1 0x35bf67c01c0000031b22f32038d40ed1a400c8200004020209 (.cons 234 1 0x35bf67c01c0000031b22f32038d40ed1a400c8200004020209 (.cons 235 1 0x35bf67c01c0000031b22f32038d40ed1a400c8200004020209 (.cons 236 1 0x35bf67c01c0000031b22f32038d40ed1a400c8200004020209 (.cons 237 1 0x35bf67c01c0000031b22f32038d40ed1a400c8200004020209 (.cons 274 1 0x35bf67c01c0000031b22f32038d40ed1a400c8200004020209 .nil)))))))))))))))))))))) .nil (.cons 425 0x7f7ffffffffffffeffffffffffffffffffffffffffffffffff (.cons 634 0x10000000000000000000000000000000000 (.cons 664 0x800000000000000000000000000000000000000000000000 .nil)))
def st442 : St := .mk (.cons 274 3 0x35bf67c01c0000031b22f32038d40ed1a400c8200004020209 .nil) .nil (.cons 0 0x7effffffffffffffffffffffffffffffffffffffffffffffff (.cons 1046 0x1000000000000000000000000000000000000000000000000 .nil))
def st443 : St := .mk (.cons 35 7 0x10000000000000000000000000000000000000000000000001 .nil) .nil (.cons 71 0x7fffffffffffffffffffffffffffffffffffffffffffffffff .nil)
def st444 : St := .mk (.cons 357 3 0x3400000000c000000000820000000000000000000000000001 .nil) .nil (.cons 715 0x7fffffffffffffffffffffffffffffffffffffffffffffffff .nil)
def st445 : St := .mk (.cons 115 7 0x10000000000000000000020000000000000000000000000001 (.cons 176 1 0x24000000000000000000000000000000000000000000000000 .nil)) .nil (.cons 0 0x5bffffffffffffffffffffffffffffffffffffffffffffffff (.cons 416 0x20000000000000000000000000000000000000000000000000 (.cons 1048 0x4000000000000000000000000000000000000000000000000 .nil)))
def st446 : St := .mk (.cons 112 3 0x10000000000000000000020000000000000000000000000001 .nil) .nil (.cons 0 0x7ffffffffffffffffffffffffffffffffffffffffffffffff7 (.cons 1050 0x8 .nil))
def st447 : St := .mk (.cons 39 3 0x10000000000000000000000000000800000000000000000001 (.cons 42 1 0x24000000000000000000000000000000000000000000000000 (.cons 44 1 0x24000000000000000000000000000000000000000000000000 (.cons 46 1 0x24000000000000000000000000000000000000000000000000 .nil)))) .nil (.cons 0 0x5bffffffffffffffffffffffffffffffffffffffffffffffff (.cons 908 0x20000000000000000000000000000000000000000000000000 (.cons 1052 0x4000000000000000000000000000000000000000000000000 .nil)))
def st448 : St := .mk (.cons 48 2 0x24000000000000000000000000000000000000000000000000 .nil) .nil (.cons 97 0x7fffffffffffffffffffffffffffffffffffffffffffffffff .nil)
def st449 : St := .mk (.cons 45 2 0x24000000000000000000000000000000000000000000000000 .nil) .nil (.cons 91 0x7fffffffffffffffffffffffffffffffffffffffffffffffff .nil)
def st450 : St := .mk (.cons 43 2 0x24000000000000000000000000000000000000000000000000 .nil) .nil (.cons 87 0x7fffffffffffffffffffffffffffffffffffffffffffffffff .nil)
def st451 : St := .mk (.cons 49 2 0x24000000000000000000000000000000000000000000000000 .nil) .nil (.cons 99 0x7fffffffffffffffffffffffffffffffffffffffffffffffff .nil)
def st452 : St := .mk (.cons 40 3 0x10000000000000000000000000000800000000000000000001 .nil) .nil (.cons 81 0x7fffffffffffffffffffffffffffffffffffffffffffffffff .nil)
def st453 : St := .mk (.cons 42 2 0x24000000000000000000000000000000000000000000000000 (.cons 44 2 0x24000000000000000000000000000000000000000000000000 (.cons 46 2 0x24000000000000000000000000000000000000000000000000 .nil))) (.cons 217 0x24000000000000000000000000000000000000000000000000 .nil) (.cons 0 0x7ffffffffffffffffffffffefffffffffffffdfffffefffff7 (.cons 682 0x8 (.cons 688 0x100000000000000000000000000 (.cons 1054 0x1000000 (.cons 1056 0x2000000000000 .nil)))))
def st454 : St := .mk (.cons 25 3 0x24000000000000000000000000000000000000000000000000 (.cons 176 1 0x24000000000000000000000000000000000000000000000000 .nil)) .nil (.cons 0 0x5bffffffffffffffffffffffffffffffffffffffffffffffff (.cons 416 0x20000000000000000000000000000000000000000000000000 (.cons 1060 0x4000000000000000000000000000000000000000000000000 .nil)))
def st455 : St := .mk (.cons 23 3 0x24000000000000000000000000000000000000000000000000 .nil) .nil (.cons 47 0x7fffffffffffffffffffffffffffffffffffffffffffffffff .nil)
def st456 : St := .mk (.cons 304 1 0x34000000000000000800820018800ed1a40080200004000201 .nil) (.cons 245 0x4000000000000000000000000000000000000000000000000 (.cons 326 0x2000000000000000000000000000000000400000000000000 (.cons 327 0x2000000000000000000000000000000000400000000000000 .nil))) (.cons 32 0x20000000000000000000000000000 (.cons 671 0x7ffffffffffffffffffffdffffffffffffffffffffffffffff .nil))
def st457 : St := .mk (.cons 146 2 0x14000000000000000000820000000a11200080200000000201 .nil) .nil (.cons 293 0x7fffffffffffffffffffffffffffffffffffffffffffffffff .nil)
def st458 : St := .mk (.cons 299 1 0x14000000000000000000820000000a11200080200000000201 (.cons 305 1 0x20000000000000000000000000000000000000000000000000 (.cons 340 1 0x34000000000000000000820018800ad1a40080200004000201 (.cons 341 1 0x34000000000000000000820018800ad1a40080200004000201 (.cons 342 1 0x34000000000000000000820018800ad1a40080200004000201 .nil))))) (.cons 331 0x8000000000000000000000000 .nil) (.cons 599 0x5fffffffffffffffffffffffe77fff3f7bfffffffffbffffff (.cons 611 0x20000000000000000000000000000000000000000000000000 (.cons 705 0x8000000000000000000000000 (.cons 1064 0x4000000 (.cons 1066 0x40000000000000000 (.cons 1068 0x800000000000000000 (.cons 1070 0x40000000000000000000 (.cons 1072 0x80000000000000000000 (.cons 1074 0x800000000000000000000000 (.cons 1076 0x10000000000000000000000000 .nil))))))))))
def st459 : St := .mk (.cons 301 1 0x34000000000000000800820018800ed1a40080200004000201 .nil) .nil (.cons 603 0x7fffffffffffffffffffffffffffffffffffffffffffffffff .nil)
def st460 : St := .mk (.cons 300 1 0x14000000000000000000820000000a11200080200000000201 (.cons 306 1 0x20000000000000000000000000000000000000000000000000 .nil)) .nil (.cons 0 0x5fffffffffffffffffffffffffffffffffffffffffffffffff (.cons 1080 0x20000000000000000000000000000000000000000000000000 .nil))
def st461 : St := .mk (.cons 303 1 0x34000000000000000800820018800ed1a40080200004000201 .nil) .nil (.cons 607 0x7fffffffffffffffffffffffffffffffffffffffffffffffff .nil)
def st462 : St := .mk (.cons 307 1 0x34000000000000000800820018800ed1a40080200004000201 .nil) (.cons 317 0x34000000000000000800820018800ed1a40080200004000201 (.cons 318 0x34000000000000000800820018800ed1a40080200004000201 (.cons 319 0x34000000000000000800820018800ed1a40080200004000201 .nil))) (.cons 633 0x7fffffffffffffffffdffffffffffffffffffffffffffffff7 (.cons 710 0x8 (.cons 1082 0x20000000000000000000000000000000 .nil)))
def st463 : St := .mk (.cons 302 1 0x34000000000000000800820018800ed1a40080200004000201 .nil) .nil (.cons 605 0x7fffffffffffffffffffffffffffffffffffffffffffffffff .nil)
def st464 : St := .mk (.cons 140 6 0x14000000000000000000820000000211000080200000000201 .nil) (.cons 259 0x14000000000000000000820000000211000080200000000201 .nil) (.cons 301 0x7fffffffffffffffffffffffffffffffdfffffffffffffffff (.cons 1090 0x200000000000000000 .nil))
def st465 : St := .mk (.cons 172 3 0x350000001c0000000000820000400a11200088200000000201 .nil) .nil (.cons 345 0x7fffffffffffffffffffffffffffffffffffffffffffffffff .nil)
def st466 : St := .mk (.cons 317 2 0x350000001c0000000000820000400a11200088200000000201 .nil) .nil (.cons 635 0x7fffffffffffffffffffffffffffffffffffffffffffffffff .nil)
def st467 : St := .mk (.cons 156 3 0x340000001c0000000000820000000001000080000000000001 .nil) .nil (.cons 313 0x7fffffffffffffffffffffffffffffffffffffffffffffffff .nil)
def st468 : St := .mk (.cons 162 1 0x340000001c0000000000820000000001000080000000000001 .nil) .nil (.cons 0 0x7ffffffffffffffffffffffffffffffffffffffffffffffff7 (.cons 1094 0x8 .nil))
def st469 : St := .mk (.cons 157 3 0x340000001c0000000000820000000001000080000000000001 .nil) .nil (.cons 315 0x7fffffffffffffffffffffffffffffffffffffffffffffffff .nil)
def st470 : St := .mk (.cons 133 6 0x14000000000000000000020000000000000000000000000001 .nil) .nil (.cons 267 0x7fffffffffffffffffffffffffffffffffffffffffffffffff .nil)
def st471 : St := .mk (.cons 169 4 0x14000000000000000000820000000000000000000000000001 (.cons 217 1 0x14000000000000001000920000000000000000000000000001 (.cons 218 1 0x14000000000000001000920000000000000000000000000001 .nil))) .nil (.cons 339 0x7fffffffffffffffefffefffffffffffffffffffffffffffff (.cons 618 0x100000000000000000000000000000 (.cons 620 0x1000000000000000000000000000000000 .nil)))
def st472 : St := .mk (.cons 167 4 0x14000000000000000000820000000000000000000000000001 (.cons 217 1 0x14000000000000001000920000000000000000000000000001 (.cons 218 1 0x14000000000000001000920000000000000000000000000001 .nil))) .nil (.cons 335 0x7fffffffffffffffefffefffffffffffffffffffffffffffff (.cons 618 0x100000000000000000000000000000 (.cons 620 0x1000000000000000000000000000000000 .nil)))
def st473 : St := .mk (.cons 328 2 0x1400000000c000000400820000000000000000000000000001 .nil) .nil (.cons 0 0x7fffffffffffffffffffffffffffffffffbfffffffffffffff (.cons 1096 0x4000000000000000 .nil))
def st474 : St := .mk (.cons 330 2 0x1400000000c000000400820000000000000000000000000001 .nil) .nil (.cons 661 0x7fffffffffffffffffffffffffffffffffffffffffffffffff .nil)
def st475 : St := .mk (.cons 326 3 0x14000000000000000000820000000000000000000000000001 .nil) (.cons 334 0x3400000000c000000000820000000000000000000000000001 .nil) (.cons 0 0x7ffffffffffffffffffffffffffffffffffffffffffffffff7 (.cons 488 0x8 .nil))
def st476 : St := .mk (.cons 332 1 0x14000000000000000000820000000000000000000000000001 .nil) .nil (.cons 665 0x7fffffffffffffffffffffffffffffffffffffffffffffffff .nil)
def st477 : St := .mk (.cons 331 1 0x14000000000000000000820000000000000000000000000001 .nil) .nil (.cons 0 0x7ffffffffeffffffffffffffffffffffffffffffffffffffff (.cons 1100 0x10000000000000000000000000000000000000000 .nil))
def st478 : St := .mk (.cons 325 3 0x14000000000000000000820000000000000000000000000001 .nil) .nil (.cons 651 0x7fffffffffffffffffffffffffffffffffffffffffffffffff .nil)
def st479 : St := .mk (.cons 178 5 0x24000000000000000000000000000000000000000000000000 .nil) .nil (.cons 0 0x7bffffffffffffffffffffffffffffffffffffffffffffffff (.cons 1102 0x4000000000000000000000000000000000000000000000000 .nil))
def st480 : St := .mk (.cons 58 8 0x10000000000000000000020000000000000000000000000001 (.cons 357 1 0x24000000000000000000000000000000000000000000000000 .nil)) .nil (.cons 0 0x5bffffffffffffffffffffffffffffffffffffffffffffffff (.cons 670 0x20000000000000000000000000000000000000000000000000 (.cons 1104 0x4000000000000000000000000000000000000000000000000 .nil)))
def st481 : St := .mk (.cons 55 8 0x10000000000000000000020000000000000000000000000001 .nil) .nil (.cons 111 0x7fffffffffffffffffffffffffffffffffffffffffffffffff .nil)
def st482 : St := .mk (.cons 70 2 0x24000026000000000002000100000000000000000000000000 .nil) .nil (.cons 0 0x7fffffffffffffffffffffffffffffffffffffffffffffffbf (.cons 1106 0x40 .nil))
def st483 : St := .mk (.cons 87 1 0x24000026000000000002000100000000000000000000000000 (.cons 88 1 0x24000026000000000002000100000000000000000000000000 .nil)) .nil (.cons 0 0x7fffffffffffffffffffffffffffffffffffffffffffffffbf (.cons 1108 0x40 .nil))
def st484 : St := .mk (.cons 73 2 0x24000026000000000002000100000000000000000000000000 .nil) .nil (.cons 147 0x7fffffffffffffffffffffffffffffffffffffffffffffffff .nil)
def st485 : St := .mk (.cons 84 2 0x24000026000000000002000100000000000000000000000000 .nil) .nil (.cons 0 0x7fffffffffffffffffffffffffffffffffffffffffffffffbf (.cons 1110 0x40 .nil))
def st486 : St := .mk (.cons 69 2 0x24000026000000000002000100000000000000000000000000 .nil) .nil (.cons 0 0x7fffffffffffffffffffffffffffffffffffffffffffffffbf (.cons 1112 0x40 .nil))
def st487 : St := .mk (.cons 85 1 0x24000026000000000002000100000000000000000000000000 .nil) .nil (.cons 0 0x7fffffffffffffffffffffffffffffffffffffffffffffffbf (.cons 1114 0x40 .nil))
def st488 : St := .mk (.cons 82 2 0x24000026000000000002000100000000000000000000000000 .nil) .nil (.cons 165 0x7fffffffffffffffffffffffffffffffffffffffffffffffff .nil)
def st489 : St := .mk (.cons 98 1 0x24000026000000000002000100000000000000000000000000 .nil) .nil (.cons 197 0x7fffffffffffffffffffffffffffffffffffffffffffffffff .nil)
def st490 : St := .mk (.cons 99 1 0x24000026000000000002000100000000000000000000000000 .nil) .nil (.cons 0 0x7ffffffffffffffffffffffeffffffffffffffffffffffffff (.cons 1116 0x100000000000000000000000000 .nil))
def st491 : St := .mk (.cons 97 1 0x24000026000000000002000100000000000000000000000000 .nil) .nil (.cons 195 0x7fffffffffffffffffffffffffffffffffffffffffffffffff .nil)
def st492 : St := .mk (.cons 96 1 0x24000026000000000002000100000000000000000000000000 .nil) .nil (.cons 0 0x7fffffefffffffffffffffffffffffffffffffffffffffffff (.cons 1118 0x10000000000000000000000000000000000000000000 .nil))
def st493 : St := .mk (.cons 103 1 0x24000026000000000002000100000000000000000000000000 .nil) (.cons 315 0x26000026000000000002000100000000000000000000000000 .nil) (.cons 0 0x7ffffffffffffffffffffffffffffffffffffffffffffffff7 (.cons 82 0x8 .nil))
def st494 : St := .mk (.cons 66 3 0x24000000000000000000000000000000000000000000000000 .nil) .nil (.cons 133 0x7fffffffffffffffffffffffffffffffffffffffffffffffff .nil)
def st495 : St := .mk (.cons 90 1 0x24000000000000000000000000000000000000000000000000 (.cons 93 1 0x24000026000000000002000100000000000000000000000000 (.cons 95 1 0x24000026000000000002000100000000000000000000000000 .nil))) (.cons 230 0x24000026000000000002000100000000000000000000000000 (.cons 232 0x24000026000000000002000100000000000000000000000000 .nil)) (.cons 181 0x7fffffd9fffffffffffdfffeffffffffffffffffffffffffff (.cons 980 0x100000000000000000000000000 (.cons 982 0x2000000000000000000000000000000 (.cons 984 0x2000000000000000000000000000000000000000000 (.cons 986 0x4000000000000000000000000000000000000000000 (.cons 988 0x20000000000000000000000000000000000000000000 .nil))))))
def st496 : St := .mk (.cons 92 1 0x24000026000000000002000100000000000000000000000000 .nil) .nil (.cons 185 0x7fffffffffffffffffffffffffffffffffffffffffffffffff .nil)
def st497 : St := .mk (.cons 94 1 0x24000026000000000002000100000000000000000000000000 .nil) .nil (.cons 189 0x7fffffffffffffffffffffffffffffffffffffffffffffffff .nil)
def st498 : St := .mk (.cons 101 3 0x24000000000000000000000000000000000000000000000000 (.cons 357 1 0x24000000000000000000000000000000000000000000000000 .nil)) .nil (.cons 0 0x5bffffffffffffffffffffffffffffffffffffffffffffffff (.cons 670 0x20000000000000000000000000000000000000000000000000 (.cons 1126 0x4000000000000000000000000000000000000000000000000 .nil)))
def st499 : St := .mk (.cons 100 3 0x24000000000000000000000000000000000000000000000000 .nil) (.cons 334 0x24000000000000000000000000000000000000000000000000 .nil) (.cons 0 0x7ffffffffffffffffffffffffffffffffffffffffffffffff7 (.cons 488 0x8 .nil))
def st500 : St := .mk (.cons 102 3 0x24000000000000000000000000000000000000000000000000 .nil) (.cons 334 0x24000000000000000000000000000000000000000000000000 .nil) (.cons 0 0x7ffffffffffffffffffffffffffffffffffffffffffffffff7 (.cons 488 0x8 .nil))
def st501 : St := .mk (.cons 63 3 0x24000000000000000000000000000000000000000000000000 .nil) .nil (.cons 127 0x7fffffffffffffffffffffffffffffffffffffffffffffffff .nil)
def st502 : St := .mk (.cons 242 1 0x35bf67c01c0000031b22f32038d40ed1a400c8200004020209 .nil) .nil (.cons 0 0x7dffffffffffffffffffffffffffffffffffffffffffffffff (.cons 1132 0x2000000000000000000000000000000000000000000000000 .nil))
def st503 : St := .mk (.cons 238 4 0x35bf67c01c0000031b22f32038d40ed1a400c8200004020209 .nil) .nil (.cons 477 0x7fffffffffffffffffffffffffffffffffffffffffffffffff .nil)
def st504 : St := .mk (.cons 172 1 0x24000000000000000000000000000000000000000000000000 (.cons 239 4 0x35bf67c01c0000031b22f32038d40ed1a400c8200004020209 .nil)) .nil (.cons 0 0x5bffffffffffffffffffffffffffffffffffffffffffffffff (.cons 708 0x20000000000000000000000000000000000000000000000000 (.cons 1134 0x4000000000000000000000000000000000000000000000000 .nil)))
def st505 : St := .mk (.cons 240 4 0x35bf67c01c0000031b22f32038d40ed1a400c8200004020209 (.cons 241 4 0x35bf67c01c0000031b22f32038d40ed1a400c8200004020209 .nil)) (.cons 254 0x420600000001c0008002000100012000000001c00000000078 .nil) (.cons 285 0x7bffffffffffffffffffffffffffffffffffffffffffffefff (.cons 348 0x1000 (.cons 1136 0x4000000000000000000000000000000000000000000000000 .nil)))
def st506 : St := .mk (.cons 229 4 0x350000001c0000001820f32018d40ed1a40088200004000209 .nil) .nil (.cons 459 0x7fffffffffffffffffffffffffffffffffffffffffffffffff .nil)
def st507 : St := .mk (.cons 257 4 0x35bf67c01c0000031b22f32038d40ed1a400c8200004020209 .nil) (.cons 274 0x4000000000000001000100000000000000000000000000000 (.cons 275 0x4bf67c0000000031302100020000000000040000000020000 (.cons 276 0x4bf67c0000000031302100020000000000040000000020000 (.cons 277 0x4bf67c0000000031302100020000000000040000000020000 (.cons 278 0x4bf67c0000000031302100020000000000040000000020000 (.cons 279 0x4000000000000001000100000000000000000000000000000 (.cons 280 0x4000000000000001000100000000000000000000000000000 (.cons 281 0x4bf67c0000000031302100020000000000040000000020000 (.cons 283 0x4000000000000001000100000000000000000000000000000 (.cons 284 0x4bf67c0000000031302100020000000000040000000020000 (.cons 285 0x4bf67c0000000031302100020000000000040000000020000 (.cons 291 0x4bf67c0000000031302100020000000000040000000020000 (.cons 292 0x4bf67c0000000031302100020000000000040000000020000 (.cons 296 0x4bf67c0000000031302100020000000000040000000020000 (.cons 297 0x4bf67c0000000031302100020000000000040000000020000 (.cons 298 0x4000000000000001000100000000000000000000000000000 (.cons 299 0x4bf67c0000000031302100020000000000040000000020000 (.cons 300 0x4bf67c0000000031302100020000000000040000000020000 (.cons 301 0x4bf67c0000000031302100020000000000040000000020000 (.cons 302 0x4bf67c0000000031302100020000000000040000000020000 (.cons 303 0x4bf67c0000000031302100020000000000040000000020000 (.cons 304 0x4bf67c0000000031302100020000000000040000000020000 (.cons 305 0x4bf67c0000000031302100020000000000040000000020000 (.cons 306 0x4bf67c0000000031302100020000000000040000000020000 (.cons 307 0x4bf67c0000000031302100020000000000040000000020000 (.cons 308 0x4bf67c0000000031302100020000000000040000000020000 .nil)))))))))))))))))))))))))) (.cons 0 0x3df9fffffffe3fff7ffdfffefffedffffffffe3fffffffff87 (.cons 238 0x10 (.cons 240 0x20 (.cons 242 0x40 (.cons 246 0x10000000000000000000000 (.cons 248 0x100000000000000000000000000 (.cons 250 0x40000000000000000000000000000000000000 (.cons 252 0x80000000000000000000000000000000000000 (.cons 254 0x100000000000000000000000000000000000000 (.cons 258 0x40000000000000000000000000000000000000000000000000 (.cons 430 0x8 (.cons 432 0x400000000000 (.cons 434 0x800000000000 (.cons 436 0x1000000000000 (.cons 438 0x2000000000000000000000 (.cons 440 0x2000000000000000000000000000000 (.cons 442 0x8000000000000000000000000000000000 (.cons 444 0x20000000000000000000000000000000000000000000000 (.cons 446 0x40000000000000000000000000000000000000000000000 (.cons 448 0x2000000000000000000000000000000000000000000000000 .nil))))))))))))))))))))
def st508 : St := .mk (.cons 258 4 0x35bf67c01c0000031b22f32038d40ed1a400c8200004020209 .nil) (.cons 225 0x4000000000000000000000000000000000000000000000000 .nil) (.cons 0 0x7ffffffffffdfffffffeffaf7ffcbfffeffffff7f41dfff7ff (.cons 754 0x800 (.cons 756 0x2000000 (.cons 758 0x20000000 (.cons 760 0x40000000 (.cons 762 0x80000000 (.cons 764 0x100000000 (.cons 766 0x200000000 (.cons 768 0x800000000 (.cons 770 0x80000000000 (.cons 772 0x100000000000000000 (.cons 774 0x4000000000000000000000 (.cons 776 0x10000000000000000000000 (.cons 778 0x20000000000000000000000 (.cons 780 0x80000000000000000000000000 (.cons 782 0x1000000000000000000000000000 (.cons 784 0x4000000000000000000000000000 (.cons 786 0x1000000000000000000000000000000 (.cons 788 0x200000000000000000000000000000000000000 .nil)))))))))))))))))))
def st509 : St := .mk (.cons 227 3 0x410000100000000000000000000000 .nil) (.cons 274 0x1000510000100000000000000000000000 (.cons 275 0xbf67c0000000031302510020100000000040000000020000 (.cons 276 0xbf67c0000000031302510020100000000040000000020000 (.cons 277 0xbf67c0000000031302510020100000000040000000020000 (.cons 278 0xbf67c0000000031302510020100000000040000000020000 (.cons 279 0x1000510000100000000000000000000000 (.cons 280 0x1000510000100000000000000000000000 (.cons 281 0xbf67c0000000031302510020100000000040000000020000 (.cons 283 0x1000510000100000000000000000000000 (.cons 284 0xbf67c0000000031302510020100000000040000000020000 (.cons 285 0xbf67c0000000031302510020100000000040000000020000 (.cons 291 0xbf67c0000000031302510020100000000040000000020000 (.cons 292 0xbf67c0000000031302510020100000000040000000020000 (.cons 296 0xbf67c0000000031302510020100000000040000000020000 (.cons 297 0xbf67c0000000031302510020100000000040000000020000 (.cons 298 0x1000510000100000000000000000000000 (.cons 299 0xbf67c0000000031302510020100000000040000000020000 (.cons 300 0xbf67c0000000031302510020100000000040000000020000 (.cons 301 0xbf67c0000000031302510020100000000040000000020000 (.cons 302 0xbf67c0000000031302510020100000000040000000020000 (.cons 303 0xbf67c0000000031302510020100000000040000000020000 (.cons 304 0xbf67c0000000031302510020100000000040000000020000 (.cons 305 0xbf67c0000000031302510020100000000040000000020000 (.cons 306 0xbf67c0000000031302510020100000000040000000020000 (.cons 307 0xbf67c0000000031302510020100000000040000000020000 (.cons 308 0xbf67c0000000031302510020100000000040000000020000 .nil)))))))))))))))))))))))))) (.cons 0 0x3df9fffffffe3fff7ffdfffefffedffffffffe3fffffffff87 (.cons 238 0x10 (.cons 240 0x20 (.cons 242 0x40 (.cons 246 0x10000000000000000000000 (.cons 248 0x100000000000000000000000000 (.cons 250 0x40000000000000000000000000000000000000 (.cons 252 0x80000000000000000000000000000000000000 (.cons 254 0x100000000000000000000000000000000000000 (.cons 258 0x40000000000000000000000000000000000000000000000000 (.cons 430 0x8 (.cons 432 0x400000000000 (.cons 434 0x800000000000 (.cons 436 0x1000000000000 (.cons 438 0x2000000000000000000000 (.cons 440 0x2000000000000000000000000000000 (.cons 442 0x8000000000000000000000000000000000 (.cons 444 0x20000000000000000000000000000000000000000000000 (.cons 446 0x40000000000000000000000000000000000000000000000 (.cons 448 0x2000000000000000000000000000000000000000000000000 .nil))))))))))))))))))))
def st510 : St := .mk (.cons 224 4 0x35bf67c01c0000031b22f32038d40ed1a400c8200004020209 .nil) (.cons 274 0x1000500000000000000000000000000000 (.cons 275 0xbf67c0000000031302500020000000000040000000020000 (.cons 276 0xbf67c0000000031302500020000000000040000000020000 (.cons 277 0xbf67c0000000031302500020000000000040000000020000 (.cons 278 0xbf67c0000000031302500020000000000040000000020000 (.cons 279 0x1000500000000000000000000000000000 (.cons 280 0x1000500000000000000000000000000000 (.cons 281 0xbf67c0000000031302500020000000000040000000020000 (.cons 283 0x1000500000000000000000000000000000 (.cons 284 0xbf67c0000000031302500020000000000040000000020000 (.cons 285 0xbf67c0000000031302500020000000000040000000020000 (.cons 291 0xbf67c0000000031302500020000000000040000000020000 (.cons 292 0xbf67c0000000031302500020000000000040000000020000 (.cons 296 0xbf67c0000000031302500020000000000040000000020000 (.cons 297 0xbf67c0000000031302500020000000000040000000020000 (.cons 298 0x1000500000000000000000000000000000 (.cons 299 0xbf67c0000000031302500020000000000040000000020000 (.cons 300 0xbf67c0000000031302500020000000000040000000020000 (.cons 301 0xbf67c0000000031302500020000000000040000000020000 (.cons 302 0xbf67c0000000031302500020000000000040000000020000 (.cons 303 0xbf67c0000000031302500020000000000040000000020000 (.cons 304 0xbf67c0000000031302500020000000000040000000020000 (.cons 305 0xbf67c0000000031302500020000000000040000000020000 (.cons 306 0xbf67c0000000031302500020000000000040000000020000 (.cons 307 0xbf67c0000000031302500020000000000040000000020000 (.cons 308 0xbf67c0000000031302500020000000000040000000020000 .nil)))))))))))))))))))))))))) (.cons 0 0x3df9fffffffe3fff7ffdfffefffedffffffffe3fffffffff87 (.cons 238 0x10 (.cons 240 0x20 (.cons 242 0x40 (.cons 246 0x10000000000000000000000 (.cons 248 0x100000000000000000000000000 (.cons 250 0x40000000000000000000000000000000000000 (.cons 252 0x80000000000000000000000000000000000000 (.cons 254 0x100000000000000000000000000000000000000 (.cons 258 0x40000000000000000000000000000000000000000000000000 (.cons 430 0x8 (.cons 432 0x400000000000 (.cons 434 0x800000000000 (.cons 436 0x1000000000000 (.cons 438 0x2000000000000000000000 (.cons 440 0x2000000000000000000000000000000 (.cons 442 0x8000000000000000000000000000000000 (.cons 444 0x20000000000000000000000000000000000000000000000 (.cons 446 0x40000000000000000000000000000000000000000000000 (.cons 448 0x2000000000000000000000000000000000000000000000000 .nil))))))))))))))))))))
def st511 : St := .mk (.cons 223 4 0x35bf67c01c0000031b22f32038d40ed1a400c8200004020209 .nil) .nil (.cons 447 0x7fffffffffffffffffffffffffffffffffffffffffffffffff .nil)
def st512 : St := .mk (.cons 217 1 0x1000500000000000000000000000000000 (.cons 218 1 0x1000500000000000000000000000000000 (.cons 226 4 0x35bf67c01c0000031b22f32038d40ed1a400c8200004020209 .nil))) .nil (.cons 0 0x7fffffffffffffffefffafffffffffffffffffffffffffffff (.cons 618 0x100000000000000000000000000000 (.cons 620 0x1000000000000000000000000000000000 (.cons 1148 0x400000000000000000000000000000 .nil))))
def st513 : St := .mk (.cons 217 1 0x1000102000000000000000000000000000 (.cons 218 1 0x1000102000000000000000000000000000 (.cons 228 3 0x410000100000000000000000000000 .nil))) .nil (.cons 0 0x7fffffffffffffffefffefdfffffffffffffffffffffffffff (.cons 618 0x100000000000000000000000000000 (.cons 620 0x1000000000000000000000000000000000 (.cons 1150 0x2000000000000000000000000000 .nil))))
def st514 : St := .mk (.cons 230 4 0x350000001c0000001820f32018d40ed1a40088200004000209 .nil) .nil (.cons 0 0x7bffffffffffffffffffffffffffffffffffffffffffffffff (.cons 1152 0x4000000000000000000000000000000000000000000000000 .nil))
def st515 : St := .mk (.cons 273 4 0x35bf67c01c0000031b22f32038d40ed1a400c8200004020209 .nil) .nil (.cons 547 0x7fffffffffffffffffffffffffffffffffffffffffffffffff .nil)
def st516 : St := .mk (.cons 275 4 0x350000001c0000001820f32018d40ed1a40088200004000209 .nil) (.cons 275 0x35bf67c01c0000031a22f32038d40ed1a400c8200004000209 (.cons 276 0x35bf67c01c0000031a22f32038d40ed1a400c8200004000209 (.cons 277 0x35bf67c01c0000031a22f32038d40ed1a400c8200004000209 (.cons 278 0x35bf67c01c0000031a22f32038d40ed1a400c8200004000209 (.cons 281 0x35bf67c01c0000031a22f32038d40ed1a400c8200004000209 (.cons 284 0x35bf67c01c0000031a22f32038d40ed1a400c8200004000209 (.cons 285 0x35bf67c01c0000031a22f32038d40ed1a400c8200004000209 (.cons 291 0x35bf67c01c0000031a22f32038d40ed1a400c8200004000209 (.cons 292 0x35bf67c01c0000031a22f32038d40ed1a400c8200004000209 (.cons 296 0x35bf67c01c0000031a22f32038d40ed1a400c8200004000209 (.cons 297 0x35bf67c01c0000031a22f32038d40ed1a400c8200004000209 (.cons 299 0x35bf67c01c0000031a22f32038d40ed1a400c8200004000209 (.cons 300 0x35bf67c01c0000031a22f32038d40ed1a400c8200004000209 (.cons 301 0x35bf67c01c0000031a22f32038d40ed1a400c8200004000209 (.cons 302 0x35bf67c01c0000031a22f32038d40ed1a400c8200004000209 (.cons 303 0x35bf67c01c0000031a22f32038d40ed1a400c8200004000209 (.cons 304 0x35bf67c01c0000031a22f32038d40ed1a400c8200004000209 (.cons 305 0x35bf67c01c0000031a22f32038d40ed1a400c8200004000209 (.cons 306 0x35bf67c01c0000031a22f32038d40ed1a400c8200004000209 (.cons 307 0x35bf67c01c0000031a22f32038d40ed1a400c8200004000209 (.cons 308 0x35bf67c01c0000031a22f32038d40ed1a400c8200004000209 .nil))))))))))))))))))))) (.cons 0 0x3df9fffffffe3fff7ffdfffefffedffffffffe7fffffffff87 (.cons 238 0x10 (.cons 240 0x20 (.cons 242 0x40 (.cons 246 0x10000000000000000000000 (.cons 248 0x100000000000000000000000000 (.cons 250 0x40000000000000000000000000000000000000 (.cons 252 0x80000000000000000000000000000000000000 (.cons 254 0x100000000000000000000000000000000000000 (.cons 258 0x40000000000000000000000000000000000000000000000000 (.cons 430 0x8 (.cons 434 0x800000000000 (.cons 436 0x1000000000000 (.cons 438 0x2000000000000000000000 (.cons 442 0x8000000000000000000000000000000000 (.cons 444 0x20000000000000000000000000000000000000000000000 (.cons 446 0x40000000000000000000000000000000000000000000000 (.cons 448 0x2000000000000000000000000000000000000000000000000 (.cons 606 0x2000000000000000000000000000000 .nil)))))))))))))))))))
def st517 : St := .mk (.cons 203 1 0x35bf67c01c0000031b22f32038d40ed1a400c8200004020209 (.cons 204 1 0x35bf67c01c0000031b22f32038d40ed1a400c8200004020209 (.cons 205 1 0x35bf67c01c0000031b22f32038d40ed1a400c8200004020209 (.cons 207 1 0x35bf67c01c0000031b22f32038d40ed1a400c8200004020209 (.cons 208 1 0x35bf67c01c0000031b22f32038d40ed1a400c8200004020209 (.cons 209 1 0x35bf67c01c0000031b22f32038d40ed1a400c8200004020209 (.cons 210 1 0x35bf67c01c0000031b22f32038d40ed1a400c8200004020209 (.cons 211 1 0x35bf67c01c0000031b22f32038d40ed1a400c8200004020209 (.cons 212 1 0x35bf67c01c0000031b22f32038d40ed1a400c8200004020209 (.cons 213 1 0x35bf67c01c0000031b22f32038d40ed1a400c8200004020209 (.cons 214 1 0x35bf67c01c0000031b22f32038d40ed1a400c8200004020209 (.cons 214 4 0x35bf67c01c0000031b22f32038d40ed1a400c8200004020209 (.cons 215 1 0x35bf67c01c0000031b22f32038d40ed1a400c8200004020209 (.cons 216 1 0x35bf67c01c0000031b22f32038d40ed1a400c8200004020209 (.cons 231 1 0x35bf67c01c0000031b22f32038d40ed1a400c8200004020209 (.cons 232 1 0x35bf67c01c0000031b22f32038d40ed1a400c8200004020209 (.cons 233 1 0x35bf67c01c0000031b22f32038d40ed1a400c8200004020209 (.cons 234 1 0x35bf67c01c0000031b22f32038d40ed1a400c8200004020209 (.cons 235 1 0x35bf67c01c0000031b22f32038d40ed1a400c8200004020209 (.cons 236 1 0x35bf67c01c0000031b22f32038d40ed1a400c8200004020209 (.cons 237 1 0x35bf67c01c0000031b22f32038d40ed1a400c8200004020209 (.cons 274 1 0x35bf67c01c0000031b22f32038d40ed1a400c8200004020209 .nil)))))))))))))))))))))) .nil (.cons 0 0x1c0000000020000000020000000000000000000000000 (.cons 429 0x7f40983ffffffffcfdffffffdfffffffffffbfffffffffffff (.cons 624 0x40000000000000 (.cons 632 0x200000000000000000000000000000000 (.cons 634 0x10000000000000000000000000000000000 (.cons 644 0x200000000000000000000000000000000000000000000 (.cons 646 0x400000000000000000000000000000000000000000000 (.cons 648 0x2000000000000000000000000000000000000000000000 (.cons 650 0x4000000000000000000000000000000000000000000000 (.cons 652 0x10000000000000000000000000000000000000000000000 (.cons 654 0x20000000000000000000000000000000000000000000000 (.cons 656 0x40000000000000000000000000000000000000000000000 (.cons 658 0x80000000000000000000000000000000000000000000000 (.cons 660 0x100000000000000000000000000000000000000000000000 (.cons 662 0x200000000000000000000000000000000000000000000000 (.cons 664 0x800000000000000000000000000000000000000000000000 .nil))))))))))))))))
def st518 : St := .mk (.cons 220 4 0x350000001c0000001820f32018d40ed1a40088200004000209 (.cons 222 4 0x350000001c0000001820f32018d40ed1a40088200004000209 .nil)) (.cons 249 0x4000000000000000000000000000000000000000000000000 (.cons 253 0x4000000000000000000800000000211000080200000000200 (.cons 268 0x24000000000000000000000000000000000000000000000000 (.cons 273 0x24000000000000000000000000000000000000000000000000 (.cons 274 0x24000000000000001020100000000000000000000000000008 (.cons 275 0x24bf67c0000000031322100020000000000040000000020008 (.cons 276 0x24bf67c0000000031322100020000000000040000000020008 (.cons 277 0x24bf67c0000000031322100020000000000040000000020008 (.cons 278 0x24bf67c0000000031322100020000000000040000000020008 (.cons 279 0x24000000000000001020100000000000000000000000000008 (.cons 280 0x24000000000000001020100000000000000000000000000008 (.cons 281 0x24bf67c0000000031322100020000000000040000000020008 (.cons 283 0x24000000000000001020100000000000000000000000000008 (.cons 284 0x24bf67c0000000031322100020000000000040000000020008 (.cons 285 0x24bf67c0000000031322100020000000000040000000020008 (.cons 291 0x24bf67c0000000031322100020000000000040000000020008 (.cons 292 0x24bf67c0000000031322100020000000000040000000020008 (.cons 296 0x24bf67c0000000031322100020000000000040000000020008 (.cons 297 0x24bf67c0000000031322100020000000000040000000020008 (.cons 298 0x24000000000000001020100000000000000000000000000008 (.cons 299 0x24bf67c0000000031322100020000000000040000000020008 (.cons 300 0x24bf67c0000000031322100020000000000040000000020008 (.cons 301 0x24bf67c0000000031322100020000000000040000000020008 (.cons 302 0x24bf67c0000000031322100020000000000040000000020008 (.cons 303 0x24bf67c0000000031322100020000000000040000000020008 (.cons 304 0x24bf67c0000000031322100020000000000040000000020008 (.cons 305 0x24bf67c0000000031322100020000000000040000000020008 (.cons 306 0x24bf67c0000000031322100020000000000040000000020008 (.cons 307 0x24bf67c0000000031322100020000000000040000000020008 (.cons 308 0x24bf67c0000000031322100020000000000040000000020008 .nil)))))))))))))))))))))))))))))) (.cons 0 0x3df9fffffffe3fff7ffdfffefffedffffffbfe3fffffffff87 (.cons 152 0x400000000000000 (.cons 238 0x10 (.cons 240 0x20 (.cons 242 0x40 (.cons 246 0x10000000000000000000000 (.cons 248 0x100000000000000000000000000 (.cons 250 0x40000000000000000000000000000000000000 (.cons 252 0x80000000000000000000000000000000000000 (.cons 254 0x100000000000000000000000000000000000000 (.cons 258 0x40000000000000000000000000000000000000000000000000 (.cons 430 0x8 (.cons 432 0x400000000000 (.cons 434 0x800000000000 (.cons 436 0x1000000000000 (.cons 438 0x2000000000000000000000 (.cons 440 0x2000000000000000000000000000000 (.cons 442 0x8000000000000000000000000000000000 (.cons 444 0x20000000000000000000000000000000000000000000000 (.cons 446 0x40000000000000000000000000000000000000000000000 (.cons 448 0x2000000000000000000000000000000000000000000000000 .nil)))))))))))))))))))))
def st519 : St := .mk (.cons 221 4 0x350000001c0000001820f32018d40ed1a40088200004000209 .nil) .nil (.cons 0 0x7bffffffffffffffffffffffffffffffffffffffffffffffff (.cons 1160 0x4000000000000000000000000000000000000000000000000 .nil))
def st520 : St := .mk (.cons 172 1 0x24000000000000000000000000000000000000000000000000 (.cons 219 4 0x350000001c0000001820f32018d40ed1a40088200004000209 .nil)) .nil (.cons 0 0x5bffffffffffffffffffffffffffffffffffffffffffffffff (.cons 708 0x20000000000000000000000000000000000000000000000000 (.cons 1162 0x4000000000000000000000000000000000000000000000000 .nil)))
def st521 : St := .mk (.cons 205 4 0x35bf67c01c0000031b22f32038d40ed1a400c8200004020209 .nil) .nil (.cons 411 0x7fffffffffffffffffffffffffffffffffffffffffffffffff .nil)
def st522 : St := .mk (.cons 274 4 0x35bf67c01c0000031b22f32038d40ed1a400c8200004020209 .nil) .nil (.cons 549 0x7fffffffffffffffffffffffffffffffffffffffffffffffff .nil)
def st523 : St := .mk (.cons 115 8 0x10000000000000000000020000000000000000000000000001 .nil) .nil (.cons 231 0x7fffffffffffffffffffffffffffffffffffffffffffffffff .nil)
def st524 : St := .mk (.cons 112 4 0x10000000000000000000020000000000000000000000000001 .nil) .nil (.cons 225 0x7fffffffffffffffffffffffffffffffffffffffffffffffff .nil)
def st525 : St := .mk (.cons 39 4 0x10000000000000000000000000000800000000000000000001 .nil) .nil (.cons 79 0x7fffffffffffffffffffffffffffffffffffffffffffffffff .nil)
def st526 : St := .mk (.cons 44 3 0x24000000000000000000000000000000000000000000000000 .nil) .nil (.cons 0 0x7fffffffffffffffffffffffffffffffffffffffffffffffef (.cons 1164 0x10 .nil))
def st527 : St := .mk (.cons 42 3 0x24000000000000000000000000000000000000000000000000 .nil) (.cons 213 0x24000000000000000000000000000000000000000000000000 .nil) (.cons 0 0x7ffffffffffffffffffffffffffffffffffffffffffffffff7 (.cons 178 0x8 .nil))
def st528 : St := .mk (.cons 46 3 0x24000000000000000000000000000000000000000000000000 .nil) .nil (.cons 93 0x7fffffffffffffffffffffffffffffffffffffffffffffffff .nil)
def st529 : St := .mk (.cons 25 4 0x24000000000000000000000000000000000000000000000000 .nil) .nil (.cons 51 0x7fffffffffffffffffffffffffffffffffffffffffffffffff .nil)
def st530 : St := .mk (.cons 304 2 0x34000000000000000800820018800ed1a40080200004000201 .nil) .nil (.cons 0 0x7bffffffffffffffffffffffffffffffffffffffffffffffff (.cons 1168 0x4000000000000000000000000000000000000000000000000 .nil))
def st531 : St := .mk (.cons 340 2 0x34000000000000000800820018800ed1a40080200004000201 .nil) .nil (.cons 0 0x7ffffffffffffffffffffffff7ffffffffffffffffffffffff (.cons 1170 0x8000000000000000000000000 .nil))
def st532 : St := .mk (.cons 351 1 0x8000000000000000000000000 .nil) .nil (.cons 703 0x7fffffffffffffffffffffffffffffffffffffffffffffffff .nil)
def st533 : St := .mk (.cons 343 1 0x8000000000000000000000000 .nil) .nil (.cons 687 0x7fffffffffffffffffffffffffffffffffffffffffffffffff .nil)
def st534 : St := .mk (.cons 349 1 0x8000000000000000000000000 .nil) .nil (.cons 699 0x7fffffffffffffffffffffffffffffffffffffffffffffffff .nil)
def st535 : St := .mk (.cons 346 1 0x8000000000000000000000000 (.cons 347 1 0x8000000000000000000000000 .nil)) .nil (.cons 695 0x7fffffffffffffffffffffffffffffbfffffffffffffffffff (.cons 1172 0x40000000000000000000 .nil))
def st536 : St := .mk (.cons 348 1 0x8000000000000000000000000 (.cons 350 1 0x8000000000000000000000000 .nil)) .nil (.cons 701 0x7fffffffffffffffffffffffffffffbfffffffffffffffffff (.cons 1174 0x40000000000000000000 .nil))
def st537 : St := .mk (.cons 344 1 0x8000000000000000000000000 (.cons 345 1 0x8000000000000000000000000 .nil)) .nil (.cons 691 0x7fffffffffffffffffffffffffffffbfffffffffffffffffff (.cons 1176 0x40000000000000000000 .nil))
def st538 : St := .mk (.cons 341 2 0x34000000000000000800820018800ed1a40080200004000201 (.cons 342 2 0x34000000000000000800820018800ed1a40080200004000201 .nil)) .nil (.cons 0 0x7ffffffffffffffffffffffff7ffffffffffffffffffffffff (.cons 1178 0x8000000000000000000000000 .nil))
def st539 : St := .mk (.cons 300 2 0x14000000000000000000820000000a11200080200000000201 (.cons 306 2 0x20000000000000000000000000000000000000000000000000 .nil)) (.cons 310 0x34000000000000000000820018800ad1a40080200004000201 (.cons 311 0x34000000000000000000820018800ad1a40080200004000201 (.cons 313 0x34000000000000000000820018800ad1a40080200004000201 (.cons 315 0x34000000000000000020820018800ad1a40080200004000209 (.cons 330 0x34000000000000000000820018800ad1a40080200004000201 .nil))))) (.cons 0 0x7dfffffffffffffffffffffffffffffffffffffffffffffff7 (.cons 82 0x8 (.cons 914 0x2000000000000000000000000000000000000000000000000 .nil)))
def st540 : St := .mk (.cons 314 1 0x34000000000000000800820018800ed1a40080200004000201 (.cons 317 1 0x34000000000000000800820018800ed1a40080200004000201 .nil)) .nil (.cons 0 0x7ffffffffffffffffffffffffffffffffffffffffffffffff7 (.cons 1182 0x8 .nil))
def st541 : St := .mk (.cons 315 1 0x34000000000000000800820018800ed1a40080200004000201 .nil) .nil (.cons 631 0x7fffffffffffffffffffffffffffffffffffffffffffffffff .nil)
def st542 : St := .mk (.cons 307 2 0x34000000000000000800820018800ed1a40080200004000201 .nil) .nil (.cons 615 0x7fffffffffffffffffffffffffffffffffffffffffffffffff .nil)
def st543 : St := .mk (.cons 313 1 0x34000000000000000800820018800ed1a40080200004000201 .nil) .nil (.cons 627 0x7fffffffffffffffffffffffffffffffffffffffffffffffff .nil)
def st544 : St := .mk (.cons 149 1 0x14000000000000000000820000000211000080200000000201 .nil) .nil (.cons 0 0x7fffffffffffffffffbfffffffffffffffffffffffffffffff (.cons 1184 0x40000000000000000000000000000000 .nil))
def st545 : St := .mk (.cons 140 7 0x14000000000000000000820000000211000080200000000201 .nil) .nil (.cons 281 0x7fffffffffffffffffffffffffffffffffffffffffffffffff .nil)
def st546 : St := .mk (.cons 162 2 0x340000001c0000000000820000000001000080000000000001 .nil) .nil (.cons 325 0x7fffffffffffffffffffffffffffffffffffffffffffffffff .nil)
def st547 : St := .mk (.cons 328 3 0x1400000000c000000400820000000000000000000000000001 .nil) .nil (.cons 657 0x7fffffffffffffffffffffffffffffffffffffffffffffffff .nil)
def st548 : St := .mk (.cons 326 4 0x14000000000000000000820000000000000000000000000001 (.cons 357 1 0x3400000000c000000000820000000000000000000000000001 .nil)) (.cons 325 0x14000000000000000000820000000000000000000000000001 .nil) (.cons 667 0x5fffffffff3fffffffffffffffffffffffffffffffffffffff (.cons 670 0x20000000000000000000000000000000000000000000000000 (.cons 954 0x4000000000000000000000000000000000000000 (.cons 956 0x8000000000000000000000000000000000000000 .nil))))
def st549 : St := .mk (.cons 331 2 0x14000000000000000000820000000000000000000000000001 .nil) .nil (.cons 663 0x7fffffffffffffffffffffffffffffffffffffffffffffffff .nil)
def st550 : St := .mk (.cons 178 6 0x24000000000000000000000000000000000000000000000000 .nil) .nil (.cons 357 0x7fffffffffffffffffffffffffffffffffffffffffffffffff .nil)
def st551 : St := .mk (.cons 58 9 0x10000000000000000000020000000000000000000000000001 .nil) .nil (.cons 117 0x7fffffffffffffffffffffffffffffffffffffffffffffffff .nil)
def st552 : St := .mk (.cons 70 3 0x24000026000000000002000100000000000000000000000000 .nil) .nil (.cons 0 0x7bffffffffffffffffffffffffffffffffffffffffffffffff (.cons 1188 0x4000000000000000000000000000000000000000000000000 .nil))
def st553 : St := .mk (.cons 87 2 0x24000026000000000002000100000000000000000000000000 (.cons 88 2 0x24000026000000000002000100000000000000000000000000 .nil)) .nil (.cons 0 0x5bffffffffffffffffffffffffffffffffffffffffffffffff (.cons 1190 0x4000000000000000000000000000000000000000000000000 (.cons 1192 0x20000000000000000000000000000000000000000000000000 .nil)))
def st554 : St := .mk (.cons 84 3 0x24000026000000000002000100000000000000000000000000 .nil) .nil (.cons 0 0x7bffffffffffffffffffffffffffffffffffffffffffffffff (.cons 1194 0x4000000000000000000000000000000000000000000000000 .nil))
def st555 : St := .mk (.cons 69 3 0x24000026000000000002000100000000000000000000000000 .nil) .nil (.cons 0 0x7bffffffffffffffffffffffffffffffffffffffffffffffff (.cons 1196 0x4000000000000000000000000000000000000000000000000 .nil))
def st556 : St := .mk (.cons 85 2 0x24000026000000000002000100000000000000000000000000 .nil) .nil (.cons 0 0x7bffffffffffffffffffffffffffffffffffffffffffffffff (.cons 1198 0x4000000000000000000000000000000000000000000000000 .nil))
def st557 : St := .mk (.cons 99 2 0x24000026000000000002000100000000000000000000000000 .nil) .nil (.cons 199 0x7fffffffffffffffffffffffffffffffffffffffffffffffff .nil)
def st558 : St := .mk (.cons 96 2 0x24000026000000000002000100000000000000000000000000 .nil) .nil (.cons 193 0x7fffffffffffffffffffffffffffffffffffffffffffffffff .nil)
def st559 : St := .mk (.cons 103 2 0x24000026000000000002000100000000000000000000000000 .nil) (.cons 241 0x24000026000000000002000100000000000000000000000000 .nil) (.cons 237 0x7dffffffffffffffffffffffffffffffffffffffffffffffff (.cons 306 0x2000000000000000000000000000000000000000000000000 .nil))
def st560 : St := .mk (.cons 93 2 0x24000026000000000002000100000000000000000000000000 .nil) .nil (.cons 187 0x7fffffffffffffffffffffffffffffffffffffffffffffffff .nil)
def st561 : St := .mk (.cons 95 2 0x24000026000000000002000100000000000000000000000000 .nil) .nil (.cons 191 0x7fffffffffffffffffffffffffffffffffffffffffffffffff .nil)
def st562 : St := .mk (.cons 101 4 0x24000000000000000000000000000000000000000000000000 .nil) .nil (.cons 203 0x7fffffffffffffffffffffffffffffffffffffffffffffffff .nil)
def st563 : St := .mk (.cons 100 4 0x24000000000000000000000000000000000000000000000000 (.cons 357 1 0x24000000000000000000000000000000000000000000000000 .nil)) .nil (.cons 0 0x5bffffffffffffffffffffffffffffffffffffffffffffffff (.cons 670 0x20000000000000000000000000000000000000000000000000 (.cons 1202 0x4000000000000000000000000000000000000000000000000 .nil)))
def st564 : St := .mk (.cons 102 4 0x24000000000000000000000000000000000000000000000000 (.cons 357 1 0x24000000000000000000000000000000000000000000000000 .nil)) .nil (.cons 0 0x5bffffffffffffffffffffffffffffffffffffffffffffffff (.cons 670 0x20000000000000000000000000000000000000000000000000 (.cons 1204 0x4000000000000000000000000000000000000000000000000 .nil)))
def st565 : St := .mk (.cons 242 2 0x35bf67c01c0000031b22f32038d40ed1a400c8200004020209 .nil) (.cons 287 0x40000001c0000000000000000000010000000000000000000 .nil) (.cons 491 0x7ffffffffffffffffffffffdffffffffffffffffffffffffff (.cons 1206 0x200000000000000000000000000 .nil))
def st566 : St := .mk (.cons 239 5 0x35bf67c01c0000031b22f32038d40ed1a400c8200004020209 .nil) (.cons 286 0x35bf67c01c0000031b22f32038d40ed1a400c8200004020209 .nil) (.cons 487 0x7fffffffffffffffffffffffffffffdfffffffffffffffffff (.cons 1006 0x20000000000000000000 .nil))
def st567 : St := .mk (.cons 240 5 0x35bf67c01c0000031b22f32038d40ed1a400c8200004020209 .nil) (.cons 286 0x35bf67c01c0000031b22f32038d40ed1a400c8200004020209 .nil) (.cons 487 0x7fffffffffffffffffffffffffffffdfffffffffffffffffff (.cons 1006 0x20000000000000000000 .nil))
def st568 : St := .mk (.cons 241 5 0x35bf67c01c0000031b22f32038d40ed1a400c8200004020209 .nil) (.cons 268 0x24000000000000000000000000000000000000000000000000 (.cons 273 0x24000000000000000000000000000000000000000000000000 (.cons 274 0x24000000000000001020100000000000000000000000000008 (.cons 275 0x24bf67c0000000031322100020000000000040000000020008 (.cons 276 0x24bf67c0000000031322100020000000000040000000020008 (.cons 277 0x24bf67c0000000031322100020000000000040000000020008 (.cons 278 0x24bf67c0000000031322100020000000000040000000020008 (.cons 279 0x24000000000000001020100000000000000000000000000008 (.cons 280 0x24000000000000001020100000000000000000000000000008 (.cons 281 0x24bf67c0000000031322100020000000000040000000020008 (.cons 283 0x24000000000000001020100000000000000000000000000008 (.cons 284 0x24bf67c0000000031322100020000000000040000000020008 (.cons 285 0x24bf67c0000000031322100020000000000040000000020008 (.cons 291 0x24bf67c0000000031322100020000000000040000000020008 (.cons 292 0x24bf67c0000000031322100020000000000040000000020008 (.cons 296 0x24bf67c0000000031322100020000000000040000000020008 (.cons 297 0x24bf67c0000000031322100020000000000040000000020008 (.cons 298 0x24000000000000001020100000000000000000000000000008 (.cons 299 0x24bf67c0000000031322100020000000000040000000020008 (.cons 300 0x24bf67c0000000031322100020000000000040000000020008 (.cons 301 0x24bf67c0000000031322100020000000000040000000020008 (.cons 302 0x24bf67c0000000031322100020000000000040000000020008 (.cons 303 0x24bf67c0000000031322100020000000000040000000020008 (.cons 304 0x24bf67c0000000031322100020000000000040000000020008 (.cons 305 0x24bf67c0000000031322100020000000000040000000020008 (.cons 306 0x24bf67c0000000031322100020000000000040000000020008 (.cons 307 0x24bf67c0000000031322100020000000000040000000020008 (.cons 308 0x24bf67c0000000031322100020000000000040000000020008 .nil)))))))))))))))))))))))))))) (.cons 0 0x3df9fffffffe3fff7ffdfffefffedffffffffe3fffffffff87 (.cons 238 0x10 (.cons 240 0x20 (.cons 242 0x40 (.cons 246 0x10000000000000000000000 (.cons 248 0x100000000000000000000000000 (.cons 250 0x40000000000000000000000000000000000000 (.cons 252 0x80000000000000000000000000000000000000 (.cons 254 0x100000000000000000000000000000000000000 (.cons 258 0x40000000000000000000000000000000000000000000000000 (.cons 430 0x8 (.cons 432 0x400000000000 (.cons 434 0x800000000000 (.cons 436 0x1000000000000 (.cons 438 0x2000000000000000000000 (.cons 440 0x2000000000000000000000000000000 (.cons 442 0x8000000000000000000000000000000000 (.cons 444 0x20000000000000000000000000000000000000000000000 (.cons 446 0x40000000000000000000000000000000000000000000000 (.cons 448 0x2000000000000000000000000000000000000000000000000 .nil))))))))))))))))))))
def st569 : St := .mk (.cons 217 1 0x4000000000000001000100000000000000000000000000000 (.cons 218 1 0x4000000000000001000100000000000000000000000000000 (.cons 257 5 0x35bf67c01c0000031b22f32038d40ed1a400c8200004020209 .nil))) .nil (.cons 0 0x7bffffffffffffffefffefffffffffffffffffffffffffffff (.cons 618 0x100000000000000000000000000000 (.cons 620 0x1000000000000000000000000000000000 (.cons 1216 0x4000000000000000000000000000000000000000000000000 .nil))))
def st570 : St := .mk (.cons 258 5 0x35bf67c01c0000031b22f32038d40ed1a400c8200004020209 .nil) .nil (.cons 0 0x7bffffffffffffffffffffffffffffffffffffffffffffffff (.cons 1218 0x4000000000000000000000000000000000000000000000000 .nil))
def st571 : St := .mk (.cons 217 1 0x1000510000100000000000000000000000 (.cons 218 1 0x1000510000100000000000000000000000 (.cons 227 4 0x410000100000000000000000000000 .nil))) .nil (.cons 455 0x7fffffffffffffffefffefffffffffffffffffffffffffffff (.cons 618 0x100000000000000000000000000000 (.cons 620 0x1000000000000000000000000000000000 .nil)))
def st572 : St := .mk (.cons 217 1 0x1000500000000000000000000000000000 (.cons 218 1 0x1000500000000000000000000000000000 (.cons 224 5 0x35bf67c01c0000031b22f32038d40ed1a400c8200004020209 .nil))) .nil (.cons 0 0x7fffffffffffffffefffafffffffffffffffffffffffffffff (.cons 618 0x100000000000000000000000000000 (.cons 620 0x1000000000000000000000000000000000 (.cons 1220 0x400000000000000000000000000000 .nil))))
def st573 : St := .mk (.cons 226 5 0x35bf67c01c0000031b22f32038d40ed1a400c8200004020209 .nil) .nil (.cons 453 0x7fffffffffffffffffffffffffffffffffffffffffffffffff .nil)
def st574 : St := .mk (.cons 228 4 0x410000100000000000000000000000 .nil) (.cons 274 0x1000510000100000000000000000000000 (.cons 275 0xbf67c0000000031302510020100000000040000000020000 (.cons 276 0xbf67c0000000031302510020100000000040000000020000 (.cons 277 0xbf67c0000000031302510020100000000040000000020000 (.cons 278 0xbf67c0000000031302510020100000000040000000020000 (.cons 279 0x1000510000100000000000000000000000 (.cons 280 0x1000510000100000000000000000000000 (.cons 281 0xbf67c0000000031302510020100000000040000000020000 (.cons 283 0x1000510000100000000000000000000000 (.cons 284 0xbf67c0000000031302510020100000000040000000020000 (.cons 285 0xbf67c0000000031302510020100000000040000000020000 (.cons 291 0xbf67c0000000031302510020100000000040000000020000 (.cons 292 0xbf67c0000000031302510020100000000040000000020000 (.cons 296 0xbf67c0000000031302510020100000000040000000020000 (.cons 297 0xbf67c0000000031302510020100000000040000000020000 (.cons 298 0x1000510000100000000000000000000000 (.cons 299 0xbf67c0000000031302510020100000000040000000020000 (.cons 300 0xbf67c0000000031302510020100000000040000000020000 (.cons 301 0xbf67c0000000031302510020100000000040000000020000 (.cons 302 0xbf67c0000000031302510020100000000040000000020000 (.cons 303 0xbf67c0000000031302510020100000000040000000020000 (.cons 304 0xbf67c0000000031302510020100000000040000000020000 (.cons 305 0xbf67c0000000031302510020100000000040000000020000 (.cons 306 0xbf67c0000000031302510020100000000040000000020000 (.cons 307 0xbf67c0000000031302510020100000000040000000020000 (.cons 308 0xbf67c0000000031302510020100000000040000000020000 .nil)))))))))))))))))))))))))) (.cons 0 0x3df9fffffffe3fff7ffdfffefffedffffffffe3fffffffff87 (.cons 238 0x10 (.cons 240 0x20 (.cons 242 0x40 (.cons 246 0x10000000000000000000000 (.cons 248 0x100000000000000000000000000 (.cons 250 0x40000000000000000000000000000000000000 (.cons 252 0x80000000000000000000000000000000000000 (.cons 254 0x100000000000000000000000000000000000000 (.cons 258 0x40000000000000000000000000000000000000000000000000 (.cons 430 0x8 (.cons 432 0x400000000000 (.cons 434 0x800000000000 (.cons 436 0x1000000000000 (.cons 438 0x2000000000000000000000 (.cons 440 0x2000000000000000000000000000000 (.cons 442 0x8000000000000000000000000000000000 (.cons 444 0x20000000000000000000000000000000000000000000000 (.cons 446 0x40000000000000000000000000000000000000000000000 (.cons 448 0x2000000000000000000000000000000000000000000000000 .nil))))))))))))))))))))
def st575 : St := .mk (.cons 230 5 0x350000001c0000001820f32018d40ed1a40088200004000209 .nil) .nil (.cons 461 0x7fffffffffffffffffffffffffffffffffffffffffffffffff .nil)
def st576 : St := .mk (.cons 203 1 0x35bf67c01c0000031a22f32038d40ed1a400c8200004000209 (.cons 204 1 0x35bf67c01c0000031a22f32038d40ed1a400c8200004000209 (.cons 205 1 0x35bf67c01c0000031a22f32038d40ed1a400c8200004000209 (.cons 207 1 0x35bf67c01c0000031a22f32038d40ed1a400c8200004000209 (.cons 208 1 0x35bf67c01c0000031a22f32038d40ed1a400c8200004000209 (.cons 209 1 0x35bf67c01c0000031a22f32038d40ed1a400c8200004000209 (.cons 210 1 0x35bf67c01c0000031a22f32038d40ed1a400c8200004000209 (.cons 211 1 0x35bf67c01c0000031a22f32038d40ed1a400c8200004000209 (.cons 212 1 0x35bf67c01c0000031a22f32038d40ed1a400c8200004000209 (.cons 213 1 0x35bf67c01c0000031a22f32038d40ed1a400c8200004000209 (.cons 214 1 0x35bf67c01c0000031a22f32038d40ed1a400c8200004000209 (.cons 215 1 0x35bf67c01c0000031a22f32038d40ed1a400c8200004000209 (.cons 216 1 0x35bf67c01c0000031a22f32038d40ed1a400c8200004000209 (.cons 231 1 0x35bf67c01c0000031a22f32038d40ed1a400c8200004000209 (.cons 232 1 0x35bf67c01c0000031a22f32038d40ed1a400c8200004000209 (.cons 233 1 0x35bf67c01c0000031a22f32038d40ed1a400c8200004000209 (.cons 234 1 0x35bf67c01c0000031a22f32038d40ed1a400c8200004000209 (.cons 235 1 0x35bf67c01c0000031a22f32038d40ed1a400c8200004000209 (.cons 236 1 0x35bf67c01c0000031a22f32038d40ed1a400c8200004000209 (.cons 237 1 0x35bf67c01c0000031a22f32038d40ed1a400c8200004000209 (.cons 274 1 0x35bf67c01c0000031a22f32038d40ed1a400c8200004000209 (.cons 275 5 0x350000001c0000001820f32018d40ed1a40088200004000209 .nil)))))))))))))))))))))) .nil (.cons 551 0x7f40983ffffffffcfdfdffffdfffffffffffbfffffffffffff (.cons 624 0x40000000000000 (.cons 626 0x20000000000000000000000000 (.cons 632 0x200000000000000000000000000000000 (.cons 634 0x10000000000000000000000000000000000 (.cons 636 0x20000000000000000000000000000000000 (.cons 638 0x40000000000000000000000000000000000000000000 (.cons 640 0x80000000000000000000000000000000000000000000 (.cons 642 0x100000000000000000000000000000000000000000000 (.cons 644 0x200000000000000000000000000000000000000000000 (.cons 646 0x400000000000000000000000000000000000000000000 (.cons 648 0x2000000000000000000000000000000000000000000000 (.cons 650 0x4000000000000000000000000000000000000000000000 (.cons 652 0x10000000000000000000000000000000000000000000000 (.cons 654 0x20000000000000000000000000000000000000000000000 (.cons 656 0x40000000000000000000000000000000000000000000000 (.cons 658 0x80000000000000000000000000000000000000000000000 (.cons 660 0x100000000000000000000000000000000000000000000000 (.cons 662 0x200000000000000000000000000000000000000000000000 (.cons 664 0x800000000000000000000000000000000000000000000000 (.cons 830 0x2000000000000000000000000000000 .nil)))))))))))))))))))))
def st577 : St := .mk (.cons 222 5 0x350000001c0000001820f32018d40ed1a40088200004000209 .nil) .nil (.cons 0 0x7bffffffffffffffffffffffffffffffffffffffffffffffff (.cons 1224 0x4000000000000000000000000000000000000000000000000 .nil))
def st578 : St := .mk (.cons 172 1 0x24000000000000000000000000000000000000000000000000 (.cons 220 5 0x350000001c0000001820f32018d40ed1a40088200004000209 .nil)) .nil (.cons 0 0x5bffffffffffffffffffffffffffffffffffffffffffffffff (.cons 708 0x20000000000000000000000000000000000000000000000000 (.cons 1226 0x4000000000000000000000000000000000000000000000000 .nil)))
def st579 : St := .mk (.cons 221 5 0x350000001c0000001820f32018d40ed1a40088200004000209 .nil) .nil (.cons 443 0x7fffffffffffffffffffffffffffffffffffffffffffffffff .nil)
def st580 : St := .mk (.cons 219 5 0x350000001c0000001820f32018d40ed1a40088200004000209 .nil) .nil (.cons 439 0x7fffffffffffffffffffffffffffffffffffffffffffffffff .nil)
def st581 : St := .mk (.cons 44 4 0x24000000000000000000000000000000000000000000000000 .nil) .nil (.cons 89 0x7fffffffffffffffffffffffffffffffffffffffffffffffff .nil)
def st582 : St := .mk (.cons 42 4 0x24000000000000000000000000000000000000000000000000 .nil) .nil (.cons 85 0x7fffffffffffffffffffffffffffffffffffffffffffffffff .nil)
def st583 : St := .mk (.cons 304 3 0x34000000000000000800820018800ed1a40080200004000201 .nil) (.cons 317 0x34000000000000000800820018800ed1a40080200004000201 (.cons 318 0x34000000000000000800820018800ed1a40080200004000201 (.cons 319 0x34000000000000000800820018800ed1a40080200004000201 .nil))) (.cons 633 0x7fffffffffffffffffdffffffffffffffffffffffffffffff7 (.cons 710 0x8 (.cons 1082 0x20000000000000000000000000000000 .nil)))
def st584 : St := .mk (.cons 340 3 0x34000000000000000800820018800ed1a40080200004000201 .nil) (.cons 311 0x34000000000000000800820018800ed1a40080200004000201 (.cons 313 0x34000000000000000800820018800ed1a40080200004000201 (.cons 315 0x34000000000000000820820018800ed1a40080200004000209 .nil))) (.cons 0 0x7dfffffffffffffffffffffffffffffffffffffffffffffff7 (.cons 82 0x8 (.cons 914 0x2000000000000000000000000000000000000000000000000 .nil)))
def st585 : St := .mk (.cons 346 2 0x8000000000000000000000000 .nil) .nil (.cons 693 0x7fffffffffffffffffffffffffffffffffffffffffffffffff .nil)
def st586 : St := .mk (.cons 348 2 0x8000000000000000000000000 .nil) .nil (.cons 697 0x7fffffffffffffffffffffffffffffffffffffffffffffffff .nil)
def st587 : St := .mk (.cons 344 2 0x8000000000000000000000000 .nil) .nil (.cons 689 0x7fffffffffffffffffffffffffffffffffffffffffffffffff .nil)
def st588 : St := .mk (.cons 341 3 0x34000000000000000800820018800ed1a40080200004000201 (.cons 342 3 0x34000000000000000800820018800ed1a40080200004000201 .nil)) (.cons 310 0x8000000188004c0840000000004000000 (.cons 311 0x8000000188004c0840000000004000000 (.cons 313 0x8000000188004c0840000000004000000 (.cons 315 0x8200000188004c0840000000004000008 (.cons 330 0x8000000188004c0840000000004000000 .nil))))) (.cons 0 0x7dfffffffffffffffffffffffffffffffffffffffffffffff7 (.cons 82 0x8 (.cons 914 0x2000000000000000000000000000000000000000000000000 .nil)))
def st589 : St := .mk (.cons 300 3 0x14000000000000000000820000000a11200080200000000201 (.cons 306 3 0x20000000000000000000000000000000000000000000000000 (.cons 340 1 0x34000000000000000000820018800ad1a40080200004000201 (.cons 341 1 0x34000000000000000000820018800ad1a40080200004000201 (.cons 342 1 0x34000000000000000000820018800ad1a40080200004000201 .nil))))) (.cons 331 0x8000000000000000000000000 .nil) (.cons 601 0x5fffffffffffffffffffffffe77fff3f7bfffffffffbffffff (.cons 613 0x20000000000000000000000000000000000000000000000000 (.cons 705 0x8000000000000000000000000 (.cons 1064 0x4000000 (.cons 1066 0x40000000000000000 (.cons 1068 0x800000000000000000 (.cons 1070 0x40000000000000000000 (.cons 1072 0x80000000000000000000 (.cons 1074 0x800000000000000000000000 (.cons 1076 0x10000000000000000000000000 .nil))))))))))
def st590 : St := .mk (.cons 314 2 0x34000000000000000800820018800ed1a40080200004000201 (.cons 317 2 0x34000000000000000800820018800ed1a40080200004000201 .nil)) .nil (.cons 635 0x7dffffffffffffffffffffffffffffffffffffffffffffffff (.cons 1234 0x2000000000000000000000000000000000000000000000000 .nil))
def st591 : St := .mk (.cons 149 2 0x14000000000000000000820000000211000080200000000201 .nil) (.cons 268 0x34000000000000000000820000000211000088200000000201 (.cons 273 0x34000000000000000000820000000211000088200000000201 (.cons 274 0x34000000000000001020920000000211000088200000000209 (.cons 275 0x34bf67c00000000313229200200002110000c8200000020209 (.cons 276 0x34bf67c00000000313229200200002110000c8200000020209 (.cons 277 0x34bf67c00000000313229200200002110000c8200000020209 (.cons 278 0x34bf67c00000000313229200200002110000c8200000020209 (.cons 279 0x34000000000000001020920000000211000088200000000209 (.cons 280 0x34000000000000001020920000000211000088200000000209 (.cons 281 0x34bf67c00000000313229200200002110000c8200000020209 (.cons 283 0x34000000000000001020920000000211000088200000000209 (.cons 284 0x34bf67c00000000313229200200002110000c8200000020209 (.cons 285 0x34bf67c00000000313229200200002110000c8200000020209 (.cons 291 0x34bf67c00000000313229200200002110000c8200000020209 (.cons 292 0x34bf67c00000000313229200200002110000c8200000020209 (.cons 296 0x34bf67c00000000313229200200002110000c8200000020209 (.cons 297 0x34bf67c00000000313229200200002110000c8200000020209 (.cons 298 0x34000000000000001020920000000211000088200000000209 (.cons 299 0x34bf67c00000000313229200200002110000c8200000020209 (.cons 300 0x34bf67c00000000313229200200002110000c8200000020209 (.cons 301 0x34bf67c00000000313229200200002110000c8200000020209 (.cons 302 0x34bf67c00000000313229200200002110000c8200000020209 (.cons 303 0x34bf67c00000000313229200200002110000c8200000020209 (.cons 304 0x34bf67c00000000313229200200002110000c8200000020209 (.cons 305 0x34bf67c00000000313229200200002110000c8200000020209 (.cons 306 0x34bf67c00000000313229200200002110000c8200000020209 (.cons 307 0x34bf67c00000000313229200200002110000c8200000020209 (.cons 308 0x34bf67c00000000313229200200002110000c8200000020209 .nil)))))))))))))))))))))))))))) (.cons 0 0x3df9fffffffe3fff7ffdfffefffedffffffffe3fffffffff87 (.cons 238 0x10 (.cons 240 0x20 (.cons 242 0x40 (.cons 246 0x10000000000000000000000 (.cons 248 0x100000000000000000000000000 (.cons 250 0x40000000000000000000000000000000000000 (.cons 252 0x80000000000000000000000000000000000000 (.cons 254 0x100000000000000000000000000000000000000 (.cons 258 0x40000000000000000000000000000000000000000000000000 (.cons 430 0x8 (.cons 432 0x400000000000 (.cons 434 0x800000000000 (.cons 436 0x1000000000000 (.cons 438 0x2000000000000000000000 (.cons 440 0x2000000000000000000000000000000 (.cons 442 0x8000000000000000000000000000000000 (.cons 444 0x20000000000000000000000000000000000000000000000 (.cons 446 0x40000000000000000000000000000000000000000000000 (.cons 448 0x2000000000000000000000000000000000000000000000000 .nil))))))))))))))))))))
def st592 : St := .mk (.cons 326 5 0x14000000000000000000820000000000000000000000000001 .nil) .nil (.cons 653 0x7fffffffffffffffffffffffffffffffffffffffffffffffff .nil)
def st593 : St := .mk (.cons 70 4 0x24000026000000000002000100000000000000000000000000 .nil) .nil (.cons 141 0x7fffffffffffffffffffffffffffffffffffffffffffffffff .nil)
def st594 : St := .mk (.cons 88 3 0x24000026000000000002000100000000000000000000000000 .nil) .nil (.cons 177 0x7fffffffffffffffffffffffffffffffffffffffffffffffff .nil)
def st595 : St := .mk (.cons 87 3 0x24000026000000000002000100000000000000000000000000 .nil) .nil (.cons 0 0x7fffffffffffffffffffffffffffffffffffffffffffffffbf (.cons 1238 0x40 .nil))
def st596 : St := .mk (.cons 84 4 0x24000026000000000002000100000000000000000000000000 .nil) .nil (.cons 169 0x7fffffffffffffffffffffffffffffffffffffffffffffffff .nil)
def st597 : St := .mk (.cons 69 4 0x24000026000000000002000100000000000000000000000000 .nil) .nil (.cons 139 0x7fffffffffffffffffffffffffffffffffffffffffffffffff .nil)
def st598 : St := .mk (.cons 85 3 0x24000026000000000002000100000000000000000000000000 .nil) .nil (.cons 171 0x7fffffffffffffffffffffffffffffffffffffffffffffffff .nil)
def st599 : St := .mk (.cons 103 3 0x24000026000000000002000100000000000000000000000000 .nil) .nil (.cons 207 0x7fffffffffffffffffffffffffffffffffffffffffffffffff .nil)
def st600 : St := .mk (.cons 100 5 0x24000000000000000000000000000000000000000000000000 .nil) .nil (.cons 201 0x7fffffffffffffffffffffffffffffffffffffffffffffffff .nil)
def st601 : St := .mk (.cons 102 5 0x24000000000000000000000000000000000000000000000000 .nil) (.cons 232 0x24000000000000000000000000000000000000000000000000 .nil) (.cons 0 0x7fffffdfffffffffffffffffffffffffffffffffffffffffff (.cons 988 0x20000000000000000000000000000000000000000000 .nil))
def st602 : St := .mk (.cons 244 1 0x40000001c0000000000000000000010000000000000000000 .nil) .nil (.cons 0 0x7fffffffffffffffffbfffffffffffffffffffffffffffffff (.cons 1242 0x40000000000000000000000000000000 .nil))
def st603 : St := .mk (.cons 242 3 0x35bf67c01c0000031b22f32038d40ed1a400c8200004020209 .nil) (.cons 261 0x40000001c0000000000000000000000000000000000000000 .nil) (.cons 230 0x10000000000000000000 (.cons 309 0x7fffffffffffffffffffffffffffffefffffffffffffffffff .nil))
def st604 : St := .mk (.cons 239 6 0x35bf67c01c0000031b22f32038d40ed1a400c8200004020209 .nil) .nil (.cons 479 0x7fffffffffffffffffffffffffffffffffffffffffffffffff .nil)
def st605 : St := .mk (.cons 240 6 0x35bf67c01c0000031b22f32038d40ed1a400c8200004020209 .nil) .nil (.cons 481 0x7fffffffffffffffffffffffffffffffffffffffffffffffff .nil)
def st606 : St := .mk (.cons 172 1 0x24000000000000000000000000000000000000000000000000 (.cons 241 6 0x35bf67c01c0000031b22f32038d40ed1a400c8200004020209 .nil)) .nil (.cons 0 0x5bffffffffffffffffffffffffffffffffffffffffffffffff (.cons 708 0x20000000000000000000000000000000000000000000000000 (.cons 1246 0x4000000000000000000000000000000000000000000000000 .nil)))
def st607 : St := .mk (.cons 257 6 0x35bf67c01c0000031b22f32038d40ed1a400c8200004020209 .nil) .nil (.cons 515 0x7fffffffffffffffffffffffffffffffffffffffffffffffff .nil)
def st608 : St := .mk (.cons 258 6 0x35bf67c01c0000031b22f32038d40ed1a400c8200004020209 .nil) .nil (.cons 517 0x7fffffffffffffffffffffffffffffffffffffffffffffffff .nil)
def st609 : St := .mk (.cons 224 6 0x35bf67c01c0000031b22f32038d40ed1a400c8200004020209 .nil) .nil (.cons 449 0x7fffffffffffffffffffffffffffffffffffffffffffffffff .nil)
def st610 : St := .mk (.cons 217 1 0x1000510000100000000000000000000000 (.cons 218 1 0x1000510000100000000000000000000000 (.cons 228 5 0x410000100000000000000000000000 .nil))) .nil (.cons 457 0x7fffffffffffffffefffefffffffffffffffffffffffffffff (.cons 618 0x100000000000000000000000000000 (.cons 620 0x1000000000000000000000000000000000 .nil)))
def st611 : St := .mk (.cons 222 6 0x350000001c0000001820f32018d40ed1a40088200004000209 .nil) .nil (.cons 445 0x7fffffffffffffffffffffffffffffffffffffffffffffffff .nil)
def st612 : St := .mk (.cons 220 6 0x350000001c0000001820f32018d40ed1a40088200004000209 .nil) .nil (.cons 441 0x7fffffffffffffffffffffffffffffffffffffffffffffffff .nil)
def st613 : St := .mk (.cons 304 4 0x34000000000000000800820018800ed1a40080200004000201 .nil) .nil (.cons 609 0x7fffffffffffffffffffffffffffffffffffffffffffffffff .nil)
def st614 : St := .mk (.cons 340 4 0x34000000000000000800820018800ed1a40080200004000201 .nil) .nil (.cons 681 0x7fffffffffffffffffffffffffffffffffffffffffffffffff .nil)
def st615 : St := .mk (.cons 340 1 0x8000000188004c0840000000004000000 (.cons 341 1 0x8000000188004c0840000000004000000 (.cons 341 4 0x34000000000000000800820018800ed1a40080200004000201 (.cons 342 1 0x8000000188004c0840000000004000000 (.cons 342 4 0x34000000000000000800820018800ed1a40080200004000201 .nil))))) (.cons 331 0x8000000000000000000000000 .nil) (.cons 705 0x7ffffffffffffffff7ffffffef7ffb3f7bfffffffffbffffff (.cons 1064 0x4000000 (.cons 1066 0x40000000000000000 (.cons 1068 0x800000000000000000 (.cons 1070 0x40000000000000000000 (.cons 1072 0x80000000000000000000 (.cons 1074 0x800000000000000000000000 (.cons 1076 0x10000000000000000000000000 (.cons 1248 0x400000000000000000000 (.cons 1250 0x800000000000000000000000000000000 .nil))))))))))
def st616 : St := .mk (.cons 314 3 0x34000000000000000800820018800ed1a40080200004000201 .nil) (.cons 334 0x24000000000000000000000000000000000000000000000000 .nil) (.cons 0 0x7ffffffffffffffffffffffffffffffffffffffffffffffff7 (.cons 488 0x8 .nil))
def st617 : St := .mk (.cons 149 3 0x14000000000000000000820000000211000080200000000201 (.cons 172 1 0x34000000000000000000820000000211000088200000000201 .nil)) (.cons 260 0x14000000000000000000820000000211000080200000000201 .nil) (.cons 305 0x5ffffffffffffffffffffffffffffffffffff7ffffffffffff (.cons 708 0x20000000000000000000000000000000000000000000000000 (.cons 1254 0x8000000000000 .nil)))
def st618 : St := .mk (.cons 87 4 0x24000026000000000002000100000000000000000000000000 .nil) .nil (.cons 0 0x7bffffffffffffffffffffffffffffffffffffffffffffffff (.cons 1258 0x4000000000000000000000000000000000000000000000000 .nil))
def st619 : St := .mk (.cons 102 6 0x24000000000000000000000000000000000000000000000000 .nil) .nil (.cons 205 0x7fffffffffffffffffffffffffffffffffffffffffffffffff .nil)
def st620 : St := .mk (.cons 244 2 0x40000001c0000000000000000000010000000000000000000 .nil) (.cons 268 0x240000001c0000000000000000000010000000000000000000 (.cons 273 0x240000001c0000000000000000000010000000000000000000 (.cons 274 0x240000001c0000001020100000000010000000000000000008 (.cons 275 0x24bf67c01c0000031322100020000010000040000000020008 (.cons 276 0x24bf67c01c0000031322100020000010000040000000020008 (.cons 277 0x24bf67c01c0000031322100020000010000040000000020008 (.cons 278 0x24bf67c01c0000031322100020000010000040000000020008 (.cons 279 0x240000001c0000001020100000000010000000000000000008 (.cons 280 0x240000001c0000001020100000000010000000000000000008 (.cons 281 0x24bf67c01c0000031322100020000010000040000000020008 (.cons 283 0x240000001c0000001020100000000010000000000000000008 (.cons 284 0x24bf67c01c0000031322100020000010000040000000020008 (.cons 285 0x24bf67c01c0000031322100020000010000040000000020008 (.cons 291 0x24bf67c01c0000031322100020000010000040000000020008 (.cons 292 0x24bf67c01c0000031322100020000010000040000000020008 (.cons 296 0x24bf67c01c0000031322100020000010000040000000020008 (.cons 297 0x24bf67c01c0000031322100020000010000040000000020008 (.cons 298 0x240000001c0000001020100000000010000000000000000008 (.cons 299 0x24bf67c01c0000031322100020000010000040000000020008 (.cons 300 0x24bf67c01c0000031322100020000010000040000000020008 (.cons 301 0x24bf67c01c0000031322100020000010000040000000020008 (.cons 302 0x24bf67c01c0000031322100020000010000040000000020008 (.cons 303 0x24bf67c01c0000031322100020000010000040000000020008 (.cons 304 0x24bf67c01c0000031322100020000010000040000000020008 (.cons 305 0x24bf67c01c0000031322100020000010000040000000020008 (.cons 306 0x24bf67c01c0000031322100020000010000040000000020008 (.cons 307 0x24bf67c01c0000031322100020000010000040000000020008 (.cons 308 0x24bf67c01c0000031322100020000010000040000000020008 .nil)))))))))))))))))))))))))))) (.cons 0 0x3df9fffffffe3fff7ffdfffefffedffffffffe3fffffffff87 (.cons 238 0x10 (.cons 240 0x20 (.cons 242 0x40 (.cons 246 0x10000000000000000000000 (.cons 248 0x100000000000000000000000000 (.cons 250 0x40000000000000000000000000000000000000 (.cons 252 0x80000000000000000000000000000000000000 (.cons 254 0x100000000000000000000000000000000000000 (.cons 258 0x40000000000000000000000000000000000000000000000000 (.cons 430 0x8 (.cons 432 0x400000000000 (.cons 434 0x800000000000 (.cons 436 0x1000000000000 (.cons 438 0x2000000000000000000000 (.cons 440 0x2000000000000000000000000000000 (.cons 442 0x8000000000000000000000000000000000 (.cons 444 0x20000000000000000000000000000000000000000000000 (.cons 446 0x40000000000000000000000000000000000000000000000 (.cons 448 0x2000000000000000000000000000000000000000000000000 .nil))))))))))))))))))))
def st621 : St := .mk (.cons 242 4 0x35bf67c01c0000031b22f32038d40ed1a400c8200004020209 .nil) (.cons 288 0x4000000000000000000000000000000000000000000000000 (.cons 289 0x1200000000000000000000000000000000000020040 .nil)) (.cons 497 0x7fffffffe3ffffffffffffffffffffffffffffffffffffffff (.cons 1262 0x40000000000000000000000000000000000000000 (.cons 1264 0x80000000000000000000000000000000000000000 (.cons 1266 0x100000000000000000000000000000000000000000 .nil))))
def st622 : St := .mk (.cons 241 7 0x35bf67c01c0000031b22f32038d40ed1a400c8200004020209 .nil) (.cons 286 0x35bf67c01c0000031b22f32038d40ed1a400c8200004020209 .nil) (.cons 487 0x7fffffffffffffffffffffffffffffdfffffffffffffffffff (.cons 1006 0x20000000000000000000 .nil))
def st623 : St := .mk (.cons 342 5 0x34000000000000000800820018800ed1a40080200004000201 .nil) .nil (.cons 0 0x7dffffffffffffffffffffffffffffffffffffffffffffffff (.cons 1274 0x2000000000000000000000000000000000000000000000000 .nil))
def st624 : St := .mk (.cons 341 5 0x34000000000000000800820018800ed1a40080200004000201 .nil) (.cons 274 0x34000000000000001800920018800ed1a40080200004000201 (.cons 275 0x34bf67c0000000031b02920038800ed1a400c0200004020201 (.cons 276 0x34bf67c0000000031b02920038800ed1a400c0200004020201 (.cons 277 0x34bf67c0000000031b02920038800ed1a400c0200004020201 (.cons 278 0x34bf67c0000000031b02920038800ed1a400c0200004020201 (.cons 279 0x34000000000000001800920018800ed1a40080200004000201 (.cons 280 0x34000000000000001800920018800ed1a40080200004000201 (.cons 281 0x34bf67c0000000031b02920038800ed1a400c0200004020201 (.cons 283 0x34000000000000001800920018800ed1a40080200004000201 (.cons 284 0x34bf67c0000000031b02920038800ed1a400c0200004020201 (.cons 285 0x34bf67c0000000031b02920038800ed1a400c0200004020201 (.cons 291 0x34bf67c0000000031b02920038800ed1a400c0200004020201 (.cons 292 0x34bf67c0000000031b02920038800ed1a400c0200004020201 (.cons 296 0x34bf67c0000000031b02920038800ed1a400c0200004020201 (.cons 297 0x34bf67c0000000031b02920038800ed1a400c0200004020201 (.cons 298 0x34000000000000001800920018800ed1a40080200004000201 (.cons 299 0x34bf67c0000000031b02920038800ed1a400c0200004020201 (.cons 300 0x34bf67c0000000031b02920038800ed1a400c0200004020201 (.cons 301 0x34bf67c0000000031b02920038800ed1a400c0200004020201 (.cons 302 0x34bf67c0000000031b02920038800ed1a400c0200004020201 (.cons 303 0x34bf67c0000000031b02920038800ed1a400c0200004020201 (.cons 304 0x34bf67c0000000031b02920038800ed1a400c0200004020201 (.cons 305 0x34bf67c0000000031b02920038800ed1a400c0200004020201 (.cons 306 0x34bf67c0000000031b02920038800ed1a400c0200004020201 (.cons 307 0x34bf67c0000000031b02920038800ed1a400c0200004020201 (.cons 308 0x34bf67c0000000031b02920038800ed1a400c0200004020201 (.cons 332 0x34000000000000000800820018800ed1a40080200004000201 .nil))))))))))))))))))))))))))) (.cons 0 0x3df9fffffffe3fff7ffdfffefffedffffffffe3fffffffff87 (.cons 238 0x10 (.cons 240 0x20 (.cons 242 0x40 (.cons 246 0x10000000000000000000000 (.cons 248 0x100000000000000000000000000 (.cons 250 0x40000000000000000000000000000000000000 (.cons 252 0x80000000000000000000000000000000000000 (.cons 254 0x100000000000000000000000000000000000000 (.cons 258 0x40000000000000000000000000000000000000000000000000 (.cons 430 0x8 (.cons 432 0x400000000000 (.cons 434 0x800000000000 (.cons 436 0x1000000000000 (.cons 438 0x2000000000000000000000 (.cons 440 0x2000000000000000000000000000000 (.cons 442 0x8000000000000000000000000000000000 (.cons 444 0x20000000000000000000000000000000000000000000000 (.cons 446 0x40000000000000000000000000000000000000000000000 (.cons 448 0x2000000000000000000000000000000000000000000000000 .nil))))))))))))))))))))
def st625 : St := .mk (.cons 314 4 0x34000000000000000800820018800ed1a40080200004000201 (.cons 357 1 0x24000000000000000000000000000000000000000000000000 .nil)) .nil (.cons 0 0x5bffffffffffffffffffffffffffffffffffffffffffffffff (.cons 670 0x20000000000000000000000000000000000000000000000000 (.cons 1280 0x4000000000000000000000000000000000000000000000000 .nil)))
def st626 : St := .mk (.cons 151 1 0x14000000000000000000820000000211000080200000000201 .nil) (.cons 274 0x14000000000000001000920000000211000080200000000201 (.cons 275 0x14bf67c00000000313029200200002110000c0200000020201 (.cons 276 0x14bf67c00000000313029200200002110000c0200000020201 (.cons 277 0x14bf67c00000000313029200200002110000c0200000020201 (.cons 278 0x14bf67c00000000313029200200002110000c0200000020201 (.cons 279 0x14000000000000001000920000000211000080200000000201 (.cons 280 0x14000000000000001000920000000211000080200000000201 (.cons 281 0x14bf67c00000000313029200200002110000c0200000020201 (.cons 283 0x14000000000000001000920000000211000080200000000201 (.cons 284 0x14bf67c00000000313029200200002110000c0200000020201 (.cons 285 0x14bf67c00000000313029200200002110000c0200000020201 (.cons 291 0x14bf67c00000000313029200200002110000c0200000020201 (.cons 292 0x14bf67c00000000313029200200002110000c0200000020201 (.cons 296 0x14bf67c00000000313029200200002110000c0200000020201 (.cons 297 0x14bf67c00000000313029200200002110000c0200000020201 (.cons 298 0x14000000000000001000920000000211000080200000000201 (.cons 299 0x14bf67c00000000313029200200002110000c0200000020201 (.cons 300 0x14bf67c00000000313029200200002110000c0200000020201 (.cons 301 0x14bf67c00000000313029200200002110000c0200000020201 (.cons 302 0x14bf67c00000000313029200200002110000c0200000020201 (.cons 303 0x14bf67c00000000313029200200002110000c0200000020201 (.cons 304 0x14bf67c00000000313029200200002110000c0200000020201 (.cons 305 0x14bf67c00000000313029200200002110000c0200000020201 (.cons 306 0x14bf67c00000000313029200200002110000c0200000020201 (.cons 307 0x14bf67c00000000313029200200002110000c0200000020201 (.cons 308 0x14bf67c00000000313029200200002110000c0200000020201 .nil)))))))))))))))))))))))))) (.cons 0 0x3df9fffffffe3fff7ffdfffefffedffffffffe3fffffffff87 (.cons 238 0x10 (.cons 240 0x20 (.cons 242 0x40 (.cons 246 0x10000000000000000000000 (.cons 248 0x100000000000000000000000000 (.cons 250 0x40000000000000000000000000000000000000 (.cons 252 0x80000000000000000000000000000000000000 (.cons 254 0x100000000000000000000000000000000000000 (.cons 258 0x40000000000000000000000000000000000000000000000000 (.cons 430 0x8 (.cons 432 0x400000000000 (.cons 434 0x800000000000 (.cons 436 0x1000000000000 (.cons 438 0x2000000000000000000000 (.cons 440 0x2000000000000000000000000000000 (.cons 442 0x8000000000000000000000000000000000 (.cons 444 0x20000000000000000000000000000000000000000000000 (.cons 446 0x40000000000000000000000000000000000000000000000 (.cons 448 0x2000000000000000000000000000000000000000000000000 .nil))))))))))))))))))))
def st627 : St := .mk (.cons 149 4 0x14000000000000000000820000000211000080200000000201 .nil) .nil (.cons 299 0x7fffffffffffffffffffffffffffffffffffffffffffffffff .nil)
def st628 : St := .mk (.cons 87 5 0x24000026000000000002000100000000000000000000000000 .nil) .nil (.cons 175 0x7fffffffffffffffffffffffffffffffffffffffffffffffff .nil)
def st629 : St := .mk (.cons 172 1 0x240000001c0000000000000000000010000000000000000000 (.cons 244 3 0x40000001c0000000000000000000010000000000000000000 .nil)) .nil (.cons 489 0x5fffffffffffffffffffffffffffffffffffffffffffffffff (.cons 708 0x20000000000000000000000000000000000000000000000000 .nil))
def st630 : St := .mk (.cons 249 1 0x1200000000000000000000000000000000000020040 .nil) .nil (.cons 499 0x7fffffffffffffffffffffffffffffffffffffffffffffffff .nil)
def st631 : St := .mk (.cons 250 1 0x1200000000000000000000000000000000000020040 .nil) .nil (.cons 501 0x7fffffffffffffffffffffffffffffffffffffffffffffffff .nil)
def st632 : St := .mk (.cons 251 1 0x1200000000000000000000000000000000000020040 .nil) .nil (.cons 503 0x7fffffffffffffffffffffffffffffffffffffffffffffffff .nil)
def st633 : St := .mk (.cons 242 5 0x35bf67c01c0000031b22f32038d40ed1a400c8200004020209 .nil) .nil (.cons 0 0x7bffffffffffffffffffffffffffffffffffffffffffffffff (.cons 1284 0x4000000000000000000000000000000000000000000000000 .nil))
def st634 : St := .mk (.cons 246 1 0x4000000000000000000000000000000000000000000000000 (.cons 247 1 0x4000000000000000000000000000000000000000000000000 .nil)) (.cons 290 0x4000000000000000000000000000000000000000000000000 .nil) (.cons 0 0x7ffffffedffffffffffffffffffffffffffffffffffffdffbf (.cons 1286 0x40 (.cons 1288 0x20000 (.cons 1290 0x200000000000000000000000000000000000000000 (.cons 1292 0x1000000000000000000000000000000000000000000 .nil)))))
def st635 : St := .mk (.cons 241 8 0x35bf67c01c0000031b22f32038d40ed1a400c8200004020209 .nil) .nil (.cons 483 0x7fffffffffffffffffffffffffffffffffffffffffffffffff .nil)
def st636 : St := .mk (.cons 342 6 0x34000000000000000800820018800ed1a40080200004000201 .nil) (.cons 334 0x24000000000000000000000000000000000000000000000000 .nil) (.cons 0 0x7ffffffffffffffffffffffffffffffffffffffffffffffff7 (.cons 488 0x8 .nil))
def st637 : St := .mk (.cons 217 1 0x34000000000000001800920018800ed1a40080200004000201 (.cons 218 1 0x34000000000000001800920018800ed1a40080200004000201 (.cons 353 1 0x34000000000000000800820018800ed1a40080200004000201 .nil))) .nil (.cons 618 0x100000000000000000000000000000 (.cons 620 0x1000000000000000000000000000000000 (.cons 707 0x7fffffffffffffffefffefffffffffffffffffffffffffffff .nil)))
def st638 : St := .mk (.cons 341 6 0x34000000000000000800820018800ed1a40080200004000201 .nil) .nil (.cons 683 0x7fffffffffffffffffffffffffffffffffffffffffffffffff .nil)
def st639 : St := .mk (.cons 314 5 0x34000000000000000800820018800ed1a40080200004000201 .nil) .nil (.cons 629 0x7fffffffffffffffffffffffffffffffffffffffffffffffff .nil)
def st640 : St := .mk (.cons 151 2 0x14000000000000000000820000000211000080200000000201 (.cons 217 1 0x14000000000000001000920000000211000080200000000201 (.cons 218 1 0x14000000000000001000920000000211000080200000000201 .nil))) .nil (.cons 303 0x7fffffffffffffffefffefffffffffffffffffffffffffffff (.cons 618 0x100000000000000000000000000000 (.cons 620 0x1000000000000000000000000000000000 .nil)))
def st641 : St := .mk (.cons 242 6 0x35bf67c01c0000031b22f32038d40ed1a400c8200004020209 .nil) .nil (.cons 485 0x7fffffffffffffffffffffffffffffffffffffffffffffffff .nil)
def st642 : St := .mk (.cons 253 1 0x4000000000000000000100000000000000000000000000000 (.cons 255 1 0x4000000000000000000100000000000000000000000000000 .nil)) .nil (.cons 0 0x7fffffff3fffffffffffffffffffffffffffffffffffffffff (.cons 1298 0x400000000000000000000000000000000000000000 (.cons 1300 0x800000000000000000000000000000000000000000 .nil)))
def st643 : St := .mk (.cons 247 2 0x4000000000000000000000000000000000000000000000000 .nil) (.cons 290 0x100000000000000000000000000000 .nil) (.cons 0 0x7ffffffedfffffffffffffffffffffffffffffffffffffffbf (.cons 1286 0x40 (.cons 1290 0x200000000000000000000000000000000000000000 (.cons 1292 0x1000000000000000000000000000000000000000000 .nil))))
def st644 : St := .mk (.cons 252 1 0x4000000000000000000100000000000000000000000000000 (.cons 254 1 0x4000000000000000000100000000000000000000000000000 .nil)) .nil (.cons 0 0x7fffffff3fffffffffffffffffffffffffffffffffffffffff (.cons 1304 0x400000000000000000000000000000000000000000 (.cons 1306 0x800000000000000000000000000000000000000000 .nil)))
def st645 : St := .mk (.cons 256 1 0x4000000000000000000100000000000000000000000000000 .nil) .nil (.cons 513 0x7fffffffffffffffffffffffffffffffffffffffffffffffff .nil)
def st646 : St := .mk (.cons 246 2 0x4000000000000000000000000000000000000000000000000 .nil) .nil (.cons 493 0x7fffffffffffffffffffffffffffffffffffffffffffffffff .nil)
def st647 : St := .mk (.cons 342 7 0x34000000000000000800820018800ed1a40080200004000201 (.cons 357 1 0x24000000000000000000000000000000000000000000000000 .nil)) .nil (.cons 0 0x5bffffffffffffffffffffffffffffffffffffffffffffffff (.cons 670 0x20000000000000000000000000000000000000000000000000 (.cons 1308 0x4000000000000000000000000000000000000000000000000 .nil)))
def st648 : St := .mk (.cons 255 2 0x4000000000000000000100000000000000000000000000000 .nil) .nil (.cons 511 0x7fffffffffffffffffffffffffffffffffffffffffffffffff .nil)
def st649 : St := .mk (.cons 253 2 0x4000000000000000000100000000000000000000000000000 .nil) .nil (.cons 507 0x7fffffffffffffffffffffffffffffffffffffffffffffffff .nil)
def st650 : St := .mk (.cons 247 3 0x4000000000000000000000000000000000000000000000000 .nil) .nil (.cons 0 0x7fffffffffffffffffffefffffffffffffffffffffffffffff (.cons 1310 0x100000000000000000000000000000 .nil))
def st651 : St := .mk (.cons 254 2 0x4000000000000000000100000000000000000000000000000 .nil) .nil (.cons 509 0x7fffffffffffffffffffffffffffffffffffffffffffffffff .nil)
def st652 : St := .mk (.cons 252 2 0x4000000000000000000100000000000000000000000000000 .nil) .nil (.cons 505 0x7fffffffffffffffffffffffffffffffffffffffffffffffff .nil)
def st653 : St := .mk (.cons 342 8 0x34000000000000000800820018800ed1a40080200004000201 .nil) .nil (.cons 685 0x7fffffffffffffffffffffffffffffffffffffffffffffffff .nil)
def st654 : St := .mk (.cons 247 4 0x4000000000000000000000000000000000000000000000000 .nil) (.cons 290 0x4000000000000000000000000000000000000000000000000 .nil) (.cons 0 0x7ffffffedfffffffffffffffffffffffffffffffffffffffbf (.cons 1286 0x40 (.cons 1290 0x200000000000000000000000000000000000000000 (.cons 1292 0x1000000000000000000000000000000000000000000 .nil))))
def st655 : St := .mk (.cons 247 5 0x4000000000000000000000000000000000000000000000000 .nil) .nil (.cons 495 0x7fffffffffffffffffffffffffffffffffffffffffffffffff .nil)
def stT : BT St := (.node 512 (.node 256 (.node 128 (.node 64 (.node 32 (.node 16 (.node 8 (.node 4 (.node 2 (.node 1 (.leaf st0) (.leaf st1)) (.node 1 (.leaf st2) (.leaf st3))) (.node 2 (.node 1 (.leaf st4) (.leaf st5)) (.node 1 (.leaf st6) (.leaf st7)))) (.node 4 (.node 2 (.node 1 (.leaf st8) (.leaf st9)) (.node 1 (.leaf st10) (.leaf st11))) (.node 2 (.node 1 (.leaf st12) (.leaf st13)) (.node 1 (.leaf st14) (.leaf st15))))) (.node 8 (.node 4 (.node 2 (.node 1 (.leaf st16) (.leaf st17)) (.node 1 (.leaf st18) (.leaf st19))) (.node 2 (.node 1 (.leaf st20) (.leaf st21)) (.node 1 (.leaf st22) (.leaf st23)))) (.node 4 (.node 2 (.node 1 (.leaf st24) (.leaf st25)) (.node 1 (.leaf st26) (.leaf st27))) (.node 2 (.node 1 (.leaf st28) (.leaf st29)) (.node 1 (.leaf st30) (.leaf st31)))))) (.node 16 (.node 8 (.node 4 (.node 2 (.node 1 (.leaf st32) (.leaf st33)) (.node 1 (.leaf st34) (.leaf st35))) (.node 2 (.node 1 (.leaf st36) (.leaf st37)) (.node 1 (.leaf st38) (.leaf st39)))) (.node 4 (.node 2 (.node 1 (.leaf st40) (.leaf st41)) (.node 1 (.leaf st42) (.leaf st43))) (.node 2 (.node 1 (.leaf st44) (.leaf st45)) (.node 1 (.leaf st46) (.leaf st47))))) (.node 8 (.node 4 (.node 2 (.node 1 (.leaf st48) (.leaf st49)) (.node 1 (.leaf st50) (.leaf st51))) (.node 2 (.node 1 (.leaf st52) (.leaf st53)) (.node 1 (.leaf st54) (.leaf st55)))) (.node 4 (.node 2 (.node 1 (.leaf st56) (.leaf st57)) (.node 1 (.leaf st58) (.leaf st59))) (.node 2 (.node 1 (.leaf st60) (.leaf st61)) (.node 1 (.leaf st62) (.leaf st63))))))) (.node 32 (.node 16 (.node 8 (.node 4 (.node 2 (.node 1 (.leaf st64) (.leaf st65)) (.node 1 (.leaf st66) (.leaf st67))) (.node 2 (.node 1 (.leaf st68) (.leaf st69)) (.node 1 (.leaf st70) (.leaf st71)))) (.node 4 (.node 2 (.node 1 (.leaf st72) (.leaf st73)) (.node 1 (.leaf st74) (.leaf st75))) (.node 2 (.node 1 (.leaf st76) (.leaf st77)) (.node 1 (.leaf st78) (.leaf st79))))) (.node 8 (.node 4 (.node 2 (.node 1 (.leaf st80) (.leaf st81)) (.node 1 (.leaf st82) (.leaf st83))) (.node 2 (.node 1 (.leaf st84) (.leaf st85)) (.node 1 (.leaf st86) (.leaf st87)))) (.node 4 (.node 2 (.node 1 (.leaf st88) (.leaf st89)) (.node 1 (.leaf st90) (.leaf st91))) (.node 2 (.node 1 (.leaf st92) (.leaf st93)) (.node 1 (.leaf st94) (.leaf st95)))))) (.node 16 (.node 8 (.node 4 (.node 2 (.node 1 (.leaf st96) (.leaf st97)) (.node 1 (.leaf st98) (.leaf st99))) (.node 2 (.node 1 (.leaf st100) (.leaf st101)) (.node 1 (.leaf st102) (.leaf st103)))) (.node 4 (.node 2 (.node 1 (.leaf st104) (.leaf st105)) (.node 1 (.leaf st106) (.leaf st107))) (.node 2 (.node 1 (.leaf st108) (.leaf st109)) (.node 1 (.leaf st110) (.leaf st111))))) (.node 8 (.node 4 (.node 2 (.node 1 (.leaf st112) (.leaf st113)) (.node 1 (.leaf st114) (.leaf st115))) (.node 2 (.node 1 (.leaf st116) (.leaf st117)) (.node 1 (.leaf st118) (.leaf st119)))) (.node 4 (.node 2 (.node 1 (.leaf st120) (.leaf st121)) (.node 1 (.leaf st122) (.leaf st123))) (.node 2 (.node 1 (.leaf st124) (.leaf st125)) (.node 1 (.leaf st126) (.leaf st127)))))))) (.node 64 (.node 32 (.node 16 (.node 8 (.node 4 (.node 2 (.node 1 (.leaf st128) (.leaf st129)) (.node 1 (.leaf st130) (.leaf st131))) (.node 2 (.node 1 (.leaf st132) (.leaf st133)) (.node 1 (.leaf st134) (.leaf st135)))) (.node 4 (.node 2 (.node 1 (.leaf st136) (.leaf st137)) (.node 1 (.leaf st138) (.leaf st139))) (.node 2 (.node 1 (.leaf st140) (.leaf st141)) (.node 1 (.leaf st142) (.leaf st143))))) (.node 8 (.node 4 (.node 2 (.node 1 (.leaf st144) (.leaf st145)) (.node 1 (.leaf st146) (.leaf st147))) (.node 2 (.node 1 (.leaf st148) (.leaf st149)) (.node 1 (.leaf st150) (.leaf st151)))) (.node 4 (.node 2 (.node 1 (.leaf st152) (.leaf st153)) (.node 1 (.leaf st154) (.leaf st155))) (.node 2 (.node 1 (.leaf st156) (.leaf st157)) (.node 1 (.leaf st158) (.leaf st159)))))) (.node 16 (.node 8 (.node 4 (.node 2 (.node 1 (.leaf st160) (.leaf st161)) (.node 1 (.leaf st162) (.leaf st163))) (.node 2 (.node 1 (.leaf st164) (.leaf st165)) (.node 1 (.leaf st166) (.leaf st167)))) (.node 4 (.node 2 (.node 1 (.leaf st168) (.leaf st169)) (.node 1 (.leaf st170) (.leaf st171))) (.node 2 (.node 1 (.leaf st172) (.leaf st173)) (.node 1 (.leaf st174) (.leaf st175))))) (.node 8 (.node 4 (.node 2 (.node 1 (.leaf st176) (.leaf st177)) (.node 1 (.leaf st178) (.leaf st179))) (.node 2 (.node 1 (.leaf st180) (.leaf st181)) (.node 1 (.leaf st182) (.leaf st183)))) (.node 4 (.node 2 (.node 1 (.leaf st184) (.leaf st185)) (.node 1 (.leaf st186) (.leaf st187))) (.node 2 (.node 1 (.leaf st188) (.leaf st189)) (.node 1 (.leaf st190) (.leaf st191))))))) (.node 32 (.node 16 (.node 8 (.node 4 (.node 2 (.node 1 (.leaf st192) (.leaf st193)) (.node 1 (.leaf st194) (.leaf st195))) (.node 2 (.node 1 (.leaf st196) (.leaf st197)) (.node 1 (.leaf st198) (.leaf st199)))) (.node 4 (.node 2 (.node 1 (.leaf st200) (.leaf st201)) (.node 1 (.leaf st202) (.leaf st203))) (.node 2 (.node 1 (.leaf st204) (.leaf st205)) (.node 1 (.leaf st206) (.leaf st207))))) (.node 8 (.node 4 (.node 2 (.node 1 (.leaf st208) (.leaf st209)) (.node 1 (.leaf st210) (.leaf st211))) (.node 2 (.node 1 (.leaf st212) (.leaf st213)) (.node 1 (.leaf st214) (.leaf st215)))) (.node 4 (.node 2 (.node 1 (.leaf st216) (.leaf st217)) (.node 1 (.leaf st218) (.leaf st219))) (.node 2 (.node 1 (.leaf st220) (.leaf st221)) (.node 1 (.leaf st222) (.leaf st223)))))) (.node 16 (.node 8 (.node 4 (.node 2 (.node 1 (.leaf st224) (.leaf st225)) (.node 1 (.leaf st226) (.leaf st227))) (.node 2 (.node 1 (.leaf st228) (.leaf st229)) (.node 1 (.leaf st230) (.leaf st231)))) (.node 4 (.node 2 (.node 1 (.leaf st232) (.leaf st233)) (.node 1 (.leaf st234) (.leaf st235))) (.node 2 (.node 1 (.leaf st236) (.leaf st237)) (.node 1 (.leaf st238) (.leaf st239))))) (.node 8 (.node 4 (.node 2 (.node 1 (.leaf st240) (.leaf st241)) (.node 1 (.leaf st242) (.leaf st243))) (.node 2 (.node 1 (.leaf st244) (.leaf st245)) (.node 1 (.leaf st246) (.leaf st247)))) (.node 4 (.node 2 (.node 1 (.leaf st248) (.leaf st249)) (.node 1 (.leaf st250) (.leaf st251))) (.node 2 (.node 1 (.leaf st252) (.leaf st253)) (.node 1 (.leaf st254) (.leaf st255))))))))) (.node 128 (.node 64 (.node 32 (.node 16 (.node 8 (.node 4 (.node 2 (.node 1 (.leaf st256) (.leaf st257)) (.node 1 (.leaf st258) (.leaf st259))) (.node 2 (.node 1 (.leaf st260) (.leaf st261)) (.node 1 (.leaf st262) (.leaf st263)))) (.node 4 (.node 2 (.node 1 (.leaf st264) (.leaf st265)) (.node 1 (.leaf st266) (.leaf st267))) (.node 2 (.node 1 (.leaf st268) (.leaf st269)) (.node 1 (.leaf st270) (.leaf st271))))) (.node 8 (.node 4 (.node 2 (.node 1 (.leaf st272) (.leaf st273)) (.node 1 (.leaf st274) (.leaf st275))) (.node 2 (.node 1 (.leaf st276) (.leaf st277)) (.node 1 (.leaf st278) (.leaf st279)))) (.node 4 (.node 2 (.node 1 (.leaf st280) (.leaf st281)) (.node 1 (.leaf st282) (.leaf st283))) (.node 2 (.node 1 (.leaf st284) (.leaf st285)) (.node 1 (.leaf st286) (.leaf st287)))))) (.node 16 (.node 8 (.node 4 (.node 2 (.node 1 (.leaf st288) (.leaf st289)) (.node 1 (.leaf st290) (.leaf st291))) (.node 2 (.node 1 (.leaf st292) (.leaf st293)) (.node 1 (.leaf st294) (.leaf st295)))) (.node 4 (.node 2 (.node 1 (.leaf st296) (.leaf st297)) (.node 1 (.leaf st298) (.leaf st299))) (.node 2 (.node 1 (.leaf st300) (.leaf st301)) (.node 1 (.leaf st302) (.leaf st303))))) (.node 8 (.node 4 (.node 2 (.node 1 (.leaf st304) (.leaf st305)) (.node 1 (.leaf st306) (.leaf st307))) (.node 2 (.node 1 (.leaf st308) (.leaf st309)) (.node 1 (.leaf st310) (.leaf st311)))) (.node 4 (.node 2 (.node 1 (.leaf st312) (.leaf st313)) (.node 1 (.leaf st314) (.leaf st315))) (.node 2 (.node 1 (.leaf st316) (.leaf st317)) (.node 1 (.leaf st318) (.leaf st319))))))) (.node 32 (.node 16 (.node 8 (.node 4 (.node 2 (.node 1 (.leaf st320) (.leaf st321)) (.node 1 (.leaf st322) (.leaf st323))) (.node 2 (.node 1 (.leaf st324) (.leaf st325)) (.node 1 (.leaf st326) (.leaf st327)))) (.node 4 (.node 2 (.node 1 (.leaf st328) (.leaf st329)) (.node 1 (.leaf st330) (.leaf st331))) (.node 2 (.node 1 (.leaf st332) (.leaf st333)) (.node 1 (.leaf st334) (.leaf st335))))) (.node 8 (.node 4 (.node 2 (.node 1 (.leaf st336) (.leaf st337)) (.node 1 (.leaf st338) (.leaf st339))) (.node 2 (.node 1 (.leaf st340) (.leaf st341)) (.node 1 (.leaf st342) (.leaf st343)))) (.node 4 (.node 2 (.node 1 (.leaf st344) (.leaf st345)) (.node 1 (.leaf st346) (.leaf st347))) (.node 2 (.node 1 (.leaf st348) (.leaf st349)) (.node 1 (.leaf st350) (.leaf st351)))))) (.node 16 (.node 8 (.node 4 (.node 2 (.node 1 (.leaf st352) (.leaf st353)) (.node 1 (.leaf st354) (.leaf st355))) (.node 2 (.node 1 (.leaf st356) (.leaf st357)) (.node 1 (.leaf st358) (.leaf st359)))) (.node 4 (.node 2 (.node 1 (.leaf st360) (.leaf st361)) (.node 1 (.leaf st362) (.leaf st363))) (.node 2 (.node 1 (.leaf st364) (.leaf st365)) (.node 1 (.leaf st366) (.leaf st367))))) (.node 8 (.node 4 (.node 2 (.node 1 (.leaf st368) (.leaf st369)) (.node 1 (.leaf st370) (.leaf st371))) (.node 2 (.node 1 (.leaf st372) (.leaf st373)) (.node 1 (.leaf st374) (.leaf st375)))) (.node 4 (.node 2 (.node 1 (.leaf st376) (.leaf st377)) (.node 1 (.leaf st378) (.leaf st379))) (.node 2 (.node 1 (.leaf st380) (.leaf st381)) (.node 1 (.leaf st382) (.leaf st383)))))))) (.node 64 (.node 32 (.node 16 (.node 8 (.node 4 (.node 2 (.node 1 (.leaf st384) (.leaf st385)) (.node 1 (.leaf st386) (.leaf st387))) (.node 2 (.node 1 (.leaf st388) (.leaf st389)) (.node 1 (.leaf st390) (.leaf st391)))) (.node 4 (.node 2 (.node 1 (.leaf st392) (.leaf st393)) (.node 1 (.leaf st394) (.leaf st395))) (.node 2 (.node 1 (.leaf st396) (.leaf st397)) (.node 1 (.leaf st398) (.leaf st399))))) (.node 8 (.node 4 (.node 2 (.node 1 (.leaf st400) (.leaf st401)) (.node 1 (.leaf st402) (.leaf st403))) (.node 2 (.node 1 (.leaf st404) (.leaf st405)) (.node 1 (.leaf st406) (.leaf st407)))) (.node 4 (.node 2 (.node 1 (.leaf st408) (.leaf st409)) (.node 1 (.leaf st410) (.leaf st411))) (.node 2 (.node 1 (.leaf st412) (.leaf st413)) (.node 1 (.leaf st414) (.leaf st415)))))) (.node 16 (.node 8 (.node 4 (.node 2 (.node 1 (.leaf st416) (.leaf st417)) (.node 1 (.leaf st418) (.leaf st419))) (.node 2 (.node 1 (.leaf st420) (.leaf st421)) (.node 1 (.leaf st422) (.leaf st423)))) (.node 4 (.node 2 (.node 1 (.leaf st424) (.leaf st425)) (.node 1 (.leaf st426) (.leaf st427))) (.node 2 (.node 1 (.leaf st428) (.leaf st429)) (.node 1 (.leaf st430) (.leaf st431))))) (.node 8 (.node 4 (.node 2 (.node 1 (.leaf st432) (.leaf st433)) (.node 1 (.leaf st434) (.leaf st435))) (.node 2 (.node 1 (.leaf st436) (.leaf st437)) (.node 1 (.leaf st438) (.leaf st439)))) (.node 4 (.node 2 (.node 1 (.leaf st440) (.leaf st441)) (.node 1 (.leaf st442) (.leaf st443))) (.node 2 (.node 1 (.leaf st444) (.leaf st445)) (.node 1 (.leaf st446) (.leaf st447))))))) (.node 32 (.node 16 (.node 8 (.node 4 (.node 2 (.node 1 (.leaf st448) (.leaf st449)) (.node 1 (.leaf st450) (.leaf st451))) (.node 2 (.node 1 (.leaf st452) (.leaf st453)) (.node 1 (.leaf st454) (.leaf st455)))) (.node 4 (.node 2 (.node 1 (.leaf st456) (.leaf st457)) (.node 1 (.leaf st458) (.leaf st459))) (.node 2 (.node 1 (.leaf st460) (.leaf st461)) (.node 1 (.leaf st462) (.leaf st463))))) (.node 8 (.node 4 (.node 2 (.node 1 (.leaf st464) (.leaf st465)) (.node 1 (.leaf st466) (.leaf st467))) (.node 2 (.node 1 (.leaf st468) (.leaf st469)) (.node 1 (.leaf st470) (.leaf st471)))) (.node 4 (.node 2 (.node 1 (.leaf st472) (.leaf st473)) (.node 1 (.leaf st474) (.leaf st475))) (.node 2 (.node 1 (.leaf st476) (.leaf st477)) (.node 1 (.leaf st478) (.leaf st479)))))) (.node 16 (.node 8 (.node 4 (.node 2 (.node 1 (.leaf st480) (.leaf st481)) (.node 1 (.leaf st482) (.leaf st483))) (.node 2 (.node 1 (.leaf st484) (.leaf st485)) (.node 1 (.leaf st486) (.leaf st487)))) (.node 4 (.node 2 (.node 1 (.leaf st488) (.leaf st489)) (.node 1 (.leaf st490) (.leaf st491))) (.node 2 (.node 1 (.leaf st492) (.leaf st493)) (.node 1 (.leaf st494) (.leaf st495))))) (.node 8 (.node 4 (.node 2 (.node 1 (.leaf st496) (.leaf st497)) (.node 1 (.leaf st498) (.leaf st499))) (.node 2 (.node 1 (.leaf st500) (.leaf st501)) (.node 1 (.leaf st502) (.leaf st503)))) (.node 4 (.node 2 (.node 1 (.leaf st504) (.leaf st505)) (.node 1 (.leaf st506) (.leaf st507))) (.node 2 (.node 1 (.leaf st508) (.leaf st509)) (.node 1 (.leaf st510) (.leaf st511)))))))))) (.node 256 (.node 128 (.node 64 (.node 32 (.node 16 (.node 8 (.node 4 (.node 2 (.node 1 (.leaf st512) (.leaf st513)) (.node 1 (.leaf st514) (.leaf st515))) (.node 2 (.node 1 (.leaf st516) (.leaf st517)) (.node 1 (.leaf st518) (.leaf st519)))) (.node 4 (.node 2 (.node 1 (.leaf st520) (.leaf st521)) (.node 1 (.leaf st522) (.leaf st523))) (.node 2 (.node 1 (.leaf st524) (.leaf st525)) (.node 1 (.leaf st526) (.leaf st527))))) (.node 8 (.node 4 (.node 2 (.node 1 (.leaf st528) (.leaf st529)) (.node 1 (.leaf st530) (.leaf st531))) (.node 2 (.node 1 (.leaf st532) (.leaf st533)) (.node 1 (.leaf st534) (.leaf st535)))) (.node 4 (.node 2 (.node 1 (.leaf st536) (.leaf st537)) (.node 1 (.leaf st538) (.leaf st539))) (.node 2 (.node 1 (.leaf st540) (.leaf st541)) (.node 1 (.leaf st542) (.leaf st543)))))) (.node 16 (.node 8 (.node 4 (.node 2 (.node 1 (.leaf st544) (.leaf st545)) (.node 1 (.leaf st546) (.leaf st547))) (.node 2 (.node 1 (.leaf st548) (.leaf st549)) (.node 1 (.leaf st550) (.leaf st551)))) (.node 4 (.node 2 (.node 1 (.leaf st552) (.leaf st553)) (.node 1 (.leaf st554) (.leaf st555))) (.node 2 (.node 1 (.leaf st556) (.leaf st557)) (.node 1 (.leaf st558) (.leaf st559))))) (.node 8 (.node 4 (.node 2 (.node 1 (.leaf st560) (.leaf st561)) (.node 1 (.leaf st562) (.leaf st563))) (.node 2 (.node 1 (.leaf st564) (.leaf st565)) (.node 1 (.leaf st566) (.leaf st567)))) (.node 4 (.node 2 (.node 1 (.leaf st568) (.leaf st569)) (.node 1 (.leaf st570) (.leaf st571))) (.node 2 (.node 1 (.leaf st572) (.leaf st573)) (.node 1 (.leaf st574) (.leaf st575))))))) (.node 32 (.node 16 (.node 8 (.node 4 (.node 2 (.node 1 (.leaf st576) (.leaf st577)) (.node 1 (.leaf st578) (.leaf st579))) (.node 2 (.node 1 (.leaf st580) (.leaf st581)) (.node 1 (.leaf st582) (.leaf st583)))) (.node 4 (.node 2 (.node 1 (.leaf st584) (.leaf st585)) (.node 1 (.leaf st586) (.leaf st587))) (.node 2 (.node 1 (.leaf st588) (.leaf st589)) (.node 1 (.leaf st590) (.leaf st591))))) (.node 8 (.node 4 (.node 2 (.node 1 (.leaf st592) (.leaf st593)) (.node 1 (.leaf st594) (.leaf st595))) (.node 2 (.node 1 (.leaf st596) (.leaf st597)) (.node 1 (.leaf st598) (.leaf st599)))) (.node 4 (.node 2 (.node 1 (.leaf st600) (.leaf st601)) (.node 1 (.leaf st602) (.leaf st603))) (.node 2 (.node 1 (.leaf st604) (.leaf st605)) (.node 1 (.leaf st606) (.leaf st607)))))) (.node 16 (.node 8 (.node 4 (.node 2 (.node 1 (.leaf st608) (.leaf st609)) (.node 1 (.leaf st610) (.leaf st611))) (.node 2 (.node 1 (.leaf st612) (.leaf st613)) (.node 1 (.leaf st614) (.leaf st615)))) (.node 4 (.node 2 (.node 1 (.leaf st616) (.leaf st617)) (.node 1 (.leaf st618) (.leaf st619))) (.node 2 (.node 1 (.leaf st620) (.leaf st621)) (.node 1 (.leaf st622) (.leaf st623))))) (.node 8 (.node 4 (.node 2 (.node 1 (.leaf st624) (.leaf st625)) (.node 1 (.leaf st626) (.leaf st627))) (.node 2 (.node 1 (.leaf st628) (.leaf st629)) (.node 1 (.leaf st630) (.leaf st631)))) (.node 4 (.node 2 (.node 1 (.leaf st632) (.leaf st633)) (.node 1 (.leaf st634) (.leaf st635))) (.node 2 (.node 1 (.leaf st636) (.leaf st637)) (.node 1 (.leaf st638) (.leaf st639)))))))) (.node 64 (.node 32 (.node 16 (.node 8 (.node 4 (.node 2 (.node 1 (.leaf st640) (.leaf st641)) (.node 1 (.leaf st642) (.leaf st643))) (.node 2 (.node 1 (.leaf st644) (.leaf st645)) (.node 1 (.leaf st646) (.leaf st647)))) (.node 4 (.node 2 (.node 1 (.leaf st648) (.leaf st649)) (.node 1 (.leaf st650) (.leaf st651))) (.node 2 (.node 1 (.leaf st652) (.leaf st653)) (.node 1 (.leaf st654) (.leaf st655))))) .nil) .nil) .nil)) .nil))
end Verif.LR

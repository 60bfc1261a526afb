import Verif.Sql.ReadRules1
import Verif.Sql.ReadRules2
import Verif.Sql.ReadRules3
/-! GENERATED by tools/genread.py. Every rule. Proof-internal. -/
set_option linter.all false
namespace Verif.Sql.Read
open Verif.Lex Verif.LR Verif.Sem

theorem u0 : ∀ r, r < 0 → RuleOK r := fun _ h => absurd h (by omega)
theorem u1 : ∀ r, r < 1 → RuleOK r := lt_step u0 r0
theorem u2 : ∀ r, r < 2 → RuleOK r := lt_step u1 r1
theorem u3 : ∀ r, r < 3 → RuleOK r := lt_step u2 r2
theorem u4 : ∀ r, r < 4 → RuleOK r := lt_step u3 r3
theorem u5 : ∀ r, r < 5 → RuleOK r := lt_step u4 r4
theorem u6 : ∀ r, r < 6 → RuleOK r := lt_step u5 r5
theorem u7 : ∀ r, r < 7 → RuleOK r := lt_step u6 r6
theorem u8 : ∀ r, r < 8 → RuleOK r := lt_step u7 r7
theorem u9 : ∀ r, r < 9 → RuleOK r := lt_step u8 r8
theorem u10 : ∀ r, r < 10 → RuleOK r := lt_step u9 r9
theorem u11 : ∀ r, r < 11 → RuleOK r := lt_step u10 r10
theorem u12 : ∀ r, r < 12 → RuleOK r := lt_step u11 r11
theorem u13 : ∀ r, r < 13 → RuleOK r := lt_step u12 r12
theorem u14 : ∀ r, r < 14 → RuleOK r := lt_step u13 r13
theorem u15 : ∀ r, r < 15 → RuleOK r := lt_step u14 r14
theorem u16 : ∀ r, r < 16 → RuleOK r := lt_step u15 r15
theorem u17 : ∀ r, r < 17 → RuleOK r := lt_step u16 r16
theorem u18 : ∀ r, r < 18 → RuleOK r := lt_step u17 r17
theorem u19 : ∀ r, r < 19 → RuleOK r := lt_step u18 r18
theorem u20 : ∀ r, r < 20 → RuleOK r := lt_step u19 r19
theorem u21 : ∀ r, r < 21 → RuleOK r := lt_step u20 r20
theorem u22 : ∀ r, r < 22 → RuleOK r := lt_step u21 r21
theorem u23 : ∀ r, r < 23 → RuleOK r := lt_step u22 r22
theorem u24 : ∀ r, r < 24 → RuleOK r := lt_step u23 r23
theorem u25 : ∀ r, r < 25 → RuleOK r := lt_step u24 r24
theorem u26 : ∀ r, r < 26 → RuleOK r := lt_step u25 r25
theorem u27 : ∀ r, r < 27 → RuleOK r := lt_step u26 r26
theorem u28 : ∀ r, r < 28 → RuleOK r := lt_step u27 r27
theorem u29 : ∀ r, r < 29 → RuleOK r := lt_step u28 r28
theorem u30 : ∀ r, r < 30 → RuleOK r := lt_step u29 r29
theorem u31 : ∀ r, r < 31 → RuleOK r := lt_step u30 r30
theorem u32 : ∀ r, r < 32 → RuleOK r := lt_step u31 r31
theorem u33 : ∀ r, r < 33 → RuleOK r := lt_step u32 r32
theorem u34 : ∀ r, r < 34 → RuleOK r := lt_step u33 r33
theorem u35 : ∀ r, r < 35 → RuleOK r := lt_step u34 r34
theorem u36 : ∀ r, r < 36 → RuleOK r := lt_step u35 r35
theorem u37 : ∀ r, r < 37 → RuleOK r := lt_step u36 r36
theorem u38 : ∀ r, r < 38 → RuleOK r := lt_step u37 r37
theorem u39 : ∀ r, r < 39 → RuleOK r := lt_step u38 r38
theorem u40 : ∀ r, r < 40 → RuleOK r := lt_step u39 r39
theorem u41 : ∀ r, r < 41 → RuleOK r := lt_step u40 r40
theorem u42 : ∀ r, r < 42 → RuleOK r := lt_step u41 r41
theorem u43 : ∀ r, r < 43 → RuleOK r := lt_step u42 r42
theorem u44 : ∀ r, r < 44 → RuleOK r := lt_step u43 r43
theorem u45 : ∀ r, r < 45 → RuleOK r := lt_step u44 r44
theorem u46 : ∀ r, r < 46 → RuleOK r := lt_step u45 r45
theorem u47 : ∀ r, r < 47 → RuleOK r := lt_step u46 r46
theorem u48 : ∀ r, r < 48 → RuleOK r := lt_step u47 r47
theorem u49 : ∀ r, r < 49 → RuleOK r := lt_step u48 r48
theorem u50 : ∀ r, r < 50 → RuleOK r := lt_step u49 r49
theorem u51 : ∀ r, r < 51 → RuleOK r := lt_step u50 r50
theorem u52 : ∀ r, r < 52 → RuleOK r := lt_step u51 r51
theorem u53 : ∀ r, r < 53 → RuleOK r := lt_step u52 r52
theorem u54 : ∀ r, r < 54 → RuleOK r := lt_step u53 r53
theorem u55 : ∀ r, r < 55 → RuleOK r := lt_step u54 r54
theorem u56 : ∀ r, r < 56 → RuleOK r := lt_step u55 r55
theorem u57 : ∀ r, r < 57 → RuleOK r := lt_step u56 r56
theorem u58 : ∀ r, r < 58 → RuleOK r := lt_step u57 r57
theorem u59 : ∀ r, r < 59 → RuleOK r := lt_step u58 r58
theorem u60 : ∀ r, r < 60 → RuleOK r := lt_step u59 r59
theorem u61 : ∀ r, r < 61 → RuleOK r := lt_step u60 r60
theorem u62 : ∀ r, r < 62 → RuleOK r := lt_step u61 r61
theorem u63 : ∀ r, r < 63 → RuleOK r := lt_step u62 r62
theorem u64 : ∀ r, r < 64 → RuleOK r := lt_step u63 r63
theorem u65 : ∀ r, r < 65 → RuleOK r := lt_step u64 r64
theorem u66 : ∀ r, r < 66 → RuleOK r := lt_step u65 r65
theorem u67 : ∀ r, r < 67 → RuleOK r := lt_step u66 r66
theorem u68 : ∀ r, r < 68 → RuleOK r := lt_step u67 r67
theorem u69 : ∀ r, r < 69 → RuleOK r := lt_step u68 r68
theorem u70 : ∀ r, r < 70 → RuleOK r := lt_step u69 r69
theorem u71 : ∀ r, r < 71 → RuleOK r := lt_step u70 r70
theorem u72 : ∀ r, r < 72 → RuleOK r := lt_step u71 r71
theorem u73 : ∀ r, r < 73 → RuleOK r := lt_step u72 r72
theorem u74 : ∀ r, r < 74 → RuleOK r := lt_step u73 r73
theorem u75 : ∀ r, r < 75 → RuleOK r := lt_step u74 r74
theorem u76 : ∀ r, r < 76 → RuleOK r := lt_step u75 r75
theorem u77 : ∀ r, r < 77 → RuleOK r := lt_step u76 r76
theorem u78 : ∀ r, r < 78 → RuleOK r := lt_step u77 r77
theorem u79 : ∀ r, r < 79 → RuleOK r := lt_step u78 r78
theorem u80 : ∀ r, r < 80 → RuleOK r := lt_step u79 r79
theorem u81 : ∀ r, r < 81 → RuleOK r := lt_step u80 r80
theorem u82 : ∀ r, r < 82 → RuleOK r := lt_step u81 r81
theorem u83 : ∀ r, r < 83 → RuleOK r := lt_step u82 r82
theorem u84 : ∀ r, r < 84 → RuleOK r := lt_step u83 r83
theorem u85 : ∀ r, r < 85 → RuleOK r := lt_step u84 r84
theorem u86 : ∀ r, r < 86 → RuleOK r := lt_step u85 r85
theorem u87 : ∀ r, r < 87 → RuleOK r := lt_step u86 r86
theorem u88 : ∀ r, r < 88 → RuleOK r := lt_step u87 r87
theorem u89 : ∀ r, r < 89 → RuleOK r := lt_step u88 r88
theorem u90 : ∀ r, r < 90 → RuleOK r := lt_step u89 r89
theorem u91 : ∀ r, r < 91 → RuleOK r := lt_step u90 r90
theorem u92 : ∀ r, r < 92 → RuleOK r := lt_step u91 r91
theorem u93 : ∀ r, r < 93 → RuleOK r := lt_step u92 r92
theorem u94 : ∀ r, r < 94 → RuleOK r := lt_step u93 r93
theorem u95 : ∀ r, r < 95 → RuleOK r := lt_step u94 r94
theorem u96 : ∀ r, r < 96 → RuleOK r := lt_step u95 r95
theorem u97 : ∀ r, r < 97 → RuleOK r := lt_step u96 r96
theorem u98 : ∀ r, r < 98 → RuleOK r := lt_step u97 r97
theorem u99 : ∀ r, r < 99 → RuleOK r := lt_step u98 r98
theorem u100 : ∀ r, r < 100 → RuleOK r := lt_step u99 r99
theorem u101 : ∀ r, r < 101 → RuleOK r := lt_step u100 r100
theorem u102 : ∀ r, r < 102 → RuleOK r := lt_step u101 r101
theorem u103 : ∀ r, r < 103 → RuleOK r := lt_step u102 r102
theorem u104 : ∀ r, r < 104 → RuleOK r := lt_step u103 r103
theorem u105 : ∀ r, r < 105 → RuleOK r := lt_step u104 r104
theorem u106 : ∀ r, r < 106 → RuleOK r := lt_step u105 r105
theorem u107 : ∀ r, r < 107 → RuleOK r := lt_step u106 r106
theorem u108 : ∀ r, r < 108 → RuleOK r := lt_step u107 r107
theorem u109 : ∀ r, r < 109 → RuleOK r := lt_step u108 r108
theorem u110 : ∀ r, r < 110 → RuleOK r := lt_step u109 r109
theorem u111 : ∀ r, r < 111 → RuleOK r := lt_step u110 r110
theorem u112 : ∀ r, r < 112 → RuleOK r := lt_step u111 r111
theorem u113 : ∀ r, r < 113 → RuleOK r := lt_step u112 r112
theorem u114 : ∀ r, r < 114 → RuleOK r := lt_step u113 r113
theorem u115 : ∀ r, r < 115 → RuleOK r := lt_step u114 r114
theorem u116 : ∀ r, r < 116 → RuleOK r := lt_step u115 r115
theorem u117 : ∀ r, r < 117 → RuleOK r := lt_step u116 r116
theorem u118 : ∀ r, r < 118 → RuleOK r := lt_step u117 r117
theorem u119 : ∀ r, r < 119 → RuleOK r := lt_step u118 r118
theorem u120 : ∀ r, r < 120 → RuleOK r := lt_step u119 r119
theorem u121 : ∀ r, r < 121 → RuleOK r := lt_step u120 r120
theorem u122 : ∀ r, r < 122 → RuleOK r := lt_step u121 r121
theorem u123 : ∀ r, r < 123 → RuleOK r := lt_step u122 r122
theorem u124 : ∀ r, r < 124 → RuleOK r := lt_step u123 r123
theorem u125 : ∀ r, r < 125 → RuleOK r := lt_step u124 r124
theorem u126 : ∀ r, r < 126 → RuleOK r := lt_step u125 r125
theorem u127 : ∀ r, r < 127 → RuleOK r := lt_step u126 r126
theorem u128 : ∀ r, r < 128 → RuleOK r := lt_step u127 r127
theorem u129 : ∀ r, r < 129 → RuleOK r := lt_step u128 r128
theorem u130 : ∀ r, r < 130 → RuleOK r := lt_step u129 r129
theorem u131 : ∀ r, r < 131 → RuleOK r := lt_step u130 r130
theorem u132 : ∀ r, r < 132 → RuleOK r := lt_step u131 r131
theorem u133 : ∀ r, r < 133 → RuleOK r := lt_step u132 r132
theorem u134 : ∀ r, r < 134 → RuleOK r := lt_step u133 r133
theorem u135 : ∀ r, r < 135 → RuleOK r := lt_step u134 r134
theorem u136 : ∀ r, r < 136 → RuleOK r := lt_step u135 r135
theorem u137 : ∀ r, r < 137 → RuleOK r := lt_step u136 r136
theorem u138 : ∀ r, r < 138 → RuleOK r := lt_step u137 r137
theorem u139 : ∀ r, r < 139 → RuleOK r := lt_step u138 r138
theorem u140 : ∀ r, r < 140 → RuleOK r := lt_step u139 r139
theorem u141 : ∀ r, r < 141 → RuleOK r := lt_step u140 r140
theorem u142 : ∀ r, r < 142 → RuleOK r := lt_step u141 r141
theorem u143 : ∀ r, r < 143 → RuleOK r := lt_step u142 r142
theorem u144 : ∀ r, r < 144 → RuleOK r := lt_step u143 r143
theorem u145 : ∀ r, r < 145 → RuleOK r := lt_step u144 r144
theorem u146 : ∀ r, r < 146 → RuleOK r := lt_step u145 r145
theorem u147 : ∀ r, r < 147 → RuleOK r := lt_step u146 r146
theorem u148 : ∀ r, r < 148 → RuleOK r := lt_step u147 r147
theorem u149 : ∀ r, r < 149 → RuleOK r := lt_step u148 r148
theorem u150 : ∀ r, r < 150 → RuleOK r := lt_step u149 r149
theorem u151 : ∀ r, r < 151 → RuleOK r := lt_step u150 r150
theorem u152 : ∀ r, r < 152 → RuleOK r := lt_step u151 r151
theorem u153 : ∀ r, r < 153 → RuleOK r := lt_step u152 r152
theorem u154 : ∀ r, r < 154 → RuleOK r := lt_step u153 r153
theorem u155 : ∀ r, r < 155 → RuleOK r := lt_step u154 r154
theorem u156 : ∀ r, r < 156 → RuleOK r := lt_step u155 r155
theorem u157 : ∀ r, r < 157 → RuleOK r := lt_step u156 r156
theorem u158 : ∀ r, r < 158 → RuleOK r := lt_step u157 r157
theorem u159 : ∀ r, r < 159 → RuleOK r := lt_step u158 r158
theorem u160 : ∀ r, r < 160 → RuleOK r := lt_step u159 r159
theorem u161 : ∀ r, r < 161 → RuleOK r := lt_step u160 r160
theorem u162 : ∀ r, r < 162 → RuleOK r := lt_step u161 r161
theorem u163 : ∀ r, r < 163 → RuleOK r := lt_step u162 r162
theorem u164 : ∀ r, r < 164 → RuleOK r := lt_step u163 r163
theorem u165 : ∀ r, r < 165 → RuleOK r := lt_step u164 r164
theorem u166 : ∀ r, r < 166 → RuleOK r := lt_step u165 r165
theorem u167 : ∀ r, r < 167 → RuleOK r := lt_step u166 r166
theorem u168 : ∀ r, r < 168 → RuleOK r := lt_step u167 r167
theorem u169 : ∀ r, r < 169 → RuleOK r := lt_step u168 r168
theorem u170 : ∀ r, r < 170 → RuleOK r := lt_step u169 r169
theorem u171 : ∀ r, r < 171 → RuleOK r := lt_step u170 r170
theorem u172 : ∀ r, r < 172 → RuleOK r := lt_step u171 r171
theorem u173 : ∀ r, r < 173 → RuleOK r := lt_step u172 r172
theorem u174 : ∀ r, r < 174 → RuleOK r := lt_step u173 r173
theorem u175 : ∀ r, r < 175 → RuleOK r := lt_step u174 r174
theorem u176 : ∀ r, r < 176 → RuleOK r := lt_step u175 r175
theorem u177 : ∀ r, r < 177 → RuleOK r := lt_step u176 r176
theorem u178 : ∀ r, r < 178 → RuleOK r := lt_step u177 r177
theorem u179 : ∀ r, r < 179 → RuleOK r := lt_step u178 r178
theorem u180 : ∀ r, r < 180 → RuleOK r := lt_step u179 r179
theorem u181 : ∀ r, r < 181 → RuleOK r := lt_step u180 r180
theorem u182 : ∀ r, r < 182 → RuleOK r := lt_step u181 r181
theorem u183 : ∀ r, r < 183 → RuleOK r := lt_step u182 r182
theorem u184 : ∀ r, r < 184 → RuleOK r := lt_step u183 r183
theorem u185 : ∀ r, r < 185 → RuleOK r := lt_step u184 r184
theorem u186 : ∀ r, r < 186 → RuleOK r := lt_step u185 r185
theorem u187 : ∀ r, r < 187 → RuleOK r := lt_step u186 r186
theorem u188 : ∀ r, r < 188 → RuleOK r := lt_step u187 r187
theorem u189 : ∀ r, r < 189 → RuleOK r := lt_step u188 r188
theorem u190 : ∀ r, r < 190 → RuleOK r := lt_step u189 r189
theorem u191 : ∀ r, r < 191 → RuleOK r := lt_step u190 r190
theorem u192 : ∀ r, r < 192 → RuleOK r := lt_step u191 r191
theorem u193 : ∀ r, r < 193 → RuleOK r := lt_step u192 r192
theorem u194 : ∀ r, r < 194 → RuleOK r := lt_step u193 r193
theorem u195 : ∀ r, r < 195 → RuleOK r := lt_step u194 r194
theorem u196 : ∀ r, r < 196 → RuleOK r := lt_step u195 r195
theorem u197 : ∀ r, r < 197 → RuleOK r := lt_step u196 r196
theorem u198 : ∀ r, r < 198 → RuleOK r := lt_step u197 r197
theorem u199 : ∀ r, r < 199 → RuleOK r := lt_step u198 r198
theorem u200 : ∀ r, r < 200 → RuleOK r := lt_step u199 r199
theorem u201 : ∀ r, r < 201 → RuleOK r := lt_step u200 r200
theorem u202 : ∀ r, r < 202 → RuleOK r := lt_step u201 r201
theorem u203 : ∀ r, r < 203 → RuleOK r := lt_step u202 r202
theorem u204 : ∀ r, r < 204 → RuleOK r := lt_step u203 r203
theorem u205 : ∀ r, r < 205 → RuleOK r := lt_step u204 r204
theorem u206 : ∀ r, r < 206 → RuleOK r := lt_step u205 r205
theorem u207 : ∀ r, r < 207 → RuleOK r := lt_step u206 r206
theorem u208 : ∀ r, r < 208 → RuleOK r := lt_step u207 r207
theorem u209 : ∀ r, r < 209 → RuleOK r := lt_step u208 r208
theorem u210 : ∀ r, r < 210 → RuleOK r := lt_step u209 r209
theorem u211 : ∀ r, r < 211 → RuleOK r := lt_step u210 r210
theorem u212 : ∀ r, r < 212 → RuleOK r := lt_step u211 r211
theorem u213 : ∀ r, r < 213 → RuleOK r := lt_step u212 r212
theorem u214 : ∀ r, r < 214 → RuleOK r := lt_step u213 r213
theorem u215 : ∀ r, r < 215 → RuleOK r := lt_step u214 r214
theorem u216 : ∀ r, r < 216 → RuleOK r := lt_step u215 r215
theorem u217 : ∀ r, r < 217 → RuleOK r := lt_step u216 r216
theorem u218 : ∀ r, r < 218 → RuleOK r := lt_step u217 r217
theorem u219 : ∀ r, r < 219 → RuleOK r := lt_step u218 r218
theorem u220 : ∀ r, r < 220 → RuleOK r := lt_step u219 r219
theorem u221 : ∀ r, r < 221 → RuleOK r := lt_step u220 r220
theorem u222 : ∀ r, r < 222 → RuleOK r := lt_step u221 r221
theorem u223 : ∀ r, r < 223 → RuleOK r := lt_step u222 r222
theorem u224 : ∀ r, r < 224 → RuleOK r := lt_step u223 r223
theorem u225 : ∀ r, r < 225 → RuleOK r := lt_step u224 r224
theorem u226 : ∀ r, r < 226 → RuleOK r := lt_step u225 r225
theorem u227 : ∀ r, r < 227 → RuleOK r := lt_step u226 r226
theorem u228 : ∀ r, r < 228 → RuleOK r := lt_step u227 r227
theorem u229 : ∀ r, r < 229 → RuleOK r := lt_step u228 r228
theorem u230 : ∀ r, r < 230 → RuleOK r := lt_step u229 r229
theorem u231 : ∀ r, r < 231 → RuleOK r := lt_step u230 r230
theorem u232 : ∀ r, r < 232 → RuleOK r := lt_step u231 r231
theorem u233 : ∀ r, r < 233 → RuleOK r := lt_step u232 r232
theorem u234 : ∀ r, r < 234 → RuleOK r := lt_step u233 r233
theorem u235 : ∀ r, r < 235 → RuleOK r := lt_step u234 r234
theorem u236 : ∀ r, r < 236 → RuleOK r := lt_step u235 r235
theorem u237 : ∀ r, r < 237 → RuleOK r := lt_step u236 r236
theorem u238 : ∀ r, r < 238 → RuleOK r := lt_step u237 r237
theorem u239 : ∀ r, r < 239 → RuleOK r := lt_step u238 r238
theorem u240 : ∀ r, r < 240 → RuleOK r := lt_step u239 r239
theorem u241 : ∀ r, r < 241 → RuleOK r := lt_step u240 r240
theorem u242 : ∀ r, r < 242 → RuleOK r := lt_step u241 r241
theorem u243 : ∀ r, r < 243 → RuleOK r := lt_step u242 r242
theorem u244 : ∀ r, r < 244 → RuleOK r := lt_step u243 r243
theorem u245 : ∀ r, r < 245 → RuleOK r := lt_step u244 r244
theorem u246 : ∀ r, r < 246 → RuleOK r := lt_step u245 r245
theorem u247 : ∀ r, r < 247 → RuleOK r := lt_step u246 r246
theorem u248 : ∀ r, r < 248 → RuleOK r := lt_step u247 r247
theorem u249 : ∀ r, r < 249 → RuleOK r := lt_step u248 r248
theorem u250 : ∀ r, r < 250 → RuleOK r := lt_step u249 r249
theorem u251 : ∀ r, r < 251 → RuleOK r := lt_step u250 r250
theorem u252 : ∀ r, r < 252 → RuleOK r := lt_step u251 r251
theorem u253 : ∀ r, r < 253 → RuleOK r := lt_step u252 r252
theorem u254 : ∀ r, r < 254 → RuleOK r := lt_step u253 r253
theorem u255 : ∀ r, r < 255 → RuleOK r := lt_step u254 r254
theorem u256 : ∀ r, r < 256 → RuleOK r := lt_step u255 r255
theorem u257 : ∀ r, r < 257 → RuleOK r := lt_step u256 r256
theorem u258 : ∀ r, r < 258 → RuleOK r := lt_step u257 r257
theorem u259 : ∀ r, r < 259 → RuleOK r := lt_step u258 r258
theorem u260 : ∀ r, r < 260 → RuleOK r := lt_step u259 r259
theorem u261 : ∀ r, r < 261 → RuleOK r := lt_step u260 r260
theorem u262 : ∀ r, r < 262 → RuleOK r := lt_step u261 r261
theorem u263 : ∀ r, r < 263 → RuleOK r := lt_step u262 r262
theorem u264 : ∀ r, r < 264 → RuleOK r := lt_step u263 r263
theorem u265 : ∀ r, r < 265 → RuleOK r := lt_step u264 r264
theorem u266 : ∀ r, r < 266 → RuleOK r := lt_step u265 r265
theorem u267 : ∀ r, r < 267 → RuleOK r := lt_step u266 r266
theorem u268 : ∀ r, r < 268 → RuleOK r := lt_step u267 r267
theorem u269 : ∀ r, r < 269 → RuleOK r := lt_step u268 r268
theorem u270 : ∀ r, r < 270 → RuleOK r := lt_step u269 r269
theorem u271 : ∀ r, r < 271 → RuleOK r := lt_step u270 r270
theorem u272 : ∀ r, r < 272 → RuleOK r := lt_step u271 r271
theorem u273 : ∀ r, r < 273 → RuleOK r := lt_step u272 r272
theorem u274 : ∀ r, r < 274 → RuleOK r := lt_step u273 r273
theorem u275 : ∀ r, r < 275 → RuleOK r := lt_step u274 r274
theorem u276 : ∀ r, r < 276 → RuleOK r := lt_step u275 r275
theorem u277 : ∀ r, r < 277 → RuleOK r := lt_step u276 r276
theorem u278 : ∀ r, r < 278 → RuleOK r := lt_step u277 r277
theorem u279 : ∀ r, r < 279 → RuleOK r := lt_step u278 r278
theorem u280 : ∀ r, r < 280 → RuleOK r := lt_step u279 r279
theorem u281 : ∀ r, r < 281 → RuleOK r := lt_step u280 r280
theorem u282 : ∀ r, r < 282 → RuleOK r := lt_step u281 r281
theorem u283 : ∀ r, r < 283 → RuleOK r := lt_step u282 r282
theorem u284 : ∀ r, r < 284 → RuleOK r := lt_step u283 r283
theorem u285 : ∀ r, r < 285 → RuleOK r := lt_step u284 r284
theorem u286 : ∀ r, r < 286 → RuleOK r := lt_step u285 r285
theorem u287 : ∀ r, r < 287 → RuleOK r := lt_step u286 r286
theorem u288 : ∀ r, r < 288 → RuleOK r := lt_step u287 r287
theorem u289 : ∀ r, r < 289 → RuleOK r := lt_step u288 r288
theorem u290 : ∀ r, r < 290 → RuleOK r := lt_step u289 r289
theorem u291 : ∀ r, r < 291 → RuleOK r := lt_step u290 r290
theorem u292 : ∀ r, r < 292 → RuleOK r := lt_step u291 r291
theorem u293 : ∀ r, r < 293 → RuleOK r := lt_step u292 r292
theorem u294 : ∀ r, r < 294 → RuleOK r := lt_step u293 r293
theorem u295 : ∀ r, r < 295 → RuleOK r := lt_step u294 r294
theorem u296 : ∀ r, r < 296 → RuleOK r := lt_step u295 r295
theorem u297 : ∀ r, r < 297 → RuleOK r := lt_step u296 r296
theorem u298 : ∀ r, r < 298 → RuleOK r := lt_step u297 r297
theorem u299 : ∀ r, r < 299 → RuleOK r := lt_step u298 r298
theorem u300 : ∀ r, r < 300 → RuleOK r := lt_step u299 r299
theorem u301 : ∀ r, r < 301 → RuleOK r := lt_step u300 r300
theorem u302 : ∀ r, r < 302 → RuleOK r := lt_step u301 r301
theorem u303 : ∀ r, r < 303 → RuleOK r := lt_step u302 r302
theorem u304 : ∀ r, r < 304 → RuleOK r := lt_step u303 r303
theorem u305 : ∀ r, r < 305 → RuleOK r := lt_step u304 r304
theorem u306 : ∀ r, r < 306 → RuleOK r := lt_step u305 r305
theorem u307 : ∀ r, r < 307 → RuleOK r := lt_step u306 r306
theorem u308 : ∀ r, r < 308 → RuleOK r := lt_step u307 r307
theorem u309 : ∀ r, r < 309 → RuleOK r := lt_step u308 r308
theorem u310 : ∀ r, r < 310 → RuleOK r := lt_step u309 r309
theorem u311 : ∀ r, r < 311 → RuleOK r := lt_step u310 r310
theorem u312 : ∀ r, r < 312 → RuleOK r := lt_step u311 r311
theorem u313 : ∀ r, r < 313 → RuleOK r := lt_step u312 r312
theorem u314 : ∀ r, r < 314 → RuleOK r := lt_step u313 r313
theorem u315 : ∀ r, r < 315 → RuleOK r := lt_step u314 r314
theorem u316 : ∀ r, r < 316 → RuleOK r := lt_step u315 r315
theorem u317 : ∀ r, r < 317 → RuleOK r := lt_step u316 r316
theorem u318 : ∀ r, r < 318 → RuleOK r := lt_step u317 r317
theorem u319 : ∀ r, r < 319 → RuleOK r := lt_step u318 r318
theorem u320 : ∀ r, r < 320 → RuleOK r := lt_step u319 r319
theorem u321 : ∀ r, r < 321 → RuleOK r := lt_step u320 r320
theorem u322 : ∀ r, r < 322 → RuleOK r := lt_step u321 r321
theorem u323 : ∀ r, r < 323 → RuleOK r := lt_step u322 r322
theorem u324 : ∀ r, r < 324 → RuleOK r := lt_step u323 r323
theorem u325 : ∀ r, r < 325 → RuleOK r := lt_step u324 r324
theorem u326 : ∀ r, r < 326 → RuleOK r := lt_step u325 r325
theorem u327 : ∀ r, r < 327 → RuleOK r := lt_step u326 r326
theorem u328 : ∀ r, r < 328 → RuleOK r := lt_step u327 r327
theorem u329 : ∀ r, r < 329 → RuleOK r := lt_step u328 r328
theorem u330 : ∀ r, r < 330 → RuleOK r := lt_step u329 r329
theorem u331 : ∀ r, r < 331 → RuleOK r := lt_step u330 r330
theorem u332 : ∀ r, r < 332 → RuleOK r := lt_step u331 r331
theorem u333 : ∀ r, r < 333 → RuleOK r := lt_step u332 r332
theorem u334 : ∀ r, r < 334 → RuleOK r := lt_step u333 r333
theorem u335 : ∀ r, r < 335 → RuleOK r := lt_step u334 r334
theorem u336 : ∀ r, r < 336 → RuleOK r := lt_step u335 r335
theorem u337 : ∀ r, r < 337 → RuleOK r := lt_step u336 r336
theorem u338 : ∀ r, r < 338 → RuleOK r := lt_step u337 r337
theorem u339 : ∀ r, r < 339 → RuleOK r := lt_step u338 r338
theorem u340 : ∀ r, r < 340 → RuleOK r := lt_step u339 r339
theorem u341 : ∀ r, r < 341 → RuleOK r := lt_step u340 r340
theorem u342 : ∀ r, r < 342 → RuleOK r := lt_step u341 r341
theorem u343 : ∀ r, r < 343 → RuleOK r := lt_step u342 r342
theorem u344 : ∀ r, r < 344 → RuleOK r := lt_step u343 r343
theorem u345 : ∀ r, r < 345 → RuleOK r := lt_step u344 r344
theorem u346 : ∀ r, r < 346 → RuleOK r := lt_step u345 r345
theorem u347 : ∀ r, r < 347 → RuleOK r := lt_step u346 r346
theorem u348 : ∀ r, r < 348 → RuleOK r := lt_step u347 r347
theorem u349 : ∀ r, r < 349 → RuleOK r := lt_step u348 r348
theorem u350 : ∀ r, r < 350 → RuleOK r := lt_step u349 r349
theorem u351 : ∀ r, r < 351 → RuleOK r := lt_step u350 r350
theorem u352 : ∀ r, r < 352 → RuleOK r := lt_step u351 r351
theorem u353 : ∀ r, r < 353 → RuleOK r := lt_step u352 r352
theorem u354 : ∀ r, r < 354 → RuleOK r := lt_step u353 r353
theorem u355 : ∀ r, r < 355 → RuleOK r := lt_step u354 r354
theorem u356 : ∀ r, r < 356 → RuleOK r := lt_step u355 r355
theorem u357 : ∀ r, r < 357 → RuleOK r := lt_step u356 r356
theorem u358 : ∀ r, r < 358 → RuleOK r := lt_step u357 r357

end Verif.Sql.Read

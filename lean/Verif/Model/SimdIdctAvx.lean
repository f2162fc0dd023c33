import Verif.Model.SimdProg
/-
Vector versions (AVX2) of the inverse transforms, source/common/vec/intrinsic_idct_avx2.cc.

The statements of the functions in the order of the text; loops with `rep`.  The numbers of the registers are given
at the head of each function.  Produced from the text of the functions by replacing each variable by its number and each intrinsic by its name
in Model/SimdProg.lean.
-/
namespace Davs2.Si

/-! ### `idct_8x8_avx2`

Registers: 0 mAdd, 1 S1S5, 2 S3S7, 3 T0, 4 T1, 5 T2, 6 T3, 7 E0, 8 E1, 9 E2, 10 E3, 11 O0, 12 O1, 13 O2, 14 O3, 15 EE0, 16 EE1, 17
EO0, 18 EO1, 19 S0, 20 S1, 21 S2, 22 S3, 23 S4, 24 S5, 25 S6, 26 S7, 27 C00, 28 C01, 29 C02, 30 C03, 31 C04, 32 C05, 33 C06, 34
C07, 35 max_val, 36 min_val. -/


/-- source/common/vec/intrinsic_idct_avx2.cc:81-199. -/
def idct_8x8_avx2_1 : List S := [
  .set 1 (.ld2 40 8),
  .set 2 (.ld2 56 24),
  .set 3 (.op .lo16 (.r 1) (.r 2)),
  .set 4 (.op .hi16 (.r 1) (.r 2)),
  .set 5 (.op .perm20 (.r 3) (.r 4)),
  .set 6 (.op .perm31 (.r 3) (.r 4)),
  .set 11 (.op .add32 (.op .madd (.r 5) (.kk 44 38)) (.op .madd (.r 6) (.kk 25 9))),
  .set 12 (.op .add32 (.op .madd (.r 5) (.kk 38 (-9))) (.op .madd (.r 6) (.kk (-44) (-25)))),
  .set 13 (.op .add32 (.op .madd (.r 5) (.kk 25 (-44))) (.op .madd (.r 6) (.kk 9 38))),
  .set 14 (.op .add32 (.op .madd (.r 5) (.kk 9 (-25))) (.op .madd (.r 6) (.kk 38 (-44)))),
  .set 1 (.ld2 16 0),
  .set 2 (.ld2 48 32),
  .set 3 (.op .lo16 (.r 1) (.r 2)),
  .set 4 (.op .hi16 (.r 1) (.r 2)),
  .set 5 (.op .perm20 (.r 3) (.r 4)),
  .set 6 (.op .perm31 (.r 3) (.r 4)),
  .set 15 (.op .madd (.r 5) (.kk 32 32)),
  .set 16 (.op .madd (.r 5) (.kk 32 (-32))),
  .set 17 (.op .madd (.r 6) (.kk 42 17)),
  .set 18 (.op .madd (.r 6) (.kk 17 (-42))),
  .set 0 (.k32 16),
  .set 7 (.op .add32 (.r 15) (.r 17)),
  .set 8 (.op .add32 (.r 16) (.r 18)),
  .set 10 (.op .sub32 (.r 15) (.r 17)),
  .set 9 (.op .sub32 (.r 16) (.r 18)),
  .set 7 (.op .add32 (.r 7) (.r 0)),
  .set 8 (.op .add32 (.r 8) (.r 0)),
  .set 9 (.op .add32 (.r 9) (.r 0)),
  .set 10 (.op .add32 (.r 10) (.r 0)),
  .set 19 (.sra32 (.op .add32 (.r 7) (.r 11)) 5),
  .set 26 (.sra32 (.op .sub32 (.r 7) (.r 11)) 5),
  .set 20 (.sra32 (.op .add32 (.r 8) (.r 12)) 5),
  .set 25 (.sra32 (.op .sub32 (.r 8) (.r 12)) 5),
  .set 21 (.sra32 (.op .add32 (.r 9) (.r 13)) 5),
  .set 24 (.sra32 (.op .sub32 (.r 9) (.r 13)) 5),
  .set 22 (.sra32 (.op .add32 (.r 10) (.r 14)) 5),
  .set 23 (.sra32 (.op .sub32 (.r 10) (.r 14)) 5),
  .set 27 (.op .perm20 (.r 19) (.r 23)),
  .set 28 (.op .perm31 (.r 19) (.r 23)),
  .set 29 (.op .perm20 (.r 20) (.r 24)),
  .set 30 (.op .perm31 (.r 20) (.r 24)),
  .set 31 (.op .perm20 (.r 21) (.r 25)),
  .set 32 (.op .perm31 (.r 21) (.r 25)),
  .set 33 (.op .perm20 (.r 22) (.r 26)),
  .set 34 (.op .perm31 (.r 22) (.r 26)),
  .set 19 (.op .packs (.r 27) (.r 28)),
  .set 20 (.op .packs (.r 29) (.r 30)),
  .set 21 (.op .packs (.r 31) (.r 32)),
  .set 22 (.op .packs (.r 33) (.r 34)),
  .set 23 (.op .lo16 (.r 19) (.r 20)),
  .set 24 (.op .lo16 (.r 21) (.r 22)),
  .set 25 (.op .hi16 (.r 19) (.r 20)),
  .set 26 (.op .hi16 (.r 21) (.r 22)),
  .set 27 (.op .lo32 (.r 23) (.r 24)),
  .set 28 (.op .lo32 (.r 25) (.r 26)),
  .set 29 (.op .hi32 (.r 23) (.r 24)),
  .set 30 (.op .hi32 (.r 25) (.r 26)),
  .set 31 (.op .perm20 (.r 27) (.r 29)),
  .set 32 (.op .perm31 (.r 27) (.r 29)),
  .set 33 (.op .perm20 (.r 28) (.r 30)),
  .set 34 (.op .perm31 (.r 28) (.r 30)),
  .set 19 (.op .lo64 (.r 31) (.r 32)),
  .set 20 (.op .lo64 (.r 33) (.r 34)),
  .set 21 (.op .hi64 (.r 31) (.r 32)),
  .set 22 (.op .hi64 (.r 33) (.r 34)),
  .set 23 (.op .perm20 (.r 21) (.r 22)),
  .set 24 (.op .perm31 (.r 21) (.r 22)),
  .set 3 (.op .lo16 (.r 23) (.r 24)),
  .set 4 (.op .hi16 (.r 23) (.r 24)),
  .set 5 (.op .perm20 (.r 3) (.r 4)),
  .set 6 (.op .perm31 (.r 3) (.r 4)),
  .set 11 (.op .add32 (.op .madd (.r 5) (.kk 44 38)) (.op .madd (.r 6) (.kk 25 9))),
  .set 12 (.op .add32 (.op .madd (.r 5) (.kk 38 (-9))) (.op .madd (.r 6) (.kk (-44) (-25)))),
  .set 13 (.op .add32 (.op .madd (.r 5) (.kk 25 (-44))) (.op .madd (.r 6) (.kk 9 38))),
  .set 14 (.op .add32 (.op .madd (.r 5) (.kk 9 (-25))) (.op .madd (.r 6) (.kk 38 (-44)))),
  .set 3 (.op .lo16 (.r 19) (.r 20)),
  .set 4 (.op .hi16 (.r 19) (.r 20)),
  .set 5 (.op .perm20 (.r 3) (.r 4)),
  .set 6 (.op .perm31 (.r 3) (.r 4)),
  .set 15 (.op .madd (.r 5) (.kk 32 32))]

/-- source/common/vec/intrinsic_idct_avx2.cc:200-275. -/
def idct_8x8_avx2_2 : List S := [
  .set 16 (.op .madd (.r 5) (.kk 32 (-32))),
  .set 17 (.op .madd (.r 6) (.kk 42 17)),
  .set 18 (.op .madd (.r 6) (.kk 17 (-42))),
  .set 0 (.k32 2048),
  .set 7 (.op .add32 (.r 15) (.r 17)),
  .set 8 (.op .add32 (.r 16) (.r 18)),
  .set 10 (.op .sub32 (.r 15) (.r 17)),
  .set 9 (.op .sub32 (.r 16) (.r 18)),
  .set 7 (.op .add32 (.r 7) (.r 0)),
  .set 8 (.op .add32 (.r 8) (.r 0)),
  .set 9 (.op .add32 (.r 9) (.r 0)),
  .set 10 (.op .add32 (.r 10) (.r 0)),
  .set 19 (.sra32 (.op .add32 (.r 7) (.r 11)) 12),
  .set 26 (.sra32 (.op .sub32 (.r 7) (.r 11)) 12),
  .set 20 (.sra32 (.op .add32 (.r 8) (.r 12)) 12),
  .set 25 (.sra32 (.op .sub32 (.r 8) (.r 12)) 12),
  .set 21 (.sra32 (.op .add32 (.r 9) (.r 13)) 12),
  .set 24 (.sra32 (.op .sub32 (.r 9) (.r 13)) 12),
  .set 22 (.sra32 (.op .add32 (.r 10) (.r 14)) 12),
  .set 23 (.sra32 (.op .sub32 (.r 10) (.r 14)) 12),
  .set 27 (.op .perm20 (.r 19) (.r 23)),
  .set 28 (.op .perm31 (.r 19) (.r 23)),
  .set 29 (.op .perm20 (.r 20) (.r 24)),
  .set 30 (.op .perm31 (.r 20) (.r 24)),
  .set 31 (.op .perm20 (.r 21) (.r 25)),
  .set 32 (.op .perm31 (.r 21) (.r 25)),
  .set 33 (.op .perm20 (.r 22) (.r 26)),
  .set 34 (.op .perm31 (.r 22) (.r 26)),
  .set 19 (.op .packs (.r 27) (.r 28)),
  .set 20 (.op .packs (.r 29) (.r 30)),
  .set 21 (.op .packs (.r 31) (.r 32)),
  .set 22 (.op .packs (.r 33) (.r 34)),
  .set 23 (.op .lo16 (.r 19) (.r 20)),
  .set 24 (.op .lo16 (.r 21) (.r 22)),
  .set 25 (.op .hi16 (.r 19) (.r 20)),
  .set 26 (.op .hi16 (.r 21) (.r 22)),
  .set 27 (.op .lo32 (.r 23) (.r 24)),
  .set 28 (.op .lo32 (.r 25) (.r 26)),
  .set 29 (.op .hi32 (.r 23) (.r 24)),
  .set 30 (.op .hi32 (.r 25) (.r 26)),
  .set 31 (.op .perm20 (.r 27) (.r 29)),
  .set 32 (.op .perm31 (.r 27) (.r 29)),
  .set 33 (.op .perm20 (.r 28) (.r 30)),
  .set 34 (.op .perm31 (.r 28) (.r 30)),
  .set 19 (.op .lo64 (.r 31) (.r 32)),
  .set 20 (.op .lo64 (.r 33) (.r 34)),
  .set 21 (.op .hi64 (.r 31) (.r 32)),
  .set 22 (.op .hi64 (.r 33) (.r 34)),
  .set 35 (.k16 255),
  .set 36 (.k16 (-256)),
  .set 19 (.op .max16 (.op .min16 (.r 19) (.r 35)) (.r 36)),
  .set 20 (.op .max16 (.op .min16 (.r 20) (.r 35)) (.r 36)),
  .set 21 (.op .max16 (.op .min16 (.r 21) (.r 35)) (.r 36)),
  .set 22 (.op .max16 (.op .min16 (.r 22) (.r 35)) (.r 36)),
  .st2 16 0 (.r 19),
  .st2 48 32 (.r 20),
  .st2 24 8 (.r 21),
  .st2 56 40 (.r 22)]

/-- `idct_8x8_avx2`, source/common/vec/intrinsic_idct_avx2.cc:64. -/
def idct_8x8_avx2 : List S :=
  idct_8x8_avx2_1 ++ idct_8x8_avx2_2

/-! ### `idct_16x16_avx2`

Registers: 0 c16_p43_p45, 1 c16_p35_p40, 2 c16_p21_p29, 3 c16_p04_p13, 4 c16_p29_p43, 5 c16_n21_p04, 6 c16_n45_n40, 7 c16_n13_n35,
8 c16_p04_p40, 9 c16_n43_n35, 10 c16_p29_n13, 11 c16_p21_p45, 12 c16_n21_p35, 13 c16_p04_n43, 14 c16_p13_p45, 15 c16_n29_n40, 16
c16_n40_p29, 17 c16_p45_n13, 18 c16_n43_n04, 19 c16_p35_p21, 20 c16_n45_p21, 21 c16_p13_p29, 22 c16_p35_n43, 23 c16_n40_p04, 24
c16_n35_p13, 25 c16_n40_p45, 26 c16_p04_p21, 27 c16_p43_n29, 28 c16_n13_p04, 29 c16_n29_p21, 30 c16_n40_p35, 31 c16_n45_p43, 32
c16_p38_p44, 33 c16_p09_p25, 34 c16_n09_p38, 35 c16_n25_n44, 36 c16_n44_p25, 37 c16_p38_p09, 38 c16_n25_p09, 39 c16_n44_p38, 40
c16_p17_p42, 41 c16_n42_p17, 42 c16_n32_p32, 43 c16_p32_p32, 44 max_val, 45 min_val, 46 c32_rnd, 47 in00, 48 in01, 49 in02, 50
in03, 51 in04, 52 in05, 53 in06, 54 in07, 55 in08, 56 in09, 57 in10, 58 in11, 59 in12, 60 in13, 61 in14, 62 in15, 63 res00, 64
res01, 65 res02, 66 res03, 67 res04, 68 res05, 69 res06, 70 res07, 71 res08, 72 res09, 73 res10, 74 res11, 75 res12, 76 res13, 77
res14, 78 res15, 79 T_00_00A, 80 T_00_00B, 81 T_00_01A, 82 T_00_01B, 83 T_00_02A, 84 T_00_02B, 85 T_00_03A, 86 T_00_03B, 87
T_00_04A, 88 T_00_04B, 89 T_00_05A, 90 T_00_05B, 91 T_00_06A, 92 T_00_06B, 93 T_00_07A, 94 T_00_07B, 95 O0A, 96 O1A, 97 O2A, 98
O3A, 99 O4A, 100 O5A, 101 O6A, 102 O7A, 103 O0B, 104 O1B, 105 O2B, 106 O3B, 107 O4B, 108 O5B, 109 O6B, 110 O7B, 111 EO0A, 112
EO1A, 113 EO2A, 114 EO3A, 115 EO0B, 116 EO1B, 117 EO2B, 118 EO3B, 119 EEO0A, 120 EEO1A, 121 EEO0B, 122 EEO1B, 123 EEE0A, 124
EEE1A, 125 EEE0B, 126 EEE1B, 127 T00, 128 T01, 129 EE0A, 130 EE0B, 131 EE1A, 132 EE1B, 133 EE3A, 134 EE3B, 135 EE2A, 136 EE2B, 137
E0A, 138 E0B, 139 E1A, 140 E1B, 141 E2A, 142 E2B, 143 E3A, 144 E3B, 145 E7A, 146 E7B, 147 E6A, 148 E6B, 149 E5A, 150 E5B, 151 E4A,
152 E4B, 153 T10A, 154 T10B, 155 T11A, 156 T11B, 157 T12A, 158 T12B, 159 T13A, 160 T13B, 161 T14A, 162 T14B, 163 T15A, 164 T15B,
165 T16A, 166 T16B, 167 T17A, 168 T17B, 169 T20A, 170 T20B, 171 T21A, 172 T21B, 173 T22A, 174 T22B, 175 T23A, 176 T23B, 177 T24A,
178 T24B, 179 T25A, 180 T25B, 181 T26A, 182 T26B, 183 T27A, 184 T27B, 185 T2FA, 186 T2FB, 187 T2EA, 188 T2EB, 189 T2DA, 190 T2DB,
191 T2CA, 192 T2CB, 193 T2BA, 194 T2BB, 195 T2AA, 196 T2AB, 197 T29A, 198 T29B, 199 T28A, 200 T28B, 201 T30A, 202 T30B, 203 T31A,
204 T31B, 205 T32A, 206 T32B, 207 T33A, 208 T33B, 209 T34A, 210 T34B, 211 T35A, 212 T35B, 213 T36A, 214 T36B, 215 T37A, 216 T37B,
217 T38A, 218 T38B, 219 T39A, 220 T39B, 221 T3AA, 222 T3AB, 223 T3BA, 224 T3BB, 225 T3CA, 226 T3CB, 227 T3DA, 228 T3DB, 229 T3EA,
230 T3EB, 231 T3FA, 232 T3FB, 233 tr0_0, 234 tr0_1, 235 tr0_2, 236 tr0_3, 237 tr0_4, 238 tr0_5, 239 tr0_6, 240 tr0_7, 241 tr0_8,
242 tr0_9, 243 tr0_10, 244 tr0_11, 245 tr0_12, 246 tr0_13, 247 tr0_14, 248 tr0_15. -/


/-- source/common/vec/intrinsic_idct_avx2.cc:365-435. -/
def idct_16x16_avx2_1 : List S := [
  .set 79 (.op .lo16 (.r 48) (.r 50)),
  .set 80 (.op .hi16 (.r 48) (.r 50)),
  .set 81 (.op .lo16 (.r 52) (.r 54)),
  .set 82 (.op .hi16 (.r 52) (.r 54)),
  .set 83 (.op .lo16 (.r 56) (.r 58)),
  .set 84 (.op .hi16 (.r 56) (.r 58)),
  .set 85 (.op .lo16 (.r 60) (.r 62)),
  .set 86 (.op .hi16 (.r 60) (.r 62)),
  .set 87 (.op .lo16 (.r 49) (.r 53)),
  .set 88 (.op .hi16 (.r 49) (.r 53)),
  .set 89 (.op .lo16 (.r 57) (.r 61)),
  .set 90 (.op .hi16 (.r 57) (.r 61)),
  .set 91 (.op .lo16 (.r 51) (.r 59)),
  .set 92 (.op .hi16 (.r 51) (.r 59)),
  .set 93 (.op .lo16 (.r 47) (.r 55)),
  .set 94 (.op .hi16 (.r 47) (.r 55)),
  .set 127 (.op .add32 (.op .madd (.r 79) (.r 0)) (.op .madd (.r 81) (.r 1))),
  .set 128 (.op .add32 (.op .madd (.r 83) (.r 2)) (.op .madd (.r 85) (.r 3))),
  .set 95 (.op .add32 (.r 127) (.r 128)),
  .set 127 (.op .add32 (.op .madd (.r 79) (.r 4)) (.op .madd (.r 81) (.r 5))),
  .set 128 (.op .add32 (.op .madd (.r 83) (.r 6)) (.op .madd (.r 85) (.r 7))),
  .set 96 (.op .add32 (.r 127) (.r 128)),
  .set 127 (.op .add32 (.op .madd (.r 79) (.r 8)) (.op .madd (.r 81) (.r 9))),
  .set 128 (.op .add32 (.op .madd (.r 83) (.r 10)) (.op .madd (.r 85) (.r 11))),
  .set 97 (.op .add32 (.r 127) (.r 128)),
  .set 127 (.op .add32 (.op .madd (.r 79) (.r 12)) (.op .madd (.r 81) (.r 13))),
  .set 128 (.op .add32 (.op .madd (.r 83) (.r 14)) (.op .madd (.r 85) (.r 15))),
  .set 98 (.op .add32 (.r 127) (.r 128)),
  .set 127 (.op .add32 (.op .madd (.r 79) (.r 16)) (.op .madd (.r 81) (.r 17))),
  .set 128 (.op .add32 (.op .madd (.r 83) (.r 18)) (.op .madd (.r 85) (.r 19))),
  .set 99 (.op .add32 (.r 127) (.r 128)),
  .set 127 (.op .add32 (.op .madd (.r 79) (.r 20)) (.op .madd (.r 81) (.r 21))),
  .set 128 (.op .add32 (.op .madd (.r 83) (.r 22)) (.op .madd (.r 85) (.r 23))),
  .set 100 (.op .add32 (.r 127) (.r 128)),
  .set 127 (.op .add32 (.op .madd (.r 79) (.r 24)) (.op .madd (.r 81) (.r 25))),
  .set 128 (.op .add32 (.op .madd (.r 83) (.r 26)) (.op .madd (.r 85) (.r 27))),
  .set 101 (.op .add32 (.r 127) (.r 128)),
  .set 127 (.op .add32 (.op .madd (.r 79) (.r 28)) (.op .madd (.r 81) (.r 29))),
  .set 128 (.op .add32 (.op .madd (.r 83) (.r 30)) (.op .madd (.r 85) (.r 31))),
  .set 102 (.op .add32 (.r 127) (.r 128)),
  .set 127 (.op .add32 (.op .madd (.r 80) (.r 0)) (.op .madd (.r 82) (.r 1))),
  .set 128 (.op .add32 (.op .madd (.r 84) (.r 2)) (.op .madd (.r 86) (.r 3))),
  .set 103 (.op .add32 (.r 127) (.r 128)),
  .set 127 (.op .add32 (.op .madd (.r 80) (.r 4)) (.op .madd (.r 82) (.r 5))),
  .set 128 (.op .add32 (.op .madd (.r 84) (.r 6)) (.op .madd (.r 86) (.r 7))),
  .set 104 (.op .add32 (.r 127) (.r 128)),
  .set 127 (.op .add32 (.op .madd (.r 80) (.r 8)) (.op .madd (.r 82) (.r 9))),
  .set 128 (.op .add32 (.op .madd (.r 84) (.r 10)) (.op .madd (.r 86) (.r 11))),
  .set 105 (.op .add32 (.r 127) (.r 128)),
  .set 127 (.op .add32 (.op .madd (.r 80) (.r 12)) (.op .madd (.r 82) (.r 13))),
  .set 128 (.op .add32 (.op .madd (.r 84) (.r 14)) (.op .madd (.r 86) (.r 15))),
  .set 106 (.op .add32 (.r 127) (.r 128)),
  .set 127 (.op .add32 (.op .madd (.r 80) (.r 16)) (.op .madd (.r 82) (.r 17))),
  .set 128 (.op .add32 (.op .madd (.r 84) (.r 18)) (.op .madd (.r 86) (.r 19))),
  .set 107 (.op .add32 (.r 127) (.r 128)),
  .set 127 (.op .add32 (.op .madd (.r 80) (.r 20)) (.op .madd (.r 82) (.r 21))),
  .set 128 (.op .add32 (.op .madd (.r 84) (.r 22)) (.op .madd (.r 86) (.r 23))),
  .set 108 (.op .add32 (.r 127) (.r 128)),
  .set 127 (.op .add32 (.op .madd (.r 80) (.r 24)) (.op .madd (.r 82) (.r 25))),
  .set 128 (.op .add32 (.op .madd (.r 84) (.r 26)) (.op .madd (.r 86) (.r 27))),
  .set 109 (.op .add32 (.r 127) (.r 128)),
  .set 127 (.op .add32 (.op .madd (.r 80) (.r 28)) (.op .madd (.r 82) (.r 29))),
  .set 128 (.op .add32 (.op .madd (.r 84) (.r 30)) (.op .madd (.r 86) (.r 31))),
  .set 110 (.op .add32 (.r 127) (.r 128)),
  .set 111 (.op .add32 (.op .madd (.r 87) (.r 32)) (.op .madd (.r 89) (.r 33))),
  .set 115 (.op .add32 (.op .madd (.r 88) (.r 32)) (.op .madd (.r 90) (.r 33))),
  .set 112 (.op .add32 (.op .madd (.r 87) (.r 34)) (.op .madd (.r 89) (.r 35))),
  .set 116 (.op .add32 (.op .madd (.r 88) (.r 34)) (.op .madd (.r 90) (.r 35))),
  .set 113 (.op .add32 (.op .madd (.r 87) (.r 36)) (.op .madd (.r 89) (.r 37))),
  .set 117 (.op .add32 (.op .madd (.r 88) (.r 36)) (.op .madd (.r 90) (.r 37))),
  .set 114 (.op .add32 (.op .madd (.r 87) (.r 38)) (.op .madd (.r 89) (.r 39))),
  .set 118 (.op .add32 (.op .madd (.r 88) (.r 38)) (.op .madd (.r 90) (.r 39))),
  .set 119 (.op .madd (.r 91) (.r 40)),
  .set 121 (.op .madd (.r 92) (.r 40)),
  .set 120 (.op .madd (.r 91) (.r 41)),
  .set 122 (.op .madd (.r 92) (.r 41)),
  .set 123 (.op .madd (.r 93) (.r 43)),
  .set 125 (.op .madd (.r 94) (.r 43)),
  .set 124 (.op .madd (.r 93) (.r 42)),
  .set 126 (.op .madd (.r 94) (.r 42))]

/-- source/common/vec/intrinsic_idct_avx2.cc:437-520. -/
def idct_16x16_avx2_2 (nShift : Nat) : List S := [
  .set 129 (.op .add32 (.r 123) (.r 119)),
  .set 130 (.op .add32 (.r 125) (.r 121)),
  .set 131 (.op .add32 (.r 124) (.r 120)),
  .set 132 (.op .add32 (.r 126) (.r 122)),
  .set 133 (.op .sub32 (.r 123) (.r 119)),
  .set 134 (.op .sub32 (.r 125) (.r 121)),
  .set 135 (.op .sub32 (.r 124) (.r 120)),
  .set 136 (.op .sub32 (.r 126) (.r 122)),
  .set 137 (.op .add32 (.r 129) (.r 111)),
  .set 138 (.op .add32 (.r 130) (.r 115)),
  .set 139 (.op .add32 (.r 131) (.r 112)),
  .set 140 (.op .add32 (.r 132) (.r 116)),
  .set 141 (.op .add32 (.r 135) (.r 113)),
  .set 142 (.op .add32 (.r 136) (.r 117)),
  .set 143 (.op .add32 (.r 133) (.r 114)),
  .set 144 (.op .add32 (.r 134) (.r 118)),
  .set 145 (.op .sub32 (.r 129) (.r 111)),
  .set 146 (.op .sub32 (.r 130) (.r 115)),
  .set 147 (.op .sub32 (.r 131) (.r 112)),
  .set 148 (.op .sub32 (.r 132) (.r 116)),
  .set 149 (.op .sub32 (.r 135) (.r 113)),
  .set 150 (.op .sub32 (.r 136) (.r 117)),
  .set 151 (.op .sub32 (.r 133) (.r 114)),
  .set 152 (.op .sub32 (.r 134) (.r 118)),
  .set 153 (.op .add32 (.r 137) (.r 46)),
  .set 154 (.op .add32 (.r 138) (.r 46)),
  .set 155 (.op .add32 (.r 139) (.r 46)),
  .set 156 (.op .add32 (.r 140) (.r 46)),
  .set 157 (.op .add32 (.r 141) (.r 46)),
  .set 158 (.op .add32 (.r 142) (.r 46)),
  .set 159 (.op .add32 (.r 143) (.r 46)),
  .set 160 (.op .add32 (.r 144) (.r 46)),
  .set 161 (.op .add32 (.r 151) (.r 46)),
  .set 162 (.op .add32 (.r 152) (.r 46)),
  .set 163 (.op .add32 (.r 149) (.r 46)),
  .set 164 (.op .add32 (.r 150) (.r 46)),
  .set 165 (.op .add32 (.r 147) (.r 46)),
  .set 166 (.op .add32 (.r 148) (.r 46)),
  .set 167 (.op .add32 (.r 145) (.r 46)),
  .set 168 (.op .add32 (.r 146) (.r 46)),
  .set 169 (.op .add32 (.r 153) (.r 95)),
  .set 170 (.op .add32 (.r 154) (.r 103)),
  .set 171 (.op .add32 (.r 155) (.r 96)),
  .set 172 (.op .add32 (.r 156) (.r 104)),
  .set 173 (.op .add32 (.r 157) (.r 97)),
  .set 174 (.op .add32 (.r 158) (.r 105)),
  .set 175 (.op .add32 (.r 159) (.r 98)),
  .set 176 (.op .add32 (.r 160) (.r 106)),
  .set 177 (.op .add32 (.r 161) (.r 99)),
  .set 178 (.op .add32 (.r 162) (.r 107)),
  .set 179 (.op .add32 (.r 163) (.r 100)),
  .set 180 (.op .add32 (.r 164) (.r 108)),
  .set 181 (.op .add32 (.r 165) (.r 101)),
  .set 182 (.op .add32 (.r 166) (.r 109)),
  .set 183 (.op .add32 (.r 167) (.r 102)),
  .set 184 (.op .add32 (.r 168) (.r 110)),
  .set 185 (.op .sub32 (.r 153) (.r 95)),
  .set 186 (.op .sub32 (.r 154) (.r 103)),
  .set 187 (.op .sub32 (.r 155) (.r 96)),
  .set 188 (.op .sub32 (.r 156) (.r 104)),
  .set 189 (.op .sub32 (.r 157) (.r 97)),
  .set 190 (.op .sub32 (.r 158) (.r 105)),
  .set 191 (.op .sub32 (.r 159) (.r 98)),
  .set 192 (.op .sub32 (.r 160) (.r 106)),
  .set 193 (.op .sub32 (.r 161) (.r 99)),
  .set 194 (.op .sub32 (.r 162) (.r 107)),
  .set 195 (.op .sub32 (.r 163) (.r 100)),
  .set 196 (.op .sub32 (.r 164) (.r 108)),
  .set 197 (.op .sub32 (.r 165) (.r 101)),
  .set 198 (.op .sub32 (.r 166) (.r 109)),
  .set 199 (.op .sub32 (.r 167) (.r 102)),
  .set 200 (.op .sub32 (.r 168) (.r 110)),
  .set 201 (.sra32 (.r 169) nShift),
  .set 202 (.sra32 (.r 170) nShift),
  .set 203 (.sra32 (.r 171) nShift),
  .set 204 (.sra32 (.r 172) nShift),
  .set 205 (.sra32 (.r 173) nShift),
  .set 206 (.sra32 (.r 174) nShift),
  .set 207 (.sra32 (.r 175) nShift),
  .set 208 (.sra32 (.r 176) nShift)]

/-- source/common/vec/intrinsic_idct_avx2.cc:521-635. -/
def idct_16x16_avx2_3 (nShift : Nat) : List S := [
  .set 209 (.sra32 (.r 177) nShift),
  .set 210 (.sra32 (.r 178) nShift),
  .set 211 (.sra32 (.r 179) nShift),
  .set 212 (.sra32 (.r 180) nShift),
  .set 213 (.sra32 (.r 181) nShift),
  .set 214 (.sra32 (.r 182) nShift),
  .set 215 (.sra32 (.r 183) nShift),
  .set 216 (.sra32 (.r 184) nShift),
  .set 217 (.sra32 (.r 199) nShift),
  .set 218 (.sra32 (.r 200) nShift),
  .set 219 (.sra32 (.r 197) nShift),
  .set 220 (.sra32 (.r 198) nShift),
  .set 221 (.sra32 (.r 195) nShift),
  .set 222 (.sra32 (.r 196) nShift),
  .set 223 (.sra32 (.r 193) nShift),
  .set 224 (.sra32 (.r 194) nShift),
  .set 225 (.sra32 (.r 191) nShift),
  .set 226 (.sra32 (.r 192) nShift),
  .set 227 (.sra32 (.r 189) nShift),
  .set 228 (.sra32 (.r 190) nShift),
  .set 229 (.sra32 (.r 187) nShift),
  .set 230 (.sra32 (.r 188) nShift),
  .set 231 (.sra32 (.r 185) nShift),
  .set 232 (.sra32 (.r 186) nShift),
  .set 63 (.op .packs (.r 201) (.r 202)),
  .set 64 (.op .packs (.r 203) (.r 204)),
  .set 65 (.op .packs (.r 205) (.r 206)),
  .set 66 (.op .packs (.r 207) (.r 208)),
  .set 67 (.op .packs (.r 209) (.r 210)),
  .set 68 (.op .packs (.r 211) (.r 212)),
  .set 69 (.op .packs (.r 213) (.r 214)),
  .set 70 (.op .packs (.r 215) (.r 216)),
  .set 71 (.op .packs (.r 217) (.r 218)),
  .set 72 (.op .packs (.r 219) (.r 220)),
  .set 73 (.op .packs (.r 221) (.r 222)),
  .set 74 (.op .packs (.r 223) (.r 224)),
  .set 75 (.op .packs (.r 225) (.r 226)),
  .set 76 (.op .packs (.r 227) (.r 228)),
  .set 77 (.op .packs (.r 229) (.r 230)),
  .set 78 (.op .packs (.r 231) (.r 232)),
  .set 233 (.op .lo16 (.r 63) (.r 64)),
  .set 234 (.op .lo16 (.r 65) (.r 66)),
  .set 235 (.op .lo16 (.r 67) (.r 68)),
  .set 236 (.op .lo16 (.r 69) (.r 70)),
  .set 237 (.op .lo16 (.r 71) (.r 72)),
  .set 238 (.op .lo16 (.r 73) (.r 74)),
  .set 239 (.op .lo16 (.r 75) (.r 76)),
  .set 240 (.op .lo16 (.r 77) (.r 78)),
  .set 241 (.op .hi16 (.r 63) (.r 64)),
  .set 242 (.op .hi16 (.r 65) (.r 66)),
  .set 243 (.op .hi16 (.r 67) (.r 68)),
  .set 244 (.op .hi16 (.r 69) (.r 70)),
  .set 245 (.op .hi16 (.r 71) (.r 72)),
  .set 246 (.op .hi16 (.r 73) (.r 74)),
  .set 247 (.op .hi16 (.r 75) (.r 76)),
  .set 248 (.op .hi16 (.r 77) (.r 78)),
  .set 47 (.op .lo32 (.r 233) (.r 234)),
  .set 48 (.op .lo32 (.r 235) (.r 236)),
  .set 49 (.op .lo32 (.r 237) (.r 238)),
  .set 50 (.op .lo32 (.r 239) (.r 240)),
  .set 51 (.op .hi32 (.r 233) (.r 234)),
  .set 52 (.op .hi32 (.r 235) (.r 236)),
  .set 53 (.op .hi32 (.r 237) (.r 238)),
  .set 54 (.op .hi32 (.r 239) (.r 240)),
  .set 55 (.op .lo32 (.r 241) (.r 242)),
  .set 56 (.op .lo32 (.r 243) (.r 244)),
  .set 57 (.op .lo32 (.r 245) (.r 246)),
  .set 58 (.op .lo32 (.r 247) (.r 248)),
  .set 59 (.op .hi32 (.r 241) (.r 242)),
  .set 60 (.op .hi32 (.r 243) (.r 244)),
  .set 61 (.op .hi32 (.r 245) (.r 246)),
  .set 62 (.op .hi32 (.r 247) (.r 248)),
  .set 233 (.op .lo64 (.r 47) (.r 48)),
  .set 234 (.op .lo64 (.r 49) (.r 50)),
  .set 235 (.op .hi64 (.r 47) (.r 48)),
  .set 236 (.op .hi64 (.r 49) (.r 50)),
  .set 237 (.op .lo64 (.r 51) (.r 52)),
  .set 238 (.op .lo64 (.r 53) (.r 54)),
  .set 239 (.op .hi64 (.r 51) (.r 52)),
  .set 240 (.op .hi64 (.r 53) (.r 54))]

/-- source/common/vec/intrinsic_idct_avx2.cc:635-640. -/
def idct_16x16_avx2_4 : List S := [
  .set 241 (.op .lo64 (.r 55) (.r 56)),
  .set 242 (.op .lo64 (.r 57) (.r 58)),
  .set 243 (.op .hi64 (.r 55) (.r 56)),
  .set 244 (.op .hi64 (.r 57) (.r 58)),
  .set 245 (.op .lo64 (.r 59) (.r 60)),
  .set 246 (.op .lo64 (.r 61) (.r 62)),
  .set 247 (.op .hi64 (.r 59) (.r 60)),
  .set 248 (.op .hi64 (.r 61) (.r 62)),
  .set 47 (.op .perm20 (.r 233) (.r 234)),
  .set 48 (.op .perm20 (.r 235) (.r 236)),
  .set 49 (.op .perm20 (.r 237) (.r 238)),
  .set 50 (.op .perm20 (.r 239) (.r 240)),
  .set 51 (.op .perm20 (.r 241) (.r 242)),
  .set 52 (.op .perm20 (.r 243) (.r 244)),
  .set 53 (.op .perm20 (.r 245) (.r 246)),
  .set 54 (.op .perm20 (.r 247) (.r 248)),
  .set 55 (.op .perm31 (.r 233) (.r 234)),
  .set 56 (.op .perm31 (.r 235) (.r 236)),
  .set 57 (.op .perm31 (.r 237) (.r 238)),
  .set 58 (.op .perm31 (.r 239) (.r 240)),
  .set 59 (.op .perm31 (.r 241) (.r 242)),
  .set 60 (.op .perm31 (.r 243) (.r 244)),
  .set 61 (.op .perm31 (.r 245) (.r 246)),
  .set 62 (.op .perm31 (.r 247) (.r 248)),
  .set 46 (.k32 2048)]

def idct_16x16_avx2_body1 (nShift : Nat) : List S :=
  idct_16x16_avx2_1 ++ idct_16x16_avx2_2 nShift ++ idct_16x16_avx2_3 nShift ++ idct_16x16_avx2_4

/-- source/common/vec/intrinsic_idct_avx2.cc:284-361. -/
def idct_16x16_avx2_5 : List S := [
  .set 0 (.k32 0x002b002d),
  .set 1 (.k32 0x00230028),
  .set 2 (.k32 0x0015001d),
  .set 3 (.k32 0x0004000d),
  .set 4 (.k32 0x001d002b),
  .set 5 (.k32 0xffeb0004),
  .set 6 (.k32 0xffd3ffd8),
  .set 7 (.k32 0xfff3ffdd),
  .set 8 (.k32 0x00040028),
  .set 9 (.k32 0xffd5ffdd),
  .set 10 (.k32 0x001dfff3),
  .set 11 (.k32 0x0015002d),
  .set 12 (.k32 0xffeb0023),
  .set 13 (.k32 0x0004ffd5),
  .set 14 (.k32 0x000d002d),
  .set 15 (.k32 0xffe3ffd8),
  .set 16 (.k32 0xffd8001d),
  .set 17 (.k32 0x002dfff3),
  .set 18 (.k32 0xffd5fffc),
  .set 19 (.k32 0x00230015),
  .set 20 (.k32 0xffd30015),
  .set 21 (.k32 0x000d001d),
  .set 22 (.k32 0x0023ffd5),
  .set 23 (.k32 0xffd80004),
  .set 24 (.k32 0xffdd000d),
  .set 25 (.k32 0xffd8002d),
  .set 26 (.k32 0x00040015),
  .set 27 (.k32 0x002bffe3),
  .set 28 (.k32 0xfff30004),
  .set 29 (.k32 0xffe30015),
  .set 30 (.k32 0xffd80023),
  .set 31 (.k32 0xffd3002b),
  .set 32 (.k32 0x0026002c),
  .set 33 (.k32 0x00090019),
  .set 34 (.k32 0xfff70026),
  .set 35 (.k32 0xffe7ffd4),
  .set 36 (.k32 0xffd40019),
  .set 37 (.k32 0x00260009),
  .set 38 (.k32 0xffe70009),
  .set 39 (.k32 0xffd40026),
  .set 40 (.k32 0x0011002a),
  .set 41 (.k32 0xffd60011),
  .set 42 (.k32 0xffe00020),
  .set 43 (.k32 0x00200020),
  .set 46 (.k32 16),
  .set 47 (.ld 16 0),
  .set 48 (.ld 16 16),
  .set 49 (.ld 16 32),
  .set 50 (.ld 16 48),
  .set 51 (.ld 16 64),
  .set 52 (.ld 16 80),
  .set 53 (.ld 16 96),
  .set 54 (.ld 16 112),
  .set 55 (.ld 16 128),
  .set 56 (.ld 16 144),
  .set 57 (.ld 16 160),
  .set 58 (.ld 16 176),
  .set 59 (.ld 16 192),
  .set 60 (.ld 16 208),
  .set 61 (.ld 16 224),
  .set 62 (.ld 16 240)]

/-- source/common/vec/intrinsic_idct_avx2.cc:644-680. -/
def idct_16x16_avx2_6 : List S := [
  .set 44 (.k16 255),
  .set 45 (.k16 (-256)),
  .set 47 (.op .max16 (.op .min16 (.r 47) (.r 44)) (.r 45)),
  .set 48 (.op .max16 (.op .min16 (.r 48) (.r 44)) (.r 45)),
  .set 49 (.op .max16 (.op .min16 (.r 49) (.r 44)) (.r 45)),
  .set 50 (.op .max16 (.op .min16 (.r 50) (.r 44)) (.r 45)),
  .set 51 (.op .max16 (.op .min16 (.r 51) (.r 44)) (.r 45)),
  .set 52 (.op .max16 (.op .min16 (.r 52) (.r 44)) (.r 45)),
  .set 53 (.op .max16 (.op .min16 (.r 53) (.r 44)) (.r 45)),
  .set 54 (.op .max16 (.op .min16 (.r 54) (.r 44)) (.r 45)),
  .set 55 (.op .max16 (.op .min16 (.r 55) (.r 44)) (.r 45)),
  .set 56 (.op .max16 (.op .min16 (.r 56) (.r 44)) (.r 45)),
  .set 57 (.op .max16 (.op .min16 (.r 57) (.r 44)) (.r 45)),
  .set 58 (.op .max16 (.op .min16 (.r 58) (.r 44)) (.r 45)),
  .set 59 (.op .max16 (.op .min16 (.r 59) (.r 44)) (.r 45)),
  .set 60 (.op .max16 (.op .min16 (.r 60) (.r 44)) (.r 45)),
  .set 61 (.op .max16 (.op .min16 (.r 61) (.r 44)) (.r 45)),
  .set 62 (.op .max16 (.op .min16 (.r 62) (.r 44)) (.r 45)),
  .st 16 0 (.r 47),
  .st 16 16 (.r 48),
  .st 16 32 (.r 49),
  .st 16 48 (.r 50),
  .st 16 64 (.r 51),
  .st 16 80 (.r 52),
  .st 16 96 (.r 53),
  .st 16 112 (.r 54),
  .st 16 128 (.r 55),
  .st 16 144 (.r 56),
  .st 16 160 (.r 57),
  .st 16 176 (.r 58),
  .st 16 192 (.r 59),
  .st 16 208 (.r 60),
  .st 16 224 (.r 61),
  .st 16 240 (.r 62)]

/-- `idct_16x16_avx2`, source/common/vec/intrinsic_idct_avx2.cc:279. -/
def idct_16x16_avx2 : List S :=
  idct_16x16_avx2_5 ++ idct_16x16_avx2_body1 5 ++ idct_16x16_avx2_body1 12 ++ idct_16x16_avx2_6

/-! ### `idct_32x32_avx2`

Registers: 0 max_val, 1 min_val, 2 EEO0A, 3 EEO1A, 4 EEO2A, 5 EEO3A, 6 EEO0B, 7 EEO1B, 8 EEO2B, 9 EEO3B, 10 EEEO0A, 11 EEEO0B, 12
EEEO1A, 13 EEEO1B, 14 EEEE0A, 15 EEEE0B, 16 EEEE1A, 17 EEEE1B, 18 EEE0A, 19 EEE0B, 20 EEE1A, 21 EEE1B, 22 EEE3A, 23 EEE3B, 24
EEE2A, 25 EEE2B, 26 EE0A, 27 EE0B, 28 EE1A, 29 EE1B, 30 EE2A, 31 EE2B, 32 EE3A, 33 EE3B, 34 EE7A, 35 EE7B, 36 EE6A, 37 EE6B, 38
EE5A, 39 EE5B, 40 EE4A, 41 EE4B, 42 E0A, 43 E0B, 44 E1A, 45 E1B, 46 E2A, 47 E2B, 48 E3A, 49 E3B, 50 E4A, 51 E4B, 52 E5A, 53 E5B,
54 E6A, 55 E6B, 56 E7A, 57 E7B, 58 EFA, 59 EFB, 60 EEA, 61 EEB, 62 EDA, 63 EDB, 64 ECA, 65 ECB, 66 EBA, 67 EBB, 68 EAA, 69 EAB, 70
E9A, 71 E9B, 72 E8A, 73 E8B, 74 T10A, 75 T10B, 76 T11A, 77 T11B, 78 T12A, 79 T12B, 80 T13A, 81 T13B, 82 T14A, 83 T14B, 84 T15A, 85
T15B, 86 T16A, 87 T16B, 88 T17A, 89 T17B, 90 T18A, 91 T18B, 92 T19A, 93 T19B, 94 T1AA, 95 T1AB, 96 T1BA, 97 T1BB, 98 T1CA, 99
T1CB, 100 T1DA, 101 T1DB, 102 T1EA, 103 T1EB, 104 T1FA, 105 T1FB, 106 T2_00A, 107 T2_00B, 108 T2_01A, 109 T2_01B, 110 T2_02A, 111
T2_02B, 112 T2_03A, 113 T2_03B, 114 T2_04A, 115 T2_04B, 116 T2_05A, 117 T2_05B, 118 T2_06A, 119 T2_06B, 120 T2_07A, 121 T2_07B,
122 T2_08A, 123 T2_08B, 124 T2_09A, 125 T2_09B, 126 T2_10A, 127 T2_10B, 128 T2_11A, 129 T2_11B, 130 T2_12A, 131 T2_12B, 132
T2_13A, 133 T2_13B, 134 T2_14A, 135 T2_14B, 136 T2_15A, 137 T2_15B, 138 T2_31A, 139 T2_31B, 140 T2_30A, 141 T2_30B, 142 T2_29A,
143 T2_29B, 144 T2_28A, 145 T2_28B, 146 T2_27A, 147 T2_27B, 148 T2_26A, 149 T2_26B, 150 T2_25A, 151 T2_25B, 152 T2_24A, 153
T2_24B, 154 T2_23A, 155 T2_23B, 156 T2_22A, 157 T2_22B, 158 T2_21A, 159 T2_21B, 160 T2_20A, 161 T2_20B, 162 T2_19A, 163 T2_19B,
164 T2_18A, 165 T2_18B, 166 T2_17A, 167 T2_17B, 168 T2_16A, 169 T2_16B, 170 T3_00A, 171 T3_00B, 172 T3_01A, 173 T3_01B, 174
T3_02A, 175 T3_02B, 176 T3_03A, 177 T3_03B, 178 T3_04A, 179 T3_04B, 180 T3_05A, 181 T3_05B, 182 T3_06A, 183 T3_06B, 184 T3_07A,
185 T3_07B, 186 T3_08A, 187 T3_08B, 188 T3_09A, 189 T3_09B, 190 T3_10A, 191 T3_10B, 192 T3_11A, 193 T3_11B, 194 T3_12A, 195
T3_12B, 196 T3_13A, 197 T3_13B, 198 T3_14A, 199 T3_14B, 200 T3_15A, 201 T3_15B, 202 T3_16A, 203 T3_16B, 204 T3_17A, 205 T3_17B,
206 T3_18A, 207 T3_18B, 208 T3_19A, 209 T3_19B, 210 T3_20A, 211 T3_20B, 212 T3_21A, 213 T3_21B, 214 T3_22A, 215 T3_22B, 216
T3_23A, 217 T3_23B, 218 T3_24A, 219 T3_24B, 220 T3_25A, 221 T3_25B, 222 T3_26A, 223 T3_26B, 224 T3_27A, 225 T3_27B, 226 T3_28A,
227 T3_28B, 228 T3_29A, 229 T3_29B, 230 T3_30A, 231 T3_30B, 232 T3_31A, 233 T3_31B, 234 c16_p45_p45, 235 c16_p43_p44, 236
c16_p39_p41, 237 c16_p34_p36, 238 c16_p27_p30, 239 c16_p19_p23, 240 c16_p11_p15, 241 c16_p02_p07, 242 c16_p41_p45, 243
c16_p23_p34, 244 c16_n02_p11, 245 c16_n27_n15, 246 c16_n43_n36, 247 c16_n44_n45, 248 c16_n30_n39, 249 c16_n07_n19, 250
c16_p34_p44, 251 c16_n07_p15, 252 c16_n41_n27, 253 c16_n39_n45, 254 c16_n02_n23, 255 c16_p36_p19, 256 c16_p43_p45, 257
c16_p11_p30, 258 c16_p23_p43, 259 c16_n34_n07, 260 c16_n36_n45, 261 c16_p19_n11, 262 c16_p44_p41, 263 c16_n02_p27, 264
c16_n45_n30, 265 c16_n15_n39, 266 c16_p11_p41, 267 c16_n45_n27, 268 c16_p07_n30, 269 c16_p43_p39, 270 c16_n23_p15, 271
c16_n34_n45, 272 c16_p36_p02, 273 c16_p19_p44, 274 c16_n02_p39, 275 c16_n36_n41, 276 c16_p43_p07, 277 c16_n11_p34, 278
c16_n30_n44, 279 c16_p45_p15, 280 c16_n19_p27, 281 c16_n23_n45, 282 c16_n15_p36, 283 c16_n11_n45, 284 c16_p34_p39, 285
c16_n45_n19, 286 c16_p41_n07, 287 c16_n23_p30, 288 c16_n02_n44, 289 c16_p27_p43, 290 c16_n27_p34, 291 c16_p19_n39, 292
c16_n11_p43, 293 c16_p02_n45, 294 c16_p07_p45, 295 c16_n15_n44, 296 c16_p23_p41, 297 c16_n30_n36, 298 c16_n36_p30, 299
c16_p41_n23, 300 c16_n44_p15, 301 c16_p45_n07, 302 c16_n45_n02, 303 c16_p43_p11, 304 c16_n39_n19, 305 c16_p34_p27, 306
c16_n43_p27, 307 c16_p44_n02, 308 c16_n30_n23, 309 c16_p07_p41, 310 c16_p19_n45, 311 c16_n39_p34, 312 c16_p45_n11, 313
c16_n36_n15, 314 c16_n45_p23, 315 c16_p27_p19, 316 c16_p15_n45, 317 c16_n44_p30, 318 c16_p34_p11, 319 c16_p07_n43, 320
c16_n41_p36, 321 c16_p39_p02, 322 c16_n44_p19, 323 c16_n02_p36, 324 c16_p45_n34, 325 c16_n15_n23, 326 c16_n39_p43, 327
c16_p30_p07, 328 c16_p27_n45, 329 c16_n41_p11, 330 c16_n39_p15, 331 c16_n30_p45, 332 c16_p27_p02, 333 c16_p41_n44, 334
c16_n11_n19, 335 c16_n45_p36, 336 c16_n07_p34, 337 c16_p43_n23, 338 c16_n30_p11, 339 c16_n45_p43, 340 c16_n19_p36, 341
c16_p23_n02, 342 c16_p45_n39, 343 c16_p27_n41, 344 c16_n15_n07, 345 c16_n44_p34, 346 c16_n19_p07, 347 c16_n39_p30, 348
c16_n45_p44, 349 c16_n36_p43, 350 c16_n15_p27, 351 c16_p11_p02, 352 c16_p34_n23, 353 c16_p45_n41, 354 c16_n07_p02, 355
c16_n15_p11, 356 c16_n23_p19, 357 c16_n30_p27, 358 c16_n36_p34, 359 c16_n41_p39, 360 c16_n44_p43, 361 c16_n45_p45, 362
c16_p35_p40, 363 c16_p21_p29, 364 c16_p04_p13, 365 c16_p29_p43, 366 c16_n21_p04, 367 c16_n45_n40, 368 c16_n13_n35, 369
c16_p04_p40, 370 c16_n43_n35, 371 c16_p29_n13, 372 c16_p21_p45, 373 c16_n21_p35, 374 c16_p04_n43, 375 c16_p13_p45, 376
c16_n29_n40, 377 c16_n40_p29, 378 c16_p45_n13, 379 c16_n43_n04, 380 c16_p35_p21, 381 c16_n45_p21, 382 c16_p13_p29, 383
c16_p35_n43, 384 c16_n40_p04, 385 c16_n35_p13, 386 c16_n40_p45, 387 c16_p04_p21, 388 c16_p43_n29, 389 c16_n13_p04, 390
c16_n29_p21, 391 c16_n40_p35, 392 c16_p38_p44, 393 c16_p09_p25, 394 c16_n09_p38, 395 c16_n25_n44, 396 c16_n44_p25, 397
c16_p38_p09, 398 c16_n25_p09, 399 c16_n44_p38, 400 c16_p17_p42, 401 c16_n42_p17, 402 c16_p32_p32, 403 c16_n32_p32, 404 c32_rnd,
405-406 in00, 407-408 in01, 409-410 in02, 411-412 in03, 413-414 in04, 415-416 in05, 417-418 in06, 419-420 in07, 421-422 in08,
423-424 in09, 425-426 in10, 427-428 in11, 429-430 in12, 431-432 in13, 433-434 in14, 435-436 in15, 437-438 in16, 439-440 in17,
441-442 in18, 443-444 in19, 445-446 in20, 447-448 in21, 449-450 in22, 451-452 in23, 453-454 in24, 455-456 in25, 457-458 in26,
459-460 in27, 461-462 in28, 463-464 in29, 465-466 in30, 467-468 in31, 469-470 res00, 471-472 res01, 473-474 res02, 475-476 res03,
477-478 res04, 479-480 res05, 481-482 res06, 483-484 res07, 485-486 res08, 487-488 res09, 489-490 res10, 491-492 res11, 493-494
res12, 495-496 res13, 497-498 res14, 499-500 res15, 501-502 res16, 503-504 res17, 505-506 res18, 507-508 res19, 509-510 res20,
511-512 res21, 513-514 res22, 515-516 res23, 517-518 res24, 519-520 res25, 521-522 res26, 523-524 res27, 525-526 res28, 527-528
res29, 529-530 res30, 531-532 res31, 533 T_00_00A, 534 T_00_00B, 535 T_00_01A, 536 T_00_01B, 537 T_00_02A, 538 T_00_02B, 539
T_00_03A, 540 T_00_03B, 541 T_00_04A, 542 T_00_04B, 543 T_00_05A, 544 T_00_05B, 545 T_00_06A, 546 T_00_06B, 547 T_00_07A, 548
T_00_07B, 549 T_00_08A, 550 T_00_08B, 551 T_00_09A, 552 T_00_09B, 553 T_00_10A, 554 T_00_10B, 555 T_00_11A, 556 T_00_11B, 557
T_00_12A, 558 T_00_12B, 559 T_00_13A, 560 T_00_13B, 561 T_00_14A, 562 T_00_14B, 563 T_00_15A, 564 T_00_15B, 565 O00A, 566 O01A,
567 O02A, 568 O03A, 569 O04A, 570 O05A, 571 O06A, 572 O07A, 573 O08A, 574 O09A, 575 O10A, 576 O11A, 577 O12A, 578 O13A, 579 O14A,
580 O15A, 581 O00B, 582 O01B, 583 O02B, 584 O03B, 585 O04B, 586 O05B, 587 O06B, 588 O07B, 589 O08B, 590 O09B, 591 O10B, 592 O11B,
593 O12B, 594 O13B, 595 O14B, 596 O15B, 597 EO0A, 598 EO1A, 599 EO2A, 600 EO3A, 601 EO4A, 602 EO5A, 603 EO6A, 604 EO7A, 605 EO0B,
606 EO1B, 607 EO2B, 608 EO3B, 609 EO4B, 610 EO5B, 611 EO6B, 612 EO7B, 613 T00, 614 T01, 615 T02, 616 T03, 617 T00, 618 T01, 619
tr0_0, 620 tr0_1, 621 tr0_2, 622 tr0_3, 623 tr0_4, 624 tr0_5, 625 tr0_6, 626 tr0_7, 627 tr0_8, 628 tr0_9, 629 tr0_10, 630 tr0_11,
631 tr0_12, 632 tr0_13, 633 tr0_14, 634 tr0_15. -/


/-- source/common/vec/intrinsic_idct_avx2.cc:929-996. -/
def idct_32x32_avx2_1 (part : Nat) : List S := [
  .set 533 (.op .lo16 (.r (407 + part)) (.r (411 + part))),
  .set 534 (.op .hi16 (.r (407 + part)) (.r (411 + part))),
  .set 535 (.op .lo16 (.r (415 + part)) (.r (419 + part))),
  .set 536 (.op .hi16 (.r (415 + part)) (.r (419 + part))),
  .set 537 (.op .lo16 (.r (423 + part)) (.r (427 + part))),
  .set 538 (.op .hi16 (.r (423 + part)) (.r (427 + part))),
  .set 539 (.op .lo16 (.r (431 + part)) (.r (435 + part))),
  .set 540 (.op .hi16 (.r (431 + part)) (.r (435 + part))),
  .set 541 (.op .lo16 (.r (439 + part)) (.r (443 + part))),
  .set 542 (.op .hi16 (.r (439 + part)) (.r (443 + part))),
  .set 543 (.op .lo16 (.r (447 + part)) (.r (451 + part))),
  .set 544 (.op .hi16 (.r (447 + part)) (.r (451 + part))),
  .set 545 (.op .lo16 (.r (455 + part)) (.r (459 + part))),
  .set 546 (.op .hi16 (.r (455 + part)) (.r (459 + part))),
  .set 547 (.op .lo16 (.r (463 + part)) (.r (467 + part))),
  .set 548 (.op .hi16 (.r (463 + part)) (.r (467 + part))),
  .set 549 (.op .lo16 (.r (409 + part)) (.r (417 + part))),
  .set 550 (.op .hi16 (.r (409 + part)) (.r (417 + part))),
  .set 551 (.op .lo16 (.r (425 + part)) (.r (433 + part))),
  .set 552 (.op .hi16 (.r (425 + part)) (.r (433 + part))),
  .set 553 (.op .lo16 (.r (441 + part)) (.r (449 + part))),
  .set 554 (.op .hi16 (.r (441 + part)) (.r (449 + part))),
  .set 555 (.op .lo16 (.r (457 + part)) (.r (465 + part))),
  .set 556 (.op .hi16 (.r (457 + part)) (.r (465 + part))),
  .set 557 (.op .lo16 (.r (413 + part)) (.r (429 + part))),
  .set 558 (.op .hi16 (.r (413 + part)) (.r (429 + part))),
  .set 559 (.op .lo16 (.r (445 + part)) (.r (461 + part))),
  .set 560 (.op .hi16 (.r (445 + part)) (.r (461 + part))),
  .set 561 (.op .lo16 (.r (421 + part)) (.r (453 + part))),
  .set 562 (.op .hi16 (.r (421 + part)) (.r (453 + part))),
  .set 563 (.op .lo16 (.r (405 + part)) (.r (437 + part))),
  .set 564 (.op .hi16 (.r (405 + part)) (.r (437 + part))),
  .set 613 (.op .add32 (.op .madd (.r 533) (.r 234)) (.op .madd (.r 535) (.r 235))),
  .set 614 (.op .add32 (.op .madd (.r 537) (.r 236)) (.op .madd (.r 539) (.r 237))),
  .set 615 (.op .add32 (.op .madd (.r 541) (.r 238)) (.op .madd (.r 543) (.r 239))),
  .set 616 (.op .add32 (.op .madd (.r 545) (.r 240)) (.op .madd (.r 547) (.r 241))),
  .set 565 (.op .add32 (.op .add32 (.r 613) (.r 614)) (.op .add32 (.r 615) (.r 616))),
  .set 613 (.op .add32 (.op .madd (.r 533) (.r 242)) (.op .madd (.r 535) (.r 243))),
  .set 614 (.op .add32 (.op .madd (.r 537) (.r 244)) (.op .madd (.r 539) (.r 245))),
  .set 615 (.op .add32 (.op .madd (.r 541) (.r 246)) (.op .madd (.r 543) (.r 247))),
  .set 616 (.op .add32 (.op .madd (.r 545) (.r 248)) (.op .madd (.r 547) (.r 249))),
  .set 566 (.op .add32 (.op .add32 (.r 613) (.r 614)) (.op .add32 (.r 615) (.r 616))),
  .set 613 (.op .add32 (.op .madd (.r 533) (.r 250)) (.op .madd (.r 535) (.r 251))),
  .set 614 (.op .add32 (.op .madd (.r 537) (.r 252)) (.op .madd (.r 539) (.r 253))),
  .set 615 (.op .add32 (.op .madd (.r 541) (.r 254)) (.op .madd (.r 543) (.r 255))),
  .set 616 (.op .add32 (.op .madd (.r 545) (.r 256)) (.op .madd (.r 547) (.r 257))),
  .set 567 (.op .add32 (.op .add32 (.r 613) (.r 614)) (.op .add32 (.r 615) (.r 616))),
  .set 613 (.op .add32 (.op .madd (.r 533) (.r 258)) (.op .madd (.r 535) (.r 259))),
  .set 614 (.op .add32 (.op .madd (.r 537) (.r 260)) (.op .madd (.r 539) (.r 261))),
  .set 615 (.op .add32 (.op .madd (.r 541) (.r 262)) (.op .madd (.r 543) (.r 263))),
  .set 616 (.op .add32 (.op .madd (.r 545) (.r 264)) (.op .madd (.r 547) (.r 265))),
  .set 568 (.op .add32 (.op .add32 (.r 613) (.r 614)) (.op .add32 (.r 615) (.r 616))),
  .set 613 (.op .add32 (.op .madd (.r 533) (.r 266)) (.op .madd (.r 535) (.r 267))),
  .set 614 (.op .add32 (.op .madd (.r 537) (.r 268)) (.op .madd (.r 539) (.r 269))),
  .set 615 (.op .add32 (.op .madd (.r 541) (.r 270)) (.op .madd (.r 543) (.r 271))),
  .set 616 (.op .add32 (.op .madd (.r 545) (.r 272)) (.op .madd (.r 547) (.r 273))),
  .set 569 (.op .add32 (.op .add32 (.r 613) (.r 614)) (.op .add32 (.r 615) (.r 616))),
  .set 613 (.op .add32 (.op .madd (.r 533) (.r 274)) (.op .madd (.r 535) (.r 275))),
  .set 614 (.op .add32 (.op .madd (.r 537) (.r 276)) (.op .madd (.r 539) (.r 277))),
  .set 615 (.op .add32 (.op .madd (.r 541) (.r 278)) (.op .madd (.r 543) (.r 279))),
  .set 616 (.op .add32 (.op .madd (.r 545) (.r 280)) (.op .madd (.r 547) (.r 281))),
  .set 570 (.op .add32 (.op .add32 (.r 613) (.r 614)) (.op .add32 (.r 615) (.r 616))),
  .set 613 (.op .add32 (.op .madd (.r 533) (.r 282)) (.op .madd (.r 535) (.r 283))),
  .set 614 (.op .add32 (.op .madd (.r 537) (.r 284)) (.op .madd (.r 539) (.r 285))),
  .set 615 (.op .add32 (.op .madd (.r 541) (.r 286)) (.op .madd (.r 543) (.r 287))),
  .set 616 (.op .add32 (.op .madd (.r 545) (.r 288)) (.op .madd (.r 547) (.r 289))),
  .set 571 (.op .add32 (.op .add32 (.r 613) (.r 614)) (.op .add32 (.r 615) (.r 616))),
  .set 613 (.op .add32 (.op .madd (.r 533) (.r 290)) (.op .madd (.r 535) (.r 291))),
  .set 614 (.op .add32 (.op .madd (.r 537) (.r 292)) (.op .madd (.r 539) (.r 293))),
  .set 615 (.op .add32 (.op .madd (.r 541) (.r 294)) (.op .madd (.r 543) (.r 295))),
  .set 616 (.op .add32 (.op .madd (.r 545) (.r 296)) (.op .madd (.r 547) (.r 297))),
  .set 572 (.op .add32 (.op .add32 (.r 613) (.r 614)) (.op .add32 (.r 615) (.r 616))),
  .set 613 (.op .add32 (.op .madd (.r 533) (.r 298)) (.op .madd (.r 535) (.r 299))),
  .set 614 (.op .add32 (.op .madd (.r 537) (.r 300)) (.op .madd (.r 539) (.r 301))),
  .set 615 (.op .add32 (.op .madd (.r 541) (.r 302)) (.op .madd (.r 543) (.r 303))),
  .set 616 (.op .add32 (.op .madd (.r 545) (.r 304)) (.op .madd (.r 547) (.r 305))),
  .set 573 (.op .add32 (.op .add32 (.r 613) (.r 614)) (.op .add32 (.r 615) (.r 616))),
  .set 613 (.op .add32 (.op .madd (.r 533) (.r 306)) (.op .madd (.r 535) (.r 307))),
  .set 614 (.op .add32 (.op .madd (.r 537) (.r 308)) (.op .madd (.r 539) (.r 309))),
  .set 615 (.op .add32 (.op .madd (.r 541) (.r 310)) (.op .madd (.r 543) (.r 311)))]

/-- source/common/vec/intrinsic_idct_avx2.cc:996-1029. -/
def idct_32x32_avx2_2 : List S := [
  .set 616 (.op .add32 (.op .madd (.r 545) (.r 312)) (.op .madd (.r 547) (.r 313))),
  .set 574 (.op .add32 (.op .add32 (.r 613) (.r 614)) (.op .add32 (.r 615) (.r 616))),
  .set 613 (.op .add32 (.op .madd (.r 533) (.r 314)) (.op .madd (.r 535) (.r 315))),
  .set 614 (.op .add32 (.op .madd (.r 537) (.r 316)) (.op .madd (.r 539) (.r 317))),
  .set 615 (.op .add32 (.op .madd (.r 541) (.r 318)) (.op .madd (.r 543) (.r 319))),
  .set 616 (.op .add32 (.op .madd (.r 545) (.r 320)) (.op .madd (.r 547) (.r 321))),
  .set 575 (.op .add32 (.op .add32 (.r 613) (.r 614)) (.op .add32 (.r 615) (.r 616))),
  .set 613 (.op .add32 (.op .madd (.r 533) (.r 322)) (.op .madd (.r 535) (.r 323))),
  .set 614 (.op .add32 (.op .madd (.r 537) (.r 324)) (.op .madd (.r 539) (.r 325))),
  .set 615 (.op .add32 (.op .madd (.r 541) (.r 326)) (.op .madd (.r 543) (.r 327))),
  .set 616 (.op .add32 (.op .madd (.r 545) (.r 328)) (.op .madd (.r 547) (.r 329))),
  .set 576 (.op .add32 (.op .add32 (.r 613) (.r 614)) (.op .add32 (.r 615) (.r 616))),
  .set 613 (.op .add32 (.op .madd (.r 533) (.r 330)) (.op .madd (.r 535) (.r 331))),
  .set 614 (.op .add32 (.op .madd (.r 537) (.r 332)) (.op .madd (.r 539) (.r 333))),
  .set 615 (.op .add32 (.op .madd (.r 541) (.r 334)) (.op .madd (.r 543) (.r 335))),
  .set 616 (.op .add32 (.op .madd (.r 545) (.r 336)) (.op .madd (.r 547) (.r 337))),
  .set 577 (.op .add32 (.op .add32 (.r 613) (.r 614)) (.op .add32 (.r 615) (.r 616))),
  .set 613 (.op .add32 (.op .madd (.r 533) (.r 338)) (.op .madd (.r 535) (.r 339))),
  .set 614 (.op .add32 (.op .madd (.r 537) (.r 340)) (.op .madd (.r 539) (.r 341))),
  .set 615 (.op .add32 (.op .madd (.r 541) (.r 342)) (.op .madd (.r 543) (.r 343))),
  .set 616 (.op .add32 (.op .madd (.r 545) (.r 344)) (.op .madd (.r 547) (.r 345))),
  .set 578 (.op .add32 (.op .add32 (.r 613) (.r 614)) (.op .add32 (.r 615) (.r 616))),
  .set 613 (.op .add32 (.op .madd (.r 533) (.r 346)) (.op .madd (.r 535) (.r 347))),
  .set 614 (.op .add32 (.op .madd (.r 537) (.r 348)) (.op .madd (.r 539) (.r 349))),
  .set 615 (.op .add32 (.op .madd (.r 541) (.r 350)) (.op .madd (.r 543) (.r 351))),
  .set 616 (.op .add32 (.op .madd (.r 545) (.r 352)) (.op .madd (.r 547) (.r 353))),
  .set 579 (.op .add32 (.op .add32 (.r 613) (.r 614)) (.op .add32 (.r 615) (.r 616))),
  .set 613 (.op .add32 (.op .madd (.r 533) (.r 354)) (.op .madd (.r 535) (.r 355))),
  .set 614 (.op .add32 (.op .madd (.r 537) (.r 356)) (.op .madd (.r 539) (.r 357))),
  .set 615 (.op .add32 (.op .madd (.r 541) (.r 358)) (.op .madd (.r 543) (.r 359))),
  .set 616 (.op .add32 (.op .madd (.r 545) (.r 360)) (.op .madd (.r 547) (.r 361))),
  .set 580 (.op .add32 (.op .add32 (.r 613) (.r 614)) (.op .add32 (.r 615) (.r 616))),
  .set 613 (.op .add32 (.op .madd (.r 534) (.r 234)) (.op .madd (.r 536) (.r 235))),
  .set 614 (.op .add32 (.op .madd (.r 538) (.r 236)) (.op .madd (.r 540) (.r 237))),
  .set 615 (.op .add32 (.op .madd (.r 542) (.r 238)) (.op .madd (.r 544) (.r 239))),
  .set 616 (.op .add32 (.op .madd (.r 546) (.r 240)) (.op .madd (.r 548) (.r 241))),
  .set 581 (.op .add32 (.op .add32 (.r 613) (.r 614)) (.op .add32 (.r 615) (.r 616))),
  .set 613 (.op .add32 (.op .madd (.r 534) (.r 242)) (.op .madd (.r 536) (.r 243))),
  .set 614 (.op .add32 (.op .madd (.r 538) (.r 244)) (.op .madd (.r 540) (.r 245))),
  .set 615 (.op .add32 (.op .madd (.r 542) (.r 246)) (.op .madd (.r 544) (.r 247))),
  .set 616 (.op .add32 (.op .madd (.r 546) (.r 248)) (.op .madd (.r 548) (.r 249))),
  .set 582 (.op .add32 (.op .add32 (.r 613) (.r 614)) (.op .add32 (.r 615) (.r 616))),
  .set 613 (.op .add32 (.op .madd (.r 534) (.r 250)) (.op .madd (.r 536) (.r 251))),
  .set 614 (.op .add32 (.op .madd (.r 538) (.r 252)) (.op .madd (.r 540) (.r 253))),
  .set 615 (.op .add32 (.op .madd (.r 542) (.r 254)) (.op .madd (.r 544) (.r 255))),
  .set 616 (.op .add32 (.op .madd (.r 546) (.r 256)) (.op .madd (.r 548) (.r 257))),
  .set 583 (.op .add32 (.op .add32 (.r 613) (.r 614)) (.op .add32 (.r 615) (.r 616))),
  .set 613 (.op .add32 (.op .madd (.r 534) (.r 258)) (.op .madd (.r 536) (.r 259))),
  .set 614 (.op .add32 (.op .madd (.r 538) (.r 260)) (.op .madd (.r 540) (.r 261))),
  .set 615 (.op .add32 (.op .madd (.r 542) (.r 262)) (.op .madd (.r 544) (.r 263))),
  .set 616 (.op .add32 (.op .madd (.r 546) (.r 264)) (.op .madd (.r 548) (.r 265))),
  .set 584 (.op .add32 (.op .add32 (.r 613) (.r 614)) (.op .add32 (.r 615) (.r 616))),
  .set 613 (.op .add32 (.op .madd (.r 534) (.r 266)) (.op .madd (.r 536) (.r 267))),
  .set 614 (.op .add32 (.op .madd (.r 538) (.r 268)) (.op .madd (.r 540) (.r 269))),
  .set 615 (.op .add32 (.op .madd (.r 542) (.r 270)) (.op .madd (.r 544) (.r 271))),
  .set 616 (.op .add32 (.op .madd (.r 546) (.r 272)) (.op .madd (.r 548) (.r 273))),
  .set 585 (.op .add32 (.op .add32 (.r 613) (.r 614)) (.op .add32 (.r 615) (.r 616))),
  .set 613 (.op .add32 (.op .madd (.r 534) (.r 274)) (.op .madd (.r 536) (.r 275))),
  .set 614 (.op .add32 (.op .madd (.r 538) (.r 276)) (.op .madd (.r 540) (.r 277))),
  .set 615 (.op .add32 (.op .madd (.r 542) (.r 278)) (.op .madd (.r 544) (.r 279))),
  .set 616 (.op .add32 (.op .madd (.r 546) (.r 280)) (.op .madd (.r 548) (.r 281))),
  .set 586 (.op .add32 (.op .add32 (.r 613) (.r 614)) (.op .add32 (.r 615) (.r 616))),
  .set 613 (.op .add32 (.op .madd (.r 534) (.r 282)) (.op .madd (.r 536) (.r 283))),
  .set 614 (.op .add32 (.op .madd (.r 538) (.r 284)) (.op .madd (.r 540) (.r 285))),
  .set 615 (.op .add32 (.op .madd (.r 542) (.r 286)) (.op .madd (.r 544) (.r 287))),
  .set 616 (.op .add32 (.op .madd (.r 546) (.r 288)) (.op .madd (.r 548) (.r 289))),
  .set 587 (.op .add32 (.op .add32 (.r 613) (.r 614)) (.op .add32 (.r 615) (.r 616))),
  .set 613 (.op .add32 (.op .madd (.r 534) (.r 290)) (.op .madd (.r 536) (.r 291))),
  .set 614 (.op .add32 (.op .madd (.r 538) (.r 292)) (.op .madd (.r 540) (.r 293))),
  .set 615 (.op .add32 (.op .madd (.r 542) (.r 294)) (.op .madd (.r 544) (.r 295))),
  .set 616 (.op .add32 (.op .madd (.r 546) (.r 296)) (.op .madd (.r 548) (.r 297))),
  .set 588 (.op .add32 (.op .add32 (.r 613) (.r 614)) (.op .add32 (.r 615) (.r 616))),
  .set 613 (.op .add32 (.op .madd (.r 534) (.r 298)) (.op .madd (.r 536) (.r 299))),
  .set 614 (.op .add32 (.op .madd (.r 538) (.r 300)) (.op .madd (.r 540) (.r 301))),
  .set 615 (.op .add32 (.op .madd (.r 542) (.r 302)) (.op .madd (.r 544) (.r 303))),
  .set 616 (.op .add32 (.op .madd (.r 546) (.r 304)) (.op .madd (.r 548) (.r 305))),
  .set 589 (.op .add32 (.op .add32 (.r 613) (.r 614)) (.op .add32 (.r 615) (.r 616))),
  .set 613 (.op .add32 (.op .madd (.r 534) (.r 306)) (.op .madd (.r 536) (.r 307))),
  .set 614 (.op .add32 (.op .madd (.r 538) (.r 308)) (.op .madd (.r 540) (.r 309))),
  .set 615 (.op .add32 (.op .madd (.r 542) (.r 310)) (.op .madd (.r 544) (.r 311)))]

/-- source/common/vec/intrinsic_idct_avx2.cc:1029-1071. -/
def idct_32x32_avx2_3 : List S := [
  .set 616 (.op .add32 (.op .madd (.r 546) (.r 312)) (.op .madd (.r 548) (.r 313))),
  .set 590 (.op .add32 (.op .add32 (.r 613) (.r 614)) (.op .add32 (.r 615) (.r 616))),
  .set 613 (.op .add32 (.op .madd (.r 534) (.r 314)) (.op .madd (.r 536) (.r 315))),
  .set 614 (.op .add32 (.op .madd (.r 538) (.r 316)) (.op .madd (.r 540) (.r 317))),
  .set 615 (.op .add32 (.op .madd (.r 542) (.r 318)) (.op .madd (.r 544) (.r 319))),
  .set 616 (.op .add32 (.op .madd (.r 546) (.r 320)) (.op .madd (.r 548) (.r 321))),
  .set 591 (.op .add32 (.op .add32 (.r 613) (.r 614)) (.op .add32 (.r 615) (.r 616))),
  .set 613 (.op .add32 (.op .madd (.r 534) (.r 322)) (.op .madd (.r 536) (.r 323))),
  .set 614 (.op .add32 (.op .madd (.r 538) (.r 324)) (.op .madd (.r 540) (.r 325))),
  .set 615 (.op .add32 (.op .madd (.r 542) (.r 326)) (.op .madd (.r 544) (.r 327))),
  .set 616 (.op .add32 (.op .madd (.r 546) (.r 328)) (.op .madd (.r 548) (.r 329))),
  .set 592 (.op .add32 (.op .add32 (.r 613) (.r 614)) (.op .add32 (.r 615) (.r 616))),
  .set 613 (.op .add32 (.op .madd (.r 534) (.r 330)) (.op .madd (.r 536) (.r 331))),
  .set 614 (.op .add32 (.op .madd (.r 538) (.r 332)) (.op .madd (.r 540) (.r 333))),
  .set 615 (.op .add32 (.op .madd (.r 542) (.r 334)) (.op .madd (.r 544) (.r 335))),
  .set 616 (.op .add32 (.op .madd (.r 546) (.r 336)) (.op .madd (.r 548) (.r 337))),
  .set 593 (.op .add32 (.op .add32 (.r 613) (.r 614)) (.op .add32 (.r 615) (.r 616))),
  .set 613 (.op .add32 (.op .madd (.r 534) (.r 338)) (.op .madd (.r 536) (.r 339))),
  .set 614 (.op .add32 (.op .madd (.r 538) (.r 340)) (.op .madd (.r 540) (.r 341))),
  .set 615 (.op .add32 (.op .madd (.r 542) (.r 342)) (.op .madd (.r 544) (.r 343))),
  .set 616 (.op .add32 (.op .madd (.r 546) (.r 344)) (.op .madd (.r 548) (.r 345))),
  .set 594 (.op .add32 (.op .add32 (.r 613) (.r 614)) (.op .add32 (.r 615) (.r 616))),
  .set 613 (.op .add32 (.op .madd (.r 534) (.r 346)) (.op .madd (.r 536) (.r 347))),
  .set 614 (.op .add32 (.op .madd (.r 538) (.r 348)) (.op .madd (.r 540) (.r 349))),
  .set 615 (.op .add32 (.op .madd (.r 542) (.r 350)) (.op .madd (.r 544) (.r 351))),
  .set 616 (.op .add32 (.op .madd (.r 546) (.r 352)) (.op .madd (.r 548) (.r 353))),
  .set 595 (.op .add32 (.op .add32 (.r 613) (.r 614)) (.op .add32 (.r 615) (.r 616))),
  .set 613 (.op .add32 (.op .madd (.r 534) (.r 354)) (.op .madd (.r 536) (.r 355))),
  .set 614 (.op .add32 (.op .madd (.r 538) (.r 356)) (.op .madd (.r 540) (.r 357))),
  .set 615 (.op .add32 (.op .madd (.r 542) (.r 358)) (.op .madd (.r 544) (.r 359))),
  .set 616 (.op .add32 (.op .madd (.r 546) (.r 360)) (.op .madd (.r 548) (.r 361))),
  .set 596 (.op .add32 (.op .add32 (.r 613) (.r 614)) (.op .add32 (.r 615) (.r 616))),
  .set 617 (.op .add32 (.op .madd (.r 549) (.r 256)) (.op .madd (.r 551) (.r 362))),
  .set 618 (.op .add32 (.op .madd (.r 553) (.r 363)) (.op .madd (.r 555) (.r 364))),
  .set 597 (.op .add32 (.r 617) (.r 618)),
  .set 617 (.op .add32 (.op .madd (.r 549) (.r 365)) (.op .madd (.r 551) (.r 366))),
  .set 618 (.op .add32 (.op .madd (.r 553) (.r 367)) (.op .madd (.r 555) (.r 368))),
  .set 598 (.op .add32 (.r 617) (.r 618)),
  .set 617 (.op .add32 (.op .madd (.r 549) (.r 369)) (.op .madd (.r 551) (.r 370))),
  .set 618 (.op .add32 (.op .madd (.r 553) (.r 371)) (.op .madd (.r 555) (.r 372))),
  .set 599 (.op .add32 (.r 617) (.r 618)),
  .set 617 (.op .add32 (.op .madd (.r 549) (.r 373)) (.op .madd (.r 551) (.r 374))),
  .set 618 (.op .add32 (.op .madd (.r 553) (.r 375)) (.op .madd (.r 555) (.r 376))),
  .set 600 (.op .add32 (.r 617) (.r 618)),
  .set 617 (.op .add32 (.op .madd (.r 549) (.r 377)) (.op .madd (.r 551) (.r 378))),
  .set 618 (.op .add32 (.op .madd (.r 553) (.r 379)) (.op .madd (.r 555) (.r 380))),
  .set 601 (.op .add32 (.r 617) (.r 618)),
  .set 617 (.op .add32 (.op .madd (.r 549) (.r 381)) (.op .madd (.r 551) (.r 382))),
  .set 618 (.op .add32 (.op .madd (.r 553) (.r 383)) (.op .madd (.r 555) (.r 384))),
  .set 602 (.op .add32 (.r 617) (.r 618)),
  .set 617 (.op .add32 (.op .madd (.r 549) (.r 385)) (.op .madd (.r 551) (.r 386))),
  .set 618 (.op .add32 (.op .madd (.r 553) (.r 387)) (.op .madd (.r 555) (.r 388))),
  .set 603 (.op .add32 (.r 617) (.r 618)),
  .set 617 (.op .add32 (.op .madd (.r 549) (.r 389)) (.op .madd (.r 551) (.r 390))),
  .set 618 (.op .add32 (.op .madd (.r 553) (.r 391)) (.op .madd (.r 555) (.r 339))),
  .set 604 (.op .add32 (.r 617) (.r 618)),
  .set 617 (.op .add32 (.op .madd (.r 550) (.r 256)) (.op .madd (.r 552) (.r 362))),
  .set 618 (.op .add32 (.op .madd (.r 554) (.r 363)) (.op .madd (.r 556) (.r 364))),
  .set 605 (.op .add32 (.r 617) (.r 618)),
  .set 617 (.op .add32 (.op .madd (.r 550) (.r 365)) (.op .madd (.r 552) (.r 366))),
  .set 618 (.op .add32 (.op .madd (.r 554) (.r 367)) (.op .madd (.r 556) (.r 368))),
  .set 606 (.op .add32 (.r 617) (.r 618)),
  .set 617 (.op .add32 (.op .madd (.r 550) (.r 369)) (.op .madd (.r 552) (.r 370))),
  .set 618 (.op .add32 (.op .madd (.r 554) (.r 371)) (.op .madd (.r 556) (.r 372))),
  .set 607 (.op .add32 (.r 617) (.r 618)),
  .set 617 (.op .add32 (.op .madd (.r 550) (.r 373)) (.op .madd (.r 552) (.r 374))),
  .set 618 (.op .add32 (.op .madd (.r 554) (.r 375)) (.op .madd (.r 556) (.r 376))),
  .set 608 (.op .add32 (.r 617) (.r 618)),
  .set 617 (.op .add32 (.op .madd (.r 550) (.r 377)) (.op .madd (.r 552) (.r 378))),
  .set 618 (.op .add32 (.op .madd (.r 554) (.r 379)) (.op .madd (.r 556) (.r 380))),
  .set 609 (.op .add32 (.r 617) (.r 618)),
  .set 617 (.op .add32 (.op .madd (.r 550) (.r 381)) (.op .madd (.r 552) (.r 382))),
  .set 618 (.op .add32 (.op .madd (.r 554) (.r 383)) (.op .madd (.r 556) (.r 384))),
  .set 610 (.op .add32 (.r 617) (.r 618)),
  .set 617 (.op .add32 (.op .madd (.r 550) (.r 385)) (.op .madd (.r 552) (.r 386))),
  .set 618 (.op .add32 (.op .madd (.r 554) (.r 387)) (.op .madd (.r 556) (.r 388))),
  .set 611 (.op .add32 (.r 617) (.r 618)),
  .set 617 (.op .add32 (.op .madd (.r 550) (.r 389)) (.op .madd (.r 552) (.r 390))),
  .set 618 (.op .add32 (.op .madd (.r 554) (.r 391)) (.op .madd (.r 556) (.r 339))),
  .set 612 (.op .add32 (.r 617) (.r 618))]

/-- source/common/vec/intrinsic_idct_avx2.cc:1075-1160. -/
def idct_32x32_avx2_4 : List S := [
  .set 2 (.op .add32 (.op .madd (.r 557) (.r 392)) (.op .madd (.r 559) (.r 393))),
  .set 3 (.op .add32 (.op .madd (.r 557) (.r 394)) (.op .madd (.r 559) (.r 395))),
  .set 4 (.op .add32 (.op .madd (.r 557) (.r 396)) (.op .madd (.r 559) (.r 397))),
  .set 5 (.op .add32 (.op .madd (.r 557) (.r 398)) (.op .madd (.r 559) (.r 399))),
  .set 6 (.op .add32 (.op .madd (.r 558) (.r 392)) (.op .madd (.r 560) (.r 393))),
  .set 7 (.op .add32 (.op .madd (.r 558) (.r 394)) (.op .madd (.r 560) (.r 395))),
  .set 8 (.op .add32 (.op .madd (.r 558) (.r 396)) (.op .madd (.r 560) (.r 397))),
  .set 9 (.op .add32 (.op .madd (.r 558) (.r 398)) (.op .madd (.r 560) (.r 399))),
  .set 10 (.op .madd (.r 561) (.r 400)),
  .set 11 (.op .madd (.r 562) (.r 400)),
  .set 12 (.op .madd (.r 561) (.r 401)),
  .set 13 (.op .madd (.r 562) (.r 401)),
  .set 14 (.op .madd (.r 563) (.r 402)),
  .set 15 (.op .madd (.r 564) (.r 402)),
  .set 16 (.op .madd (.r 563) (.r 403)),
  .set 17 (.op .madd (.r 564) (.r 403)),
  .set 18 (.op .add32 (.r 14) (.r 10)),
  .set 19 (.op .add32 (.r 15) (.r 11)),
  .set 20 (.op .add32 (.r 16) (.r 12)),
  .set 21 (.op .add32 (.r 17) (.r 13)),
  .set 22 (.op .sub32 (.r 14) (.r 10)),
  .set 23 (.op .sub32 (.r 15) (.r 11)),
  .set 24 (.op .sub32 (.r 16) (.r 12)),
  .set 25 (.op .sub32 (.r 17) (.r 13)),
  .set 26 (.op .add32 (.r 18) (.r 2)),
  .set 27 (.op .add32 (.r 19) (.r 6)),
  .set 28 (.op .add32 (.r 20) (.r 3)),
  .set 29 (.op .add32 (.r 21) (.r 7)),
  .set 30 (.op .add32 (.r 24) (.r 4)),
  .set 31 (.op .add32 (.r 25) (.r 8)),
  .set 32 (.op .add32 (.r 22) (.r 5)),
  .set 33 (.op .add32 (.r 23) (.r 9)),
  .set 34 (.op .sub32 (.r 18) (.r 2)),
  .set 35 (.op .sub32 (.r 19) (.r 6)),
  .set 36 (.op .sub32 (.r 20) (.r 3)),
  .set 37 (.op .sub32 (.r 21) (.r 7)),
  .set 38 (.op .sub32 (.r 24) (.r 4)),
  .set 39 (.op .sub32 (.r 25) (.r 8)),
  .set 40 (.op .sub32 (.r 22) (.r 5)),
  .set 41 (.op .sub32 (.r 23) (.r 9)),
  .set 42 (.op .add32 (.r 26) (.r 597)),
  .set 43 (.op .add32 (.r 27) (.r 605)),
  .set 44 (.op .add32 (.r 28) (.r 598)),
  .set 45 (.op .add32 (.r 29) (.r 606)),
  .set 46 (.op .add32 (.r 30) (.r 599)),
  .set 47 (.op .add32 (.r 31) (.r 607)),
  .set 48 (.op .add32 (.r 32) (.r 600)),
  .set 49 (.op .add32 (.r 33) (.r 608)),
  .set 50 (.op .add32 (.r 40) (.r 601)),
  .set 51 (.op .add32 (.r 41) (.r 609)),
  .set 52 (.op .add32 (.r 38) (.r 602)),
  .set 53 (.op .add32 (.r 39) (.r 610)),
  .set 54 (.op .add32 (.r 36) (.r 603)),
  .set 55 (.op .add32 (.r 37) (.r 611)),
  .set 56 (.op .add32 (.r 34) (.r 604)),
  .set 57 (.op .add32 (.r 35) (.r 612)),
  .set 58 (.op .sub32 (.r 26) (.r 597)),
  .set 59 (.op .sub32 (.r 27) (.r 605)),
  .set 60 (.op .sub32 (.r 28) (.r 598)),
  .set 61 (.op .sub32 (.r 29) (.r 606)),
  .set 62 (.op .sub32 (.r 30) (.r 599)),
  .set 63 (.op .sub32 (.r 31) (.r 607)),
  .set 64 (.op .sub32 (.r 32) (.r 600)),
  .set 65 (.op .sub32 (.r 33) (.r 608)),
  .set 66 (.op .sub32 (.r 40) (.r 601)),
  .set 67 (.op .sub32 (.r 41) (.r 609)),
  .set 68 (.op .sub32 (.r 38) (.r 602)),
  .set 69 (.op .sub32 (.r 39) (.r 610)),
  .set 70 (.op .sub32 (.r 36) (.r 603)),
  .set 71 (.op .sub32 (.r 37) (.r 611)),
  .set 72 (.op .sub32 (.r 34) (.r 604)),
  .set 73 (.op .sub32 (.r 35) (.r 612)),
  .set 74 (.op .add32 (.r 42) (.r 404)),
  .set 75 (.op .add32 (.r 43) (.r 404)),
  .set 76 (.op .add32 (.r 44) (.r 404)),
  .set 77 (.op .add32 (.r 45) (.r 404)),
  .set 78 (.op .add32 (.r 46) (.r 404)),
  .set 79 (.op .add32 (.r 47) (.r 404)),
  .set 80 (.op .add32 (.r 48) (.r 404)),
  .set 81 (.op .add32 (.r 49) (.r 404))]

/-- source/common/vec/intrinsic_idct_avx2.cc:1161-1241. -/
def idct_32x32_avx2_5 : List S := [
  .set 82 (.op .add32 (.r 50) (.r 404)),
  .set 83 (.op .add32 (.r 51) (.r 404)),
  .set 84 (.op .add32 (.r 52) (.r 404)),
  .set 85 (.op .add32 (.r 53) (.r 404)),
  .set 86 (.op .add32 (.r 54) (.r 404)),
  .set 87 (.op .add32 (.r 55) (.r 404)),
  .set 88 (.op .add32 (.r 56) (.r 404)),
  .set 89 (.op .add32 (.r 57) (.r 404)),
  .set 90 (.op .add32 (.r 72) (.r 404)),
  .set 91 (.op .add32 (.r 73) (.r 404)),
  .set 92 (.op .add32 (.r 70) (.r 404)),
  .set 93 (.op .add32 (.r 71) (.r 404)),
  .set 94 (.op .add32 (.r 68) (.r 404)),
  .set 95 (.op .add32 (.r 69) (.r 404)),
  .set 96 (.op .add32 (.r 66) (.r 404)),
  .set 97 (.op .add32 (.r 67) (.r 404)),
  .set 98 (.op .add32 (.r 64) (.r 404)),
  .set 99 (.op .add32 (.r 65) (.r 404)),
  .set 100 (.op .add32 (.r 62) (.r 404)),
  .set 101 (.op .add32 (.r 63) (.r 404)),
  .set 102 (.op .add32 (.r 60) (.r 404)),
  .set 103 (.op .add32 (.r 61) (.r 404)),
  .set 104 (.op .add32 (.r 58) (.r 404)),
  .set 105 (.op .add32 (.r 59) (.r 404)),
  .set 106 (.op .add32 (.r 74) (.r 565)),
  .set 107 (.op .add32 (.r 75) (.r 581)),
  .set 108 (.op .add32 (.r 76) (.r 566)),
  .set 109 (.op .add32 (.r 77) (.r 582)),
  .set 110 (.op .add32 (.r 78) (.r 567)),
  .set 111 (.op .add32 (.r 79) (.r 583)),
  .set 112 (.op .add32 (.r 80) (.r 568)),
  .set 113 (.op .add32 (.r 81) (.r 584)),
  .set 114 (.op .add32 (.r 82) (.r 569)),
  .set 115 (.op .add32 (.r 83) (.r 585)),
  .set 116 (.op .add32 (.r 84) (.r 570)),
  .set 117 (.op .add32 (.r 85) (.r 586)),
  .set 118 (.op .add32 (.r 86) (.r 571)),
  .set 119 (.op .add32 (.r 87) (.r 587)),
  .set 120 (.op .add32 (.r 88) (.r 572)),
  .set 121 (.op .add32 (.r 89) (.r 588)),
  .set 122 (.op .add32 (.r 90) (.r 573)),
  .set 123 (.op .add32 (.r 91) (.r 589)),
  .set 124 (.op .add32 (.r 92) (.r 574)),
  .set 125 (.op .add32 (.r 93) (.r 590)),
  .set 126 (.op .add32 (.r 94) (.r 575)),
  .set 127 (.op .add32 (.r 95) (.r 591)),
  .set 128 (.op .add32 (.r 96) (.r 576)),
  .set 129 (.op .add32 (.r 97) (.r 592)),
  .set 130 (.op .add32 (.r 98) (.r 577)),
  .set 131 (.op .add32 (.r 99) (.r 593)),
  .set 132 (.op .add32 (.r 100) (.r 578)),
  .set 133 (.op .add32 (.r 101) (.r 594)),
  .set 134 (.op .add32 (.r 102) (.r 579)),
  .set 135 (.op .add32 (.r 103) (.r 595)),
  .set 136 (.op .add32 (.r 104) (.r 580)),
  .set 137 (.op .add32 (.r 105) (.r 596)),
  .set 138 (.op .sub32 (.r 74) (.r 565)),
  .set 139 (.op .sub32 (.r 75) (.r 581)),
  .set 140 (.op .sub32 (.r 76) (.r 566)),
  .set 141 (.op .sub32 (.r 77) (.r 582)),
  .set 142 (.op .sub32 (.r 78) (.r 567)),
  .set 143 (.op .sub32 (.r 79) (.r 583)),
  .set 144 (.op .sub32 (.r 80) (.r 568)),
  .set 145 (.op .sub32 (.r 81) (.r 584)),
  .set 146 (.op .sub32 (.r 82) (.r 569)),
  .set 147 (.op .sub32 (.r 83) (.r 585)),
  .set 148 (.op .sub32 (.r 84) (.r 570)),
  .set 149 (.op .sub32 (.r 85) (.r 586)),
  .set 150 (.op .sub32 (.r 86) (.r 571)),
  .set 151 (.op .sub32 (.r 87) (.r 587)),
  .set 152 (.op .sub32 (.r 88) (.r 572)),
  .set 153 (.op .sub32 (.r 89) (.r 588)),
  .set 154 (.op .sub32 (.r 90) (.r 573)),
  .set 155 (.op .sub32 (.r 91) (.r 589)),
  .set 156 (.op .sub32 (.r 92) (.r 574)),
  .set 157 (.op .sub32 (.r 93) (.r 590)),
  .set 158 (.op .sub32 (.r 94) (.r 575)),
  .set 159 (.op .sub32 (.r 95) (.r 591)),
  .set 160 (.op .sub32 (.r 96) (.r 576)),
  .set 161 (.op .sub32 (.r 97) (.r 592))]

/-- source/common/vec/intrinsic_idct_avx2.cc:1242-1324. -/
def idct_32x32_avx2_6 (nShift : Nat) (part : Nat) : List S := [
  .set 162 (.op .sub32 (.r 98) (.r 577)),
  .set 163 (.op .sub32 (.r 99) (.r 593)),
  .set 164 (.op .sub32 (.r 100) (.r 578)),
  .set 165 (.op .sub32 (.r 101) (.r 594)),
  .set 166 (.op .sub32 (.r 102) (.r 579)),
  .set 167 (.op .sub32 (.r 103) (.r 595)),
  .set 168 (.op .sub32 (.r 104) (.r 580)),
  .set 169 (.op .sub32 (.r 105) (.r 596)),
  .set 170 (.sra32 (.r 106) nShift),
  .set 171 (.sra32 (.r 107) nShift),
  .set 172 (.sra32 (.r 108) nShift),
  .set 173 (.sra32 (.r 109) nShift),
  .set 174 (.sra32 (.r 110) nShift),
  .set 175 (.sra32 (.r 111) nShift),
  .set 176 (.sra32 (.r 112) nShift),
  .set 177 (.sra32 (.r 113) nShift),
  .set 178 (.sra32 (.r 114) nShift),
  .set 179 (.sra32 (.r 115) nShift),
  .set 180 (.sra32 (.r 116) nShift),
  .set 181 (.sra32 (.r 117) nShift),
  .set 182 (.sra32 (.r 118) nShift),
  .set 183 (.sra32 (.r 119) nShift),
  .set 184 (.sra32 (.r 120) nShift),
  .set 185 (.sra32 (.r 121) nShift),
  .set 186 (.sra32 (.r 122) nShift),
  .set 187 (.sra32 (.r 123) nShift),
  .set 188 (.sra32 (.r 124) nShift),
  .set 189 (.sra32 (.r 125) nShift),
  .set 190 (.sra32 (.r 126) nShift),
  .set 191 (.sra32 (.r 127) nShift),
  .set 192 (.sra32 (.r 128) nShift),
  .set 193 (.sra32 (.r 129) nShift),
  .set 194 (.sra32 (.r 130) nShift),
  .set 195 (.sra32 (.r 131) nShift),
  .set 196 (.sra32 (.r 132) nShift),
  .set 197 (.sra32 (.r 133) nShift),
  .set 198 (.sra32 (.r 134) nShift),
  .set 199 (.sra32 (.r 135) nShift),
  .set 200 (.sra32 (.r 136) nShift),
  .set 201 (.sra32 (.r 137) nShift),
  .set 202 (.sra32 (.r 168) nShift),
  .set 203 (.sra32 (.r 169) nShift),
  .set 204 (.sra32 (.r 166) nShift),
  .set 205 (.sra32 (.r 167) nShift),
  .set 206 (.sra32 (.r 164) nShift),
  .set 207 (.sra32 (.r 165) nShift),
  .set 208 (.sra32 (.r 162) nShift),
  .set 209 (.sra32 (.r 163) nShift),
  .set 210 (.sra32 (.r 160) nShift),
  .set 211 (.sra32 (.r 161) nShift),
  .set 212 (.sra32 (.r 158) nShift),
  .set 213 (.sra32 (.r 159) nShift),
  .set 214 (.sra32 (.r 156) nShift),
  .set 215 (.sra32 (.r 157) nShift),
  .set 216 (.sra32 (.r 154) nShift),
  .set 217 (.sra32 (.r 155) nShift),
  .set 218 (.sra32 (.r 152) nShift),
  .set 219 (.sra32 (.r 153) nShift),
  .set 220 (.sra32 (.r 150) nShift),
  .set 221 (.sra32 (.r 151) nShift),
  .set 222 (.sra32 (.r 148) nShift),
  .set 223 (.sra32 (.r 149) nShift),
  .set 224 (.sra32 (.r 146) nShift),
  .set 225 (.sra32 (.r 147) nShift),
  .set 226 (.sra32 (.r 144) nShift),
  .set 227 (.sra32 (.r 145) nShift),
  .set 228 (.sra32 (.r 142) nShift),
  .set 229 (.sra32 (.r 143) nShift),
  .set 230 (.sra32 (.r 140) nShift),
  .set 231 (.sra32 (.r 141) nShift),
  .set 232 (.sra32 (.r 138) nShift),
  .set 233 (.sra32 (.r 139) nShift),
  .set (469 + part) (.op .packs (.r 170) (.r 171)),
  .set (471 + part) (.op .packs (.r 172) (.r 173)),
  .set (473 + part) (.op .packs (.r 174) (.r 175)),
  .set (475 + part) (.op .packs (.r 176) (.r 177)),
  .set (477 + part) (.op .packs (.r 178) (.r 179)),
  .set (479 + part) (.op .packs (.r 180) (.r 181)),
  .set (481 + part) (.op .packs (.r 182) (.r 183)),
  .set (483 + part) (.op .packs (.r 184) (.r 185))]

/-- source/common/vec/intrinsic_idct_avx2.cc:1325-1348. -/
def idct_32x32_avx2_7 (part : Nat) : List S := [
  .set (485 + part) (.op .packs (.r 186) (.r 187)),
  .set (487 + part) (.op .packs (.r 188) (.r 189)),
  .set (489 + part) (.op .packs (.r 190) (.r 191)),
  .set (491 + part) (.op .packs (.r 192) (.r 193)),
  .set (493 + part) (.op .packs (.r 194) (.r 195)),
  .set (495 + part) (.op .packs (.r 196) (.r 197)),
  .set (497 + part) (.op .packs (.r 198) (.r 199)),
  .set (499 + part) (.op .packs (.r 200) (.r 201)),
  .set (501 + part) (.op .packs (.r 202) (.r 203)),
  .set (503 + part) (.op .packs (.r 204) (.r 205)),
  .set (505 + part) (.op .packs (.r 206) (.r 207)),
  .set (507 + part) (.op .packs (.r 208) (.r 209)),
  .set (509 + part) (.op .packs (.r 210) (.r 211)),
  .set (511 + part) (.op .packs (.r 212) (.r 213)),
  .set (513 + part) (.op .packs (.r 214) (.r 215)),
  .set (515 + part) (.op .packs (.r 216) (.r 217)),
  .set (517 + part) (.op .packs (.r 218) (.r 219)),
  .set (519 + part) (.op .packs (.r 220) (.r 221)),
  .set (521 + part) (.op .packs (.r 222) (.r 223)),
  .set (523 + part) (.op .packs (.r 224) (.r 225)),
  .set (525 + part) (.op .packs (.r 226) (.r 227)),
  .set (527 + part) (.op .packs (.r 228) (.r 229)),
  .set (529 + part) (.op .packs (.r 230) (.r 231)),
  .set (531 + part) (.op .packs (.r 232) (.r 233))]

/-- source/common/vec/intrinsic_idct_avx2.cc:1421-1422. -/
def idct_32x32_avx2_8 : List S := [
  .set 619 (.op .lo16 (.r 469) (.r 471)),
  .set 620 (.op .lo16 (.r 473) (.r 475)),
  .set 621 (.op .lo16 (.r 477) (.r 479)),
  .set 622 (.op .lo16 (.r 481) (.r 483)),
  .set 623 (.op .lo16 (.r 485) (.r 487)),
  .set 624 (.op .lo16 (.r 489) (.r 491)),
  .set 625 (.op .lo16 (.r 493) (.r 495)),
  .set 626 (.op .lo16 (.r 497) (.r 499)),
  .set 627 (.op .hi16 (.r 469) (.r 471)),
  .set 628 (.op .hi16 (.r 473) (.r 475)),
  .set 629 (.op .hi16 (.r 477) (.r 479)),
  .set 630 (.op .hi16 (.r 481) (.r 483)),
  .set 631 (.op .hi16 (.r 485) (.r 487)),
  .set 632 (.op .hi16 (.r 489) (.r 491)),
  .set 633 (.op .hi16 (.r 493) (.r 495)),
  .set 634 (.op .hi16 (.r 497) (.r 499)),
  .set 405 (.op .lo32 (.r 619) (.r 620)),
  .set 407 (.op .lo32 (.r 621) (.r 622)),
  .set 409 (.op .lo32 (.r 623) (.r 624)),
  .set 411 (.op .lo32 (.r 625) (.r 626)),
  .set 413 (.op .hi32 (.r 619) (.r 620)),
  .set 415 (.op .hi32 (.r 621) (.r 622)),
  .set 417 (.op .hi32 (.r 623) (.r 624)),
  .set 419 (.op .hi32 (.r 625) (.r 626)),
  .set 421 (.op .lo32 (.r 627) (.r 628)),
  .set 423 (.op .lo32 (.r 629) (.r 630)),
  .set 425 (.op .lo32 (.r 631) (.r 632)),
  .set 427 (.op .lo32 (.r 633) (.r 634)),
  .set 429 (.op .hi32 (.r 627) (.r 628)),
  .set 431 (.op .hi32 (.r 629) (.r 630)),
  .set 433 (.op .hi32 (.r 631) (.r 632)),
  .set 435 (.op .hi32 (.r 633) (.r 634)),
  .set 619 (.op .lo64 (.r 405) (.r 407)),
  .set 620 (.op .lo64 (.r 409) (.r 411)),
  .set 621 (.op .hi64 (.r 405) (.r 407)),
  .set 622 (.op .hi64 (.r 409) (.r 411)),
  .set 623 (.op .lo64 (.r 413) (.r 415)),
  .set 624 (.op .lo64 (.r 417) (.r 419)),
  .set 625 (.op .hi64 (.r 413) (.r 415)),
  .set 626 (.op .hi64 (.r 417) (.r 419)),
  .set 627 (.op .lo64 (.r 421) (.r 423)),
  .set 628 (.op .lo64 (.r 425) (.r 427)),
  .set 629 (.op .hi64 (.r 421) (.r 423)),
  .set 630 (.op .hi64 (.r 425) (.r 427)),
  .set 631 (.op .lo64 (.r 429) (.r 431)),
  .set 632 (.op .lo64 (.r 433) (.r 435)),
  .set 633 (.op .hi64 (.r 429) (.r 431)),
  .set 634 (.op .hi64 (.r 433) (.r 435)),
  .set 405 (.op .perm20 (.r 619) (.r 620)),
  .set 407 (.op .perm20 (.r 621) (.r 622)),
  .set 409 (.op .perm20 (.r 623) (.r 624)),
  .set 411 (.op .perm20 (.r 625) (.r 626)),
  .set 413 (.op .perm20 (.r 627) (.r 628)),
  .set 415 (.op .perm20 (.r 629) (.r 630)),
  .set 417 (.op .perm20 (.r 631) (.r 632)),
  .set 419 (.op .perm20 (.r 633) (.r 634)),
  .set 421 (.op .perm31 (.r 619) (.r 620)),
  .set 423 (.op .perm31 (.r 621) (.r 622)),
  .set 425 (.op .perm31 (.r 623) (.r 624)),
  .set 427 (.op .perm31 (.r 625) (.r 626)),
  .set 429 (.op .perm31 (.r 627) (.r 628)),
  .set 431 (.op .perm31 (.r 629) (.r 630)),
  .set 433 (.op .perm31 (.r 631) (.r 632)),
  .set 435 (.op .perm31 (.r 633) (.r 634)),
  .set 619 (.op .lo16 (.r 501) (.r 503)),
  .set 620 (.op .lo16 (.r 505) (.r 507)),
  .set 621 (.op .lo16 (.r 509) (.r 511)),
  .set 622 (.op .lo16 (.r 513) (.r 515)),
  .set 623 (.op .lo16 (.r 517) (.r 519)),
  .set 624 (.op .lo16 (.r 521) (.r 523)),
  .set 625 (.op .lo16 (.r 525) (.r 527)),
  .set 626 (.op .lo16 (.r 529) (.r 531)),
  .set 627 (.op .hi16 (.r 501) (.r 503)),
  .set 628 (.op .hi16 (.r 505) (.r 507)),
  .set 629 (.op .hi16 (.r 509) (.r 511)),
  .set 630 (.op .hi16 (.r 513) (.r 515)),
  .set 631 (.op .hi16 (.r 517) (.r 519)),
  .set 632 (.op .hi16 (.r 521) (.r 523)),
  .set 633 (.op .hi16 (.r 525) (.r 527)),
  .set 634 (.op .hi16 (.r 529) (.r 531))]

/-- source/common/vec/intrinsic_idct_avx2.cc:1422-1423. -/
def idct_32x32_avx2_9 : List S := [
  .set 406 (.op .lo32 (.r 619) (.r 620)),
  .set 408 (.op .lo32 (.r 621) (.r 622)),
  .set 410 (.op .lo32 (.r 623) (.r 624)),
  .set 412 (.op .lo32 (.r 625) (.r 626)),
  .set 414 (.op .hi32 (.r 619) (.r 620)),
  .set 416 (.op .hi32 (.r 621) (.r 622)),
  .set 418 (.op .hi32 (.r 623) (.r 624)),
  .set 420 (.op .hi32 (.r 625) (.r 626)),
  .set 422 (.op .lo32 (.r 627) (.r 628)),
  .set 424 (.op .lo32 (.r 629) (.r 630)),
  .set 426 (.op .lo32 (.r 631) (.r 632)),
  .set 428 (.op .lo32 (.r 633) (.r 634)),
  .set 430 (.op .hi32 (.r 627) (.r 628)),
  .set 432 (.op .hi32 (.r 629) (.r 630)),
  .set 434 (.op .hi32 (.r 631) (.r 632)),
  .set 436 (.op .hi32 (.r 633) (.r 634)),
  .set 619 (.op .lo64 (.r 406) (.r 408)),
  .set 620 (.op .lo64 (.r 410) (.r 412)),
  .set 621 (.op .hi64 (.r 406) (.r 408)),
  .set 622 (.op .hi64 (.r 410) (.r 412)),
  .set 623 (.op .lo64 (.r 414) (.r 416)),
  .set 624 (.op .lo64 (.r 418) (.r 420)),
  .set 625 (.op .hi64 (.r 414) (.r 416)),
  .set 626 (.op .hi64 (.r 418) (.r 420)),
  .set 627 (.op .lo64 (.r 422) (.r 424)),
  .set 628 (.op .lo64 (.r 426) (.r 428)),
  .set 629 (.op .hi64 (.r 422) (.r 424)),
  .set 630 (.op .hi64 (.r 426) (.r 428)),
  .set 631 (.op .lo64 (.r 430) (.r 432)),
  .set 632 (.op .lo64 (.r 434) (.r 436)),
  .set 633 (.op .hi64 (.r 430) (.r 432)),
  .set 634 (.op .hi64 (.r 434) (.r 436)),
  .set 406 (.op .perm20 (.r 619) (.r 620)),
  .set 408 (.op .perm20 (.r 621) (.r 622)),
  .set 410 (.op .perm20 (.r 623) (.r 624)),
  .set 412 (.op .perm20 (.r 625) (.r 626)),
  .set 414 (.op .perm20 (.r 627) (.r 628)),
  .set 416 (.op .perm20 (.r 629) (.r 630)),
  .set 418 (.op .perm20 (.r 631) (.r 632)),
  .set 420 (.op .perm20 (.r 633) (.r 634)),
  .set 422 (.op .perm31 (.r 619) (.r 620)),
  .set 424 (.op .perm31 (.r 621) (.r 622)),
  .set 426 (.op .perm31 (.r 623) (.r 624)),
  .set 428 (.op .perm31 (.r 625) (.r 626)),
  .set 430 (.op .perm31 (.r 627) (.r 628)),
  .set 432 (.op .perm31 (.r 629) (.r 630)),
  .set 434 (.op .perm31 (.r 631) (.r 632)),
  .set 436 (.op .perm31 (.r 633) (.r 634)),
  .set 619 (.op .lo16 (.r 470) (.r 472)),
  .set 620 (.op .lo16 (.r 474) (.r 476)),
  .set 621 (.op .lo16 (.r 478) (.r 480)),
  .set 622 (.op .lo16 (.r 482) (.r 484)),
  .set 623 (.op .lo16 (.r 486) (.r 488)),
  .set 624 (.op .lo16 (.r 490) (.r 492)),
  .set 625 (.op .lo16 (.r 494) (.r 496)),
  .set 626 (.op .lo16 (.r 498) (.r 500)),
  .set 627 (.op .hi16 (.r 470) (.r 472)),
  .set 628 (.op .hi16 (.r 474) (.r 476)),
  .set 629 (.op .hi16 (.r 478) (.r 480)),
  .set 630 (.op .hi16 (.r 482) (.r 484)),
  .set 631 (.op .hi16 (.r 486) (.r 488)),
  .set 632 (.op .hi16 (.r 490) (.r 492)),
  .set 633 (.op .hi16 (.r 494) (.r 496)),
  .set 634 (.op .hi16 (.r 498) (.r 500)),
  .set 437 (.op .lo32 (.r 619) (.r 620)),
  .set 439 (.op .lo32 (.r 621) (.r 622)),
  .set 441 (.op .lo32 (.r 623) (.r 624)),
  .set 443 (.op .lo32 (.r 625) (.r 626)),
  .set 445 (.op .hi32 (.r 619) (.r 620)),
  .set 447 (.op .hi32 (.r 621) (.r 622)),
  .set 449 (.op .hi32 (.r 623) (.r 624)),
  .set 451 (.op .hi32 (.r 625) (.r 626)),
  .set 453 (.op .lo32 (.r 627) (.r 628)),
  .set 455 (.op .lo32 (.r 629) (.r 630)),
  .set 457 (.op .lo32 (.r 631) (.r 632)),
  .set 459 (.op .lo32 (.r 633) (.r 634)),
  .set 461 (.op .hi32 (.r 627) (.r 628)),
  .set 463 (.op .hi32 (.r 629) (.r 630)),
  .set 465 (.op .hi32 (.r 631) (.r 632)),
  .set 467 (.op .hi32 (.r 633) (.r 634))]

/-- source/common/vec/intrinsic_idct_avx2.cc:1423-1424. -/
def idct_32x32_avx2_10 : List S := [
  .set 619 (.op .lo64 (.r 437) (.r 439)),
  .set 620 (.op .lo64 (.r 441) (.r 443)),
  .set 621 (.op .hi64 (.r 437) (.r 439)),
  .set 622 (.op .hi64 (.r 441) (.r 443)),
  .set 623 (.op .lo64 (.r 445) (.r 447)),
  .set 624 (.op .lo64 (.r 449) (.r 451)),
  .set 625 (.op .hi64 (.r 445) (.r 447)),
  .set 626 (.op .hi64 (.r 449) (.r 451)),
  .set 627 (.op .lo64 (.r 453) (.r 455)),
  .set 628 (.op .lo64 (.r 457) (.r 459)),
  .set 629 (.op .hi64 (.r 453) (.r 455)),
  .set 630 (.op .hi64 (.r 457) (.r 459)),
  .set 631 (.op .lo64 (.r 461) (.r 463)),
  .set 632 (.op .lo64 (.r 465) (.r 467)),
  .set 633 (.op .hi64 (.r 461) (.r 463)),
  .set 634 (.op .hi64 (.r 465) (.r 467)),
  .set 437 (.op .perm20 (.r 619) (.r 620)),
  .set 439 (.op .perm20 (.r 621) (.r 622)),
  .set 441 (.op .perm20 (.r 623) (.r 624)),
  .set 443 (.op .perm20 (.r 625) (.r 626)),
  .set 445 (.op .perm20 (.r 627) (.r 628)),
  .set 447 (.op .perm20 (.r 629) (.r 630)),
  .set 449 (.op .perm20 (.r 631) (.r 632)),
  .set 451 (.op .perm20 (.r 633) (.r 634)),
  .set 453 (.op .perm31 (.r 619) (.r 620)),
  .set 455 (.op .perm31 (.r 621) (.r 622)),
  .set 457 (.op .perm31 (.r 623) (.r 624)),
  .set 459 (.op .perm31 (.r 625) (.r 626)),
  .set 461 (.op .perm31 (.r 627) (.r 628)),
  .set 463 (.op .perm31 (.r 629) (.r 630)),
  .set 465 (.op .perm31 (.r 631) (.r 632)),
  .set 467 (.op .perm31 (.r 633) (.r 634)),
  .set 619 (.op .lo16 (.r 502) (.r 504)),
  .set 620 (.op .lo16 (.r 506) (.r 508)),
  .set 621 (.op .lo16 (.r 510) (.r 512)),
  .set 622 (.op .lo16 (.r 514) (.r 516)),
  .set 623 (.op .lo16 (.r 518) (.r 520)),
  .set 624 (.op .lo16 (.r 522) (.r 524)),
  .set 625 (.op .lo16 (.r 526) (.r 528)),
  .set 626 (.op .lo16 (.r 530) (.r 532)),
  .set 627 (.op .hi16 (.r 502) (.r 504)),
  .set 628 (.op .hi16 (.r 506) (.r 508)),
  .set 629 (.op .hi16 (.r 510) (.r 512)),
  .set 630 (.op .hi16 (.r 514) (.r 516)),
  .set 631 (.op .hi16 (.r 518) (.r 520)),
  .set 632 (.op .hi16 (.r 522) (.r 524)),
  .set 633 (.op .hi16 (.r 526) (.r 528)),
  .set 634 (.op .hi16 (.r 530) (.r 532)),
  .set 438 (.op .lo32 (.r 619) (.r 620)),
  .set 440 (.op .lo32 (.r 621) (.r 622)),
  .set 442 (.op .lo32 (.r 623) (.r 624)),
  .set 444 (.op .lo32 (.r 625) (.r 626)),
  .set 446 (.op .hi32 (.r 619) (.r 620)),
  .set 448 (.op .hi32 (.r 621) (.r 622)),
  .set 450 (.op .hi32 (.r 623) (.r 624)),
  .set 452 (.op .hi32 (.r 625) (.r 626)),
  .set 454 (.op .lo32 (.r 627) (.r 628)),
  .set 456 (.op .lo32 (.r 629) (.r 630)),
  .set 458 (.op .lo32 (.r 631) (.r 632)),
  .set 460 (.op .lo32 (.r 633) (.r 634)),
  .set 462 (.op .hi32 (.r 627) (.r 628)),
  .set 464 (.op .hi32 (.r 629) (.r 630)),
  .set 466 (.op .hi32 (.r 631) (.r 632)),
  .set 468 (.op .hi32 (.r 633) (.r 634)),
  .set 619 (.op .lo64 (.r 438) (.r 440)),
  .set 620 (.op .lo64 (.r 442) (.r 444)),
  .set 621 (.op .hi64 (.r 438) (.r 440)),
  .set 622 (.op .hi64 (.r 442) (.r 444)),
  .set 623 (.op .lo64 (.r 446) (.r 448)),
  .set 624 (.op .lo64 (.r 450) (.r 452)),
  .set 625 (.op .hi64 (.r 446) (.r 448)),
  .set 626 (.op .hi64 (.r 450) (.r 452)),
  .set 627 (.op .lo64 (.r 454) (.r 456)),
  .set 628 (.op .lo64 (.r 458) (.r 460)),
  .set 629 (.op .hi64 (.r 454) (.r 456)),
  .set 630 (.op .hi64 (.r 458) (.r 460)),
  .set 631 (.op .lo64 (.r 462) (.r 464)),
  .set 632 (.op .lo64 (.r 466) (.r 468)),
  .set 633 (.op .hi64 (.r 462) (.r 464)),
  .set 634 (.op .hi64 (.r 466) (.r 468))]

/-- source/common/vec/intrinsic_idct_avx2.cc:1424-1430. -/
def idct_32x32_avx2_11 (wl : Nat) : List S := [
  .set 438 (.op .perm20 (.r 619) (.r 620)),
  .set 440 (.op .perm20 (.r 621) (.r 622)),
  .set 442 (.op .perm20 (.r 623) (.r 624)),
  .set 444 (.op .perm20 (.r 625) (.r 626)),
  .set 446 (.op .perm20 (.r 627) (.r 628)),
  .set 448 (.op .perm20 (.r 629) (.r 630)),
  .set 450 (.op .perm20 (.r 631) (.r 632)),
  .set 452 (.op .perm20 (.r 633) (.r 634)),
  .set 454 (.op .perm31 (.r 619) (.r 620)),
  .set 456 (.op .perm31 (.r 621) (.r 622)),
  .set 458 (.op .perm31 (.r 623) (.r 624)),
  .set 460 (.op .perm31 (.r 625) (.r 626)),
  .set 462 (.op .perm31 (.r 627) (.r 628)),
  .set 464 (.op .perm31 (.r 629) (.r 630)),
  .set 466 (.op .perm31 (.r 631) (.r 632)),
  .set 468 (.op .perm31 (.r 633) (.r 634)),
  .set 404 (.k32 (2 ^ (11 - wl)))]

def idct_32x32_avx2_body1 (nShift : Nat) (wl : Nat) : List S :=
  (rep 2 fun part => idct_32x32_avx2_1 part ++ idct_32x32_avx2_2 ++ idct_32x32_avx2_3 ++ idct_32x32_avx2_4 ++ idct_32x32_avx2_5 ++ idct_32x32_avx2_6 nShift part ++ idct_32x32_avx2_7 part) ++ idct_32x32_avx2_8 ++ idct_32x32_avx2_9 ++ idct_32x32_avx2_10 ++ idct_32x32_avx2_11 wl

/-- source/common/vec/intrinsic_idct_avx2.cc:700-779. -/
def idct_32x32_avx2_12 : List S := [
  .set 234 (.k32 0x002d002d),
  .set 235 (.k32 0x002b002c),
  .set 236 (.k32 0x00270029),
  .set 237 (.k32 0x00220024),
  .set 238 (.k32 0x001b001e),
  .set 239 (.k32 0x00130017),
  .set 240 (.k32 0x000b000f),
  .set 241 (.k32 0x00020007),
  .set 242 (.k32 0x0029002d),
  .set 243 (.k32 0x00170022),
  .set 244 (.k32 0xfffe000b),
  .set 245 (.k32 0xffe5fff1),
  .set 246 (.k32 0xffd5ffdc),
  .set 247 (.k32 0xffd4ffd3),
  .set 248 (.k32 0xffe2ffd9),
  .set 249 (.k32 0xfff9ffed),
  .set 250 (.k32 0x0022002c),
  .set 251 (.k32 0xfff9000f),
  .set 252 (.k32 0xffd7ffe5),
  .set 253 (.k32 0xffd9ffd3),
  .set 254 (.k32 0xfffeffe9),
  .set 255 (.k32 0x00240013),
  .set 256 (.k32 0x002b002d),
  .set 257 (.k32 0x000b001e),
  .set 258 (.k32 0x0017002b),
  .set 259 (.k32 0xffdefff9),
  .set 260 (.k32 0xffdcffd3),
  .set 261 (.k32 0x0013fff5),
  .set 262 (.k32 0x002c0029),
  .set 263 (.k32 0xfffe001b),
  .set 264 (.k32 0xffd3ffe2),
  .set 265 (.k32 0xfff1ffd9),
  .set 266 (.k32 0x000b0029),
  .set 267 (.k32 0xffd3ffe5),
  .set 268 (.k32 0x0007ffe2),
  .set 269 (.k32 0x002b0027),
  .set 270 (.k32 0xffe9000f),
  .set 271 (.k32 0xffdeffd3),
  .set 272 (.k32 0x00240002),
  .set 273 (.k32 0x0013002c),
  .set 274 (.k32 0xfffe0027),
  .set 275 (.k32 0xffdcffd7),
  .set 276 (.k32 0x002b0007),
  .set 277 (.k32 0xfff50022),
  .set 278 (.k32 0xffe2ffd4),
  .set 279 (.k32 0x002d000f),
  .set 280 (.k32 0xffed001b),
  .set 281 (.k32 0xffe9ffd3),
  .set 282 (.k32 0xfff10024),
  .set 283 (.k32 0xfff5ffd3),
  .set 284 (.k32 0x00220027),
  .set 285 (.k32 0xffd3ffed),
  .set 286 (.k32 0x0029fff9),
  .set 287 (.k32 0xffe9001e),
  .set 288 (.k32 0xfffeffd4),
  .set 289 (.k32 0x001b002b),
  .set 290 (.k32 0xffe50022),
  .set 291 (.k32 0x0013ffd9),
  .set 292 (.k32 0xfff5002b),
  .set 293 (.k32 0x0002ffd3),
  .set 294 (.k32 0x0007002d),
  .set 295 (.k32 0xfff1ffd4),
  .set 296 (.k32 0x00170029),
  .set 297 (.k32 0xffe2ffdc),
  .set 298 (.k32 0xffdc001e),
  .set 299 (.k32 0x0029ffe9),
  .set 300 (.k32 0xffd4000f),
  .set 301 (.k32 0x002dfff9),
  .set 302 (.k32 0xffd3fffe),
  .set 303 (.k32 0x002b000b),
  .set 304 (.k32 0xffd9ffed),
  .set 305 (.k32 0x0022001b),
  .set 306 (.k32 0xffd5001b),
  .set 307 (.k32 0x002cfffe),
  .set 308 (.k32 0xffe2ffe9),
  .set 309 (.k32 0x00070029),
  .set 310 (.k32 0x0013ffd3),
  .set 311 (.k32 0xffd90022),
  .set 312 (.k32 0x002dfff5),
  .set 313 (.k32 0xffdcfff1)]

/-- source/common/vec/intrinsic_idct_avx2.cc:780-863. -/
def idct_32x32_avx2_13 : List S := [
  .set 314 (.k32 0xffd30017),
  .set 315 (.k32 0x001b0013),
  .set 316 (.k32 0x000fffd3),
  .set 317 (.k32 0xffd4001e),
  .set 318 (.k32 0x0022000b),
  .set 319 (.k32 0x0007ffd5),
  .set 320 (.k32 0xffd70024),
  .set 321 (.k32 0x00270002),
  .set 322 (.k32 0xffd40013),
  .set 323 (.k32 0xfffe0024),
  .set 324 (.k32 0x002dffde),
  .set 325 (.k32 0xfff1ffe9),
  .set 326 (.k32 0xffd9002b),
  .set 327 (.k32 0x001e0007),
  .set 328 (.k32 0x001bffd3),
  .set 329 (.k32 0xffd7000b),
  .set 330 (.k32 0xffd9000f),
  .set 331 (.k32 0xffe2002d),
  .set 332 (.k32 0x001b0002),
  .set 333 (.k32 0x0029ffd4),
  .set 334 (.k32 0xfff5ffed),
  .set 335 (.k32 0xffd30024),
  .set 336 (.k32 0xfff90022),
  .set 337 (.k32 0x002bffe9),
  .set 338 (.k32 0xffe2000b),
  .set 339 (.k32 0xffd3002b),
  .set 340 (.k32 0xffed0024),
  .set 341 (.k32 0x0017fffe),
  .set 342 (.k32 0x002dffd9),
  .set 343 (.k32 0x001bffd7),
  .set 344 (.k32 0xfff1fff9),
  .set 345 (.k32 0xffd40022),
  .set 346 (.k32 0xffed0007),
  .set 347 (.k32 0xffd9001e),
  .set 348 (.k32 0xffd3002c),
  .set 349 (.k32 0xffdc002b),
  .set 350 (.k32 0xfff1001b),
  .set 351 (.k32 0x000b0002),
  .set 352 (.k32 0x0022ffe9),
  .set 353 (.k32 0x002dffd7),
  .set 354 (.k32 0xfff90002),
  .set 355 (.k32 0xfff1000b),
  .set 356 (.k32 0xffe90013),
  .set 357 (.k32 0xffe2001b),
  .set 358 (.k32 0xffdc0022),
  .set 359 (.k32 0xffd70027),
  .set 360 (.k32 0xffd4002b),
  .set 361 (.k32 0xffd3002d),
  .set 362 (.k32 0x00230028),
  .set 363 (.k32 0x0015001d),
  .set 364 (.k32 0x0004000d),
  .set 365 (.k32 0x001d002b),
  .set 366 (.k32 0xffeb0004),
  .set 367 (.k32 0xffd3ffd8),
  .set 368 (.k32 0xfff3ffdd),
  .set 369 (.k32 0x00040028),
  .set 370 (.k32 0xffd5ffdd),
  .set 371 (.k32 0x001dfff3),
  .set 372 (.k32 0x0015002d),
  .set 373 (.k32 0xffeb0023),
  .set 374 (.k32 0x0004ffd5),
  .set 375 (.k32 0x000d002d),
  .set 376 (.k32 0xffe3ffd8),
  .set 377 (.k32 0xffd8001d),
  .set 378 (.k32 0x002dfff3),
  .set 379 (.k32 0xffd5fffc),
  .set 380 (.k32 0x00230015),
  .set 381 (.k32 0xffd30015),
  .set 382 (.k32 0x000d001d),
  .set 383 (.k32 0x0023ffd5),
  .set 384 (.k32 0xffd80004),
  .set 385 (.k32 0xffdd000d),
  .set 386 (.k32 0xffd8002d),
  .set 387 (.k32 0x00040015),
  .set 388 (.k32 0x002bffe3),
  .set 389 (.k32 0xfff30004),
  .set 390 (.k32 0xffe30015),
  .set 391 (.k32 0xffd80023),
  .set 392 (.k32 0x0026002c),
  .set 393 (.k32 0x00090019)]

/-- source/common/vec/intrinsic_idct_avx2.cc:864-878. -/
def idct_32x32_avx2_14 : List S := [
  .set 394 (.k32 0xfff70026),
  .set 395 (.k32 0xffe7ffd4),
  .set 396 (.k32 0xffd40019),
  .set 397 (.k32 0x00260009),
  .set 398 (.k32 0xffe70009),
  .set 399 (.k32 0xffd40026),
  .set 400 (.k32 0x0011002a),
  .set 401 (.k32 0xffd60011),
  .set 402 (.k32 0x00200020),
  .set 403 (.k32 0xffe00020),
  .set 404 (.k32 16)]

/-- source/common/vec/intrinsic_idct_avx2.cc:893-924. -/
def idct_32x32_avx2_15 (i : Nat) : List S := [
  .set (405 + i) (.ld 16 (16 * i)),
  .set (407 + i) (.ld 16 (32 + 16 * i)),
  .set (409 + i) (.ld 16 (64 + 16 * i)),
  .set (411 + i) (.ld 16 (96 + 16 * i)),
  .set (413 + i) (.ld 16 (128 + 16 * i)),
  .set (415 + i) (.ld 16 (160 + 16 * i)),
  .set (417 + i) (.ld 16 (192 + 16 * i)),
  .set (419 + i) (.ld 16 (224 + 16 * i)),
  .set (421 + i) (.ld 16 (256 + 16 * i)),
  .set (423 + i) (.ld 16 (288 + 16 * i)),
  .set (425 + i) (.ld 16 (320 + 16 * i)),
  .set (427 + i) (.ld 16 (352 + 16 * i)),
  .set (429 + i) (.ld 16 (384 + 16 * i)),
  .set (431 + i) (.ld 16 (416 + 16 * i)),
  .set (433 + i) (.ld 16 (448 + 16 * i)),
  .set (435 + i) (.ld 16 (480 + 16 * i)),
  .set (437 + i) (.ld 16 (512 + 16 * i)),
  .set (439 + i) (.ld 16 (544 + 16 * i)),
  .set (441 + i) (.ld 16 (576 + 16 * i)),
  .set (443 + i) (.ld 16 (608 + 16 * i)),
  .set (445 + i) (.ld 16 (640 + 16 * i)),
  .set (447 + i) (.ld 16 (672 + 16 * i)),
  .set (449 + i) (.ld 16 (704 + 16 * i)),
  .set (451 + i) (.ld 16 (736 + 16 * i)),
  .set (453 + i) (.ld 16 (768 + 16 * i)),
  .set (455 + i) (.ld 16 (800 + 16 * i)),
  .set (457 + i) (.ld 16 (832 + 16 * i)),
  .set (459 + i) (.ld 16 (864 + 16 * i)),
  .set (461 + i) (.ld 16 (896 + 16 * i)),
  .set (463 + i) (.ld 16 (928 + 16 * i)),
  .set (465 + i) (.ld 16 (960 + 16 * i)),
  .set (467 + i) (.ld 16 (992 + 16 * i))]

/-- source/common/vec/intrinsic_idct_avx2.cc:1435-1436. -/
def idct_32x32_avx2_16 (wl : Nat) : List S := [
  .set 0 (.k16 (255 + 256 * wl)),
  .set 1 (.k16 (-256 - 256 * wl))]

/-- source/common/vec/intrinsic_idct_avx2.cc:1439-1470. -/
def idct_32x32_avx2_17 (k : Nat) : List S := [
  .set (405 + k) (.op .max16 (.op .min16 (.r (405 + k)) (.r 0)) (.r 1)),
  .set (407 + k) (.op .max16 (.op .min16 (.r (407 + k)) (.r 0)) (.r 1)),
  .set (409 + k) (.op .max16 (.op .min16 (.r (409 + k)) (.r 0)) (.r 1)),
  .set (411 + k) (.op .max16 (.op .min16 (.r (411 + k)) (.r 0)) (.r 1)),
  .set (413 + k) (.op .max16 (.op .min16 (.r (413 + k)) (.r 0)) (.r 1)),
  .set (415 + k) (.op .max16 (.op .min16 (.r (415 + k)) (.r 0)) (.r 1)),
  .set (417 + k) (.op .max16 (.op .min16 (.r (417 + k)) (.r 0)) (.r 1)),
  .set (419 + k) (.op .max16 (.op .min16 (.r (419 + k)) (.r 0)) (.r 1)),
  .set (421 + k) (.op .max16 (.op .min16 (.r (421 + k)) (.r 0)) (.r 1)),
  .set (423 + k) (.op .max16 (.op .min16 (.r (423 + k)) (.r 0)) (.r 1)),
  .set (425 + k) (.op .max16 (.op .min16 (.r (425 + k)) (.r 0)) (.r 1)),
  .set (427 + k) (.op .max16 (.op .min16 (.r (427 + k)) (.r 0)) (.r 1)),
  .set (429 + k) (.op .max16 (.op .min16 (.r (429 + k)) (.r 0)) (.r 1)),
  .set (431 + k) (.op .max16 (.op .min16 (.r (431 + k)) (.r 0)) (.r 1)),
  .set (433 + k) (.op .max16 (.op .min16 (.r (433 + k)) (.r 0)) (.r 1)),
  .set (435 + k) (.op .max16 (.op .min16 (.r (435 + k)) (.r 0)) (.r 1)),
  .set (437 + k) (.op .max16 (.op .min16 (.r (437 + k)) (.r 0)) (.r 1)),
  .set (439 + k) (.op .max16 (.op .min16 (.r (439 + k)) (.r 0)) (.r 1)),
  .set (441 + k) (.op .max16 (.op .min16 (.r (441 + k)) (.r 0)) (.r 1)),
  .set (443 + k) (.op .max16 (.op .min16 (.r (443 + k)) (.r 0)) (.r 1)),
  .set (445 + k) (.op .max16 (.op .min16 (.r (445 + k)) (.r 0)) (.r 1)),
  .set (447 + k) (.op .max16 (.op .min16 (.r (447 + k)) (.r 0)) (.r 1)),
  .set (449 + k) (.op .max16 (.op .min16 (.r (449 + k)) (.r 0)) (.r 1)),
  .set (451 + k) (.op .max16 (.op .min16 (.r (451 + k)) (.r 0)) (.r 1)),
  .set (453 + k) (.op .max16 (.op .min16 (.r (453 + k)) (.r 0)) (.r 1)),
  .set (455 + k) (.op .max16 (.op .min16 (.r (455 + k)) (.r 0)) (.r 1)),
  .set (457 + k) (.op .max16 (.op .min16 (.r (457 + k)) (.r 0)) (.r 1)),
  .set (459 + k) (.op .max16 (.op .min16 (.r (459 + k)) (.r 0)) (.r 1)),
  .set (461 + k) (.op .max16 (.op .min16 (.r (461 + k)) (.r 0)) (.r 1)),
  .set (463 + k) (.op .max16 (.op .min16 (.r (463 + k)) (.r 0)) (.r 1)),
  .set (465 + k) (.op .max16 (.op .min16 (.r (465 + k)) (.r 0)) (.r 1)),
  .set (467 + k) (.op .max16 (.op .min16 (.r (467 + k)) (.r 0)) (.r 1))]

/-- source/common/vec/intrinsic_idct_avx2.cc:1477-1508. -/
def idct_32x32_avx2_18 (i : Nat) : List S := [
  .st 16 (16 * i) (.r (405 + i)),
  .st 16 (32 + 16 * i) (.r (407 + i)),
  .st 16 (64 + 16 * i) (.r (409 + i)),
  .st 16 (96 + 16 * i) (.r (411 + i)),
  .st 16 (128 + 16 * i) (.r (413 + i)),
  .st 16 (160 + 16 * i) (.r (415 + i)),
  .st 16 (192 + 16 * i) (.r (417 + i)),
  .st 16 (224 + 16 * i) (.r (419 + i)),
  .st 16 (256 + 16 * i) (.r (421 + i)),
  .st 16 (288 + 16 * i) (.r (423 + i)),
  .st 16 (320 + 16 * i) (.r (425 + i)),
  .st 16 (352 + 16 * i) (.r (427 + i)),
  .st 16 (384 + 16 * i) (.r (429 + i)),
  .st 16 (416 + 16 * i) (.r (431 + i)),
  .st 16 (448 + 16 * i) (.r (433 + i)),
  .st 16 (480 + 16 * i) (.r (435 + i)),
  .st 16 (512 + 16 * i) (.r (437 + i)),
  .st 16 (544 + 16 * i) (.r (439 + i)),
  .st 16 (576 + 16 * i) (.r (441 + i)),
  .st 16 (608 + 16 * i) (.r (443 + i)),
  .st 16 (640 + 16 * i) (.r (445 + i)),
  .st 16 (672 + 16 * i) (.r (447 + i)),
  .st 16 (704 + 16 * i) (.r (449 + i)),
  .st 16 (736 + 16 * i) (.r (451 + i)),
  .st 16 (768 + 16 * i) (.r (453 + i)),
  .st 16 (800 + 16 * i) (.r (455 + i)),
  .st 16 (832 + 16 * i) (.r (457 + i)),
  .st 16 (864 + 16 * i) (.r (459 + i)),
  .st 16 (896 + 16 * i) (.r (461 + i)),
  .st 16 (928 + 16 * i) (.r (463 + i)),
  .st 16 (960 + 16 * i) (.r (465 + i)),
  .st 16 (992 + 16 * i) (.r (467 + i))]

/-- `idct_32x32_avx2`, source/common/vec/intrinsic_idct_avx2.cc:684. `wl` is the lowest bit of the argument `i_dst`. -/
def idct_32x32_avx2 (wl : Nat) : List S :=
  idct_32x32_avx2_12 ++ idct_32x32_avx2_13 ++ idct_32x32_avx2_14 ++ (rep 2 fun i => idct_32x32_avx2_15 i) ++ idct_32x32_avx2_body1 5 wl ++ idct_32x32_avx2_body1 (12 - wl) wl ++ idct_32x32_avx2_16 wl ++ (rep 2 fun k => idct_32x32_avx2_17 k) ++ (rep 2 fun i => idct_32x32_avx2_18 i)

end Davs2.Si

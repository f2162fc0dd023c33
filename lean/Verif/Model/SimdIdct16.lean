import Verif.Model.SimdProg
/-
Vector versions (SSE) of the inverse transforms of blocks with sides up to 16, source/common/vec/intrinsic_idct.cc.

The statements of the functions in the order of the text; loops with `rep`.  The numbers of the registers are given
at the head of each function.  Produced from the text of the functions by replacing each variable by its number and each intrinsic by its name
in Model/SimdProg.lean.
-/
namespace Davs2.Si

/-! ### `idct_4x4_sse128`

Registers: 0 c16_p17_p42, 1 c16_n42_p17, 2 c16_n32_p32, 3 c16_p32_p32, 4 c32_rnd, 5 S0, 6 S1, 7 T0, 8 T1, 9 E0, 10 E1, 11 O0, 12
O1, 13 max_val, 14 min_val. -/


/-- source/common/vec/intrinsic_idct.cc:85-147. -/
def idct_4x4_1 : List S := [
  .set 0 (.k32 0x0011002a),
  .set 1 (.k32 0xffd60011),
  .set 2 (.k32 0xffe00020),
  .set 3 (.k32 0x00200020),
  .set 4 (.k32 16),
  .set 5 (.ld 8 0),
  .set 6 (.ld 8 8),
  .set 7 (.op .lo16 (.r 5) (.r 6)),
  .set 9 (.op .add32 (.op .madd (.r 7) (.r 3)) (.r 4)),
  .set 10 (.op .add32 (.op .madd (.r 7) (.r 2)) (.r 4)),
  .set 8 (.op .hi16 (.r 5) (.r 6)),
  .set 11 (.op .madd (.r 8) (.r 0)),
  .set 12 (.op .madd (.r 8) (.r 1)),
  .set 5 (.op .packs (.sra32 (.op .add32 (.r 9) (.r 11)) 5) (.sra32 (.op .sub32 (.r 10) (.r 12)) 5)),
  .set 6 (.op .packs (.sra32 (.op .add32 (.r 10) (.r 12)) 5) (.sra32 (.op .sub32 (.r 9) (.r 11)) 5)),
  .set 7 (.op .lo16 (.r 5) (.r 6)),
  .set 8 (.op .hi16 (.r 5) (.r 6)),
  .set 5 (.op .lo32 (.r 7) (.r 8)),
  .set 6 (.op .hi32 (.r 7) (.r 8)),
  .set 4 (.k32 2048),
  .set 7 (.op .lo16 (.r 5) (.r 6)),
  .set 9 (.op .add32 (.op .madd (.r 7) (.r 3)) (.r 4)),
  .set 10 (.op .add32 (.op .madd (.r 7) (.r 2)) (.r 4)),
  .set 8 (.op .hi16 (.r 5) (.r 6)),
  .set 11 (.op .madd (.r 8) (.r 0)),
  .set 12 (.op .madd (.r 8) (.r 1)),
  .set 5 (.op .packs (.sra32 (.op .add32 (.r 9) (.r 11)) 12) (.sra32 (.op .sub32 (.r 10) (.r 12)) 12)),
  .set 6 (.op .packs (.sra32 (.op .add32 (.r 10) (.r 12)) 12) (.sra32 (.op .sub32 (.r 9) (.r 11)) 12)),
  .set 7 (.op .lo16 (.r 5) (.r 6)),
  .set 8 (.op .hi16 (.r 5) (.r 6)),
  .set 5 (.op .lo32 (.r 7) (.r 8)),
  .set 6 (.op .hi32 (.r 7) (.r 8)),
  .set 13 (.k16 255),
  .set 14 (.k16 (-256)),
  .set 5 (.op .max16 (.op .min16 (.r 5) (.r 13)) (.r 14)),
  .set 6 (.op .max16 (.op .min16 (.r 6) (.r 13)) (.r 14)),
  .st 8 0 (.r 5),
  .st 8 8 (.r 6)]

/-- `idct_4x4_sse128`, source/common/vec/intrinsic_idct.cc:78. -/
def idct_4x4 : List S :=
  idct_4x4_1

/-! ### `idct_4x16_sse128`

Registers: 0 c16_p43_p45, 1 c16_p35_p40, 2 c16_p21_p29, 3 c16_p04_p13, 4 c16_p29_p43, 5 c16_n21_p04, 6 c16_n45_n40, 7 c16_n13_n35,
8 c16_p04_p40, 9 c16_n43_n35, 10 c16_p29_n13, 11 c16_p21_p45, 12 c16_n21_p35, 13 c16_p04_n43, 14 c16_p13_p45, 15 c16_n29_n40, 16
c16_n40_p29, 17 c16_p45_n13, 18 c16_n43_n04, 19 c16_p35_p21, 20 c16_n45_p21, 21 c16_p13_p29, 22 c16_p35_n43, 23 c16_n40_p04, 24
c16_n35_p13, 25 c16_n40_p45, 26 c16_p04_p21, 27 c16_p43_n29, 28 c16_n13_p04, 29 c16_n29_p21, 30 c16_n40_p35, 31 c16_n45_p43, 32
c16_p38_p44, 33 c16_p09_p25, 34 c16_n09_p38, 35 c16_n25_n44, 36 c16_n44_p25, 37 c16_p38_p09, 38 c16_n25_p09, 39 c16_n44_p38, 40
c16_p17_p42, 41 c16_n42_p17, 42 c16_n32_p32, 43 c16_p32_p32, 44 c32_rnd, 45 in00, 46 in01, 47 in02, 48 in03, 49 in04, 50 in05, 51
in06, 52 in07, 53 res00, 54 res01, 55 res02, 56 res03, 57 res04, 58 res05, 59 res06, 60 res07, 61 T_00_00A, 62 T_00_01A, 63
T_00_02A, 64 T_00_03A, 65 T_00_04A, 66 T_00_05A, 67 T_00_06A, 68 T_00_07A, 69 O0A, 70 O1A, 71 O2A, 72 O3A, 73 O4A, 74 O5A, 75 O6A,
76 O7A, 77 EO0A, 78 EO1A, 79 EO2A, 80 EO3A, 81 EEO0A, 82 EEO1A, 83 EEE0A, 84 EEE1A, 85 EE0A, 86 EE1A, 87 EE3A, 88 EE2A, 89 T10A,
90 T11A, 91 T12A, 92 T13A, 93 T14A, 94 T15A, 95 T16A, 96 T17A, 97 T30A, 98 T31A, 99 T32A, 100 T33A, 101 T34A, 102 T35A, 103 T36A,
104 T37A, 105 T38A, 106 T39A, 107 T3AA, 108 T3BA, 109 T3CA, 110 T3DA, 111 T3EA, 112 T3FA, 113 tr0_0, 114 tr0_1, 115 tr0_2, 116
tr0_3, 117 tr0_4, 118 tr0_5, 119 tr0_6, 120 tr0_7, 121 tr1_0, 122 tr1_1, 123 tr1_2, 124 tr1_3, 125 tr1_4, 126 tr1_5, 127 tr1_6,
128 tr1_7, 129 E01, 130 E02, 131 E03, 132 E04, 133 E11, 134 E12, 135 E13, 136 E14, 137 O01, 138 O02, 139 O03, 140 O04, 141 O11,
142 O12, 143 O13, 144 O14, 145 T0, 146 T1, 147 T2, 148 T3, 149 max_val, 150 min_val. -/


/-- source/common/vec/intrinsic_idct.cc:165-270. -/
def idct_4x16_1 : List S := [
  .set 0 (.k32 0x002b002d),
  .set 1 (.k32 0x00230028),
  .set 2 (.k32 0x0015001d),
  .set 3 (.k32 0x0004000d),
  .set 4 (.k32 0x001d002b),
  .set 5 (.k32 0xffeb0004),
  .set 6 (.k32 0xffd3ffd8),
  .set 7 (.k32 0xfff3ffdd),
  .set 8 (.k32 0x00040028),
  .set 9 (.k32 0xffd5ffdd),
  .set 10 (.k32 0x001dfff3),
  .set 11 (.k32 0x0015002d),
  .set 12 (.k32 0xffeb0023),
  .set 13 (.k32 0x0004ffd5),
  .set 14 (.k32 0x000d002d),
  .set 15 (.k32 0xffe3ffd8),
  .set 16 (.k32 0xffd8001d),
  .set 17 (.k32 0x002dfff3),
  .set 18 (.k32 0xffd5fffc),
  .set 19 (.k32 0x00230015),
  .set 20 (.k32 0xffd30015),
  .set 21 (.k32 0x000d001d),
  .set 22 (.k32 0x0023ffd5),
  .set 23 (.k32 0xffd80004),
  .set 24 (.k32 0xffdd000d),
  .set 25 (.k32 0xffd8002d),
  .set 26 (.k32 0x00040015),
  .set 27 (.k32 0x002bffe3),
  .set 28 (.k32 0xfff30004),
  .set 29 (.k32 0xffe30015),
  .set 30 (.k32 0xffd80023),
  .set 31 (.k32 0xffd3002b),
  .set 32 (.k32 0x0026002c),
  .set 33 (.k32 0x00090019),
  .set 34 (.k32 0xfff70026),
  .set 35 (.k32 0xffe7ffd4),
  .set 36 (.k32 0xffd40019),
  .set 37 (.k32 0x00260009),
  .set 38 (.k32 0xffe70009),
  .set 39 (.k32 0xffd40026),
  .set 40 (.k32 0x0011002a),
  .set 41 (.k32 0xffd60011),
  .set 42 (.k32 0xffe00020),
  .set 43 (.k32 0x00200020),
  .set 44 (.k32 16),
  .set 45 (.ld 8 0),
  .set 46 (.ld 8 8),
  .set 47 (.ld 8 16),
  .set 48 (.ld 8 24),
  .set 49 (.ld 8 32),
  .set 50 (.ld 8 40),
  .set 51 (.ld 8 48),
  .set 52 (.ld 8 56),
  .set 61 (.op .hi16 (.r 45) (.r 46)),
  .set 62 (.op .hi16 (.r 47) (.r 48)),
  .set 63 (.op .hi16 (.r 49) (.r 50)),
  .set 64 (.op .hi16 (.r 51) (.r 52)),
  .set 65 (.op .lo16 (.r 46) (.r 48)),
  .set 66 (.op .lo16 (.r 50) (.r 52)),
  .set 67 (.op .lo16 (.r 47) (.r 51)),
  .set 68 (.op .lo16 (.r 45) (.r 49)),
  .set 69 (.op .add32 (.op .add32 (.op .madd (.r 61) (.r 0)) (.op .madd (.r 62) (.r 1))) (.op .add32 (.op .madd (.r 63) (.r 2)) (.op .madd (.r 64) (.r 3)))),
  .set 70 (.op .add32 (.op .add32 (.op .madd (.r 61) (.r 4)) (.op .madd (.r 62) (.r 5))) (.op .add32 (.op .madd (.r 63) (.r 6)) (.op .madd (.r 64) (.r 7)))),
  .set 71 (.op .add32 (.op .add32 (.op .madd (.r 61) (.r 8)) (.op .madd (.r 62) (.r 9))) (.op .add32 (.op .madd (.r 63) (.r 10)) (.op .madd (.r 64) (.r 11)))),
  .set 72 (.op .add32 (.op .add32 (.op .madd (.r 61) (.r 12)) (.op .madd (.r 62) (.r 13))) (.op .add32 (.op .madd (.r 63) (.r 14)) (.op .madd (.r 64) (.r 15)))),
  .set 73 (.op .add32 (.op .add32 (.op .madd (.r 61) (.r 16)) (.op .madd (.r 62) (.r 17))) (.op .add32 (.op .madd (.r 63) (.r 18)) (.op .madd (.r 64) (.r 19)))),
  .set 74 (.op .add32 (.op .add32 (.op .madd (.r 61) (.r 20)) (.op .madd (.r 62) (.r 21))) (.op .add32 (.op .madd (.r 63) (.r 22)) (.op .madd (.r 64) (.r 23)))),
  .set 75 (.op .add32 (.op .add32 (.op .madd (.r 61) (.r 24)) (.op .madd (.r 62) (.r 25))) (.op .add32 (.op .madd (.r 63) (.r 26)) (.op .madd (.r 64) (.r 27)))),
  .set 76 (.op .add32 (.op .add32 (.op .madd (.r 61) (.r 28)) (.op .madd (.r 62) (.r 29))) (.op .add32 (.op .madd (.r 63) (.r 30)) (.op .madd (.r 64) (.r 31)))),
  .set 77 (.op .add32 (.op .madd (.r 65) (.r 32)) (.op .madd (.r 66) (.r 33))),
  .set 78 (.op .add32 (.op .madd (.r 65) (.r 34)) (.op .madd (.r 66) (.r 35))),
  .set 79 (.op .add32 (.op .madd (.r 65) (.r 36)) (.op .madd (.r 66) (.r 37))),
  .set 80 (.op .add32 (.op .madd (.r 65) (.r 38)) (.op .madd (.r 66) (.r 39))),
  .set 81 (.op .madd (.r 67) (.r 40)),
  .set 82 (.op .madd (.r 67) (.r 41)),
  .set 83 (.op .madd (.r 68) (.r 43)),
  .set 84 (.op .madd (.r 68) (.r 42)),
  .set 85 (.op .add32 (.r 83) (.r 81)),
  .set 86 (.op .add32 (.r 84) (.r 82)),
  .set 87 (.op .sub32 (.r 83) (.r 81))]

/-- source/common/vec/intrinsic_idct.cc:271-378. -/
def idct_4x16_2 : List S := [
  .set 88 (.op .sub32 (.r 84) (.r 82)),
  .set 89 (.op .add32 (.op .add32 (.r 85) (.r 77)) (.r 44)),
  .set 90 (.op .add32 (.op .add32 (.r 86) (.r 78)) (.r 44)),
  .set 91 (.op .add32 (.op .add32 (.r 88) (.r 79)) (.r 44)),
  .set 92 (.op .add32 (.op .add32 (.r 87) (.r 80)) (.r 44)),
  .set 93 (.op .add32 (.op .sub32 (.r 87) (.r 80)) (.r 44)),
  .set 94 (.op .add32 (.op .sub32 (.r 88) (.r 79)) (.r 44)),
  .set 95 (.op .add32 (.op .sub32 (.r 86) (.r 78)) (.r 44)),
  .set 96 (.op .add32 (.op .sub32 (.r 85) (.r 77)) (.r 44)),
  .set 97 (.sra32 (.op .add32 (.r 89) (.r 69)) 5),
  .set 98 (.sra32 (.op .add32 (.r 90) (.r 70)) 5),
  .set 99 (.sra32 (.op .add32 (.r 91) (.r 71)) 5),
  .set 100 (.sra32 (.op .add32 (.r 92) (.r 72)) 5),
  .set 101 (.sra32 (.op .add32 (.r 93) (.r 73)) 5),
  .set 102 (.sra32 (.op .add32 (.r 94) (.r 74)) 5),
  .set 103 (.sra32 (.op .add32 (.r 95) (.r 75)) 5),
  .set 104 (.sra32 (.op .add32 (.r 96) (.r 76)) 5),
  .set 105 (.sra32 (.op .sub32 (.r 96) (.r 76)) 5),
  .set 106 (.sra32 (.op .sub32 (.r 95) (.r 75)) 5),
  .set 107 (.sra32 (.op .sub32 (.r 94) (.r 74)) 5),
  .set 108 (.sra32 (.op .sub32 (.r 93) (.r 73)) 5),
  .set 109 (.sra32 (.op .sub32 (.r 92) (.r 72)) 5),
  .set 110 (.sra32 (.op .sub32 (.r 91) (.r 71)) 5),
  .set 111 (.sra32 (.op .sub32 (.r 90) (.r 70)) 5),
  .set 112 (.sra32 (.op .sub32 (.r 89) (.r 69)) 5),
  .set 53 (.op .packs (.r 97) (.r 105)),
  .set 54 (.op .packs (.r 98) (.r 106)),
  .set 55 (.op .packs (.r 99) (.r 107)),
  .set 56 (.op .packs (.r 100) (.r 108)),
  .set 57 (.op .packs (.r 101) (.r 109)),
  .set 58 (.op .packs (.r 102) (.r 110)),
  .set 59 (.op .packs (.r 103) (.r 111)),
  .set 60 (.op .packs (.r 104) (.r 112)),
  .set 113 (.op .lo16 (.r 53) (.r 54)),
  .set 114 (.op .hi16 (.r 53) (.r 54)),
  .set 115 (.op .lo16 (.r 55) (.r 56)),
  .set 116 (.op .hi16 (.r 55) (.r 56)),
  .set 117 (.op .lo16 (.r 57) (.r 58)),
  .set 118 (.op .hi16 (.r 57) (.r 58)),
  .set 119 (.op .lo16 (.r 59) (.r 60)),
  .set 120 (.op .hi16 (.r 59) (.r 60)),
  .set 121 (.op .lo32 (.r 113) (.r 115)),
  .set 122 (.op .hi32 (.r 113) (.r 115)),
  .set 123 (.op .lo32 (.r 114) (.r 116)),
  .set 124 (.op .hi32 (.r 114) (.r 116)),
  .set 125 (.op .lo32 (.r 117) (.r 119)),
  .set 126 (.op .hi32 (.r 117) (.r 119)),
  .set 127 (.op .lo32 (.r 118) (.r 120)),
  .set 128 (.op .hi32 (.r 118) (.r 120)),
  .set 53 (.op .lo64 (.r 121) (.r 125)),
  .set 55 (.op .hi64 (.r 121) (.r 125)),
  .set 57 (.op .lo64 (.r 122) (.r 126)),
  .set 59 (.op .hi64 (.r 122) (.r 126)),
  .set 54 (.op .lo64 (.r 123) (.r 127)),
  .set 56 (.op .hi64 (.r 123) (.r 127)),
  .set 58 (.op .lo64 (.r 124) (.r 128)),
  .set 60 (.op .hi64 (.r 124) (.r 128)),
  .set 44 (.k32 2048),
  .set 145 (.op .lo16 (.r 53) (.r 57)),
  .set 129 (.op .add32 (.op .madd (.r 145) (.r 43)) (.r 44)),
  .set 133 (.op .add32 (.op .madd (.r 145) (.r 42)) (.r 44)),
  .set 146 (.op .hi16 (.r 53) (.r 57)),
  .set 130 (.op .add32 (.op .madd (.r 146) (.r 43)) (.r 44)),
  .set 134 (.op .add32 (.op .madd (.r 146) (.r 42)) (.r 44)),
  .set 145 (.op .lo16 (.r 54) (.r 58)),
  .set 131 (.op .add32 (.op .madd (.r 145) (.r 43)) (.r 44)),
  .set 135 (.op .add32 (.op .madd (.r 145) (.r 42)) (.r 44)),
  .set 146 (.op .hi16 (.r 54) (.r 58)),
  .set 132 (.op .add32 (.op .madd (.r 146) (.r 43)) (.r 44)),
  .set 136 (.op .add32 (.op .madd (.r 146) (.r 42)) (.r 44)),
  .set 145 (.op .lo16 (.r 55) (.r 59)),
  .set 137 (.op .madd (.r 145) (.r 40)),
  .set 141 (.op .madd (.r 145) (.r 41)),
  .set 146 (.op .hi16 (.r 55) (.r 59)),
  .set 138 (.op .madd (.r 146) (.r 40)),
  .set 142 (.op .madd (.r 146) (.r 41)),
  .set 145 (.op .lo16 (.r 56) (.r 60)),
  .set 139 (.op .madd (.r 145) (.r 40)),
  .set 143 (.op .madd (.r 145) (.r 41)),
  .set 146 (.op .hi16 (.r 56) (.r 60))]

/-- source/common/vec/intrinsic_idct.cc:379-439. -/
def idct_4x16_3 : List S := [
  .set 140 (.op .madd (.r 146) (.r 40)),
  .set 144 (.op .madd (.r 146) (.r 41)),
  .set 53 (.op .packs (.sra32 (.op .add32 (.r 129) (.r 137)) 12) (.sra32 (.op .add32 (.r 130) (.r 138)) 12)),
  .set 54 (.op .packs (.sra32 (.op .add32 (.r 131) (.r 139)) 12) (.sra32 (.op .add32 (.r 132) (.r 140)) 12)),
  .set 59 (.op .packs (.sra32 (.op .sub32 (.r 129) (.r 137)) 12) (.sra32 (.op .sub32 (.r 130) (.r 138)) 12)),
  .set 60 (.op .packs (.sra32 (.op .sub32 (.r 131) (.r 139)) 12) (.sra32 (.op .sub32 (.r 132) (.r 140)) 12)),
  .set 55 (.op .packs (.sra32 (.op .add32 (.r 133) (.r 141)) 12) (.sra32 (.op .add32 (.r 134) (.r 142)) 12)),
  .set 56 (.op .packs (.sra32 (.op .add32 (.r 135) (.r 143)) 12) (.sra32 (.op .add32 (.r 136) (.r 144)) 12)),
  .set 57 (.op .packs (.sra32 (.op .sub32 (.r 133) (.r 141)) 12) (.sra32 (.op .sub32 (.r 134) (.r 142)) 12)),
  .set 58 (.op .packs (.sra32 (.op .sub32 (.r 135) (.r 143)) 12) (.sra32 (.op .sub32 (.r 136) (.r 144)) 12)),
  .set 145 (.op .lo16 (.r 53) (.r 55)),
  .set 146 (.op .hi16 (.r 53) (.r 55)),
  .set 147 (.op .lo16 (.r 57) (.r 59)),
  .set 148 (.op .hi16 (.r 57) (.r 59)),
  .set 53 (.op .lo32 (.r 145) (.r 147)),
  .set 55 (.op .hi32 (.r 145) (.r 147)),
  .set 57 (.op .lo32 (.r 146) (.r 148)),
  .set 59 (.op .hi32 (.r 146) (.r 148)),
  .set 145 (.op .lo16 (.r 54) (.r 56)),
  .set 146 (.op .hi16 (.r 54) (.r 56)),
  .set 147 (.op .lo16 (.r 58) (.r 60)),
  .set 148 (.op .hi16 (.r 58) (.r 60)),
  .set 54 (.op .lo32 (.r 145) (.r 147)),
  .set 56 (.op .hi32 (.r 145) (.r 147)),
  .set 58 (.op .lo32 (.r 146) (.r 148)),
  .set 60 (.op .hi32 (.r 146) (.r 148)),
  .set 149 (.k16 255),
  .set 150 (.k16 (-256)),
  .set 53 (.op .max16 (.op .min16 (.r 53) (.r 149)) (.r 150)),
  .set 55 (.op .max16 (.op .min16 (.r 55) (.r 149)) (.r 150)),
  .set 57 (.op .max16 (.op .min16 (.r 57) (.r 149)) (.r 150)),
  .set 59 (.op .max16 (.op .min16 (.r 59) (.r 149)) (.r 150)),
  .set 54 (.op .max16 (.op .min16 (.r 54) (.r 149)) (.r 150)),
  .set 56 (.op .max16 (.op .min16 (.r 56) (.r 149)) (.r 150)),
  .set 58 (.op .max16 (.op .min16 (.r 58) (.r 149)) (.r 150)),
  .set 60 (.op .max16 (.op .min16 (.r 60) (.r 149)) (.r 150)),
  .st 8 0 (.r 53),
  .st 8 8 (.r 55),
  .st 8 16 (.r 57),
  .st 8 24 (.r 59),
  .st 8 32 (.r 54),
  .st 8 40 (.r 56),
  .st 8 48 (.r 58),
  .st 8 56 (.r 60)]

/-- `idct_4x16_sse128`, source/common/vec/intrinsic_idct.cc:158. -/
def idct_4x16 : List S :=
  idct_4x16_1 ++ idct_4x16_2 ++ idct_4x16_3

/-! ### `idct_16x4_sse128`

Registers: 0 c16_p43_p45, 1 c16_p35_p40, 2 c16_p21_p29, 3 c16_p04_p13, 4 c16_p29_p43, 5 c16_n21_p04, 6 c16_n45_n40, 7 c16_n13_n35,
8 c16_p04_p40, 9 c16_n43_n35, 10 c16_p29_n13, 11 c16_p21_p45, 12 c16_n21_p35, 13 c16_p04_n43, 14 c16_p13_p45, 15 c16_n29_n40, 16
c16_n40_p29, 17 c16_p45_n13, 18 c16_n43_n04, 19 c16_p35_p21, 20 c16_n45_p21, 21 c16_p13_p29, 22 c16_p35_n43, 23 c16_n40_p04, 24
c16_n35_p13, 25 c16_n40_p45, 26 c16_p04_p21, 27 c16_p43_n29, 28 c16_n13_p04, 29 c16_n29_p21, 30 c16_n40_p35, 31 c16_n45_p43, 32
c16_p38_p44, 33 c16_p09_p25, 34 c16_n09_p38, 35 c16_n25_n44, 36 c16_n44_p25, 37 c16_p38_p09, 38 c16_n25_p09, 39 c16_n44_p38, 40
c16_p17_p42, 41 c16_n42_p17, 42 c16_n32_p32, 43 c16_p32_p32, 44 c32_rnd, 45-46 in00, 47-48 in01, 49-50 in02, 51-52 in03, 53-54
res00, 55-56 res01, 57-58 res02, 59-60 res03, 61 T_00_00A, 62 T_00_00B, 63 T_00_01A, 64 T_00_01B, 65 E0A, 66 E0B, 67 E1A, 68 E1B,
69 O0A, 70 O0B, 71 O1A, 72 O1B, 73 tr0_0, 74 tr0_1, 75 tr0_2, 76 tr0_3, 77 tr0_4, 78 tr0_5, 79 tr0_6, 80 tr0_7, 81 tr1_0, 82
tr1_1, 83 tr1_2, 84 tr1_3, 85 tr1_4, 86 tr1_5, 87 tr1_6, 88 tr1_7, 89 T_00_00A, 90 T_00_01A, 91 T_00_02A, 92 T_00_03A, 93
T_00_04A, 94 T_00_05A, 95 T_00_06A, 96 T_00_07A, 97 O0A, 98 O1A, 99 O2A, 100 O3A, 101 O4A, 102 O5A, 103 O6A, 104 O7A, 105 EO0A,
106 EO1A, 107 EO2A, 108 EO3A, 109 EEO0A, 110 EEO1A, 111 EEE0A, 112 EEE1A, 113 EE0A, 114 EE1A, 115 EE3A, 116 EE2A, 117 T10A, 118
T11A, 119 T12A, 120 T13A, 121 T14A, 122 T15A, 123 T16A, 124 T17A, 125 T30A, 126 T31A, 127 T32A, 128 T33A, 129 T34A, 130 T35A, 131
T36A, 132 T37A, 133 T38A, 134 T39A, 135 T3AA, 136 T3BA, 137 T3CA, 138 T3DA, 139 T3EA, 140 T3FA, 141 max_val, 142 min_val. -/


/-- source/common/vec/intrinsic_idct.cc:487-535. -/
def idct_16x4_1 : List S := [
  .set 0 (.k32 0x002b002d),
  .set 1 (.k32 0x00230028),
  .set 2 (.k32 0x0015001d),
  .set 3 (.k32 0x0004000d),
  .set 4 (.k32 0x001d002b),
  .set 5 (.k32 0xffeb0004),
  .set 6 (.k32 0xffd3ffd8),
  .set 7 (.k32 0xfff3ffdd),
  .set 8 (.k32 0x00040028),
  .set 9 (.k32 0xffd5ffdd),
  .set 10 (.k32 0x001dfff3),
  .set 11 (.k32 0x0015002d),
  .set 12 (.k32 0xffeb0023),
  .set 13 (.k32 0x0004ffd5),
  .set 14 (.k32 0x000d002d),
  .set 15 (.k32 0xffe3ffd8),
  .set 16 (.k32 0xffd8001d),
  .set 17 (.k32 0x002dfff3),
  .set 18 (.k32 0xffd5fffc),
  .set 19 (.k32 0x00230015),
  .set 20 (.k32 0xffd30015),
  .set 21 (.k32 0x000d001d),
  .set 22 (.k32 0x0023ffd5),
  .set 23 (.k32 0xffd80004),
  .set 24 (.k32 0xffdd000d),
  .set 25 (.k32 0xffd8002d),
  .set 26 (.k32 0x00040015),
  .set 27 (.k32 0x002bffe3),
  .set 28 (.k32 0xfff30004),
  .set 29 (.k32 0xffe30015),
  .set 30 (.k32 0xffd80023),
  .set 31 (.k32 0xffd3002b),
  .set 32 (.k32 0x0026002c),
  .set 33 (.k32 0x00090019),
  .set 34 (.k32 0xfff70026),
  .set 35 (.k32 0xffe7ffd4),
  .set 36 (.k32 0xffd40019),
  .set 37 (.k32 0x00260009),
  .set 38 (.k32 0xffe70009),
  .set 39 (.k32 0xffd40026),
  .set 40 (.k32 0x0011002a),
  .set 41 (.k32 0xffd60011),
  .set 42 (.k32 0xffe00020),
  .set 43 (.k32 0x00200020),
  .set 44 (.k32 16)]

/-- source/common/vec/intrinsic_idct.cc:544-547. -/
def idct_16x4_2 (i : Nat) : List S := [
  .set (45 + i) (.ld 8 (8 * i)),
  .set (47 + i) (.ld 8 (16 + 8 * i)),
  .set (49 + i) (.ld 8 (32 + 8 * i)),
  .set (51 + i) (.ld 8 (48 + 8 * i))]

/-- source/common/vec/intrinsic_idct.cc:551-573. -/
def idct_16x4_3 (part : Nat) : List S := [
  .set 61 (.op .lo16 (.r (47 + part)) (.r (51 + part))),
  .set 62 (.op .hi16 (.r (47 + part)) (.r (51 + part))),
  .set 63 (.op .lo16 (.r (45 + part)) (.r (49 + part))),
  .set 64 (.op .hi16 (.r (45 + part)) (.r (49 + part))),
  .set 65 (.op .add32 (.op .madd (.r 63) (.r 43)) (.r 44)),
  .set 67 (.op .add32 (.op .madd (.r 63) (.r 42)) (.r 44)),
  .set 66 (.op .add32 (.op .madd (.r 64) (.r 43)) (.r 44)),
  .set 68 (.op .add32 (.op .madd (.r 64) (.r 42)) (.r 44)),
  .set 69 (.op .madd (.r 61) (.r 40)),
  .set 71 (.op .madd (.r 61) (.r 41)),
  .set 70 (.op .madd (.r 62) (.r 40)),
  .set 72 (.op .madd (.r 62) (.r 41)),
  .set (53 + part) (.op .packs (.sra32 (.op .add32 (.r 65) (.r 69)) 5) (.sra32 (.op .add32 (.r 66) (.r 70)) 5)),
  .set (59 + part) (.op .packs (.sra32 (.op .sub32 (.r 65) (.r 69)) 5) (.sra32 (.op .sub32 (.r 66) (.r 70)) 5)),
  .set (55 + part) (.op .packs (.sra32 (.op .add32 (.r 67) (.r 71)) 5) (.sra32 (.op .add32 (.r 68) (.r 72)) 5)),
  .set (57 + part) (.op .packs (.sra32 (.op .sub32 (.r 67) (.r 71)) 5) (.sra32 (.op .sub32 (.r 68) (.r 72)) 5))]

/-- source/common/vec/intrinsic_idct.cc:581-693. -/
def idct_16x4_4 : List S := [
  .set 73 (.op .lo16 (.r 53) (.r 55)),
  .set 74 (.op .lo16 (.r 57) (.r 59)),
  .set 75 (.op .hi16 (.r 53) (.r 55)),
  .set 76 (.op .hi16 (.r 57) (.r 59)),
  .set 77 (.op .lo16 (.r 54) (.r 56)),
  .set 78 (.op .lo16 (.r 58) (.r 60)),
  .set 79 (.op .hi16 (.r 54) (.r 56)),
  .set 80 (.op .hi16 (.r 58) (.r 60)),
  .set 81 (.op .lo32 (.r 73) (.r 74)),
  .set 82 (.op .lo32 (.r 75) (.r 76)),
  .set 83 (.op .hi32 (.r 73) (.r 74)),
  .set 84 (.op .hi32 (.r 75) (.r 76)),
  .set 85 (.op .lo32 (.r 77) (.r 78)),
  .set 86 (.op .lo32 (.r 79) (.r 80)),
  .set 87 (.op .hi32 (.r 77) (.r 78)),
  .set 88 (.op .hi32 (.r 79) (.r 80)),
  .set 44 (.k32 2048),
  .set 89 (.op .hi16 (.r 81) (.r 83)),
  .set 90 (.op .hi16 (.r 82) (.r 84)),
  .set 91 (.op .hi16 (.r 85) (.r 87)),
  .set 92 (.op .hi16 (.r 86) (.r 88)),
  .set 93 (.op .lo16 (.r 83) (.r 84)),
  .set 94 (.op .lo16 (.r 87) (.r 88)),
  .set 95 (.op .lo16 (.r 82) (.r 86)),
  .set 96 (.op .lo16 (.r 81) (.r 85)),
  .set 97 (.op .add32 (.op .add32 (.op .madd (.r 89) (.r 0)) (.op .madd (.r 90) (.r 1))) (.op .add32 (.op .madd (.r 91) (.r 2)) (.op .madd (.r 92) (.r 3)))),
  .set 98 (.op .add32 (.op .add32 (.op .madd (.r 89) (.r 4)) (.op .madd (.r 90) (.r 5))) (.op .add32 (.op .madd (.r 91) (.r 6)) (.op .madd (.r 92) (.r 7)))),
  .set 99 (.op .add32 (.op .add32 (.op .madd (.r 89) (.r 8)) (.op .madd (.r 90) (.r 9))) (.op .add32 (.op .madd (.r 91) (.r 10)) (.op .madd (.r 92) (.r 11)))),
  .set 100 (.op .add32 (.op .add32 (.op .madd (.r 89) (.r 12)) (.op .madd (.r 90) (.r 13))) (.op .add32 (.op .madd (.r 91) (.r 14)) (.op .madd (.r 92) (.r 15)))),
  .set 101 (.op .add32 (.op .add32 (.op .madd (.r 89) (.r 16)) (.op .madd (.r 90) (.r 17))) (.op .add32 (.op .madd (.r 91) (.r 18)) (.op .madd (.r 92) (.r 19)))),
  .set 102 (.op .add32 (.op .add32 (.op .madd (.r 89) (.r 20)) (.op .madd (.r 90) (.r 21))) (.op .add32 (.op .madd (.r 91) (.r 22)) (.op .madd (.r 92) (.r 23)))),
  .set 103 (.op .add32 (.op .add32 (.op .madd (.r 89) (.r 24)) (.op .madd (.r 90) (.r 25))) (.op .add32 (.op .madd (.r 91) (.r 26)) (.op .madd (.r 92) (.r 27)))),
  .set 104 (.op .add32 (.op .add32 (.op .madd (.r 89) (.r 28)) (.op .madd (.r 90) (.r 29))) (.op .add32 (.op .madd (.r 91) (.r 30)) (.op .madd (.r 92) (.r 31)))),
  .set 105 (.op .add32 (.op .madd (.r 93) (.r 32)) (.op .madd (.r 94) (.r 33))),
  .set 106 (.op .add32 (.op .madd (.r 93) (.r 34)) (.op .madd (.r 94) (.r 35))),
  .set 107 (.op .add32 (.op .madd (.r 93) (.r 36)) (.op .madd (.r 94) (.r 37))),
  .set 108 (.op .add32 (.op .madd (.r 93) (.r 38)) (.op .madd (.r 94) (.r 39))),
  .set 109 (.op .madd (.r 95) (.r 40)),
  .set 110 (.op .madd (.r 95) (.r 41)),
  .set 111 (.op .madd (.r 96) (.r 43)),
  .set 112 (.op .madd (.r 96) (.r 42)),
  .set 113 (.op .add32 (.r 111) (.r 109)),
  .set 114 (.op .add32 (.r 112) (.r 110)),
  .set 115 (.op .sub32 (.r 111) (.r 109)),
  .set 116 (.op .sub32 (.r 112) (.r 110)),
  .set 117 (.op .add32 (.op .add32 (.r 113) (.r 105)) (.r 44)),
  .set 118 (.op .add32 (.op .add32 (.r 114) (.r 106)) (.r 44)),
  .set 119 (.op .add32 (.op .add32 (.r 116) (.r 107)) (.r 44)),
  .set 120 (.op .add32 (.op .add32 (.r 115) (.r 108)) (.r 44)),
  .set 121 (.op .add32 (.op .sub32 (.r 115) (.r 108)) (.r 44)),
  .set 122 (.op .add32 (.op .sub32 (.r 116) (.r 107)) (.r 44)),
  .set 123 (.op .add32 (.op .sub32 (.r 114) (.r 106)) (.r 44)),
  .set 124 (.op .add32 (.op .sub32 (.r 113) (.r 105)) (.r 44)),
  .set 125 (.sra32 (.op .add32 (.r 117) (.r 97)) 12),
  .set 126 (.sra32 (.op .add32 (.r 118) (.r 98)) 12),
  .set 127 (.sra32 (.op .add32 (.r 119) (.r 99)) 12),
  .set 128 (.sra32 (.op .add32 (.r 120) (.r 100)) 12),
  .set 129 (.sra32 (.op .add32 (.r 121) (.r 101)) 12),
  .set 130 (.sra32 (.op .add32 (.r 122) (.r 102)) 12),
  .set 131 (.sra32 (.op .add32 (.r 123) (.r 103)) 12),
  .set 132 (.sra32 (.op .add32 (.r 124) (.r 104)) 12),
  .set 133 (.sra32 (.op .sub32 (.r 124) (.r 104)) 12),
  .set 134 (.sra32 (.op .sub32 (.r 123) (.r 103)) 12),
  .set 135 (.sra32 (.op .sub32 (.r 122) (.r 102)) 12),
  .set 136 (.sra32 (.op .sub32 (.r 121) (.r 101)) 12),
  .set 137 (.sra32 (.op .sub32 (.r 120) (.r 100)) 12),
  .set 138 (.sra32 (.op .sub32 (.r 119) (.r 99)) 12),
  .set 139 (.sra32 (.op .sub32 (.r 118) (.r 98)) 12),
  .set 140 (.sra32 (.op .sub32 (.r 117) (.r 97)) 12),
  .set 53 (.op .packs (.r 125) (.r 133)),
  .set 55 (.op .packs (.r 126) (.r 134)),
  .set 57 (.op .packs (.r 127) (.r 135)),
  .set 59 (.op .packs (.r 128) (.r 136)),
  .set 54 (.op .packs (.r 129) (.r 137)),
  .set 56 (.op .packs (.r 130) (.r 138)),
  .set 58 (.op .packs (.r 131) (.r 139)),
  .set 60 (.op .packs (.r 132) (.r 140)),
  .set 73 (.op .lo16 (.r 53) (.r 55)),
  .set 74 (.op .lo16 (.r 57) (.r 59)),
  .set 75 (.op .hi16 (.r 53) (.r 55))]

/-- source/common/vec/intrinsic_idct.cc:694-742. -/
def idct_16x4_5 : List S := [
  .set 76 (.op .hi16 (.r 57) (.r 59)),
  .set 77 (.op .lo16 (.r 54) (.r 56)),
  .set 78 (.op .lo16 (.r 58) (.r 60)),
  .set 79 (.op .hi16 (.r 54) (.r 56)),
  .set 80 (.op .hi16 (.r 58) (.r 60)),
  .set 81 (.op .lo32 (.r 73) (.r 74)),
  .set 82 (.op .lo32 (.r 75) (.r 76)),
  .set 83 (.op .hi32 (.r 73) (.r 74)),
  .set 84 (.op .hi32 (.r 75) (.r 76)),
  .set 85 (.op .lo32 (.r 77) (.r 78)),
  .set 86 (.op .lo32 (.r 79) (.r 80)),
  .set 87 (.op .hi32 (.r 77) (.r 78)),
  .set 88 (.op .hi32 (.r 79) (.r 80)),
  .set 53 (.op .lo64 (.r 81) (.r 85)),
  .set 55 (.op .hi64 (.r 81) (.r 85)),
  .set 57 (.op .lo64 (.r 83) (.r 87)),
  .set 59 (.op .hi64 (.r 83) (.r 87)),
  .set 54 (.op .lo64 (.r 82) (.r 86)),
  .set 56 (.op .hi64 (.r 82) (.r 86)),
  .set 58 (.op .lo64 (.r 84) (.r 88)),
  .set 60 (.op .hi64 (.r 84) (.r 88)),
  .set 141 (.k16 255),
  .set 142 (.k16 (-256)),
  .set 53 (.op .max16 (.op .min16 (.r 53) (.r 141)) (.r 142)),
  .set 55 (.op .max16 (.op .min16 (.r 55) (.r 141)) (.r 142)),
  .set 57 (.op .max16 (.op .min16 (.r 57) (.r 141)) (.r 142)),
  .set 59 (.op .max16 (.op .min16 (.r 59) (.r 141)) (.r 142)),
  .set 54 (.op .max16 (.op .min16 (.r 54) (.r 141)) (.r 142)),
  .set 56 (.op .max16 (.op .min16 (.r 56) (.r 141)) (.r 142)),
  .set 58 (.op .max16 (.op .min16 (.r 58) (.r 141)) (.r 142)),
  .set 60 (.op .max16 (.op .min16 (.r 60) (.r 141)) (.r 142)),
  .st 8 0 (.r 53),
  .st 8 8 (.r 54),
  .st 8 16 (.r 55),
  .st 8 24 (.r 56),
  .st 8 32 (.r 57),
  .st 8 40 (.r 58),
  .st 8 48 (.r 59),
  .st 8 56 (.r 60)]

/-- `idct_16x4_sse128`, source/common/vec/intrinsic_idct.cc:480. -/
def idct_16x4 : List S :=
  idct_16x4_1 ++ (rep 2 fun i => idct_16x4_2 i) ++ (rep 2 fun part => idct_16x4_3 part) ++ idct_16x4_4 ++ idct_16x4_5

/-! ### `idct_8x8_sse128`

Registers: 0 S0, 1 S1, 2 S2, 3 S3, 4 S4, 5 S5, 6 S6, 7 S7, 8 mAdd, 9 T0, 10 T1, 11 T2, 12 T3, 13 E0h, 14 E1h, 15 E2h, 16 E3h, 17
E0l, 18 E1l, 19 E2l, 20 E3l, 21 O0h, 22 O1h, 23 O2h, 24 O3h, 25 O0l, 26 O1l, 27 O2l, 28 O3l, 29 EE0l, 30 EE1l, 31 E00l, 32 E01l,
33 EE0h, 34 EE1h, 35 E00h, 36 E01h, 37 T00, 38 T01, 39 T02, 40 T03, 41 T04, 42 T05, 43 T06, 44 T07, 45 max_val, 46 min_val, 47
T10, 48 T11, 49 T12, 50 T13. -/


/-- source/common/vec/intrinsic_idct.cc:779-880. -/
def idct_8x8_1 : List S := [
  .set 8 (.k32 16),
  .set 1 (.ld 8 8),
  .set 3 (.ld 8 24),
  .set 9 (.op .lo16 (.r 1) (.r 3)),
  .set 18 (.op .madd (.r 9) (.kk 44 38)),
  .set 10 (.op .hi16 (.r 1) (.r 3)),
  .set 14 (.op .madd (.r 10) (.kk 44 38)),
  .set 5 (.ld 8 40),
  .set 7 (.ld 8 56),
  .set 11 (.op .lo16 (.r 5) (.r 7)),
  .set 19 (.op .madd (.r 11) (.kk 25 9)),
  .set 12 (.op .hi16 (.r 5) (.r 7)),
  .set 15 (.op .madd (.r 12) (.kk 25 9)),
  .set 25 (.op .add32 (.r 18) (.r 19)),
  .set 21 (.op .add32 (.r 14) (.r 15)),
  .set 18 (.op .madd (.r 9) (.kk 38 (-9))),
  .set 14 (.op .madd (.r 10) (.kk 38 (-9))),
  .set 19 (.op .madd (.r 11) (.kk (-44) (-25))),
  .set 15 (.op .madd (.r 12) (.kk (-44) (-25))),
  .set 26 (.op .add32 (.r 18) (.r 19)),
  .set 22 (.op .add32 (.r 14) (.r 15)),
  .set 18 (.op .madd (.r 9) (.kk 25 (-44))),
  .set 14 (.op .madd (.r 10) (.kk 25 (-44))),
  .set 19 (.op .madd (.r 11) (.kk 9 38)),
  .set 15 (.op .madd (.r 12) (.kk 9 38)),
  .set 27 (.op .add32 (.r 18) (.r 19)),
  .set 23 (.op .add32 (.r 14) (.r 15)),
  .set 18 (.op .madd (.r 9) (.kk 9 (-25))),
  .set 14 (.op .madd (.r 10) (.kk 9 (-25))),
  .set 19 (.op .madd (.r 11) (.kk 38 (-44))),
  .set 15 (.op .madd (.r 12) (.kk 38 (-44))),
  .set 24 (.op .add32 (.r 14) (.r 15)),
  .set 28 (.op .add32 (.r 18) (.r 19)),
  .set 0 (.ld 8 0),
  .set 4 (.ld 8 32),
  .set 9 (.op .lo16 (.r 0) (.r 4)),
  .set 29 (.op .madd (.r 9) (.kk 32 32)),
  .set 10 (.op .hi16 (.r 0) (.r 4)),
  .set 33 (.op .madd (.r 10) (.kk 32 32)),
  .set 30 (.op .madd (.r 9) (.kk 32 (-32))),
  .set 34 (.op .madd (.r 10) (.kk 32 (-32))),
  .set 2 (.ld 8 16),
  .set 6 (.ld 8 48),
  .set 9 (.op .lo16 (.r 2) (.r 6)),
  .set 31 (.op .madd (.r 9) (.kk 42 17)),
  .set 10 (.op .hi16 (.r 2) (.r 6)),
  .set 35 (.op .madd (.r 10) (.kk 42 17)),
  .set 32 (.op .madd (.r 9) (.kk 17 (-42))),
  .set 36 (.op .madd (.r 10) (.kk 17 (-42))),
  .set 17 (.op .add32 (.r 29) (.r 31)),
  .set 17 (.op .add32 (.r 17) (.r 8)),
  .set 13 (.op .add32 (.r 33) (.r 35)),
  .set 13 (.op .add32 (.r 13) (.r 8)),
  .set 20 (.op .sub32 (.r 29) (.r 31)),
  .set 20 (.op .add32 (.r 20) (.r 8)),
  .set 16 (.op .sub32 (.r 33) (.r 35)),
  .set 16 (.op .add32 (.r 16) (.r 8)),
  .set 18 (.op .add32 (.r 30) (.r 32)),
  .set 18 (.op .add32 (.r 18) (.r 8)),
  .set 14 (.op .add32 (.r 34) (.r 36)),
  .set 14 (.op .add32 (.r 14) (.r 8)),
  .set 19 (.op .sub32 (.r 30) (.r 32)),
  .set 19 (.op .add32 (.r 19) (.r 8)),
  .set 15 (.op .sub32 (.r 34) (.r 36)),
  .set 15 (.op .add32 (.r 15) (.r 8)),
  .set 0 (.op .packs (.sra32 (.op .add32 (.r 17) (.r 25)) 5) (.sra32 (.op .add32 (.r 13) (.r 21)) 5)),
  .set 7 (.op .packs (.sra32 (.op .sub32 (.r 17) (.r 25)) 5) (.sra32 (.op .sub32 (.r 13) (.r 21)) 5)),
  .set 1 (.op .packs (.sra32 (.op .add32 (.r 18) (.r 26)) 5) (.sra32 (.op .add32 (.r 14) (.r 22)) 5)),
  .set 6 (.op .packs (.sra32 (.op .sub32 (.r 18) (.r 26)) 5) (.sra32 (.op .sub32 (.r 14) (.r 22)) 5)),
  .set 2 (.op .packs (.sra32 (.op .add32 (.r 19) (.r 27)) 5) (.sra32 (.op .add32 (.r 15) (.r 23)) 5)),
  .set 5 (.op .packs (.sra32 (.op .sub32 (.r 19) (.r 27)) 5) (.sra32 (.op .sub32 (.r 15) (.r 23)) 5)),
  .set 3 (.op .packs (.sra32 (.op .add32 (.r 20) (.r 28)) 5) (.sra32 (.op .add32 (.r 16) (.r 24)) 5)),
  .set 4 (.op .packs (.sra32 (.op .sub32 (.r 20) (.r 28)) 5) (.sra32 (.op .sub32 (.r 16) (.r 24)) 5)),
  .set 17 (.op .lo16 (.r 0) (.r 4)),
  .set 18 (.op .lo16 (.r 1) (.r 5)),
  .set 19 (.op .lo16 (.r 2) (.r 6)),
  .set 20 (.op .lo16 (.r 3) (.r 7)),
  .set 25 (.op .hi16 (.r 0) (.r 4)),
  .set 26 (.op .hi16 (.r 1) (.r 5)),
  .set 27 (.op .hi16 (.r 2) (.r 6))]

/-- source/common/vec/intrinsic_idct.cc:881-970. -/
def idct_8x8_2 : List S := [
  .set 28 (.op .hi16 (.r 3) (.r 7)),
  .set 9 (.op .lo16 (.r 17) (.r 19)),
  .set 10 (.op .lo16 (.r 18) (.r 20)),
  .set 0 (.op .lo16 (.r 9) (.r 10)),
  .set 1 (.op .hi16 (.r 9) (.r 10)),
  .set 11 (.op .hi16 (.r 17) (.r 19)),
  .set 12 (.op .hi16 (.r 18) (.r 20)),
  .set 2 (.op .lo16 (.r 11) (.r 12)),
  .set 3 (.op .hi16 (.r 11) (.r 12)),
  .set 9 (.op .lo16 (.r 25) (.r 27)),
  .set 10 (.op .lo16 (.r 26) (.r 28)),
  .set 4 (.op .lo16 (.r 9) (.r 10)),
  .set 5 (.op .hi16 (.r 9) (.r 10)),
  .set 11 (.op .hi16 (.r 25) (.r 27)),
  .set 12 (.op .hi16 (.r 26) (.r 28)),
  .set 6 (.op .lo16 (.r 11) (.r 12)),
  .set 7 (.op .hi16 (.r 11) (.r 12)),
  .set 8 (.k32 2048),
  .set 9 (.op .lo16 (.r 1) (.r 3)),
  .set 18 (.op .madd (.r 9) (.kk 44 38)),
  .set 10 (.op .hi16 (.r 1) (.r 3)),
  .set 14 (.op .madd (.r 10) (.kk 44 38)),
  .set 11 (.op .lo16 (.r 5) (.r 7)),
  .set 19 (.op .madd (.r 11) (.kk 25 9)),
  .set 12 (.op .hi16 (.r 5) (.r 7)),
  .set 15 (.op .madd (.r 12) (.kk 25 9)),
  .set 25 (.op .add32 (.r 18) (.r 19)),
  .set 21 (.op .add32 (.r 14) (.r 15)),
  .set 18 (.op .madd (.r 9) (.kk 38 (-9))),
  .set 14 (.op .madd (.r 10) (.kk 38 (-9))),
  .set 19 (.op .madd (.r 11) (.kk (-44) (-25))),
  .set 15 (.op .madd (.r 12) (.kk (-44) (-25))),
  .set 26 (.op .add32 (.r 18) (.r 19)),
  .set 22 (.op .add32 (.r 14) (.r 15)),
  .set 18 (.op .madd (.r 9) (.kk 25 (-44))),
  .set 14 (.op .madd (.r 10) (.kk 25 (-44))),
  .set 19 (.op .madd (.r 11) (.kk 9 38)),
  .set 15 (.op .madd (.r 12) (.kk 9 38)),
  .set 27 (.op .add32 (.r 18) (.r 19)),
  .set 23 (.op .add32 (.r 14) (.r 15)),
  .set 18 (.op .madd (.r 9) (.kk 9 (-25))),
  .set 14 (.op .madd (.r 10) (.kk 9 (-25))),
  .set 19 (.op .madd (.r 11) (.kk 38 (-44))),
  .set 15 (.op .madd (.r 12) (.kk 38 (-44))),
  .set 24 (.op .add32 (.r 14) (.r 15)),
  .set 28 (.op .add32 (.r 18) (.r 19)),
  .set 9 (.op .lo16 (.r 0) (.r 4)),
  .set 10 (.op .hi16 (.r 0) (.r 4)),
  .set 29 (.op .madd (.r 9) (.kk 32 32)),
  .set 33 (.op .madd (.r 10) (.kk 32 32)),
  .set 30 (.op .madd (.r 9) (.kk 32 (-32))),
  .set 34 (.op .madd (.r 10) (.kk 32 (-32))),
  .set 9 (.op .lo16 (.r 2) (.r 6)),
  .set 10 (.op .hi16 (.r 2) (.r 6)),
  .set 31 (.op .madd (.r 9) (.kk 42 17)),
  .set 35 (.op .madd (.r 10) (.kk 42 17)),
  .set 32 (.op .madd (.r 9) (.kk 17 (-42))),
  .set 36 (.op .madd (.r 10) (.kk 17 (-42))),
  .set 17 (.op .add32 (.r 29) (.r 31)),
  .set 17 (.op .add32 (.r 17) (.r 8)),
  .set 13 (.op .add32 (.r 33) (.r 35)),
  .set 13 (.op .add32 (.r 13) (.r 8)),
  .set 20 (.op .sub32 (.r 29) (.r 31)),
  .set 20 (.op .add32 (.r 20) (.r 8)),
  .set 16 (.op .sub32 (.r 33) (.r 35)),
  .set 16 (.op .add32 (.r 16) (.r 8)),
  .set 18 (.op .add32 (.r 30) (.r 32)),
  .set 18 (.op .add32 (.r 18) (.r 8)),
  .set 14 (.op .add32 (.r 34) (.r 36)),
  .set 14 (.op .add32 (.r 14) (.r 8)),
  .set 19 (.op .sub32 (.r 30) (.r 32)),
  .set 19 (.op .add32 (.r 19) (.r 8)),
  .set 15 (.op .sub32 (.r 34) (.r 36)),
  .set 15 (.op .add32 (.r 15) (.r 8)),
  .set 0 (.op .packs (.sra32 (.op .add32 (.r 17) (.r 25)) 12) (.sra32 (.op .add32 (.r 13) (.r 21)) 12)),
  .set 7 (.op .packs (.sra32 (.op .sub32 (.r 17) (.r 25)) 12) (.sra32 (.op .sub32 (.r 13) (.r 21)) 12)),
  .set 1 (.op .packs (.sra32 (.op .add32 (.r 18) (.r 26)) 12) (.sra32 (.op .add32 (.r 14) (.r 22)) 12)),
  .set 6 (.op .packs (.sra32 (.op .sub32 (.r 18) (.r 26)) 12) (.sra32 (.op .sub32 (.r 14) (.r 22)) 12)),
  .set 2 (.op .packs (.sra32 (.op .add32 (.r 19) (.r 27)) 12) (.sra32 (.op .add32 (.r 15) (.r 23)) 12)),
  .set 5 (.op .packs (.sra32 (.op .sub32 (.r 19) (.r 27)) 12) (.sra32 (.op .sub32 (.r 15) (.r 23)) 12))]

/-- source/common/vec/intrinsic_idct.cc:971-1028. -/
def idct_8x8_3 : List S := [
  .set 3 (.op .packs (.sra32 (.op .add32 (.r 20) (.r 28)) 12) (.sra32 (.op .add32 (.r 16) (.r 24)) 12)),
  .set 4 (.op .packs (.sra32 (.op .sub32 (.r 20) (.r 28)) 12) (.sra32 (.op .sub32 (.r 16) (.r 24)) 12)),
  .set 37 (.op .lo16 (.r 0) (.r 1)),
  .set 38 (.op .hi16 (.r 0) (.r 1)),
  .set 39 (.op .lo16 (.r 2) (.r 3)),
  .set 40 (.op .hi16 (.r 2) (.r 3)),
  .set 41 (.op .lo16 (.r 4) (.r 5)),
  .set 42 (.op .hi16 (.r 4) (.r 5)),
  .set 43 (.op .lo16 (.r 6) (.r 7)),
  .set 44 (.op .hi16 (.r 6) (.r 7)),
  .set 45 (.k16 255),
  .set 46 (.k16 (-256)),
  .set 37 (.op .max16 (.op .min16 (.r 37) (.r 45)) (.r 46)),
  .set 38 (.op .max16 (.op .min16 (.r 38) (.r 45)) (.r 46)),
  .set 39 (.op .max16 (.op .min16 (.r 39) (.r 45)) (.r 46)),
  .set 40 (.op .max16 (.op .min16 (.r 40) (.r 45)) (.r 46)),
  .set 41 (.op .max16 (.op .min16 (.r 41) (.r 45)) (.r 46)),
  .set 42 (.op .max16 (.op .min16 (.r 42) (.r 45)) (.r 46)),
  .set 43 (.op .max16 (.op .min16 (.r 43) (.r 45)) (.r 46)),
  .set 44 (.op .max16 (.op .min16 (.r 44) (.r 45)) (.r 46)),
  .set 47 (.op .lo32 (.r 37) (.r 39)),
  .set 48 (.op .hi32 (.r 37) (.r 39)),
  .set 49 (.op .lo32 (.r 41) (.r 43)),
  .set 50 (.op .hi32 (.r 41) (.r 43)),
  .st 8 0 (.op .lo64 (.r 47) (.r 49)),
  .st 8 8 (.op .hi64 (.r 47) (.r 49)),
  .st 8 16 (.op .lo64 (.r 48) (.r 50)),
  .st 8 24 (.op .hi64 (.r 48) (.r 50)),
  .set 47 (.op .lo32 (.r 38) (.r 40)),
  .set 49 (.op .lo32 (.r 42) (.r 44)),
  .set 48 (.op .hi32 (.r 38) (.r 40)),
  .set 50 (.op .hi32 (.r 42) (.r 44)),
  .st 8 32 (.op .lo64 (.r 47) (.r 49)),
  .st 8 40 (.op .hi64 (.r 47) (.r 49)),
  .st 8 48 (.op .lo64 (.r 48) (.r 50)),
  .st 8 56 (.op .hi64 (.r 48) (.r 50))]

/-- `idct_8x8_sse128`, source/common/vec/intrinsic_idct.cc:765. -/
def idct_8x8 : List S :=
  idct_8x8_1 ++ idct_8x8_2 ++ idct_8x8_3

/-! ### `idct_16x16_sse128`

Registers: 0 c16_p43_p45, 1 c16_p35_p40, 2 c16_p21_p29, 3 c16_p04_p13, 4 c16_p29_p43, 5 c16_n21_p04, 6 c16_n45_n40, 7 c16_n13_n35,
8 c16_p04_p40, 9 c16_n43_n35, 10 c16_p29_n13, 11 c16_p21_p45, 12 c16_n21_p35, 13 c16_p04_n43, 14 c16_p13_p45, 15 c16_n29_n40, 16
c16_n40_p29, 17 c16_p45_n13, 18 c16_n43_n04, 19 c16_p35_p21, 20 c16_n45_p21, 21 c16_p13_p29, 22 c16_p35_n43, 23 c16_n40_p04, 24
c16_n35_p13, 25 c16_n40_p45, 26 c16_p04_p21, 27 c16_p43_n29, 28 c16_n13_p04, 29 c16_n29_p21, 30 c16_n40_p35, 31 c16_n45_p43, 32
c16_p38_p44, 33 c16_p09_p25, 34 c16_n09_p38, 35 c16_n25_n44, 36 c16_n44_p25, 37 c16_p38_p09, 38 c16_n25_p09, 39 c16_n44_p38, 40
c16_p17_p42, 41 c16_n42_p17, 42 c16_n32_p32, 43 c16_p32_p32, 44 c32_rnd, 45-46 in00, 47-48 in01, 49-50 in02, 51-52 in03, 53-54
in04, 55-56 in05, 57-58 in06, 59-60 in07, 61-62 in08, 63-64 in09, 65-66 in10, 67-68 in11, 69-70 in12, 71-72 in13, 73-74 in14,
75-76 in15, 77-78 res00, 79-80 res01, 81-82 res02, 83-84 res03, 85-86 res04, 87-88 res05, 89-90 res06, 91-92 res07, 93-94 res08,
95-96 res09, 97-98 res10, 99-100 res11, 101-102 res12, 103-104 res13, 105-106 res14, 107-108 res15, 109 T_00_00A, 110 T_00_00B,
111 T_00_01A, 112 T_00_01B, 113 T_00_02A, 114 T_00_02B, 115 T_00_03A, 116 T_00_03B, 117 T_00_04A, 118 T_00_04B, 119 T_00_05A, 120
T_00_05B, 121 T_00_06A, 122 T_00_06B, 123 T_00_07A, 124 T_00_07B, 125 O0A, 126 O1A, 127 O2A, 128 O3A, 129 O4A, 130 O5A, 131 O6A,
132 O7A, 133 O0B, 134 O1B, 135 O2B, 136 O3B, 137 O4B, 138 O5B, 139 O6B, 140 O7B, 141 EO0A, 142 EO1A, 143 EO2A, 144 EO3A, 145 EO0B,
146 EO1B, 147 EO2B, 148 EO3B, 149 EEO0A, 150 EEO1A, 151 EEO0B, 152 EEO1B, 153 EEE0A, 154 EEE1A, 155 EEE0B, 156 EEE1B, 157 T00, 158
T01, 159 EE0A, 160 EE0B, 161 EE1A, 162 EE1B, 163 EE3A, 164 EE3B, 165 EE2A, 166 EE2B, 167 T10A, 168 T10B, 169 T11A, 170 T11B, 171
T12A, 172 T12B, 173 T13A, 174 T13B, 175 T14A, 176 T14B, 177 T15A, 178 T15B, 179 T16A, 180 T16B, 181 T17A, 182 T17B, 183 T30A, 184
T30B, 185 T31A, 186 T31B, 187 T32A, 188 T32B, 189 T33A, 190 T33B, 191 T34A, 192 T34B, 193 T35A, 194 T35B, 195 T36A, 196 T36B, 197
T37A, 198 T37B, 199 T38A, 200 T38B, 201 T39A, 202 T39B, 203 T3AA, 204 T3AB, 205 T3BA, 206 T3BB, 207 T3CA, 208 T3CB, 209 T3DA, 210
T3DB, 211 T3EA, 212 T3EB, 213 T3FA, 214 T3FB, 215 tr0_0, 216 tr0_1, 217 tr0_2, 218 tr0_3, 219 tr0_4, 220 tr0_5, 221 tr0_6, 222
tr0_7, 223 tr1_0, 224 tr1_1, 225 tr1_2, 226 tr1_3, 227 tr1_4, 228 tr1_5, 229 tr1_6, 230 tr1_7, 231 max_val, 232 min_val. -/


/-- source/common/vec/intrinsic_idct.cc:1141-1212. -/
def idct_16x16_1 (part : Nat) : List S := [
  .set 109 (.op .lo16 (.r (47 + part)) (.r (51 + part))),
  .set 110 (.op .hi16 (.r (47 + part)) (.r (51 + part))),
  .set 111 (.op .lo16 (.r (55 + part)) (.r (59 + part))),
  .set 112 (.op .hi16 (.r (55 + part)) (.r (59 + part))),
  .set 113 (.op .lo16 (.r (63 + part)) (.r (67 + part))),
  .set 114 (.op .hi16 (.r (63 + part)) (.r (67 + part))),
  .set 115 (.op .lo16 (.r (71 + part)) (.r (75 + part))),
  .set 116 (.op .hi16 (.r (71 + part)) (.r (75 + part))),
  .set 117 (.op .lo16 (.r (49 + part)) (.r (57 + part))),
  .set 118 (.op .hi16 (.r (49 + part)) (.r (57 + part))),
  .set 119 (.op .lo16 (.r (65 + part)) (.r (73 + part))),
  .set 120 (.op .hi16 (.r (65 + part)) (.r (73 + part))),
  .set 121 (.op .lo16 (.r (53 + part)) (.r (69 + part))),
  .set 122 (.op .hi16 (.r (53 + part)) (.r (69 + part))),
  .set 123 (.op .lo16 (.r (45 + part)) (.r (61 + part))),
  .set 124 (.op .hi16 (.r (45 + part)) (.r (61 + part))),
  .set 157 (.op .add32 (.op .madd (.r 109) (.r 0)) (.op .madd (.r 111) (.r 1))),
  .set 158 (.op .add32 (.op .madd (.r 113) (.r 2)) (.op .madd (.r 115) (.r 3))),
  .set 125 (.op .add32 (.r 157) (.r 158)),
  .set 157 (.op .add32 (.op .madd (.r 109) (.r 4)) (.op .madd (.r 111) (.r 5))),
  .set 158 (.op .add32 (.op .madd (.r 113) (.r 6)) (.op .madd (.r 115) (.r 7))),
  .set 126 (.op .add32 (.r 157) (.r 158)),
  .set 157 (.op .add32 (.op .madd (.r 109) (.r 8)) (.op .madd (.r 111) (.r 9))),
  .set 158 (.op .add32 (.op .madd (.r 113) (.r 10)) (.op .madd (.r 115) (.r 11))),
  .set 127 (.op .add32 (.r 157) (.r 158)),
  .set 157 (.op .add32 (.op .madd (.r 109) (.r 12)) (.op .madd (.r 111) (.r 13))),
  .set 158 (.op .add32 (.op .madd (.r 113) (.r 14)) (.op .madd (.r 115) (.r 15))),
  .set 128 (.op .add32 (.r 157) (.r 158)),
  .set 157 (.op .add32 (.op .madd (.r 109) (.r 16)) (.op .madd (.r 111) (.r 17))),
  .set 158 (.op .add32 (.op .madd (.r 113) (.r 18)) (.op .madd (.r 115) (.r 19))),
  .set 129 (.op .add32 (.r 157) (.r 158)),
  .set 157 (.op .add32 (.op .madd (.r 109) (.r 20)) (.op .madd (.r 111) (.r 21))),
  .set 158 (.op .add32 (.op .madd (.r 113) (.r 22)) (.op .madd (.r 115) (.r 23))),
  .set 130 (.op .add32 (.r 157) (.r 158)),
  .set 157 (.op .add32 (.op .madd (.r 109) (.r 24)) (.op .madd (.r 111) (.r 25))),
  .set 158 (.op .add32 (.op .madd (.r 113) (.r 26)) (.op .madd (.r 115) (.r 27))),
  .set 131 (.op .add32 (.r 157) (.r 158)),
  .set 157 (.op .add32 (.op .madd (.r 109) (.r 28)) (.op .madd (.r 111) (.r 29))),
  .set 158 (.op .add32 (.op .madd (.r 113) (.r 30)) (.op .madd (.r 115) (.r 31))),
  .set 132 (.op .add32 (.r 157) (.r 158)),
  .set 157 (.op .add32 (.op .madd (.r 110) (.r 0)) (.op .madd (.r 112) (.r 1))),
  .set 158 (.op .add32 (.op .madd (.r 114) (.r 2)) (.op .madd (.r 116) (.r 3))),
  .set 133 (.op .add32 (.r 157) (.r 158)),
  .set 157 (.op .add32 (.op .madd (.r 110) (.r 4)) (.op .madd (.r 112) (.r 5))),
  .set 158 (.op .add32 (.op .madd (.r 114) (.r 6)) (.op .madd (.r 116) (.r 7))),
  .set 134 (.op .add32 (.r 157) (.r 158)),
  .set 157 (.op .add32 (.op .madd (.r 110) (.r 8)) (.op .madd (.r 112) (.r 9))),
  .set 158 (.op .add32 (.op .madd (.r 114) (.r 10)) (.op .madd (.r 116) (.r 11))),
  .set 135 (.op .add32 (.r 157) (.r 158)),
  .set 157 (.op .add32 (.op .madd (.r 110) (.r 12)) (.op .madd (.r 112) (.r 13))),
  .set 158 (.op .add32 (.op .madd (.r 114) (.r 14)) (.op .madd (.r 116) (.r 15))),
  .set 136 (.op .add32 (.r 157) (.r 158)),
  .set 157 (.op .add32 (.op .madd (.r 110) (.r 16)) (.op .madd (.r 112) (.r 17))),
  .set 158 (.op .add32 (.op .madd (.r 114) (.r 18)) (.op .madd (.r 116) (.r 19))),
  .set 137 (.op .add32 (.r 157) (.r 158)),
  .set 157 (.op .add32 (.op .madd (.r 110) (.r 20)) (.op .madd (.r 112) (.r 21))),
  .set 158 (.op .add32 (.op .madd (.r 114) (.r 22)) (.op .madd (.r 116) (.r 23))),
  .set 138 (.op .add32 (.r 157) (.r 158)),
  .set 157 (.op .add32 (.op .madd (.r 110) (.r 24)) (.op .madd (.r 112) (.r 25))),
  .set 158 (.op .add32 (.op .madd (.r 114) (.r 26)) (.op .madd (.r 116) (.r 27))),
  .set 139 (.op .add32 (.r 157) (.r 158)),
  .set 157 (.op .add32 (.op .madd (.r 110) (.r 28)) (.op .madd (.r 112) (.r 29))),
  .set 158 (.op .add32 (.op .madd (.r 114) (.r 30)) (.op .madd (.r 116) (.r 31))),
  .set 140 (.op .add32 (.r 157) (.r 158)),
  .set 141 (.op .add32 (.op .madd (.r 117) (.r 32)) (.op .madd (.r 119) (.r 33))),
  .set 145 (.op .add32 (.op .madd (.r 118) (.r 32)) (.op .madd (.r 120) (.r 33))),
  .set 142 (.op .add32 (.op .madd (.r 117) (.r 34)) (.op .madd (.r 119) (.r 35))),
  .set 146 (.op .add32 (.op .madd (.r 118) (.r 34)) (.op .madd (.r 120) (.r 35))),
  .set 143 (.op .add32 (.op .madd (.r 117) (.r 36)) (.op .madd (.r 119) (.r 37))),
  .set 147 (.op .add32 (.op .madd (.r 118) (.r 36)) (.op .madd (.r 120) (.r 37))),
  .set 144 (.op .add32 (.op .madd (.r 117) (.r 38)) (.op .madd (.r 119) (.r 39))),
  .set 148 (.op .add32 (.op .madd (.r 118) (.r 38)) (.op .madd (.r 120) (.r 39))),
  .set 149 (.op .madd (.r 121) (.r 40)),
  .set 151 (.op .madd (.r 122) (.r 40)),
  .set 150 (.op .madd (.r 121) (.r 41)),
  .set 152 (.op .madd (.r 122) (.r 41)),
  .set 153 (.op .madd (.r 123) (.r 43)),
  .set 155 (.op .madd (.r 124) (.r 43)),
  .set 154 (.op .madd (.r 123) (.r 42)),
  .set 156 (.op .madd (.r 124) (.r 42))]

/-- source/common/vec/intrinsic_idct.cc:1215-1291. -/
def idct_16x16_2 (nShift : Nat) (part : Nat) : List S := [
  .set 159 (.op .add32 (.r 153) (.r 149)),
  .set 160 (.op .add32 (.r 155) (.r 151)),
  .set 161 (.op .add32 (.r 154) (.r 150)),
  .set 162 (.op .add32 (.r 156) (.r 152)),
  .set 163 (.op .sub32 (.r 153) (.r 149)),
  .set 164 (.op .sub32 (.r 155) (.r 151)),
  .set 165 (.op .sub32 (.r 154) (.r 150)),
  .set 166 (.op .sub32 (.r 156) (.r 152)),
  .set 167 (.op .add32 (.op .add32 (.r 159) (.r 141)) (.r 44)),
  .set 168 (.op .add32 (.op .add32 (.r 160) (.r 145)) (.r 44)),
  .set 169 (.op .add32 (.op .add32 (.r 161) (.r 142)) (.r 44)),
  .set 170 (.op .add32 (.op .add32 (.r 162) (.r 146)) (.r 44)),
  .set 171 (.op .add32 (.op .add32 (.r 165) (.r 143)) (.r 44)),
  .set 172 (.op .add32 (.op .add32 (.r 166) (.r 147)) (.r 44)),
  .set 173 (.op .add32 (.op .add32 (.r 163) (.r 144)) (.r 44)),
  .set 174 (.op .add32 (.op .add32 (.r 164) (.r 148)) (.r 44)),
  .set 175 (.op .add32 (.op .sub32 (.r 163) (.r 144)) (.r 44)),
  .set 176 (.op .add32 (.op .sub32 (.r 164) (.r 148)) (.r 44)),
  .set 177 (.op .add32 (.op .sub32 (.r 165) (.r 143)) (.r 44)),
  .set 178 (.op .add32 (.op .sub32 (.r 166) (.r 147)) (.r 44)),
  .set 179 (.op .add32 (.op .sub32 (.r 161) (.r 142)) (.r 44)),
  .set 180 (.op .add32 (.op .sub32 (.r 162) (.r 146)) (.r 44)),
  .set 181 (.op .add32 (.op .sub32 (.r 159) (.r 141)) (.r 44)),
  .set 182 (.op .add32 (.op .sub32 (.r 160) (.r 145)) (.r 44)),
  .set 183 (.sra32 (.op .add32 (.r 167) (.r 125)) nShift),
  .set 184 (.sra32 (.op .add32 (.r 168) (.r 133)) nShift),
  .set 185 (.sra32 (.op .add32 (.r 169) (.r 126)) nShift),
  .set 186 (.sra32 (.op .add32 (.r 170) (.r 134)) nShift),
  .set 187 (.sra32 (.op .add32 (.r 171) (.r 127)) nShift),
  .set 188 (.sra32 (.op .add32 (.r 172) (.r 135)) nShift),
  .set 189 (.sra32 (.op .add32 (.r 173) (.r 128)) nShift),
  .set 190 (.sra32 (.op .add32 (.r 174) (.r 136)) nShift),
  .set 191 (.sra32 (.op .add32 (.r 175) (.r 129)) nShift),
  .set 192 (.sra32 (.op .add32 (.r 176) (.r 137)) nShift),
  .set 193 (.sra32 (.op .add32 (.r 177) (.r 130)) nShift),
  .set 194 (.sra32 (.op .add32 (.r 178) (.r 138)) nShift),
  .set 195 (.sra32 (.op .add32 (.r 179) (.r 131)) nShift),
  .set 196 (.sra32 (.op .add32 (.r 180) (.r 139)) nShift),
  .set 197 (.sra32 (.op .add32 (.r 181) (.r 132)) nShift),
  .set 198 (.sra32 (.op .add32 (.r 182) (.r 140)) nShift),
  .set 199 (.sra32 (.op .sub32 (.r 181) (.r 132)) nShift),
  .set 200 (.sra32 (.op .sub32 (.r 182) (.r 140)) nShift),
  .set 201 (.sra32 (.op .sub32 (.r 179) (.r 131)) nShift),
  .set 202 (.sra32 (.op .sub32 (.r 180) (.r 139)) nShift),
  .set 203 (.sra32 (.op .sub32 (.r 177) (.r 130)) nShift),
  .set 204 (.sra32 (.op .sub32 (.r 178) (.r 138)) nShift),
  .set 205 (.sra32 (.op .sub32 (.r 175) (.r 129)) nShift),
  .set 206 (.sra32 (.op .sub32 (.r 176) (.r 137)) nShift),
  .set 207 (.sra32 (.op .sub32 (.r 173) (.r 128)) nShift),
  .set 208 (.sra32 (.op .sub32 (.r 174) (.r 136)) nShift),
  .set 209 (.sra32 (.op .sub32 (.r 171) (.r 127)) nShift),
  .set 210 (.sra32 (.op .sub32 (.r 172) (.r 135)) nShift),
  .set 211 (.sra32 (.op .sub32 (.r 169) (.r 126)) nShift),
  .set 212 (.sra32 (.op .sub32 (.r 170) (.r 134)) nShift),
  .set 213 (.sra32 (.op .sub32 (.r 167) (.r 125)) nShift),
  .set 214 (.sra32 (.op .sub32 (.r 168) (.r 133)) nShift),
  .set (77 + part) (.op .packs (.r 183) (.r 184)),
  .set (79 + part) (.op .packs (.r 185) (.r 186)),
  .set (81 + part) (.op .packs (.r 187) (.r 188)),
  .set (83 + part) (.op .packs (.r 189) (.r 190)),
  .set (85 + part) (.op .packs (.r 191) (.r 192)),
  .set (87 + part) (.op .packs (.r 193) (.r 194)),
  .set (89 + part) (.op .packs (.r 195) (.r 196)),
  .set (91 + part) (.op .packs (.r 197) (.r 198)),
  .set (93 + part) (.op .packs (.r 199) (.r 200)),
  .set (95 + part) (.op .packs (.r 201) (.r 202)),
  .set (97 + part) (.op .packs (.r 203) (.r 204)),
  .set (99 + part) (.op .packs (.r 205) (.r 206)),
  .set (101 + part) (.op .packs (.r 207) (.r 208)),
  .set (103 + part) (.op .packs (.r 209) (.r 210)),
  .set (105 + part) (.op .packs (.r 211) (.r 212)),
  .set (107 + part) (.op .packs (.r 213) (.r 214))]

/-- source/common/vec/intrinsic_idct.cc:1326-1335. -/
def idct_16x16_3 : List S := transpose8 215 223
    77 79 81 83 85 87 89 91
    45 47 49 51 53 55 57 59 ++
  transpose8 215 223
    93 95 97 99 101 103 105 107
    46 48 50 52 54 56 58 60 ++
  transpose8 215 223
    78 80 82 84 86 88 90 92
    61 63 65 67 69 71 73 75 ++
  transpose8 215 223
    94 96 98 100 102 104 106 108
    62 64 66 68 70 72 74 76 ++
  [
  .set 44 (.k32 2048)]

def idct_16x16_body1 (nShift : Nat) : List S :=
  (rep 2 fun part => idct_16x16_1 part ++ idct_16x16_2 nShift part) ++ idct_16x16_3

/-- source/common/vec/intrinsic_idct.cc:1059-1110. -/
def idct_16x16_4 : List S := [
  .set 0 (.k32 0x002b002d),
  .set 1 (.k32 0x00230028),
  .set 2 (.k32 0x0015001d),
  .set 3 (.k32 0x0004000d),
  .set 4 (.k32 0x001d002b),
  .set 5 (.k32 0xffeb0004),
  .set 6 (.k32 0xffd3ffd8),
  .set 7 (.k32 0xfff3ffdd),
  .set 8 (.k32 0x00040028),
  .set 9 (.k32 0xffd5ffdd),
  .set 10 (.k32 0x001dfff3),
  .set 11 (.k32 0x0015002d),
  .set 12 (.k32 0xffeb0023),
  .set 13 (.k32 0x0004ffd5),
  .set 14 (.k32 0x000d002d),
  .set 15 (.k32 0xffe3ffd8),
  .set 16 (.k32 0xffd8001d),
  .set 17 (.k32 0x002dfff3),
  .set 18 (.k32 0xffd5fffc),
  .set 19 (.k32 0x00230015),
  .set 20 (.k32 0xffd30015),
  .set 21 (.k32 0x000d001d),
  .set 22 (.k32 0x0023ffd5),
  .set 23 (.k32 0xffd80004),
  .set 24 (.k32 0xffdd000d),
  .set 25 (.k32 0xffd8002d),
  .set 26 (.k32 0x00040015),
  .set 27 (.k32 0x002bffe3),
  .set 28 (.k32 0xfff30004),
  .set 29 (.k32 0xffe30015),
  .set 30 (.k32 0xffd80023),
  .set 31 (.k32 0xffd3002b),
  .set 32 (.k32 0x0026002c),
  .set 33 (.k32 0x00090019),
  .set 34 (.k32 0xfff70026),
  .set 35 (.k32 0xffe7ffd4),
  .set 36 (.k32 0xffd40019),
  .set 37 (.k32 0x00260009),
  .set 38 (.k32 0xffe70009),
  .set 39 (.k32 0xffd40026),
  .set 40 (.k32 0x0011002a),
  .set 41 (.k32 0xffd60011),
  .set 42 (.k32 0xffe00020),
  .set 43 (.k32 0x00200020),
  .set 44 (.k32 16)]

/-- source/common/vec/intrinsic_idct.cc:1121-1136. -/
def idct_16x16_5 (i : Nat) : List S := [
  .set (45 + i) (.ld 8 (8 * i)),
  .set (47 + i) (.ld 8 (16 + 8 * i)),
  .set (49 + i) (.ld 8 (32 + 8 * i)),
  .set (51 + i) (.ld 8 (48 + 8 * i)),
  .set (53 + i) (.ld 8 (64 + 8 * i)),
  .set (55 + i) (.ld 8 (80 + 8 * i)),
  .set (57 + i) (.ld 8 (96 + 8 * i)),
  .set (59 + i) (.ld 8 (112 + 8 * i)),
  .set (61 + i) (.ld 8 (128 + 8 * i)),
  .set (63 + i) (.ld 8 (144 + 8 * i)),
  .set (65 + i) (.ld 8 (160 + 8 * i)),
  .set (67 + i) (.ld 8 (176 + 8 * i)),
  .set (69 + i) (.ld 8 (192 + 8 * i)),
  .set (71 + i) (.ld 8 (208 + 8 * i)),
  .set (73 + i) (.ld 8 (224 + 8 * i)),
  .set (75 + i) (.ld 8 (240 + 8 * i))]

/-- source/common/vec/intrinsic_idct.cc:1340-1424. -/
def idct_16x16_6 : List S := [
  .set 231 (.k16 255),
  .set 232 (.k16 (-256)),
  .set 45 (.op .max16 (.op .min16 (.r 45) (.r 231)) (.r 232)),
  .set 46 (.op .max16 (.op .min16 (.r 46) (.r 231)) (.r 232)),
  .set 47 (.op .max16 (.op .min16 (.r 47) (.r 231)) (.r 232)),
  .set 48 (.op .max16 (.op .min16 (.r 48) (.r 231)) (.r 232)),
  .set 49 (.op .max16 (.op .min16 (.r 49) (.r 231)) (.r 232)),
  .set 50 (.op .max16 (.op .min16 (.r 50) (.r 231)) (.r 232)),
  .set 51 (.op .max16 (.op .min16 (.r 51) (.r 231)) (.r 232)),
  .set 52 (.op .max16 (.op .min16 (.r 52) (.r 231)) (.r 232)),
  .set 53 (.op .max16 (.op .min16 (.r 53) (.r 231)) (.r 232)),
  .set 54 (.op .max16 (.op .min16 (.r 54) (.r 231)) (.r 232)),
  .set 55 (.op .max16 (.op .min16 (.r 55) (.r 231)) (.r 232)),
  .set 56 (.op .max16 (.op .min16 (.r 56) (.r 231)) (.r 232)),
  .set 57 (.op .max16 (.op .min16 (.r 57) (.r 231)) (.r 232)),
  .set 58 (.op .max16 (.op .min16 (.r 58) (.r 231)) (.r 232)),
  .set 59 (.op .max16 (.op .min16 (.r 59) (.r 231)) (.r 232)),
  .set 60 (.op .max16 (.op .min16 (.r 60) (.r 231)) (.r 232)),
  .set 61 (.op .max16 (.op .min16 (.r 61) (.r 231)) (.r 232)),
  .set 62 (.op .max16 (.op .min16 (.r 62) (.r 231)) (.r 232)),
  .set 63 (.op .max16 (.op .min16 (.r 63) (.r 231)) (.r 232)),
  .set 64 (.op .max16 (.op .min16 (.r 64) (.r 231)) (.r 232)),
  .set 65 (.op .max16 (.op .min16 (.r 65) (.r 231)) (.r 232)),
  .set 66 (.op .max16 (.op .min16 (.r 66) (.r 231)) (.r 232)),
  .set 67 (.op .max16 (.op .min16 (.r 67) (.r 231)) (.r 232)),
  .set 68 (.op .max16 (.op .min16 (.r 68) (.r 231)) (.r 232)),
  .set 69 (.op .max16 (.op .min16 (.r 69) (.r 231)) (.r 232)),
  .set 70 (.op .max16 (.op .min16 (.r 70) (.r 231)) (.r 232)),
  .set 71 (.op .max16 (.op .min16 (.r 71) (.r 231)) (.r 232)),
  .set 72 (.op .max16 (.op .min16 (.r 72) (.r 231)) (.r 232)),
  .set 73 (.op .max16 (.op .min16 (.r 73) (.r 231)) (.r 232)),
  .set 74 (.op .max16 (.op .min16 (.r 74) (.r 231)) (.r 232)),
  .set 75 (.op .max16 (.op .min16 (.r 75) (.r 231)) (.r 232)),
  .set 76 (.op .max16 (.op .min16 (.r 76) (.r 231)) (.r 232)),
  .st 8 0 (.r 45),
  .st 8 8 (.r 46),
  .st 8 16 (.r 47),
  .st 8 24 (.r 48),
  .st 8 32 (.r 49),
  .st 8 40 (.r 50),
  .st 8 48 (.r 51),
  .st 8 56 (.r 52),
  .st 8 64 (.r 53),
  .st 8 72 (.r 54),
  .st 8 80 (.r 55),
  .st 8 88 (.r 56),
  .st 8 96 (.r 57),
  .st 8 104 (.r 58),
  .st 8 112 (.r 59),
  .st 8 120 (.r 60),
  .st 8 128 (.r 61),
  .st 8 136 (.r 62),
  .st 8 144 (.r 63),
  .st 8 152 (.r 64),
  .st 8 160 (.r 65),
  .st 8 168 (.r 66),
  .st 8 176 (.r 67),
  .st 8 184 (.r 68),
  .st 8 192 (.r 69),
  .st 8 200 (.r 70),
  .st 8 208 (.r 71),
  .st 8 216 (.r 72),
  .st 8 224 (.r 73),
  .st 8 232 (.r 74),
  .st 8 240 (.r 75),
  .st 8 248 (.r 76)]

/-- `idct_16x16_sse128`, source/common/vec/intrinsic_idct.cc:1052. -/
def idct_16x16 : List S :=
  idct_16x16_4 ++ (rep 2 fun i => idct_16x16_5 i) ++ idct_16x16_body1 5 ++ idct_16x16_body1 12 ++ idct_16x16_6

/-! ### `idct_16x16_half_sse128`

Registers: 0 c16_p43_p45, 1 c16_p35_p40, 2 c16_p29_p43, 3 c16_n21_p04, 4 c16_p04_p40, 5 c16_n43_n35, 6 c16_n21_p35, 7 c16_p04_n43,
8 c16_n40_p29, 9 c16_p45_n13, 10 c16_n45_p21, 11 c16_p13_p29, 12 c16_n35_p13, 13 c16_n40_p45, 14 c16_n13_p04, 15 c16_n29_p21, 16
c16_p38_p44, 17 c16_n09_p38, 18 c16_n44_p25, 19 c16_n25_p09, 20 c16_p17_p42, 21 c16_n42_p17, 22 c16_n32_p32, 23 c16_p32_p32, 24
c32_rnd, 25 Zero_8, 26-27 in00, 28-29 in01, 30-31 in02, 32-33 in03, 34-35 in04, 36-37 in05, 38-39 in06, 40-41 in07, 42-43 in08,
44-45 in09, 46-47 in10, 48-49 in11, 50-51 in12, 52-53 in13, 54-55 in14, 56-57 in15, 58-59 res00, 60-61 res01, 62-63 res02, 64-65
res03, 66-67 res04, 68-69 res05, 70-71 res06, 72-73 res07, 74-75 res08, 76-77 res09, 78-79 res10, 80-81 res11, 82-83 res12, 84-85
res13, 86-87 res14, 88-89 res15, 90 T_00_00A, 91 T_00_00B, 92 T_00_01A, 93 T_00_01B, 94 T_00_04A, 95 T_00_04B, 96 T_00_06A, 97
T_00_06B, 98 T_00_07A, 99 T_00_07B, 100 O0A, 101 O1A, 102 O2A, 103 O3A, 104 O4A, 105 O5A, 106 O6A, 107 O7A, 108 O0B, 109 O1B, 110
O2B, 111 O3B, 112 O4B, 113 O5B, 114 O6B, 115 O7B, 116 EO0A, 117 EO1A, 118 EO2A, 119 EO3A, 120 EO0B, 121 EO1B, 122 EO2B, 123 EO3B,
124 EEO0A, 125 EEO1A, 126 EEO0B, 127 EEO1B, 128 EEE0A, 129 EEE1A, 130 EEE0B, 131 EEE1B, 132 EE0A, 133 EE0B, 134 EE1A, 135 EE1B,
136 EE3A, 137 EE3B, 138 EE2A, 139 EE2B, 140 T10A, 141 T10B, 142 T11A, 143 T11B, 144 T12A, 145 T12B, 146 T13A, 147 T13B, 148 T14A,
149 T14B, 150 T15A, 151 T15B, 152 T16A, 153 T16B, 154 T17A, 155 T17B, 156 T30A, 157 T30B, 158 T31A, 159 T31B, 160 T32A, 161 T32B,
162 T33A, 163 T33B, 164 T34A, 165 T34B, 166 T35A, 167 T35B, 168 T36A, 169 T36B, 170 T37A, 171 T37B, 172 T38A, 173 T38B, 174 T39A,
175 T39B, 176 T3AA, 177 T3AB, 178 T3BA, 179 T3BB, 180 T3CA, 181 T3CB, 182 T3DA, 183 T3DB, 184 T3EA, 185 T3EB, 186 T3FA, 187 T3FB,
188 tr0_0, 189 tr0_1, 190 tr0_2, 191 tr0_3, 192 tr0_4, 193 tr0_5, 194 tr0_6, 195 tr0_7, 196 tr1_0, 197 tr1_1, 198 tr1_2, 199
tr1_3, 200 tr1_4, 201 tr1_5, 202 tr1_6, 203 tr1_7, 204 T_00_00A, 205 T_00_00B, 206 T_00_01A, 207 T_00_01B, 208 T_00_04A, 209
T_00_04B, 210 T_00_06A, 211 T_00_06B, 212 T_00_07A, 213 T_00_07B, 214 O0A, 215 O1A, 216 O2A, 217 O3A, 218 O4A, 219 O5A, 220 O6A,
221 O7A, 222 O0B, 223 O1B, 224 O2B, 225 O3B, 226 O4B, 227 O5B, 228 O6B, 229 O7B, 230 EO0A, 231 EO1A, 232 EO2A, 233 EO3A, 234 EO0B,
235 EO1B, 236 EO2B, 237 EO3B, 238 EEO0A, 239 EEO1A, 240 EEO0B, 241 EEO1B, 242 EEE0A, 243 EEE1A, 244 EEE0B, 245 EEE1B, 246 EE0A,
247 EE0B, 248 EE1A, 249 EE1B, 250 EE3A, 251 EE3B, 252 EE2A, 253 EE2B, 254 T10A, 255 T10B, 256 T11A, 257 T11B, 258 T12A, 259 T12B,
260 T13A, 261 T13B, 262 T14A, 263 T14B, 264 T15A, 265 T15B, 266 T16A, 267 T16B, 268 T17A, 269 T17B, 270 T30A, 271 T30B, 272 T31A,
273 T31B, 274 T32A, 275 T32B, 276 T33A, 277 T33B, 278 T34A, 279 T34B, 280 T35A, 281 T35B, 282 T36A, 283 T36B, 284 T37A, 285 T37B,
286 T38A, 287 T38B, 288 T39A, 289 T39B, 290 T3AA, 291 T3AB, 292 T3BA, 293 T3BB, 294 T3CA, 295 T3CB, 296 T3DA, 297 T3DB, 298 T3EA,
299 T3EB, 300 T3FA, 301 T3FB, 302 tr0_0, 303 tr0_1, 304 tr0_2, 305 tr0_3, 306 tr0_4, 307 tr0_5, 308 tr0_6, 309 tr0_7, 310 tr1_0,
311 tr1_1, 312 tr1_2, 313 tr1_3, 314 tr1_4, 315 tr1_5, 316 tr1_6, 317 tr1_7, 318 max_val, 319 min_val. -/


/-- source/common/vec/intrinsic_idct.cc:1442-1577. -/
def idct_16x16_half_1 : List S := [
  .set 0 (.k32 0x002b002d),
  .set 1 (.k32 0x00230028),
  .set 2 (.k32 0x001d002b),
  .set 3 (.k32 0xffeb0004),
  .set 4 (.k32 0x00040028),
  .set 5 (.k32 0xffd5ffdd),
  .set 6 (.k32 0xffeb0023),
  .set 7 (.k32 0x0004ffd5),
  .set 8 (.k32 0xffd8001d),
  .set 9 (.k32 0x002dfff3),
  .set 10 (.k32 0xffd30015),
  .set 11 (.k32 0x000d001d),
  .set 12 (.k32 0xffdd000d),
  .set 13 (.k32 0xffd8002d),
  .set 14 (.k32 0xfff30004),
  .set 15 (.k32 0xffe30015),
  .set 16 (.k32 0x0026002c),
  .set 17 (.k32 0xfff70026),
  .set 18 (.k32 0xffd40019),
  .set 19 (.k32 0xffe70009),
  .set 20 (.k32 0x0011002a),
  .set 21 (.k32 0xffd60011),
  .set 22 (.k32 0xffe00020),
  .set 23 (.k32 0x00200020),
  .set 24 (.k32 16),
  .set 25 (.k16 0),
  .set 26 (.ld 8 0),
  .set 28 (.ld 8 16),
  .set 30 (.ld 8 32),
  .set 32 (.ld 8 48),
  .set 34 (.ld 8 64),
  .set 36 (.ld 8 80),
  .set 38 (.ld 8 96),
  .set 40 (.ld 8 112),
  .set 90 (.op .lo16 (.r 28) (.r 32)),
  .set 91 (.op .hi16 (.r 28) (.r 32)),
  .set 92 (.op .lo16 (.r 36) (.r 40)),
  .set 93 (.op .hi16 (.r 36) (.r 40)),
  .set 94 (.op .lo16 (.r 30) (.r 38)),
  .set 95 (.op .hi16 (.r 30) (.r 38)),
  .set 96 (.op .lo16 (.r 34) (.r 25)),
  .set 97 (.op .hi16 (.r 34) (.r 25)),
  .set 98 (.op .lo16 (.r 26) (.r 25)),
  .set 99 (.op .hi16 (.r 26) (.r 25)),
  .set 100 (.op .add32 (.op .madd (.r 90) (.r 0)) (.op .madd (.r 92) (.r 1))),
  .set 101 (.op .add32 (.op .madd (.r 90) (.r 2)) (.op .madd (.r 92) (.r 3))),
  .set 102 (.op .add32 (.op .madd (.r 90) (.r 4)) (.op .madd (.r 92) (.r 5))),
  .set 103 (.op .add32 (.op .madd (.r 90) (.r 6)) (.op .madd (.r 92) (.r 7))),
  .set 104 (.op .add32 (.op .madd (.r 90) (.r 8)) (.op .madd (.r 92) (.r 9))),
  .set 105 (.op .add32 (.op .madd (.r 90) (.r 10)) (.op .madd (.r 92) (.r 11))),
  .set 106 (.op .add32 (.op .madd (.r 90) (.r 12)) (.op .madd (.r 92) (.r 13))),
  .set 107 (.op .add32 (.op .madd (.r 90) (.r 14)) (.op .madd (.r 92) (.r 15))),
  .set 108 (.op .add32 (.op .madd (.r 91) (.r 0)) (.op .madd (.r 93) (.r 1))),
  .set 109 (.op .add32 (.op .madd (.r 91) (.r 2)) (.op .madd (.r 93) (.r 3))),
  .set 110 (.op .add32 (.op .madd (.r 91) (.r 4)) (.op .madd (.r 93) (.r 5))),
  .set 111 (.op .add32 (.op .madd (.r 91) (.r 6)) (.op .madd (.r 93) (.r 7))),
  .set 112 (.op .add32 (.op .madd (.r 91) (.r 8)) (.op .madd (.r 93) (.r 9))),
  .set 113 (.op .add32 (.op .madd (.r 91) (.r 10)) (.op .madd (.r 93) (.r 11))),
  .set 114 (.op .add32 (.op .madd (.r 91) (.r 12)) (.op .madd (.r 93) (.r 13))),
  .set 115 (.op .add32 (.op .madd (.r 91) (.r 14)) (.op .madd (.r 93) (.r 15))),
  .set 116 (.op .madd (.r 94) (.r 16)),
  .set 120 (.op .madd (.r 95) (.r 16)),
  .set 117 (.op .madd (.r 94) (.r 17)),
  .set 121 (.op .madd (.r 95) (.r 17)),
  .set 118 (.op .madd (.r 94) (.r 18)),
  .set 122 (.op .madd (.r 95) (.r 18)),
  .set 119 (.op .madd (.r 94) (.r 19)),
  .set 123 (.op .madd (.r 95) (.r 19)),
  .set 124 (.op .madd (.r 96) (.r 20)),
  .set 126 (.op .madd (.r 97) (.r 20)),
  .set 125 (.op .madd (.r 96) (.r 21)),
  .set 127 (.op .madd (.r 97) (.r 21)),
  .set 128 (.op .madd (.r 98) (.r 23)),
  .set 130 (.op .madd (.r 99) (.r 23)),
  .set 129 (.op .madd (.r 98) (.r 22)),
  .set 131 (.op .madd (.r 99) (.r 22)),
  .set 132 (.op .add32 (.r 128) (.r 124)),
  .set 133 (.op .add32 (.r 130) (.r 126)),
  .set 134 (.op .add32 (.r 129) (.r 125)),
  .set 135 (.op .add32 (.r 131) (.r 127))]

/-- source/common/vec/intrinsic_idct.cc:1578-1692. -/
def idct_16x16_half_2 : List S := [
  .set 136 (.op .sub32 (.r 128) (.r 124)),
  .set 137 (.op .sub32 (.r 130) (.r 126)),
  .set 138 (.op .sub32 (.r 129) (.r 125)),
  .set 139 (.op .sub32 (.r 131) (.r 127)),
  .set 140 (.op .add32 (.op .add32 (.r 132) (.r 116)) (.r 24)),
  .set 141 (.op .add32 (.op .add32 (.r 133) (.r 120)) (.r 24)),
  .set 142 (.op .add32 (.op .add32 (.r 134) (.r 117)) (.r 24)),
  .set 143 (.op .add32 (.op .add32 (.r 135) (.r 121)) (.r 24)),
  .set 144 (.op .add32 (.op .add32 (.r 138) (.r 118)) (.r 24)),
  .set 145 (.op .add32 (.op .add32 (.r 139) (.r 122)) (.r 24)),
  .set 146 (.op .add32 (.op .add32 (.r 136) (.r 119)) (.r 24)),
  .set 147 (.op .add32 (.op .add32 (.r 137) (.r 123)) (.r 24)),
  .set 148 (.op .add32 (.op .sub32 (.r 136) (.r 119)) (.r 24)),
  .set 149 (.op .add32 (.op .sub32 (.r 137) (.r 123)) (.r 24)),
  .set 150 (.op .add32 (.op .sub32 (.r 138) (.r 118)) (.r 24)),
  .set 151 (.op .add32 (.op .sub32 (.r 139) (.r 122)) (.r 24)),
  .set 152 (.op .add32 (.op .sub32 (.r 134) (.r 117)) (.r 24)),
  .set 153 (.op .add32 (.op .sub32 (.r 135) (.r 121)) (.r 24)),
  .set 154 (.op .add32 (.op .sub32 (.r 132) (.r 116)) (.r 24)),
  .set 155 (.op .add32 (.op .sub32 (.r 133) (.r 120)) (.r 24)),
  .set 156 (.sra32 (.op .add32 (.r 140) (.r 100)) 5),
  .set 157 (.sra32 (.op .add32 (.r 141) (.r 108)) 5),
  .set 158 (.sra32 (.op .add32 (.r 142) (.r 101)) 5),
  .set 159 (.sra32 (.op .add32 (.r 143) (.r 109)) 5),
  .set 160 (.sra32 (.op .add32 (.r 144) (.r 102)) 5),
  .set 161 (.sra32 (.op .add32 (.r 145) (.r 110)) 5),
  .set 162 (.sra32 (.op .add32 (.r 146) (.r 103)) 5),
  .set 163 (.sra32 (.op .add32 (.r 147) (.r 111)) 5),
  .set 164 (.sra32 (.op .add32 (.r 148) (.r 104)) 5),
  .set 165 (.sra32 (.op .add32 (.r 149) (.r 112)) 5),
  .set 166 (.sra32 (.op .add32 (.r 150) (.r 105)) 5),
  .set 167 (.sra32 (.op .add32 (.r 151) (.r 113)) 5),
  .set 168 (.sra32 (.op .add32 (.r 152) (.r 106)) 5),
  .set 169 (.sra32 (.op .add32 (.r 153) (.r 114)) 5),
  .set 170 (.sra32 (.op .add32 (.r 154) (.r 107)) 5),
  .set 171 (.sra32 (.op .add32 (.r 155) (.r 115)) 5),
  .set 172 (.sra32 (.op .sub32 (.r 154) (.r 107)) 5),
  .set 173 (.sra32 (.op .sub32 (.r 155) (.r 115)) 5),
  .set 174 (.sra32 (.op .sub32 (.r 152) (.r 106)) 5),
  .set 175 (.sra32 (.op .sub32 (.r 153) (.r 114)) 5),
  .set 176 (.sra32 (.op .sub32 (.r 150) (.r 105)) 5),
  .set 177 (.sra32 (.op .sub32 (.r 151) (.r 113)) 5),
  .set 178 (.sra32 (.op .sub32 (.r 148) (.r 104)) 5),
  .set 179 (.sra32 (.op .sub32 (.r 149) (.r 112)) 5),
  .set 180 (.sra32 (.op .sub32 (.r 146) (.r 103)) 5),
  .set 181 (.sra32 (.op .sub32 (.r 147) (.r 111)) 5),
  .set 182 (.sra32 (.op .sub32 (.r 144) (.r 102)) 5),
  .set 183 (.sra32 (.op .sub32 (.r 145) (.r 110)) 5),
  .set 184 (.sra32 (.op .sub32 (.r 142) (.r 101)) 5),
  .set 185 (.sra32 (.op .sub32 (.r 143) (.r 109)) 5),
  .set 186 (.sra32 (.op .sub32 (.r 140) (.r 100)) 5),
  .set 187 (.sra32 (.op .sub32 (.r 141) (.r 108)) 5),
  .set 58 (.op .packs (.r 156) (.r 157)),
  .set 60 (.op .packs (.r 158) (.r 159)),
  .set 62 (.op .packs (.r 160) (.r 161)),
  .set 64 (.op .packs (.r 162) (.r 163)),
  .set 66 (.op .packs (.r 164) (.r 165)),
  .set 68 (.op .packs (.r 166) (.r 167)),
  .set 70 (.op .packs (.r 168) (.r 169)),
  .set 72 (.op .packs (.r 170) (.r 171)),
  .set 74 (.op .packs (.r 172) (.r 173)),
  .set 76 (.op .packs (.r 174) (.r 175)),
  .set 78 (.op .packs (.r 176) (.r 177)),
  .set 80 (.op .packs (.r 178) (.r 179)),
  .set 82 (.op .packs (.r 180) (.r 181)),
  .set 84 (.op .packs (.r 182) (.r 183)),
  .set 86 (.op .packs (.r 184) (.r 185)),
  .set 88 (.op .packs (.r 186) (.r 187))] ++
  transpose8 188 196
    58 60 62 64 66 68 70 72
    26 28 30 32 34 36 38 40 ++
  transpose8 188 196
    74 76 78 80 82 84 86 88
    27 29 31 33 35 37 39 41 ++
  [
  .set 24 (.k32 2048)]

/-- source/common/vec/intrinsic_idct.cc:1698-1806. -/
def idct_16x16_half_3 (part : Nat) : List S := [
  .set 204 (.op .lo16 (.r (28 + part)) (.r (32 + part))),
  .set 205 (.op .hi16 (.r (28 + part)) (.r (32 + part))),
  .set 206 (.op .lo16 (.r (36 + part)) (.r (40 + part))),
  .set 207 (.op .hi16 (.r (36 + part)) (.r (40 + part))),
  .set 208 (.op .lo16 (.r (30 + part)) (.r (38 + part))),
  .set 209 (.op .hi16 (.r (30 + part)) (.r (38 + part))),
  .set 210 (.op .lo16 (.r (34 + part)) (.r 25)),
  .set 211 (.op .hi16 (.r (34 + part)) (.r 25)),
  .set 212 (.op .lo16 (.r (26 + part)) (.r 25)),
  .set 213 (.op .hi16 (.r (26 + part)) (.r 25)),
  .set 214 (.op .add32 (.op .madd (.r 204) (.r 0)) (.op .madd (.r 206) (.r 1))),
  .set 215 (.op .add32 (.op .madd (.r 204) (.r 2)) (.op .madd (.r 206) (.r 3))),
  .set 216 (.op .add32 (.op .madd (.r 204) (.r 4)) (.op .madd (.r 206) (.r 5))),
  .set 217 (.op .add32 (.op .madd (.r 204) (.r 6)) (.op .madd (.r 206) (.r 7))),
  .set 218 (.op .add32 (.op .madd (.r 204) (.r 8)) (.op .madd (.r 206) (.r 9))),
  .set 219 (.op .add32 (.op .madd (.r 204) (.r 10)) (.op .madd (.r 206) (.r 11))),
  .set 220 (.op .add32 (.op .madd (.r 204) (.r 12)) (.op .madd (.r 206) (.r 13))),
  .set 221 (.op .add32 (.op .madd (.r 204) (.r 14)) (.op .madd (.r 206) (.r 15))),
  .set 222 (.op .add32 (.op .madd (.r 205) (.r 0)) (.op .madd (.r 207) (.r 1))),
  .set 223 (.op .add32 (.op .madd (.r 205) (.r 2)) (.op .madd (.r 207) (.r 3))),
  .set 224 (.op .add32 (.op .madd (.r 205) (.r 4)) (.op .madd (.r 207) (.r 5))),
  .set 225 (.op .add32 (.op .madd (.r 205) (.r 6)) (.op .madd (.r 207) (.r 7))),
  .set 226 (.op .add32 (.op .madd (.r 205) (.r 8)) (.op .madd (.r 207) (.r 9))),
  .set 227 (.op .add32 (.op .madd (.r 205) (.r 10)) (.op .madd (.r 207) (.r 11))),
  .set 228 (.op .add32 (.op .madd (.r 205) (.r 12)) (.op .madd (.r 207) (.r 13))),
  .set 229 (.op .add32 (.op .madd (.r 205) (.r 14)) (.op .madd (.r 207) (.r 15))),
  .set 230 (.op .madd (.r 208) (.r 16)),
  .set 234 (.op .madd (.r 209) (.r 16)),
  .set 231 (.op .madd (.r 208) (.r 17)),
  .set 235 (.op .madd (.r 209) (.r 17)),
  .set 232 (.op .madd (.r 208) (.r 18)),
  .set 236 (.op .madd (.r 209) (.r 18)),
  .set 233 (.op .madd (.r 208) (.r 19)),
  .set 237 (.op .madd (.r 209) (.r 19)),
  .set 238 (.op .madd (.r 210) (.r 20)),
  .set 240 (.op .madd (.r 211) (.r 20)),
  .set 239 (.op .madd (.r 210) (.r 21)),
  .set 241 (.op .madd (.r 211) (.r 21)),
  .set 242 (.op .madd (.r 212) (.r 23)),
  .set 244 (.op .madd (.r 213) (.r 23)),
  .set 243 (.op .madd (.r 212) (.r 22)),
  .set 245 (.op .madd (.r 213) (.r 22)),
  .set 246 (.op .add32 (.r 242) (.r 238)),
  .set 247 (.op .add32 (.r 244) (.r 240)),
  .set 248 (.op .add32 (.r 243) (.r 239)),
  .set 249 (.op .add32 (.r 245) (.r 241)),
  .set 250 (.op .sub32 (.r 242) (.r 238)),
  .set 251 (.op .sub32 (.r 244) (.r 240)),
  .set 252 (.op .sub32 (.r 243) (.r 239)),
  .set 253 (.op .sub32 (.r 245) (.r 241)),
  .set 254 (.op .add32 (.op .add32 (.r 246) (.r 230)) (.r 24)),
  .set 255 (.op .add32 (.op .add32 (.r 247) (.r 234)) (.r 24)),
  .set 256 (.op .add32 (.op .add32 (.r 248) (.r 231)) (.r 24)),
  .set 257 (.op .add32 (.op .add32 (.r 249) (.r 235)) (.r 24)),
  .set 258 (.op .add32 (.op .add32 (.r 252) (.r 232)) (.r 24)),
  .set 259 (.op .add32 (.op .add32 (.r 253) (.r 236)) (.r 24)),
  .set 260 (.op .add32 (.op .add32 (.r 250) (.r 233)) (.r 24)),
  .set 261 (.op .add32 (.op .add32 (.r 251) (.r 237)) (.r 24)),
  .set 262 (.op .add32 (.op .sub32 (.r 250) (.r 233)) (.r 24)),
  .set 263 (.op .add32 (.op .sub32 (.r 251) (.r 237)) (.r 24)),
  .set 264 (.op .add32 (.op .sub32 (.r 252) (.r 232)) (.r 24)),
  .set 265 (.op .add32 (.op .sub32 (.r 253) (.r 236)) (.r 24)),
  .set 266 (.op .add32 (.op .sub32 (.r 248) (.r 231)) (.r 24)),
  .set 267 (.op .add32 (.op .sub32 (.r 249) (.r 235)) (.r 24)),
  .set 268 (.op .add32 (.op .sub32 (.r 246) (.r 230)) (.r 24)),
  .set 269 (.op .add32 (.op .sub32 (.r 247) (.r 234)) (.r 24)),
  .set 270 (.sra32 (.op .add32 (.r 254) (.r 214)) 12),
  .set 271 (.sra32 (.op .add32 (.r 255) (.r 222)) 12),
  .set 272 (.sra32 (.op .add32 (.r 256) (.r 215)) 12),
  .set 273 (.sra32 (.op .add32 (.r 257) (.r 223)) 12),
  .set 274 (.sra32 (.op .add32 (.r 258) (.r 216)) 12),
  .set 275 (.sra32 (.op .add32 (.r 259) (.r 224)) 12),
  .set 276 (.sra32 (.op .add32 (.r 260) (.r 217)) 12),
  .set 277 (.sra32 (.op .add32 (.r 261) (.r 225)) 12),
  .set 278 (.sra32 (.op .add32 (.r 262) (.r 218)) 12),
  .set 279 (.sra32 (.op .add32 (.r 263) (.r 226)) 12),
  .set 280 (.sra32 (.op .add32 (.r 264) (.r 219)) 12),
  .set 281 (.sra32 (.op .add32 (.r 265) (.r 227)) 12),
  .set 282 (.sra32 (.op .add32 (.r 266) (.r 220)) 12),
  .set 283 (.sra32 (.op .add32 (.r 267) (.r 228)) 12)]

/-- source/common/vec/intrinsic_idct.cc:1807-1843. -/
def idct_16x16_half_4 (part : Nat) : List S := [
  .set 284 (.sra32 (.op .add32 (.r 268) (.r 221)) 12),
  .set 285 (.sra32 (.op .add32 (.r 269) (.r 229)) 12),
  .set 286 (.sra32 (.op .sub32 (.r 268) (.r 221)) 12),
  .set 287 (.sra32 (.op .sub32 (.r 269) (.r 229)) 12),
  .set 288 (.sra32 (.op .sub32 (.r 266) (.r 220)) 12),
  .set 289 (.sra32 (.op .sub32 (.r 267) (.r 228)) 12),
  .set 290 (.sra32 (.op .sub32 (.r 264) (.r 219)) 12),
  .set 291 (.sra32 (.op .sub32 (.r 265) (.r 227)) 12),
  .set 292 (.sra32 (.op .sub32 (.r 262) (.r 218)) 12),
  .set 293 (.sra32 (.op .sub32 (.r 263) (.r 226)) 12),
  .set 294 (.sra32 (.op .sub32 (.r 260) (.r 217)) 12),
  .set 295 (.sra32 (.op .sub32 (.r 261) (.r 225)) 12),
  .set 296 (.sra32 (.op .sub32 (.r 258) (.r 216)) 12),
  .set 297 (.sra32 (.op .sub32 (.r 259) (.r 224)) 12),
  .set 298 (.sra32 (.op .sub32 (.r 256) (.r 215)) 12),
  .set 299 (.sra32 (.op .sub32 (.r 257) (.r 223)) 12),
  .set 300 (.sra32 (.op .sub32 (.r 254) (.r 214)) 12),
  .set 301 (.sra32 (.op .sub32 (.r 255) (.r 222)) 12),
  .set (58 + part) (.op .packs (.r 270) (.r 271)),
  .set (60 + part) (.op .packs (.r 272) (.r 273)),
  .set (62 + part) (.op .packs (.r 274) (.r 275)),
  .set (64 + part) (.op .packs (.r 276) (.r 277)),
  .set (66 + part) (.op .packs (.r 278) (.r 279)),
  .set (68 + part) (.op .packs (.r 280) (.r 281)),
  .set (70 + part) (.op .packs (.r 282) (.r 283)),
  .set (72 + part) (.op .packs (.r 284) (.r 285)),
  .set (74 + part) (.op .packs (.r 286) (.r 287)),
  .set (76 + part) (.op .packs (.r 288) (.r 289)),
  .set (78 + part) (.op .packs (.r 290) (.r 291)),
  .set (80 + part) (.op .packs (.r 292) (.r 293)),
  .set (82 + part) (.op .packs (.r 294) (.r 295)),
  .set (84 + part) (.op .packs (.r 296) (.r 297)),
  .set (86 + part) (.op .packs (.r 298) (.r 299)),
  .set (88 + part) (.op .packs (.r 300) (.r 301))]

/-- source/common/vec/intrinsic_idct.cc:1878-1978. -/
def idct_16x16_half_5 : List S := transpose8 302 310
    58 60 62 64 66 68 70 72
    26 28 30 32 34 36 38 40 ++
  transpose8 302 310
    74 76 78 80 82 84 86 88
    27 29 31 33 35 37 39 41 ++
  transpose8 302 310
    59 61 63 65 67 69 71 73
    42 44 46 48 50 52 54 56 ++
  transpose8 302 310
    75 77 79 81 83 85 87 89
    43 45 47 49 51 53 55 57 ++
  [
  .set 318 (.k16 255),
  .set 319 (.k16 (-256)),
  .set 26 (.op .max16 (.op .min16 (.r 26) (.r 318)) (.r 319)),
  .set 27 (.op .max16 (.op .min16 (.r 27) (.r 318)) (.r 319)),
  .set 28 (.op .max16 (.op .min16 (.r 28) (.r 318)) (.r 319)),
  .set 29 (.op .max16 (.op .min16 (.r 29) (.r 318)) (.r 319)),
  .set 30 (.op .max16 (.op .min16 (.r 30) (.r 318)) (.r 319)),
  .set 31 (.op .max16 (.op .min16 (.r 31) (.r 318)) (.r 319)),
  .set 32 (.op .max16 (.op .min16 (.r 32) (.r 318)) (.r 319)),
  .set 33 (.op .max16 (.op .min16 (.r 33) (.r 318)) (.r 319)),
  .set 34 (.op .max16 (.op .min16 (.r 34) (.r 318)) (.r 319)),
  .set 35 (.op .max16 (.op .min16 (.r 35) (.r 318)) (.r 319)),
  .set 36 (.op .max16 (.op .min16 (.r 36) (.r 318)) (.r 319)),
  .set 37 (.op .max16 (.op .min16 (.r 37) (.r 318)) (.r 319)),
  .set 38 (.op .max16 (.op .min16 (.r 38) (.r 318)) (.r 319)),
  .set 39 (.op .max16 (.op .min16 (.r 39) (.r 318)) (.r 319)),
  .set 40 (.op .max16 (.op .min16 (.r 40) (.r 318)) (.r 319)),
  .set 41 (.op .max16 (.op .min16 (.r 41) (.r 318)) (.r 319)),
  .set 42 (.op .max16 (.op .min16 (.r 42) (.r 318)) (.r 319)),
  .set 43 (.op .max16 (.op .min16 (.r 43) (.r 318)) (.r 319)),
  .set 44 (.op .max16 (.op .min16 (.r 44) (.r 318)) (.r 319)),
  .set 45 (.op .max16 (.op .min16 (.r 45) (.r 318)) (.r 319)),
  .set 46 (.op .max16 (.op .min16 (.r 46) (.r 318)) (.r 319)),
  .set 47 (.op .max16 (.op .min16 (.r 47) (.r 318)) (.r 319)),
  .set 48 (.op .max16 (.op .min16 (.r 48) (.r 318)) (.r 319)),
  .set 49 (.op .max16 (.op .min16 (.r 49) (.r 318)) (.r 319)),
  .set 50 (.op .max16 (.op .min16 (.r 50) (.r 318)) (.r 319)),
  .set 51 (.op .max16 (.op .min16 (.r 51) (.r 318)) (.r 319)),
  .set 52 (.op .max16 (.op .min16 (.r 52) (.r 318)) (.r 319)),
  .set 53 (.op .max16 (.op .min16 (.r 53) (.r 318)) (.r 319)),
  .set 54 (.op .max16 (.op .min16 (.r 54) (.r 318)) (.r 319)),
  .set 55 (.op .max16 (.op .min16 (.r 55) (.r 318)) (.r 319)),
  .set 56 (.op .max16 (.op .min16 (.r 56) (.r 318)) (.r 319)),
  .set 57 (.op .max16 (.op .min16 (.r 57) (.r 318)) (.r 319)),
  .st 8 0 (.r 26),
  .st 8 8 (.r 27),
  .st 8 16 (.r 28),
  .st 8 24 (.r 29),
  .st 8 32 (.r 30),
  .st 8 40 (.r 31),
  .st 8 48 (.r 32),
  .st 8 56 (.r 33),
  .st 8 64 (.r 34),
  .st 8 72 (.r 35),
  .st 8 80 (.r 36),
  .st 8 88 (.r 37),
  .st 8 96 (.r 38),
  .st 8 104 (.r 39),
  .st 8 112 (.r 40),
  .st 8 120 (.r 41),
  .st 8 128 (.r 42),
  .st 8 136 (.r 43),
  .st 8 144 (.r 44),
  .st 8 152 (.r 45),
  .st 8 160 (.r 46),
  .st 8 168 (.r 47),
  .st 8 176 (.r 48),
  .st 8 184 (.r 49),
  .st 8 192 (.r 50),
  .st 8 200 (.r 51),
  .st 8 208 (.r 52),
  .st 8 216 (.r 53),
  .st 8 224 (.r 54),
  .st 8 232 (.r 55),
  .st 8 240 (.r 56),
  .st 8 248 (.r 57)]

/-- `idct_16x16_half_sse128`, source/common/vec/intrinsic_idct.cc:1429. -/
def idct_16x16_half : List S :=
  idct_16x16_half_1 ++ idct_16x16_half_2 ++ (rep 2 fun part => idct_16x16_half_3 part ++ idct_16x16_half_4 part) ++ idct_16x16_half_5

/-! ### `idct_16x16_quad_sse128`

Registers: 0 c16_p43_p45, 1 c16_p29_p43, 2 c16_p04_p40, 3 c16_n21_p35, 4 c16_n40_p29, 5 c16_n45_p21, 6 c16_n35_p13, 7 c16_n13_p04,
8 c16_p38_p44, 9 c16_n09_p38, 10 c16_n44_p25, 11 c16_n25_p09, 12 c16_n32_p32, 13 c16_p32_p32, 14 c32_rnd, 15 Zero_8, 16 add_zero,
17-18 in00, 19-20 in01, 21-22 in02, 23-24 in03, 25-26 in04, 27-28 in05, 29-30 in06, 31-32 in07, 33-34 in08, 35-36 in09, 37-38
in10, 39-40 in11, 41-42 in12, 43-44 in13, 45-46 in14, 47-48 in15, 49-50 res00, 51-52 res01, 53-54 res02, 55-56 res03, 57-58 res04,
59-60 res05, 61-62 res06, 63-64 res07, 65-66 res08, 67-68 res09, 69-70 res10, 71-72 res11, 73-74 res12, 75-76 res13, 77-78 res14,
79-80 res15, 81 T_00_00A, 82 T_00_04A, 83 T_00_07A, 84 O0A, 85 O1A, 86 O2A, 87 O3A, 88 O4A, 89 O5A, 90 O6A, 91 O7A, 92 EO0A, 93
EO1A, 94 EO2A, 95 EO3A, 96 EEE0A, 97 EEE1A, 98 EE0A, 99 EE1A, 100 EE3A, 101 EE2A, 102 T10A, 103 T11A, 104 T12A, 105 T13A, 106
T14A, 107 T15A, 108 T16A, 109 T17A, 110 T30A, 111 T31A, 112 T32A, 113 T33A, 114 T34A, 115 T35A, 116 T36A, 117 T37A, 118 T38A, 119
T39A, 120 T3AA, 121 T3BA, 122 T3CA, 123 T3DA, 124 T3EA, 125 T3FA, 126 tr0_0, 127 tr0_1, 128 tr0_2, 129 tr0_3, 130 tr0_4, 131
tr0_5, 132 tr0_6, 133 tr0_7, 134 tr1_0, 135 tr1_1, 136 tr1_2, 137 tr1_3, 138 tr1_4, 139 tr1_5, 140 tr1_6, 141 tr1_7, 142 T_00_00A,
143 T_00_00B, 144 T_00_04A, 145 T_00_04B, 146 T_00_07A, 147 T_00_07B, 148 O0A, 149 O1A, 150 O2A, 151 O3A, 152 O4A, 153 O5A, 154
O6A, 155 O7A, 156 O0B, 157 O1B, 158 O2B, 159 O3B, 160 O4B, 161 O5B, 162 O6B, 163 O7B, 164 EO0A, 165 EO1A, 166 EO2A, 167 EO3A, 168
EO0B, 169 EO1B, 170 EO2B, 171 EO3B, 172 EEE0A, 173 EEE1A, 174 EEE0B, 175 EEE1B, 176 EE0A, 177 EE0B, 178 EE1A, 179 EE1B, 180 EE3A,
181 EE3B, 182 EE2A, 183 EE2B, 184 T10A, 185 T10B, 186 T11A, 187 T11B, 188 T12A, 189 T12B, 190 T13A, 191 T13B, 192 T14A, 193 T14B,
194 T15A, 195 T15B, 196 T16A, 197 T16B, 198 T17A, 199 T17B, 200 T30A, 201 T30B, 202 T31A, 203 T31B, 204 T32A, 205 T32B, 206 T33A,
207 T33B, 208 T34A, 209 T34B, 210 T35A, 211 T35B, 212 T36A, 213 T36B, 214 T37A, 215 T37B, 216 T38A, 217 T38B, 218 T39A, 219 T39B,
220 T3AA, 221 T3AB, 222 T3BA, 223 T3BB, 224 T3CA, 225 T3CB, 226 T3DA, 227 T3DB, 228 T3EA, 229 T3EB, 230 T3FA, 231 T3FB, 232 tr0_0,
233 tr0_1, 234 tr0_2, 235 tr0_3, 236 tr0_4, 237 tr0_5, 238 tr0_6, 239 tr0_7, 240 tr1_0, 241 tr1_1, 242 tr1_2, 243 tr1_3, 244
tr1_4, 245 tr1_5, 246 tr1_6, 247 tr1_7, 248 max_val, 249 min_val. -/


/-- source/common/vec/intrinsic_idct.cc:1996-2127. -/
def idct_16x16_quad_1 : List S := [
  .set 0 (.k32 0x002b002d),
  .set 1 (.k32 0x001d002b),
  .set 2 (.k32 0x00040028),
  .set 3 (.k32 0xffeb0023),
  .set 4 (.k32 0xffd8001d),
  .set 5 (.k32 0xffd30015),
  .set 6 (.k32 0xffdd000d),
  .set 7 (.k32 0xfff30004),
  .set 8 (.k32 0x0026002c),
  .set 9 (.k32 0xfff70026),
  .set 10 (.k32 0xffd40019),
  .set 11 (.k32 0xffe70009),
  .set 12 (.k32 0xffe00020),
  .set 13 (.k32 0x00200020),
  .set 14 (.k32 16),
  .set 15 (.k16 0),
  .set 16 (.k32 0),
  .set 17 (.ld 8 0),
  .set 19 (.ld 8 16),
  .set 21 (.ld 8 32),
  .set 23 (.ld 8 48),
  .set 81 (.op .lo16 (.r 19) (.r 23)),
  .set 82 (.op .lo16 (.r 21) (.r 15)),
  .set 83 (.op .lo16 (.r 17) (.r 15)),
  .set 84 (.op .madd (.r 81) (.r 0)),
  .set 85 (.op .madd (.r 81) (.r 1)),
  .set 86 (.op .madd (.r 81) (.r 2)),
  .set 87 (.op .madd (.r 81) (.r 3)),
  .set 88 (.op .madd (.r 81) (.r 4)),
  .set 89 (.op .madd (.r 81) (.r 5)),
  .set 90 (.op .madd (.r 81) (.r 6)),
  .set 91 (.op .madd (.r 81) (.r 7)),
  .set 92 (.op .madd (.r 82) (.r 8)),
  .set 93 (.op .madd (.r 82) (.r 9)),
  .set 94 (.op .madd (.r 82) (.r 10)),
  .set 95 (.op .madd (.r 82) (.r 11)),
  .set 96 (.op .madd (.r 83) (.r 13)),
  .set 97 (.op .madd (.r 83) (.r 12)),
  .set 98 (.op .add32 (.r 96) (.r 16)),
  .set 99 (.op .add32 (.r 97) (.r 16)),
  .set 100 (.op .sub32 (.r 96) (.r 16)),
  .set 101 (.op .sub32 (.r 97) (.r 16)),
  .set 102 (.op .add32 (.op .add32 (.r 98) (.r 92)) (.r 14)),
  .set 103 (.op .add32 (.op .add32 (.r 99) (.r 93)) (.r 14)),
  .set 104 (.op .add32 (.op .add32 (.r 101) (.r 94)) (.r 14)),
  .set 105 (.op .add32 (.op .add32 (.r 100) (.r 95)) (.r 14)),
  .set 106 (.op .add32 (.op .sub32 (.r 100) (.r 95)) (.r 14)),
  .set 107 (.op .add32 (.op .sub32 (.r 101) (.r 94)) (.r 14)),
  .set 108 (.op .add32 (.op .sub32 (.r 99) (.r 93)) (.r 14)),
  .set 109 (.op .add32 (.op .sub32 (.r 98) (.r 92)) (.r 14)),
  .set 110 (.sra32 (.op .add32 (.r 102) (.r 84)) 5),
  .set 111 (.sra32 (.op .add32 (.r 103) (.r 85)) 5),
  .set 112 (.sra32 (.op .add32 (.r 104) (.r 86)) 5),
  .set 113 (.sra32 (.op .add32 (.r 105) (.r 87)) 5),
  .set 114 (.sra32 (.op .add32 (.r 106) (.r 88)) 5),
  .set 115 (.sra32 (.op .add32 (.r 107) (.r 89)) 5),
  .set 116 (.sra32 (.op .add32 (.r 108) (.r 90)) 5),
  .set 117 (.sra32 (.op .add32 (.r 109) (.r 91)) 5),
  .set 118 (.sra32 (.op .sub32 (.r 109) (.r 91)) 5),
  .set 119 (.sra32 (.op .sub32 (.r 108) (.r 90)) 5),
  .set 120 (.sra32 (.op .sub32 (.r 107) (.r 89)) 5),
  .set 121 (.sra32 (.op .sub32 (.r 106) (.r 88)) 5),
  .set 122 (.sra32 (.op .sub32 (.r 105) (.r 87)) 5),
  .set 123 (.sra32 (.op .sub32 (.r 104) (.r 86)) 5),
  .set 124 (.sra32 (.op .sub32 (.r 103) (.r 85)) 5),
  .set 125 (.sra32 (.op .sub32 (.r 102) (.r 84)) 5),
  .set 49 (.op .packs (.r 110) (.r 16)),
  .set 51 (.op .packs (.r 111) (.r 16)),
  .set 53 (.op .packs (.r 112) (.r 16)),
  .set 55 (.op .packs (.r 113) (.r 16)),
  .set 57 (.op .packs (.r 114) (.r 16)),
  .set 59 (.op .packs (.r 115) (.r 16)),
  .set 61 (.op .packs (.r 116) (.r 16)),
  .set 63 (.op .packs (.r 117) (.r 16)),
  .set 65 (.op .packs (.r 118) (.r 16)),
  .set 67 (.op .packs (.r 119) (.r 16)),
  .set 69 (.op .packs (.r 120) (.r 16)),
  .set 71 (.op .packs (.r 121) (.r 16)),
  .set 73 (.op .packs (.r 122) (.r 16)),
  .set 75 (.op .packs (.r 123) (.r 16))]

/-- source/common/vec/intrinsic_idct.cc:2128-2171. -/
def idct_16x16_quad_2 : List S := [
  .set 77 (.op .packs (.r 124) (.r 16)),
  .set 79 (.op .packs (.r 125) (.r 16))] ++
  transpose8 126 134
    49 51 53 55 57 59 61 63
    17 19 21 23 25 27 29 31 ++
  transpose8 126 134
    65 67 69 71 73 75 77 79
    18 20 22 24 26 28 30 32 ++
  [
  .set 14 (.k32 2048)]

/-- source/common/vec/intrinsic_idct.cc:2177-2279. -/
def idct_16x16_quad_3 (part : Nat) : List S := [
  .set 142 (.op .lo16 (.r (19 + part)) (.r (23 + part))),
  .set 143 (.op .hi16 (.r (19 + part)) (.r (23 + part))),
  .set 144 (.op .lo16 (.r (21 + part)) (.r 15)),
  .set 145 (.op .hi16 (.r (21 + part)) (.r 15)),
  .set 146 (.op .lo16 (.r (17 + part)) (.r 15)),
  .set 147 (.op .hi16 (.r (17 + part)) (.r 15)),
  .set 148 (.op .madd (.r 142) (.r 0)),
  .set 149 (.op .madd (.r 142) (.r 1)),
  .set 150 (.op .madd (.r 142) (.r 2)),
  .set 151 (.op .madd (.r 142) (.r 3)),
  .set 152 (.op .madd (.r 142) (.r 4)),
  .set 153 (.op .madd (.r 142) (.r 5)),
  .set 154 (.op .madd (.r 142) (.r 6)),
  .set 155 (.op .madd (.r 142) (.r 7)),
  .set 156 (.op .madd (.r 143) (.r 0)),
  .set 157 (.op .madd (.r 143) (.r 1)),
  .set 158 (.op .madd (.r 143) (.r 2)),
  .set 159 (.op .madd (.r 143) (.r 3)),
  .set 160 (.op .madd (.r 143) (.r 4)),
  .set 161 (.op .madd (.r 143) (.r 5)),
  .set 162 (.op .madd (.r 143) (.r 6)),
  .set 163 (.op .madd (.r 143) (.r 7)),
  .set 164 (.op .madd (.r 144) (.r 8)),
  .set 168 (.op .madd (.r 145) (.r 8)),
  .set 165 (.op .madd (.r 144) (.r 9)),
  .set 169 (.op .madd (.r 145) (.r 9)),
  .set 166 (.op .madd (.r 144) (.r 10)),
  .set 170 (.op .madd (.r 145) (.r 10)),
  .set 167 (.op .madd (.r 144) (.r 11)),
  .set 171 (.op .madd (.r 145) (.r 11)),
  .set 172 (.op .madd (.r 146) (.r 13)),
  .set 174 (.op .madd (.r 147) (.r 13)),
  .set 173 (.op .madd (.r 146) (.r 12)),
  .set 175 (.op .madd (.r 147) (.r 12)),
  .set 176 (.op .add32 (.r 172) (.r 16)),
  .set 177 (.op .add32 (.r 174) (.r 16)),
  .set 178 (.op .add32 (.r 173) (.r 16)),
  .set 179 (.op .add32 (.r 175) (.r 16)),
  .set 180 (.op .sub32 (.r 172) (.r 16)),
  .set 181 (.op .sub32 (.r 174) (.r 16)),
  .set 182 (.op .sub32 (.r 173) (.r 16)),
  .set 183 (.op .sub32 (.r 175) (.r 16)),
  .set 184 (.op .add32 (.op .add32 (.r 176) (.r 164)) (.r 14)),
  .set 185 (.op .add32 (.op .add32 (.r 177) (.r 168)) (.r 14)),
  .set 186 (.op .add32 (.op .add32 (.r 178) (.r 165)) (.r 14)),
  .set 187 (.op .add32 (.op .add32 (.r 179) (.r 169)) (.r 14)),
  .set 188 (.op .add32 (.op .add32 (.r 182) (.r 166)) (.r 14)),
  .set 189 (.op .add32 (.op .add32 (.r 183) (.r 170)) (.r 14)),
  .set 190 (.op .add32 (.op .add32 (.r 180) (.r 167)) (.r 14)),
  .set 191 (.op .add32 (.op .add32 (.r 181) (.r 171)) (.r 14)),
  .set 192 (.op .add32 (.op .sub32 (.r 180) (.r 167)) (.r 14)),
  .set 193 (.op .add32 (.op .sub32 (.r 181) (.r 171)) (.r 14)),
  .set 194 (.op .add32 (.op .sub32 (.r 182) (.r 166)) (.r 14)),
  .set 195 (.op .add32 (.op .sub32 (.r 183) (.r 170)) (.r 14)),
  .set 196 (.op .add32 (.op .sub32 (.r 178) (.r 165)) (.r 14)),
  .set 197 (.op .add32 (.op .sub32 (.r 179) (.r 169)) (.r 14)),
  .set 198 (.op .add32 (.op .sub32 (.r 176) (.r 164)) (.r 14)),
  .set 199 (.op .add32 (.op .sub32 (.r 177) (.r 168)) (.r 14)),
  .set 200 (.sra32 (.op .add32 (.r 184) (.r 148)) 12),
  .set 201 (.sra32 (.op .add32 (.r 185) (.r 156)) 12),
  .set 202 (.sra32 (.op .add32 (.r 186) (.r 149)) 12),
  .set 203 (.sra32 (.op .add32 (.r 187) (.r 157)) 12),
  .set 204 (.sra32 (.op .add32 (.r 188) (.r 150)) 12),
  .set 205 (.sra32 (.op .add32 (.r 189) (.r 158)) 12),
  .set 206 (.sra32 (.op .add32 (.r 190) (.r 151)) 12),
  .set 207 (.sra32 (.op .add32 (.r 191) (.r 159)) 12),
  .set 208 (.sra32 (.op .add32 (.r 192) (.r 152)) 12),
  .set 209 (.sra32 (.op .add32 (.r 193) (.r 160)) 12),
  .set 210 (.sra32 (.op .add32 (.r 194) (.r 153)) 12),
  .set 211 (.sra32 (.op .add32 (.r 195) (.r 161)) 12),
  .set 212 (.sra32 (.op .add32 (.r 196) (.r 154)) 12),
  .set 213 (.sra32 (.op .add32 (.r 197) (.r 162)) 12),
  .set 214 (.sra32 (.op .add32 (.r 198) (.r 155)) 12),
  .set 215 (.sra32 (.op .add32 (.r 199) (.r 163)) 12),
  .set 216 (.sra32 (.op .sub32 (.r 198) (.r 155)) 12),
  .set 217 (.sra32 (.op .sub32 (.r 199) (.r 163)) 12),
  .set 218 (.sra32 (.op .sub32 (.r 196) (.r 154)) 12),
  .set 219 (.sra32 (.op .sub32 (.r 197) (.r 162)) 12),
  .set 220 (.sra32 (.op .sub32 (.r 194) (.r 153)) 12),
  .set 221 (.sra32 (.op .sub32 (.r 195) (.r 161)) 12)]

/-- source/common/vec/intrinsic_idct.cc:2280-2307. -/
def idct_16x16_quad_4 (part : Nat) : List S := [
  .set 222 (.sra32 (.op .sub32 (.r 192) (.r 152)) 12),
  .set 223 (.sra32 (.op .sub32 (.r 193) (.r 160)) 12),
  .set 224 (.sra32 (.op .sub32 (.r 190) (.r 151)) 12),
  .set 225 (.sra32 (.op .sub32 (.r 191) (.r 159)) 12),
  .set 226 (.sra32 (.op .sub32 (.r 188) (.r 150)) 12),
  .set 227 (.sra32 (.op .sub32 (.r 189) (.r 158)) 12),
  .set 228 (.sra32 (.op .sub32 (.r 186) (.r 149)) 12),
  .set 229 (.sra32 (.op .sub32 (.r 187) (.r 157)) 12),
  .set 230 (.sra32 (.op .sub32 (.r 184) (.r 148)) 12),
  .set 231 (.sra32 (.op .sub32 (.r 185) (.r 156)) 12),
  .set (49 + part) (.op .packs (.r 200) (.r 201)),
  .set (51 + part) (.op .packs (.r 202) (.r 203)),
  .set (53 + part) (.op .packs (.r 204) (.r 205)),
  .set (55 + part) (.op .packs (.r 206) (.r 207)),
  .set (57 + part) (.op .packs (.r 208) (.r 209)),
  .set (59 + part) (.op .packs (.r 210) (.r 211)),
  .set (61 + part) (.op .packs (.r 212) (.r 213)),
  .set (63 + part) (.op .packs (.r 214) (.r 215)),
  .set (65 + part) (.op .packs (.r 216) (.r 217)),
  .set (67 + part) (.op .packs (.r 218) (.r 219)),
  .set (69 + part) (.op .packs (.r 220) (.r 221)),
  .set (71 + part) (.op .packs (.r 222) (.r 223)),
  .set (73 + part) (.op .packs (.r 224) (.r 225)),
  .set (75 + part) (.op .packs (.r 226) (.r 227)),
  .set (77 + part) (.op .packs (.r 228) (.r 229)),
  .set (79 + part) (.op .packs (.r 230) (.r 231))]

/-- source/common/vec/intrinsic_idct.cc:2342-2439. -/
def idct_16x16_quad_5 : List S := transpose8 232 240
    49 51 53 55 57 59 61 63
    17 19 21 23 25 27 29 31 ++
  transpose8 232 240
    65 67 69 71 73 75 77 79
    18 20 22 24 26 28 30 32 ++
  transpose8 232 240
    50 52 54 56 58 60 62 64
    33 35 37 39 41 43 45 47 ++
  transpose8 232 240
    66 68 70 72 74 76 78 80
    34 36 38 40 42 44 46 48 ++
  [
  .set 248 (.k16 255),
  .set 249 (.k16 (-256)),
  .set 17 (.op .max16 (.op .min16 (.r 17) (.r 248)) (.r 249)),
  .set 18 (.op .max16 (.op .min16 (.r 18) (.r 248)) (.r 249)),
  .set 19 (.op .max16 (.op .min16 (.r 19) (.r 248)) (.r 249)),
  .set 20 (.op .max16 (.op .min16 (.r 20) (.r 248)) (.r 249)),
  .set 21 (.op .max16 (.op .min16 (.r 21) (.r 248)) (.r 249)),
  .set 22 (.op .max16 (.op .min16 (.r 22) (.r 248)) (.r 249)),
  .set 23 (.op .max16 (.op .min16 (.r 23) (.r 248)) (.r 249)),
  .set 24 (.op .max16 (.op .min16 (.r 24) (.r 248)) (.r 249)),
  .set 25 (.op .max16 (.op .min16 (.r 25) (.r 248)) (.r 249)),
  .set 26 (.op .max16 (.op .min16 (.r 26) (.r 248)) (.r 249)),
  .set 27 (.op .max16 (.op .min16 (.r 27) (.r 248)) (.r 249)),
  .set 28 (.op .max16 (.op .min16 (.r 28) (.r 248)) (.r 249)),
  .set 29 (.op .max16 (.op .min16 (.r 29) (.r 248)) (.r 249)),
  .set 30 (.op .max16 (.op .min16 (.r 30) (.r 248)) (.r 249)),
  .set 31 (.op .max16 (.op .min16 (.r 31) (.r 248)) (.r 249)),
  .set 32 (.op .max16 (.op .min16 (.r 32) (.r 248)) (.r 249)),
  .set 33 (.op .max16 (.op .min16 (.r 33) (.r 248)) (.r 249)),
  .set 34 (.op .max16 (.op .min16 (.r 34) (.r 248)) (.r 249)),
  .set 35 (.op .max16 (.op .min16 (.r 35) (.r 248)) (.r 249)),
  .set 36 (.op .max16 (.op .min16 (.r 36) (.r 248)) (.r 249)),
  .set 37 (.op .max16 (.op .min16 (.r 37) (.r 248)) (.r 249)),
  .set 38 (.op .max16 (.op .min16 (.r 38) (.r 248)) (.r 249)),
  .set 39 (.op .max16 (.op .min16 (.r 39) (.r 248)) (.r 249)),
  .set 40 (.op .max16 (.op .min16 (.r 40) (.r 248)) (.r 249)),
  .set 41 (.op .max16 (.op .min16 (.r 41) (.r 248)) (.r 249)),
  .set 42 (.op .max16 (.op .min16 (.r 42) (.r 248)) (.r 249)),
  .set 43 (.op .max16 (.op .min16 (.r 43) (.r 248)) (.r 249)),
  .set 44 (.op .max16 (.op .min16 (.r 44) (.r 248)) (.r 249)),
  .set 45 (.op .max16 (.op .min16 (.r 45) (.r 248)) (.r 249)),
  .set 46 (.op .max16 (.op .min16 (.r 46) (.r 248)) (.r 249)),
  .set 47 (.op .max16 (.op .min16 (.r 47) (.r 248)) (.r 249)),
  .set 48 (.op .max16 (.op .min16 (.r 48) (.r 248)) (.r 249)),
  .st 8 0 (.r 17),
  .st 8 8 (.r 18),
  .st 8 16 (.r 19),
  .st 8 24 (.r 20),
  .st 8 32 (.r 21),
  .st 8 40 (.r 22),
  .st 8 48 (.r 23),
  .st 8 56 (.r 24),
  .st 8 64 (.r 25),
  .st 8 72 (.r 26),
  .st 8 80 (.r 27),
  .st 8 88 (.r 28),
  .st 8 96 (.r 29),
  .st 8 104 (.r 30),
  .st 8 112 (.r 31),
  .st 8 120 (.r 32),
  .st 8 128 (.r 33),
  .st 8 136 (.r 34),
  .st 8 144 (.r 35),
  .st 8 152 (.r 36),
  .st 8 160 (.r 37),
  .st 8 168 (.r 38),
  .st 8 176 (.r 39),
  .st 8 184 (.r 40),
  .st 8 192 (.r 41),
  .st 8 200 (.r 42),
  .st 8 208 (.r 43),
  .st 8 216 (.r 44),
  .st 8 224 (.r 45),
  .st 8 232 (.r 46),
  .st 8 240 (.r 47),
  .st 8 248 (.r 48)]

/-- `idct_16x16_quad_sse128`, source/common/vec/intrinsic_idct.cc:1985. -/
def idct_16x16_quad : List S :=
  idct_16x16_quad_1 ++ idct_16x16_quad_2 ++ (rep 2 fun part => idct_16x16_quad_3 part ++ idct_16x16_quad_4 part) ++ idct_16x16_quad_5

end Davs2.Si

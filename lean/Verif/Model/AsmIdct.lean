import Verif.Model.SimdTable
/-
The inverse transforms of blocks of 4x4 and 8x8 in assembler, source/common/x86/dct8.asm (the entries `asm` of Model/SimdTable.lean), 8 bits
per sample.  The statements are those of Model/SimdProg.lean, one for each instruction that touches vector registers; registers 0-15 are
`m0`-`m15`.  `r0` and `r1` are the same array (`inv_transform`, source/common/transform.cc:841-864) and `r2` is the width of the block.

`movlps`, `movq` and `movh` to memory store four words, `movhps` stores the upper four words of a register.
`pmaddwd` is symmetric; where the table is in the destination register it is written as the second operand here.

Unlike the C functions and the functions with intrinsics these do not limit the result to 9 bits.

Not modelled: alignment; the stack pointer (the temporary array is a set of registers of its own).
-/
namespace Davs2.Si

open Davs2.Vc

/-- `idct_4x4_sse2`, dct8.asm:196-282, with `i_dst` = 4. -/
def asm_4x4 : List S := [
  .set 6 (.k32 16),
  .set 0 (.ld 8 0),
  .set 1 (.ld 8 8),
  .set 2 (.op .lo16 (.r 0) (.r 1)),
  .set 3 (.op .madd (.r 2) (.kk 32 32)),
  .set 3 (.op .add32 (.r 3) (.r 6)),
  .set 2 (.op .madd (.r 2) (.kk 32 (-32))),
  .set 2 (.op .add32 (.r 2) (.r 6)),
  .set 0 (.op .hi16 (.r 0) (.r 1)),
  .set 1 (.op .madd (.r 0) (.kk 42 17)),
  .set 0 (.op .madd (.r 0) (.kk 17 (-42))),
  .set 4 (.op .add32 (.r 3) (.r 1)),
  .set 4 (.sra32 (.r 4) 5),
  .set 5 (.op .add32 (.r 2) (.r 0)),
  .set 5 (.sra32 (.r 5) 5),
  .set 4 (.op .packs (.r 4) (.r 5)),
  .set 2 (.op .sub32 (.r 2) (.r 0)),
  .set 2 (.sra32 (.r 2) 5),
  .set 3 (.op .sub32 (.r 3) (.r 1)),
  .set 3 (.sra32 (.r 3) 5),
  .set 2 (.op .packs (.r 2) (.r 3)),
  .set 1 (.op .lo16 (.r 4) (.r 2)),
  .set 4 (.op .hi16 (.r 4) (.r 2)),
  .set 0 (.op .lo16 (.r 1) (.r 4)),
  .set 1 (.op .hi16 (.r 1) (.r 4)),
  .set 6 (.k32 2048),
  .set 2 (.op .lo16 (.r 0) (.r 1)),
  .set 3 (.op .madd (.r 2) (.kk 32 32)),
  .set 3 (.op .add32 (.r 3) (.r 6)),
  .set 2 (.op .madd (.r 2) (.kk 32 (-32))),
  .set 2 (.op .add32 (.r 2) (.r 6)),
  .set 0 (.op .hi16 (.r 0) (.r 1)),
  .set 1 (.op .madd (.r 0) (.kk 42 17)),
  .set 0 (.op .madd (.r 0) (.kk 17 (-42))),
  .set 4 (.op .add32 (.r 3) (.r 1)),
  .set 4 (.sra32 (.r 4) 12),
  .set 5 (.op .add32 (.r 2) (.r 0)),
  .set 5 (.sra32 (.r 5) 12),
  .set 4 (.op .packs (.r 4) (.r 5)),
  .set 2 (.op .sub32 (.r 2) (.r 0)),
  .set 2 (.sra32 (.r 2) 12),
  .set 3 (.op .sub32 (.r 3) (.r 1)),
  .set 3 (.sra32 (.r 3) 12),
  .set 2 (.op .packs (.r 2) (.r 3)),
  .set 1 (.op .lo16 (.r 4) (.r 2)),
  .set 4 (.op .hi16 (.r 4) (.r 2)),
  .set 0 (.op .lo16 (.r 1) (.r 4)),
  .st 4 0 (.r 0),
  .st 4 4 (.op .hi64 (.r 0) (.r 0)),
  .set 1 (.op .hi16 (.r 1) (.r 4)),
  .st 4 8 (.r 1),
  .st 4 12 (.op .hi64 (.r 1) (.r 1))]

/-- `idct_8x8_sse2`, dct8.asm:683-1038, with `i_dst` = 8; registers 16-20 are the words at `rsp`. -/
def asm_8x8_sse2 : List S := [
  .set 9 (.ld 8 8),
  .set 1 (.ld 8 24),
  .set 7 (.r 9),
  .set 7 (.op .lo16 (.r 7) (.r 1)),
  .set 9 (.op .hi16 (.r 9) (.r 1)),
  .set 14 (.kk 44 38),
  .set 3 (.r 14),
  .set 14 (.op .madd (.r 7) (.r 14)),
  .set 3 (.op .madd (.r 9) (.r 3)),
  .set 0 (.ld 8 40),
  .set 10 (.ld 8 56),
  .set 2 (.r 0),
  .set 2 (.op .lo16 (.r 2) (.r 10)),
  .set 0 (.op .hi16 (.r 0) (.r 10)),
  .set 15 (.kk 25 9),
  .set 11 (.kk 25 9),
  .set 15 (.op .madd (.r 2) (.r 15)),
  .set 4 (.kk 38 (-9)),
  .set 11 (.op .madd (.r 0) (.r 11)),
  .set 1 (.kk 38 (-9)),
  .set 15 (.op .add32 (.r 15) (.r 14)),
  .set 5 (.kk 25 (-44)),
  .set 12 (.kk 25 (-44)),
  .set 11 (.op .add32 (.r 11) (.r 3)),
  .set 16 (.r 11),
  .set 17 (.r 15),
  .set 4 (.op .madd (.r 7) (.r 4)),
  .set 1 (.op .madd (.r 9) (.r 1)),
  .set 14 (.kk (-44) (-25)),
  .set 3 (.kk (-44) (-25)),
  .set 14 (.op .madd (.r 2) (.r 14)),
  .set 3 (.op .madd (.r 0) (.r 3)),
  .set 14 (.op .add32 (.r 14) (.r 4)),
  .set 3 (.op .add32 (.r 3) (.r 1)),
  .set 18 (.r 3),
  .set 5 (.op .madd (.r 9) (.r 5)),
  .set 9 (.op .madd (.r 9) (.kk 9 (-25))),
  .set 6 (.kk 9 38),
  .set 12 (.op .madd (.r 7) (.r 12)),
  .set 7 (.op .madd (.r 7) (.kk 9 (-25))),
  .set 4 (.kk 9 38),
  .set 6 (.op .madd (.r 2) (.r 6)),
  .set 6 (.op .add32 (.r 6) (.r 12)),
  .set 2 (.op .madd (.r 2) (.kk 38 (-44))),
  .set 7 (.op .add32 (.r 7) (.r 2)),
  .set 19 (.r 6),
  .set 4 (.op .madd (.r 0) (.r 4)),
  .set 0 (.op .madd (.r 0) (.kk 38 (-44))),
  .set 9 (.op .add32 (.r 9) (.r 0)),
  .set 5 (.op .add32 (.r 5) (.r 4)),
  .set 6 (.ld 8 0),
  .set 0 (.ld 8 32),
  .set 4 (.r 6),
  .set 4 (.op .lo16 (.r 4) (.r 0)),
  .set 6 (.op .hi16 (.r 6) (.r 0)),
  .set 12 (.ld 8 16),
  .set 0 (.ld 8 48),
  .set 13 (.r 12),
  .set 8 (.kk 32 32),
  .set 13 (.op .lo16 (.r 13) (.r 0)),
  .set 10 (.kk 32 32),
  .set 12 (.op .hi16 (.r 12) (.r 0)),
  .set 8 (.op .madd (.r 4) (.r 8)),
  .set 3 (.r 8),
  .set 4 (.op .madd (.r 4) (.kk 32 (-32))),
  .set 10 (.op .madd (.r 6) (.r 10)),
  .set 2 (.kk 42 17),
  .set 1 (.r 10),
  .set 6 (.op .madd (.r 6) (.kk 32 (-32))),
  .set 0 (.kk 42 17),
  .set 2 (.op .madd (.r 13) (.r 2)),
  .set 3 (.op .add32 (.r 3) (.r 2)),
  .set 8 (.op .sub32 (.r 8) (.r 2)),
  .set 2 (.r 6),
  .set 13 (.op .madd (.r 13) (.kk 17 (-42))),
  .set 0 (.op .madd (.r 12) (.r 0)),
  .set 1 (.op .add32 (.r 1) (.r 0)),
  .set 10 (.op .sub32 (.r 10) (.r 0)),
  .set 0 (.r 4),
  .set 12 (.op .madd (.r 12) (.kk 17 (-42))),
  .set 3 (.op .add32 (.r 3) (.k32 16)),
  .set 1 (.op .add32 (.r 1) (.k32 16)),
  .set 8 (.op .add32 (.r 8) (.k32 16)),
  .set 10 (.op .add32 (.r 10) (.k32 16)),
  .set 0 (.op .add32 (.r 0) (.r 13)),
  .set 2 (.op .add32 (.r 2) (.r 12)),
  .set 0 (.op .add32 (.r 0) (.k32 16)),
  .set 2 (.op .add32 (.r 2) (.k32 16)),
  .set 4 (.op .sub32 (.r 4) (.r 13)),
  .set 6 (.op .sub32 (.r 6) (.r 12)),
  .set 4 (.op .add32 (.r 4) (.k32 16)),
  .set 6 (.op .add32 (.r 6) (.k32 16)),
  .set 12 (.r 8),
  .set 8 (.op .sub32 (.r 8) (.r 7)),
  .set 8 (.sra32 (.r 8) 5),
  .set 15 (.op .add32 (.r 15) (.r 3)),
  .set 3 (.op .sub32 (.r 3) (.r 17)),
  .set 15 (.sra32 (.r 15) 5),
  .set 12 (.op .add32 (.r 12) (.r 7)),
  .set 12 (.sra32 (.r 12) 5),
  .set 11 (.op .add32 (.r 11) (.r 1)),
  .set 13 (.r 14),
  .set 11 (.sra32 (.r 11) 5),
  .set 15 (.op .packs (.r 15) (.r 11)),
  .set 1 (.op .sub32 (.r 1) (.r 16)),
  .set 1 (.sra32 (.r 1) 5),
  .set 11 (.r 18),
  .set 14 (.op .add32 (.r 14) (.r 0)),
  .set 14 (.sra32 (.r 14) 5),
  .set 0 (.op .sub32 (.r 0) (.r 13)),
  .set 0 (.sra32 (.r 0) 5),
  .set 11 (.op .add32 (.r 11) (.r 2)),
  .set 13 (.r 19),
  .set 11 (.sra32 (.r 11) 5),
  .set 14 (.op .packs (.r 14) (.r 11)),
  .set 11 (.r 6),
  .set 6 (.op .sub32 (.r 6) (.r 5)),
  .set 13 (.op .add32 (.r 13) (.r 4)),
  .set 13 (.sra32 (.r 13) 5),
  .set 6 (.sra32 (.r 6) 5),
  .set 11 (.op .add32 (.r 11) (.r 5)),
  .set 11 (.sra32 (.r 11) 5),
  .set 13 (.op .packs (.r 13) (.r 11)),
  .set 11 (.r 10),
  .set 4 (.op .sub32 (.r 4) (.r 19)),
  .set 10 (.op .sub32 (.r 10) (.r 9)),
  .set 4 (.sra32 (.r 4) 5),
  .set 10 (.sra32 (.r 10) 5),
  .set 4 (.op .packs (.r 4) (.r 6)),
  .set 8 (.op .packs (.r 8) (.r 10)),
  .set 11 (.op .add32 (.r 11) (.r 9)),
  .set 11 (.sra32 (.r 11) 5),
  .set 12 (.op .packs (.r 12) (.r 11)),
  .set 2 (.op .sub32 (.r 2) (.r 18)),
  .set 5 (.r 15),
  .set 2 (.sra32 (.r 2) 5),
  .set 0 (.op .packs (.r 0) (.r 2)),
  .set 2 (.r 14),
  .set 3 (.sra32 (.r 3) 5),
  .set 3 (.op .packs (.r 3) (.r 1)),
  .set 6 (.r 13),
  .set 5 (.op .lo16 (.r 5) (.r 8)),
  .set 2 (.op .lo16 (.r 2) (.r 4)),
  .set 1 (.r 12),
  .set 6 (.op .lo16 (.r 6) (.r 0)),
  .set 1 (.op .lo16 (.r 1) (.r 3)),
  .set 9 (.r 5),
  .set 13 (.op .hi16 (.r 13) (.r 0)),
  .set 0 (.r 2),
  .set 9 (.op .lo16 (.r 9) (.r 6)),
  .set 5 (.op .hi16 (.r 5) (.r 6)),
  .set 0 (.op .lo16 (.r 0) (.r 1)),
  .set 2 (.op .hi16 (.r 2) (.r 1)),
  .set 15 (.op .hi16 (.r 15) (.r 8)),
  .set 1 (.r 5),
  .set 14 (.op .hi16 (.r 14) (.r 4)),
  .set 12 (.op .hi16 (.r 12) (.r 3)),
  .set 6 (.r 9),
  .set 9 (.op .hi16 (.r 9) (.r 0)),
  .set 1 (.op .lo16 (.r 1) (.r 2)),
  .set 4 (.kk 44 38),
  .set 5 (.op .hi16 (.r 5) (.r 2)),
  .set 6 (.op .lo16 (.r 6) (.r 0)),
  .set 2 (.r 15),
  .set 0 (.r 14),
  .set 7 (.r 9),
  .set 2 (.op .lo16 (.r 2) (.r 13)),
  .set 0 (.op .lo16 (.r 0) (.r 12)),
  .set 7 (.op .lo16 (.r 7) (.r 5)),
  .set 14 (.op .hi16 (.r 14) (.r 12)),
  .set 10 (.r 2),
  .set 15 (.op .hi16 (.r 15) (.r 13)),
  .set 9 (.op .hi16 (.r 9) (.r 5)),
  .set 4 (.op .madd (.r 7) (.r 4)),
  .set 13 (.r 1),
  .set 2 (.op .hi16 (.r 2) (.r 0)),
  .set 10 (.op .lo16 (.r 10) (.r 0)),
  .set 0 (.r 15),
  .set 15 (.op .hi16 (.r 15) (.r 14)),
  .set 12 (.r 1),
  .set 3 (.kk 44 38),
  .set 0 (.op .lo16 (.r 0) (.r 14)),
  .set 3 (.op .madd (.r 9) (.r 3)),
  .set 11 (.r 2),
  .set 2 (.op .hi16 (.r 2) (.r 15)),
  .set 11 (.op .lo16 (.r 11) (.r 15)),
  .set 8 (.kk 25 9),
  .set 13 (.op .lo16 (.r 13) (.r 0)),
  .set 12 (.op .hi16 (.r 12) (.r 0)),
  .set 8 (.op .madd (.r 11) (.r 8)),
  .set 8 (.op .add32 (.r 8) (.r 4)),
  .set 20 (.r 8),
  .set 4 (.kk 38 (-9)),
  .set 4 (.op .madd (.r 7) (.r 4)),
  .set 15 (.kk 38 (-9)),
  .set 5 (.kk 25 9),
  .set 15 (.op .madd (.r 9) (.r 15)),
  .set 5 (.op .madd (.r 2) (.r 5)),
  .set 5 (.op .add32 (.r 5) (.r 3)),
  .set 19 (.r 5),
  .set 14 (.kk (-44) (-25)),
  .set 5 (.kk (-44) (-25)),
  .set 14 (.op .madd (.r 11) (.r 14)),
  .set 14 (.op .add32 (.r 14) (.r 4)),
  .set 18 (.r 14),
  .set 5 (.op .madd (.r 2) (.r 5)),
  .set 5 (.op .add32 (.r 5) (.r 15)),
  .set 17 (.r 5),
  .set 15 (.kk 25 (-44)),
  .set 5 (.kk 25 (-44)),
  .set 15 (.op .madd (.r 7) (.r 15)),
  .set 7 (.op .madd (.r 7) (.kk 9 (-25))),
  .set 5 (.op .madd (.r 9) (.r 5)),
  .set 9 (.op .madd (.r 9) (.kk 9 (-25))),
  .set 4 (.kk 9 38),
  .set 4 (.op .madd (.r 2) (.r 4)),
  .set 5 (.op .add32 (.r 5) (.r 4)),
  .set 4 (.r 6),
  .set 8 (.kk 9 38),
  .set 6 (.op .hi16 (.r 6) (.r 10)),
  .set 2 (.op .madd (.r 2) (.kk 38 (-44))),
  .set 4 (.op .lo16 (.r 4) (.r 10)),
  .set 9 (.op .add32 (.r 9) (.r 2)),
  .set 8 (.op .madd (.r 11) (.r 8)),
  .set 10 (.kk 32 32),
  .set 8 (.op .add32 (.r 8) (.r 15)),
  .set 11 (.op .madd (.r 11) (.kk 38 (-44))),
  .set 7 (.op .add32 (.r 7) (.r 11)),
  .set 16 (.r 8),
  .set 10 (.op .madd (.r 6) (.r 10)),
  .set 6 (.op .madd (.r 6) (.kk 32 (-32))),
  .set 1 (.r 10),
  .set 8 (.kk 32 32),
  .set 3 (.kk 42 17),
  .set 8 (.op .madd (.r 4) (.r 8)),
  .set 4 (.op .madd (.r 4) (.kk 32 (-32))),
  .set 0 (.r 8),
  .set 2 (.kk 42 17),
  .set 3 (.op .madd (.r 13) (.r 3)),
  .set 8 (.op .sub32 (.r 8) (.r 3)),
  .set 0 (.op .add32 (.r 0) (.r 3)),
  .set 3 (.r 6),
  .set 13 (.op .madd (.r 13) (.kk 17 (-42))),
  .set 2 (.op .madd (.r 12) (.r 2)),
  .set 1 (.op .add32 (.r 1) (.r 2)),
  .set 10 (.op .sub32 (.r 10) (.r 2)),
  .set 2 (.r 4),
  .set 12 (.op .madd (.r 12) (.kk 17 (-42))),
  .set 0 (.op .add32 (.r 0) (.k32 2048)),
  .set 1 (.op .add32 (.r 1) (.k32 2048)),
  .set 8 (.op .add32 (.r 8) (.k32 2048)),
  .set 10 (.op .add32 (.r 10) (.k32 2048)),
  .set 2 (.op .add32 (.r 2) (.r 13)),
  .set 3 (.op .add32 (.r 3) (.r 12)),
  .set 2 (.op .add32 (.r 2) (.k32 2048)),
  .set 3 (.op .add32 (.r 3) (.k32 2048)),
  .set 4 (.op .sub32 (.r 4) (.r 13)),
  .set 6 (.op .sub32 (.r 6) (.r 12)),
  .set 4 (.op .add32 (.r 4) (.k32 2048)),
  .set 6 (.op .add32 (.r 6) (.k32 2048)),
  .set 15 (.r 20),
  .set 12 (.r 8),
  .set 8 (.op .sub32 (.r 8) (.r 7)),
  .set 8 (.sra32 (.r 8) 12),
  .set 11 (.r 19),
  .set 15 (.op .add32 (.r 15) (.r 0)),
  .set 15 (.sra32 (.r 15) 12),
  .set 0 (.op .sub32 (.r 0) (.r 20)),
  .set 0 (.sra32 (.r 0) 12),
  .set 12 (.op .add32 (.r 12) (.r 7)),
  .set 11 (.op .add32 (.r 11) (.r 1)),
  .set 14 (.r 18),
  .set 11 (.sra32 (.r 11) 12),
  .set 15 (.op .packs (.r 15) (.r 11)),
  .set 1 (.op .sub32 (.r 1) (.r 19)),
  .set 1 (.sra32 (.r 1) 12),
  .set 11 (.r 17),
  .set 14 (.op .add32 (.r 14) (.r 2)),
  .set 14 (.sra32 (.r 14) 12),
  .set 0 (.op .packs (.r 0) (.r 1)),
  .set 12 (.sra32 (.r 12) 12),
  .set 2 (.op .sub32 (.r 2) (.r 18)),
  .set 11 (.op .add32 (.r 11) (.r 3)),
  .set 13 (.r 16),
  .set 11 (.sra32 (.r 11) 12),
  .set 14 (.op .packs (.r 14) (.r 11)),
  .set 11 (.r 6),
  .set 6 (.op .sub32 (.r 6) (.r 5)),
  .set 13 (.op .add32 (.r 13) (.r 4)),
  .set 13 (.sra32 (.r 13) 12),
  .set 1 (.r 15),
  .set 11 (.op .add32 (.r 11) (.r 5)),
  .set 11 (.sra32 (.r 11) 12),
  .set 13 (.op .packs (.r 13) (.r 11)),
  .set 11 (.r 10),
  .set 10 (.op .sub32 (.r 10) (.r 9)),
  .set 10 (.sra32 (.r 10) 12),
  .set 8 (.op .packs (.r 8) (.r 10)),
  .set 6 (.sra32 (.r 6) 12),
  .set 4 (.op .sub32 (.r 4) (.r 16)),
  .set 11 (.op .add32 (.r 11) (.r 9)),
  .set 11 (.sra32 (.r 11) 12),
  .set 12 (.op .packs (.r 12) (.r 11)),
  .set 1 (.op .lo16 (.r 1) (.r 14)),
  .set 5 (.r 13),
  .set 4 (.sra32 (.r 4) 12),
  .set 4 (.op .packs (.r 4) (.r 6)),
  .set 3 (.op .sub32 (.r 3) (.r 17)),
  .set 2 (.sra32 (.r 2) 12),
  .set 6 (.r 8),
  .set 3 (.sra32 (.r 3) 12),
  .set 5 (.op .lo16 (.r 5) (.r 12)),
  .set 2 (.op .packs (.r 2) (.r 3)),
  .set 6 (.op .lo16 (.r 6) (.r 4)),
  .set 8 (.op .hi16 (.r 8) (.r 4)),
  .set 4 (.r 1),
  .set 3 (.r 2),
  .set 1 (.op .hi32 (.r 1) (.r 5)),
  .set 4 (.op .lo32 (.r 4) (.r 5)),
  .set 3 (.op .lo16 (.r 3) (.r 0)),
  .set 2 (.op .hi16 (.r 2) (.r 0)),
  .set 0 (.r 6),
  .st 4 0 (.r 4),
  .set 15 (.op .hi16 (.r 15) (.r 14)),
  .st 4 8 (.op .hi64 (.r 4) (.r 4)),
  .set 0 (.op .hi32 (.r 0) (.r 3)),
  .st 4 16 (.r 1),
  .set 13 (.op .hi16 (.r 13) (.r 12)),
  .st 4 24 (.op .hi64 (.r 1) (.r 1)),
  .set 1 (.r 6),
  .set 1 (.op .lo32 (.r 1) (.r 3)),
  .st 4 4 (.r 1),
  .st 4 12 (.op .hi64 (.r 1) (.r 1)),
  .st 4 20 (.r 0),
  .st 4 28 (.op .hi64 (.r 0) (.r 0)),
  .set 0 (.r 15),
  .set 15 (.op .hi32 (.r 15) (.r 13)),
  .set 0 (.op .lo32 (.r 0) (.r 13)),
  .st 4 32 (.r 0),
  .st 4 40 (.op .hi64 (.r 0) (.r 0)),
  .set 0 (.r 8),
  .set 8 (.op .hi32 (.r 8) (.r 2)),
  .st 4 48 (.r 15),
  .set 0 (.op .lo32 (.r 0) (.r 2)),
  .st 4 56 (.op .hi64 (.r 15) (.r 15)),
  .st 4 36 (.r 0),
  .st 4 44 (.op .hi64 (.r 0) (.r 0)),
  .st 4 52 (.r 8),
  .st 4 60 (.op .hi64 (.r 8) (.r 8))]

/-- `patial_butterfly_inverse_internal_pass1`, dct8.asm:294-387; `k` = 1 in the second call, with 8 added to `r0` and `r5` (dct8.asm:452-455).  Registers 16-31
are the halves of the rows of the temporary array at `r5`.  `movh` and `movhps` into the same register are one statement. -/
def ssse3Pass1 (k : Nat) : List S := [
  .set 0 (.op .lo64 (.ld 4 (0 + 4 * k)) (.ld 4 (16 + 4 * k))),
  .set 1 (.op .lo64 (.ld 4 (32 + 4 * k)) (.ld 4 (48 + 4 * k))),
  .set 2 (.op .hi16 (.r 0) (.r 1)),
  .set 0 (.op .lo16 (.r 0) (.r 1)),
  .set 1 (.op .madd (.r 0) (.kk 32 32)),
  .set 0 (.op .madd (.r 0) (.kk 32 (-32))),
  .set 3 (.op .madd (.r 2) (.kk 42 17)),
  .set 2 (.op .madd (.r 2) (.kk 17 (-42))),
  .set 4 (.op .add32 (.r 1) (.r 3)),
  .set 1 (.op .sub32 (.r 1) (.r 3)),
  .set 3 (.op .add32 (.r 0) (.r 2)),
  .set 0 (.op .sub32 (.r 0) (.r 2)),
  .set 5 (.k32 16),
  .set 0 (.op .add32 (.r 0) (.r 5)),
  .set 1 (.op .add32 (.r 1) (.r 5)),
  .set 3 (.op .add32 (.r 3) (.r 5)),
  .set 4 (.op .add32 (.r 4) (.r 5)),
  .set 2 (.op .lo64 (.ld 4 (8 + 4 * k)) (.ld 4 (40 + 4 * k))),
  .set 5 (.op .lo64 (.ld 4 (24 + 4 * k)) (.ld 4 (56 + 4 * k))),
  .set 6 (.op .lo16 (.r 2) (.r 5)),
  .set 2 (.op .hi16 (.r 2) (.r 5)),
  .set 5 (.op .madd (.r 6) (.kk 44 38)),
  .set 7 (.op .madd (.r 2) (.kk 25 9)),
  .set 5 (.op .add32 (.r 5) (.r 7)),
  .set 7 (.op .add32 (.r 4) (.r 5)),
  .set 7 (.sra32 (.r 7) 5),
  .set 4 (.op .sub32 (.r 4) (.r 5)),
  .set 4 (.sra32 (.r 4) 5),
  .set 7 (.op .packs (.r 7) (.r 4)),
  .set (16 + k) (.r 7),
  .set (30 + k) (.op .hi64 (.r 7) (.r 7)),
  .set 5 (.op .madd (.r 6) (.kk 38 (-9))),
  .set 4 (.op .madd (.r 2) (.kk (-44) (-25))),
  .set 5 (.op .add32 (.r 5) (.r 4)),
  .set 4 (.op .add32 (.r 3) (.r 5)),
  .set 4 (.sra32 (.r 4) 5),
  .set 3 (.op .sub32 (.r 3) (.r 5)),
  .set 3 (.sra32 (.r 3) 5),
  .set 4 (.op .packs (.r 4) (.r 3)),
  .set (18 + k) (.r 4),
  .set (28 + k) (.op .hi64 (.r 4) (.r 4)),
  .set 5 (.op .madd (.r 6) (.kk 25 (-44))),
  .set 4 (.op .madd (.r 2) (.kk 9 38)),
  .set 5 (.op .add32 (.r 5) (.r 4)),
  .set 4 (.op .add32 (.r 0) (.r 5)),
  .set 4 (.sra32 (.r 4) 5),
  .set 0 (.op .sub32 (.r 0) (.r 5)),
  .set 0 (.sra32 (.r 0) 5),
  .set 4 (.op .packs (.r 4) (.r 0)),
  .set (20 + k) (.r 4),
  .set (26 + k) (.op .hi64 (.r 4) (.r 4)),
  .set 5 (.op .madd (.r 6) (.kk 9 (-25))),
  .set 4 (.op .madd (.r 2) (.kk 38 (-44))),
  .set 5 (.op .add32 (.r 5) (.r 4)),
  .set 4 (.op .add32 (.r 1) (.r 5)),
  .set 4 (.sra32 (.r 4) 5),
  .set 1 (.op .sub32 (.r 1) (.r 5)),
  .set 1 (.sra32 (.r 1) 5),
  .set 4 (.op .packs (.r 4) (.r 1)),
  .set (22 + k) (.r 4),
  .set (24 + k) (.op .hi64 (.r 4) (.r 4))]

/-- `phaddd`, `phsubd` (128 bits). -/
def phaddd (a b : V) : V := ofD fun i => if i < 2 then d32 a (2 * i) + d32 a (2 * i + 1) else d32 b (2 * (i - 2)) + d32 b (2 * (i - 2) + 1)
def phsubd (a b : V) : V := ofD fun i => if i < 2 then d32 a (2 * i) - d32 a (2 * i + 1) else d32 b (2 * (i - 2)) - d32 b (2 * (i - 2) + 1)

/-- `pshufd` (128 bits). -/
def pshufd (imm : Nat) (a : V) : V := fun j => a (4 * (imm / 4 ^ (j / 4) % 4) + j % 4)

/-- `pb_idct8even`, `pb_idct8odd`, `tab_idct8_1`, `tab_idct8_2`, dct8.asm:57-62, 90. -/
def pbEven : V := setr8 [0, 1, 8, 9, 4, 5, 12, 13, 0, 1, 8, 9, 4, 5, 12, 13]
def pbOdd : V := setr8 [2, 3, 6, 7, 10, 11, 14, 15, 2, 3, 6, 7, 10, 11, 14, 15]
def tabIdct8_1 : V := ofW fun i => [32, -32, 17, -42, 32, 32, 42, 17].getD i 0
def tabIdct8_2a : V := ofW fun i => [44, 38, 25, 9, 38, -9, -44, -25].getD i 0
def tabIdct8_2b : V := ofW fun i => [25, -44, 9, 38, 9, -25, 38, -44].getD i 0

/-- `PARTIAL_BUTTERFLY_PROCESS_ROW`, dct8.asm:389-419, on the row `v`; `m5` is what the register held before. -/
def ssse3Row (m5 v : V) : V × V :=
  let m4 := madd16 (shuffle8 v pbEven) tabIdct8_1
  let m5 := phsubd m5 m4
  let m4 := pshufd 0x4E m4
  let m4 := phaddd m4 m4
  let m4 := unpackhi64y m4 m5
  let m4 := add32 m4 (set1_32 2048)
  let v := shuffle8 v pbOdd
  let m5 := madd16 v tabIdct8_2a
  let v := madd16 v tabIdct8_2b
  let m5 := phaddd m5 v
  let v := srai32 (add32 m4 m5) 12
  let m4 := srai32 (sub32 m4 m5) 12
  let m4 := pshufd 0x1B m4
  (m5, packs32y v m4)

/-- One row of `patial_butterfly_inverse_internal_pass2`, dct8.asm:421-439: the array and `m5`. -/
def ssse3Step (reg : Nat → V) (q : (Nat → Int) × V) (y : Nat) : (Nat → Int) × V :=
  let r := ssse3Row q.2 (unpacklo64y (reg (16 + 2 * y)) (reg (17 + 2 * y)))
  (storeC 8 q.1 (8 * y) r.2, r.1)

/-- `idct_8x8_ssse3`, dct8.asm:442-482, with `i_dst` = 8. -/
def asm_8x8_ssse3 (s : St) : Nat → Int :=
  let t := exec (ssse3Pass1 0 ++ ssse3Pass1 1) s
  ((List.range 8).foldl (ssse3Step t.reg) (t.mem, t.reg 5)).1

/-- The assembler functions in the table, transform.cc:977-981 and 991. -/
def asmIdct (cpu : Cpu) (part : Part) (s : St) : Nat → Int :=
  match part with
  | .p4x4 => (exec asm_4x4 s).mem
  | _ => if cpu.ssse3 then asm_8x8_ssse3 s else (exec asm_8x8_sse2 s).mem

end Davs2.Si

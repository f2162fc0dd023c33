import Verif.Model.SimdIdct16
import Verif.Model.SimdIdct32
import Verif.Model.SimdIdct32x8
import Verif.Model.SimdIdctAvx
import Verif.Model.SimdWavelet
import Verif.Model.SimdSecond
/-
The table of inverse transforms, `davs2_dct_init`, source/common/transform.cc:931-1058, for 8 bits per sample on x86-64.

The assembler functions `idct_4x4_sse2`, `idct_8x8_sse2` and `idct_8x8_ssse3` (entries `asm`) are in Model/AsmIdct.lean; the C functions are those of
Model/Transform.lean (entries `c`).
-/
namespace Davs2.Si

/-- The shapes of transform blocks, the index `part_idx` of the table (width x height in samples). -/
inductive Part
  | p4x4 | p8x8 | p16x16 | p32x32 | p64x64 | p64x16 | p16x64 | p4x16 | p8x32 | p16x4 | p32x8
  deriving DecidableEq

/-- `dct_pattern_e`, source/common/common.h:278-284: all coefficients, those of the upper left half of the sides, those of the quarter. -/
inductive Pat
  | full | half | quad
  deriving DecidableEq

/-- An entry of the table. -/
inductive Entry
  | c
  | asm
  | prog (p : List S)

/-- What the processor has. -/
structure Cpu where
  sse2 : Bool
  ssse3 : Bool
  avx2 : Bool

/-- `idct_64x64_sse128` and so on, source/common/vec/intrinsic_idct.cc:7809-7886; the half and quarter functions of blocks that are not square call the
full ones (460-476, 745-761, 6049-6065, 6897-6913), and so do those of 8x8 blocks (1034-1048). -/
def idct_64x64 : List S := idct_32x32 1 ++ wavelet_64x64
def idct_64x64_half : List S := idct_32x32_half 1 ++ wavelet_64x64
def idct_64x64_quad : List S := idct_32x32_quad 1 ++ wavelet_64x64
def idct_64x16 : List S := idct_32x8 1 ++ wavelet_64x16
def idct_16x64 : List S := idct_8x32 1 ++ wavelet_16x64

/-- source/common/vec/intrinsic_idct_avx2.cc:2143-2168. -/
def idct_64x64_avx2 : List S := idct_32x32_avx2 1 ++ wavelet_64x64_avx2
def idct_64x16_avx2 : List S := idct_32x8 1 ++ wavelet_64x16_avx2
def idct_16x64_avx2 : List S := idct_8x32 1 ++ wavelet_16x64_avx2

/-- The loop with all patterns, transform.cc:963-983. -/
def tableSse2 : Part → Entry
  | .p4x4 => .asm
  | .p8x8 => .asm
  | .p16x16 => .prog idct_16x16
  | .p32x32 => .prog (idct_32x32 0)
  | .p64x64 => .prog idct_64x64
  | .p64x16 => .prog idct_64x16
  | .p16x64 => .prog idct_16x64
  | .p4x16 => .prog idct_4x16
  | .p8x32 => .prog (idct_8x32 0)
  | .p16x4 => .prog idct_16x4
  | .p32x8 => .prog (idct_32x8 0)

/-- The partial transforms, transform.cc:997-1021; `e` is the entry before. -/
def tablePartial (part : Part) (pat : Pat) (e : Entry) : Entry :=
  match pat, part with
  | .full, _ => e
  | _, .p4x4 => e
  | _, .p8x8 => .prog idct_8x8
  | .half, .p16x16 => .prog idct_16x16_half
  | .quad, .p16x16 => .prog idct_16x16_quad
  | .half, .p32x32 => .prog (idct_32x32_half 0)
  | .quad, .p32x32 => .prog (idct_32x32_quad 0)
  | .half, .p64x64 => .prog idct_64x64_half
  | .quad, .p64x64 => .prog idct_64x64_quad
  | _, .p4x16 => .prog idct_4x16
  | _, .p16x4 => .prog idct_16x4
  | _, .p8x32 => .prog (idct_8x32 0)
  | _, .p32x8 => .prog (idct_32x8 0)
  | _, .p16x64 => .prog idct_16x64
  | _, .p64x16 => .prog idct_64x16

/-- AVX2, transform.cc:1024-1030. -/
def tableAvx2 (part : Part) (pat : Pat) (e : Entry) : Entry :=
  match pat, part with
  | .full, .p8x8 => .prog idct_8x8_avx2
  | .full, .p16x16 => .prog idct_16x16_avx2
  | .full, .p64x64 => .prog idct_64x64_avx2
  | .full, .p64x16 => .prog idct_64x16_avx2
  | .full, .p16x64 => .prog idct_16x64_avx2
  | .full, .p32x32 => .prog (idct_32x32_avx2 0)
  | _, _ => e

/-- The table `gf_davs2.idct` after `davs2_dct_init`. -/
def table (cpu : Cpu) (part : Part) (pat : Pat) : Entry :=
  let e : Entry := .c
  let e := if cpu.sse2 then tableSse2 part else e
  let e := if cpu.ssse3 then (if part = .p8x8 then .asm else e) else e
  let e := if cpu.sse2 then tablePartial part pat e else e
  if cpu.avx2 then tableAvx2 part pat e else e

/-- `inv_transform`, transform.cc:841-864, on a processor with SSE2; `sec` is `b_secT` after line 848.  `none` where an assembler function is called. -/
def invTransform (cpu : Cpu) (part : Part) (pat : Pat) (stride : Nat) (sec : Bool) (mode : Int) (top left : Bool) (s : St) : Option (Nat → Int) :=
  let idct (m : Nat → Int) : Option (Nat → Int) := match table cpu part pat with
    | .prog p => some (exec p { s with mem := m }).mem
    | _ => none
  if part = .p4x4 then
    if sec then some (second4x4 stride s.mem) else idct s.mem
  else idct (if sec then second stride mode top left s.mem else s.mem)

end Davs2.Si

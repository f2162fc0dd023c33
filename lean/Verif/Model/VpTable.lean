import Verif.Model.VpSseX
import Verif.Model.VpSseXY
import Verif.Model.VpSseY
import Verif.Model.VpAvxX
import Verif.Model.VpAvxXY
import Verif.Model.VpAvxY
/-
Which vector routine predicts which direction, davs2_intra_pred_init intra.cc:2634-2710.
-/
namespace Davs2.Vp

/-- The directions for which SSE4 routines are installed, intra.cc:2640-2668; for DC, plane and bilinear (intra.cc:2637-2639) see
Model/VecIntra. -/
def sse : Nat → Option Stmt
  | 3 => some x3S | 4 => some x4S | 5 => some x5S | 6 => some x6S | 8 => some x8S | 10 => some x10S | 12 => some verS
  | 13 => some xy13S | 14 => some xy14S | 16 => some xy16S | 18 => some xy18S | 20 => some xy20S | 22 => some xy22S | 23 => some xy23S
  | 24 => some horS | 25 => some y25S | 26 => some y26S | 28 => some y28S | 30 => some y30S | 31 => some y31S | 32 => some y32S
  | _ => none

/-- The directions for which AVX2 routines are installed, intra.cc:2681-2712.  `xy_22` is installed only by one compiler
(intra.cc:2702-2704). -/
def avx2 : Nat → Option Stmt
  | 3 => some x3A | 4 => some x4A | 5 => some x5A | 6 => some x6A | 8 => some x8A | 10 => some x10A | 12 => some verA
  | 13 => some xy13A | 14 => some xy14A | 16 => some xy16A | 18 => some xy18A | 20 => some xy20A | 22 => some xy22A | 23 => some xy23A
  | 24 => some horA | 25 => some y25A | 26 => some y26A | 28 => some y28A | 30 => some y30A | 31 => some y31A | 32 => some y32A
  | _ => none

end Davs2.Vp

import Verif.Model.SimdIdctAvx
import Verif.Model.SimdIdct32x8
import Verif.Lemmas.SimdTabs
/-
The checks of the programs (evaluated by the kernel).
-/
namespace Davs2.Si

set_option maxRecDepth 100000

theorem idct_32x8_0_check : check (mkCx 32 8 8 32 0 tab_8_8_16 tab_32_32_2048) (idct_32x8 0) = true := by decide +kernel

theorem idct_8x32_0_check : check (mkCx 8 32 32 8 0 tab_32_32_16 tab_8_8_2048) (idct_8x32 0) = true := by decide +kernel

theorem idct_32x32_avx2_0_check : check (mkCx 32 32 32 32 0 tab_32_32_16 tab_32_32_2048) (idct_32x32_avx2 0) = true := by decide +kernel

theorem idct_32x8_1_check : check (mkCx 32 8 8 32 1 tab_8_8_16 tab_32_32_1024) (idct_32x8 1) = true := by decide +kernel

theorem idct_8x32_1_check : check (mkCx 8 32 32 8 1 tab_32_32_16 tab_8_8_1024) (idct_8x32 1) = true := by decide +kernel

theorem idct_32x32_avx2_1_check : check (mkCx 32 32 32 32 1 tab_32_32_16 tab_32_32_1024) (idct_32x32_avx2 1) = true := by decide +kernel

end Davs2.Si

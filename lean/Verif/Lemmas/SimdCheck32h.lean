import Verif.Model.SimdIdct32
import Verif.Lemmas.SimdTabs
/-
The checks of the programs (evaluated by the kernel).
-/
namespace Davs2.Si

set_option maxRecDepth 100000

theorem idct_32x32_half_0_check : check (mkCx 32 32 16 16 0 tab_32_16_16 tab_32_16_2048) (idct_32x32_half 0) = true := by decide +kernel

theorem idct_32x32_quad_0_check : check (mkCx 32 32 8 8 0 tab_32_8_16 tab_32_8_2048) (idct_32x32_quad 0) = true := by decide +kernel

theorem idct_32x32_half_1_check : check (mkCx 32 32 16 16 1 tab_32_16_16 tab_32_16_1024) (idct_32x32_half 1) = true := by decide +kernel

theorem idct_32x32_quad_1_check : check (mkCx 32 32 8 8 1 tab_32_8_16 tab_32_8_1024) (idct_32x32_quad 1) = true := by decide +kernel

end Davs2.Si

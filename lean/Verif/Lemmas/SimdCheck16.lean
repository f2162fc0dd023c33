import Verif.Model.SimdIdct16
import Verif.Model.SimdIdctAvx
import Verif.Lemmas.SimdTabs
/-
The checks of the programs (evaluated by the kernel).
-/
namespace Davs2.Si

set_option maxRecDepth 100000

theorem idct_4x4_check : check (mkCx 4 4 4 4 0 tab_4_4_16 tab_4_4_2048) idct_4x4 = true := by decide +kernel

theorem idct_4x16_check : check (mkCx 4 16 16 4 0 tab_16_16_16 tab_4_4_2048) idct_4x16 = true := by decide +kernel

theorem idct_16x4_check : check (mkCx 16 4 4 16 0 tab_4_4_16 tab_16_16_2048) idct_16x4 = true := by decide +kernel

theorem idct_8x8_check : check (mkCx 8 8 8 8 0 tab_8_8_16 tab_8_8_2048) idct_8x8 = true := by decide +kernel

theorem idct_16x16_check : check (mkCx 16 16 16 16 0 tab_16_16_16 tab_16_16_2048) idct_16x16 = true := by decide +kernel

theorem idct_16x16_half_check : check (mkCx 16 16 8 8 0 tab_16_8_16 tab_16_8_2048) idct_16x16_half = true := by decide +kernel

theorem idct_16x16_quad_check : check (mkCx 16 16 4 4 0 tab_16_4_16 tab_16_4_2048) idct_16x16_quad = true := by decide +kernel

theorem idct_8x8_avx2_check : check (mkCx 8 8 8 8 0 tab_8_8_16 tab_8_8_2048) idct_8x8_avx2 = true := by decide +kernel

theorem idct_16x16_avx2_check : check (mkCx 16 16 16 16 0 tab_16_16_16 tab_16_16_2048) idct_16x16_avx2 = true := by decide +kernel

end Davs2.Si

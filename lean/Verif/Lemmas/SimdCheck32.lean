import Verif.Model.SimdIdct32
import Verif.Lemmas.SimdTabs
/-
The checks of the programs (evaluated by the kernel).
-/
namespace Davs2.Si

set_option maxRecDepth 100000

theorem idct_32x32_0_check : check (mkCx 32 32 32 32 0 tab_32_32_16 tab_32_32_2048) (idct_32x32 0) = true := by decide +kernel

theorem idct_32x32_1_check : check (mkCx 32 32 32 32 1 tab_32_32_16 tab_32_32_1024) (idct_32x32 1) = true := by decide +kernel

end Davs2.Si

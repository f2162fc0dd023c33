import Verif.Lemmas.SimdWave
import Verif.Model.SimdWavelet
/-
The check of Lemmas/SimdWave.lean on the wavelet programs.
-/
namespace Davs2.Si

set_option maxRecDepth 100000

theorem wavelet_64x64_check : checkW ⟨32, 32⟩ wavelet_64x64 = true := by decide +kernel
theorem wavelet_64x16_check : checkW ⟨32, 8⟩ wavelet_64x16 = true := by decide +kernel
theorem wavelet_16x64_check : checkW ⟨8, 32⟩ wavelet_16x64 = true := by decide +kernel
theorem wavelet_64x64_avx2_check : checkW ⟨32, 32⟩ wavelet_64x64_avx2 = true := by decide +kernel
theorem wavelet_64x16_avx2_check : checkW ⟨32, 8⟩ wavelet_64x16_avx2 = true := by decide +kernel
theorem wavelet_16x64_avx2_check : checkW ⟨8, 32⟩ wavelet_16x64_avx2 = true := by decide +kernel

end Davs2.Si

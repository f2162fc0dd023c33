import Verif.Lemmas.VpCheck
import Verif.Model.VpSseY
/-
The vector routines of directional prediction run on forms: kernel evaluations of the check of Lemmas/VpSym, one for each shape.
-/
namespace Davs2.Vp.Sym

theorem ck_y31S_4x4 : check y31S ⟨4, 4, 0, false⟩ 31 4 = true := by decide +kernel
theorem ck_y31S_8x8 : check y31S ⟨8, 8, 0, false⟩ 31 8 = true := by decide +kernel
theorem ck_y31S_16x16 : check y31S ⟨16, 16, 0, false⟩ 31 16 = true := by decide +kernel
theorem ck_y31S_32x32 : check y31S ⟨32, 32, 0, false⟩ 31 32 = true := by decide +kernel
theorem ck_y31S_64x64 : check y31S ⟨64, 64, 0, false⟩ 31 64 = true := by decide +kernel
theorem ck_y31S_16x4 : check y31S ⟨16, 4, 0, false⟩ 31 4 = true := by decide +kernel
theorem ck_y31S_4x16 : check y31S ⟨4, 16, 0, false⟩ 31 16 = true := by decide +kernel
theorem ck_y31S_32x8 : check y31S ⟨32, 8, 0, false⟩ 31 8 = true := by decide +kernel
theorem ck_y31S_8x32 : check y31S ⟨8, 32, 0, false⟩ 31 32 = true := by decide +kernel
theorem ck_y31S : Ck y31S 31 [(4, 4), (8, 8), (16, 16), (32, 32), (64, 64), (16, 4), (4, 16), (32, 8), (8, 32)] :=
  .cons ck_y31S_4x4 <| .cons ck_y31S_8x8 <| .cons ck_y31S_16x16 <| .cons ck_y31S_32x32 <| .cons ck_y31S_64x64 <| .cons ck_y31S_16x4 <| .cons ck_y31S_4x16 <| .cons ck_y31S_32x8 <| .cons ck_y31S_8x32 <| .nil

end Davs2.Vp.Sym

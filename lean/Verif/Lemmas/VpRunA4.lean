import Verif.Lemmas.VpCheck
import Verif.Model.VpAvxY
/-
The vector routines of directional prediction run on forms: kernel evaluations of the check of Lemmas/VpSym, one for each shape.
-/
namespace Davs2.Vp.Sym

theorem ck_y25A_4x4 : check y25A ⟨4, 4, 0, false⟩ 25 4 = true := by decide +kernel
theorem ck_y25A_8x8 : check y25A ⟨8, 8, 0, false⟩ 25 8 = true := by decide +kernel
theorem ck_y25A_16x16 : check y25A ⟨16, 16, 0, false⟩ 25 16 = true := by decide +kernel
theorem ck_y25A_32x32 : check y25A ⟨32, 32, 0, false⟩ 25 32 = true := by decide +kernel
theorem ck_y25A_64x64 : check y25A ⟨64, 64, 0, false⟩ 25 64 = true := by decide +kernel
theorem ck_y25A_16x4 : check y25A ⟨16, 4, 0, false⟩ 25 4 = true := by decide +kernel
theorem ck_y25A_4x16 : check y25A ⟨4, 16, 0, false⟩ 25 16 = true := by decide +kernel
theorem ck_y25A_32x8 : check y25A ⟨32, 8, 0, false⟩ 25 8 = true := by decide +kernel
theorem ck_y25A_8x32 : check y25A ⟨8, 32, 0, false⟩ 25 32 = true := by decide +kernel
theorem ck_y25A : Ck y25A 25 [(4, 4), (8, 8), (16, 16), (32, 32), (64, 64), (16, 4), (4, 16), (32, 8), (8, 32)] :=
  .cons ck_y25A_4x4 <| .cons ck_y25A_8x8 <| .cons ck_y25A_16x16 <| .cons ck_y25A_32x32 <| .cons ck_y25A_64x64 <| .cons ck_y25A_16x4 <| .cons ck_y25A_4x16 <| .cons ck_y25A_32x8 <| .cons ck_y25A_8x32 <| .nil

end Davs2.Vp.Sym

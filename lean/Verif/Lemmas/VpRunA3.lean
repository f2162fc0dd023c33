import Verif.Lemmas.VpCheck
import Verif.Model.VpAvxXY
/-
The vector routines of directional prediction run on forms: kernel evaluations of the check of Lemmas/VpSym, one for each shape.
-/
namespace Davs2.Vp.Sym

theorem ck_xy23A_4x4 : check xy23A ⟨4, 4, 0, false⟩ 23 4 = true := by decide +kernel
theorem ck_xy23A_8x8 : check xy23A ⟨8, 8, 0, false⟩ 23 8 = true := by decide +kernel
theorem ck_xy23A_16x16 : check xy23A ⟨16, 16, 0, false⟩ 23 16 = true := by decide +kernel
theorem ck_xy23A_32x32 : check xy23A ⟨32, 32, 0, false⟩ 23 32 = true := by decide +kernel
theorem ck_xy23A_64x64 : check xy23A ⟨64, 64, 0, false⟩ 23 64 = true := by decide +kernel
theorem ck_xy23A_16x4 : check xy23A ⟨16, 4, 0, false⟩ 23 4 = true := by decide +kernel
theorem ck_xy23A_4x16 : check xy23A ⟨4, 16, 0, false⟩ 23 16 = true := by decide +kernel
theorem ck_xy23A_32x8 : check xy23A ⟨32, 8, 0, false⟩ 23 8 = true := by decide +kernel
theorem ck_xy23A_8x32 : check xy23A ⟨8, 32, 0, false⟩ 23 32 = true := by decide +kernel
theorem ck_xy23A : Ck xy23A 23 [(4, 4), (8, 8), (16, 16), (32, 32), (64, 64), (16, 4), (4, 16), (32, 8), (8, 32)] :=
  .cons ck_xy23A_4x4 <| .cons ck_xy23A_8x8 <| .cons ck_xy23A_16x16 <| .cons ck_xy23A_32x32 <| .cons ck_xy23A_64x64 <| .cons ck_xy23A_16x4 <| .cons ck_xy23A_4x16 <| .cons ck_xy23A_32x8 <| .cons ck_xy23A_8x32 <| .nil

end Davs2.Vp.Sym

import Verif.Lemmas.VpCheck
import Verif.Model.VpSseXY
/-
The vector routines of directional prediction run on forms: kernel evaluations of the check of Lemmas/VpSym, one for each shape.
-/
namespace Davs2.Vp.Sym

theorem ck_xy13S_4x4 : check xy13S ⟨4, 4, 0, false⟩ 13 4 = true := by decide +kernel
theorem ck_xy13S_8x8 : check xy13S ⟨8, 8, 0, false⟩ 13 8 = true := by decide +kernel
theorem ck_xy13S_16x16 : check xy13S ⟨16, 16, 0, false⟩ 13 16 = true := by decide +kernel
theorem ck_xy13S_32x32 : check xy13S ⟨32, 32, 0, false⟩ 13 32 = true := by decide +kernel
theorem ck_xy13S_64x64 : check xy13S ⟨64, 64, 0, false⟩ 13 64 = true := by decide +kernel
theorem ck_xy13S_16x4 : check xy13S ⟨16, 4, 0, false⟩ 13 4 = true := by decide +kernel
theorem ck_xy13S_4x16 : check xy13S ⟨4, 16, 0, false⟩ 13 16 = true := by decide +kernel
theorem ck_xy13S_32x8 : check xy13S ⟨32, 8, 0, false⟩ 13 8 = true := by decide +kernel
theorem ck_xy13S_8x32 : check xy13S ⟨8, 32, 0, false⟩ 13 32 = true := by decide +kernel
theorem ck_xy13S : Ck xy13S 13 [(4, 4), (8, 8), (16, 16), (32, 32), (64, 64), (16, 4), (4, 16), (32, 8), (8, 32)] :=
  .cons ck_xy13S_4x4 <| .cons ck_xy13S_8x8 <| .cons ck_xy13S_16x16 <| .cons ck_xy13S_32x32 <| .cons ck_xy13S_64x64 <| .cons ck_xy13S_16x4 <| .cons ck_xy13S_4x16 <| .cons ck_xy13S_32x8 <| .cons ck_xy13S_8x32 <| .nil

theorem ck_xy14S_4x4 : check xy14S ⟨4, 4, 0, false⟩ 14 4 = true := by decide +kernel
theorem ck_xy14S_8x8 : check xy14S ⟨8, 8, 0, false⟩ 14 8 = true := by decide +kernel
theorem ck_xy14S_16x16 : check xy14S ⟨16, 16, 0, false⟩ 14 16 = true := by decide +kernel
theorem ck_xy14S_32x32 : check xy14S ⟨32, 32, 0, false⟩ 14 32 = true := by decide +kernel
theorem ck_xy14S_64x64 : check xy14S ⟨64, 64, 0, false⟩ 14 64 = true := by decide +kernel
theorem ck_xy14S_16x4 : check xy14S ⟨16, 4, 0, false⟩ 14 4 = true := by decide +kernel
theorem ck_xy14S_4x16 : check xy14S ⟨4, 16, 0, false⟩ 14 16 = true := by decide +kernel
theorem ck_xy14S_32x8 : check xy14S ⟨32, 8, 0, false⟩ 14 8 = true := by decide +kernel
theorem ck_xy14S_8x32 : check xy14S ⟨8, 32, 0, false⟩ 14 32 = true := by decide +kernel
theorem ck_xy14S : Ck xy14S 14 [(4, 4), (8, 8), (16, 16), (32, 32), (64, 64), (16, 4), (4, 16), (32, 8), (8, 32)] :=
  .cons ck_xy14S_4x4 <| .cons ck_xy14S_8x8 <| .cons ck_xy14S_16x16 <| .cons ck_xy14S_32x32 <| .cons ck_xy14S_64x64 <| .cons ck_xy14S_16x4 <| .cons ck_xy14S_4x16 <| .cons ck_xy14S_32x8 <| .cons ck_xy14S_8x32 <| .nil

end Davs2.Vp.Sym

import Verif.Lemmas.VpCheck
import Verif.Model.VpAvxY
/-
The vector routines of directional prediction run on forms: kernel evaluations of the check of Lemmas/VpSym, one for each shape.
-/
namespace Davs2.Vp.Sym

theorem ck_y26A_4x4 : check y26A ⟨4, 4, 0, false⟩ 26 4 = true := by decide +kernel
theorem ck_y26A_8x8 : check y26A ⟨8, 8, 0, false⟩ 26 8 = true := by decide +kernel
theorem ck_y26A_16x16 : check y26A ⟨16, 16, 0, false⟩ 26 16 = true := by decide +kernel
theorem ck_y26A_32x32 : check y26A ⟨32, 32, 0, false⟩ 26 32 = true := by decide +kernel
theorem ck_y26A_64x64 : check y26A ⟨64, 64, 0, false⟩ 26 64 = true := by decide +kernel
theorem ck_y26A_16x4 : check y26A ⟨16, 4, 0, false⟩ 26 4 = true := by decide +kernel
theorem ck_y26A_4x16 : check y26A ⟨4, 16, 0, false⟩ 26 16 = true := by decide +kernel
theorem ck_y26A_32x8 : check y26A ⟨32, 8, 0, false⟩ 26 8 = true := by decide +kernel
theorem ck_y26A_8x32 : check y26A ⟨8, 32, 0, false⟩ 26 32 = true := by decide +kernel
theorem ck_y26A : Ck y26A 26 [(4, 4), (8, 8), (16, 16), (32, 32), (64, 64), (16, 4), (4, 16), (32, 8), (8, 32)] :=
  .cons ck_y26A_4x4 <| .cons ck_y26A_8x8 <| .cons ck_y26A_16x16 <| .cons ck_y26A_32x32 <| .cons ck_y26A_64x64 <| .cons ck_y26A_16x4 <| .cons ck_y26A_4x16 <| .cons ck_y26A_32x8 <| .cons ck_y26A_8x32 <| .nil

theorem ck_y28A_4x4 : check y28A ⟨4, 4, 0, false⟩ 28 4 = true := by decide +kernel
theorem ck_y28A_8x8 : check y28A ⟨8, 8, 0, false⟩ 28 8 = true := by decide +kernel
theorem ck_y28A_16x16 : check y28A ⟨16, 16, 0, false⟩ 28 16 = true := by decide +kernel
theorem ck_y28A_32x32 : check y28A ⟨32, 32, 0, false⟩ 28 32 = true := by decide +kernel
theorem ck_y28A_64x64 : check y28A ⟨64, 64, 0, false⟩ 28 64 = true := by decide +kernel
theorem ck_y28A_16x4 : check y28A ⟨16, 4, 0, false⟩ 28 4 = true := by decide +kernel
theorem ck_y28A_4x16 : check y28A ⟨4, 16, 0, false⟩ 28 16 = true := by decide +kernel
theorem ck_y28A_32x8 : check y28A ⟨32, 8, 0, false⟩ 28 8 = true := by decide +kernel
theorem ck_y28A_8x32 : check y28A ⟨8, 32, 0, false⟩ 28 32 = true := by decide +kernel
theorem ck_y28A : Ck y28A 28 [(4, 4), (8, 8), (16, 16), (32, 32), (64, 64), (16, 4), (4, 16), (32, 8), (8, 32)] :=
  .cons ck_y28A_4x4 <| .cons ck_y28A_8x8 <| .cons ck_y28A_16x16 <| .cons ck_y28A_32x32 <| .cons ck_y28A_64x64 <| .cons ck_y28A_16x4 <| .cons ck_y28A_4x16 <| .cons ck_y28A_32x8 <| .cons ck_y28A_8x32 <| .nil

theorem ck_y30A_4x4 : check y30A ⟨4, 4, 0, false⟩ 30 4 = true := by decide +kernel
theorem ck_y30A_8x8 : check y30A ⟨8, 8, 0, false⟩ 30 8 = true := by decide +kernel
theorem ck_y30A_16x16 : check y30A ⟨16, 16, 0, false⟩ 30 16 = true := by decide +kernel
theorem ck_y30A_32x32 : check y30A ⟨32, 32, 0, false⟩ 30 32 = true := by decide +kernel
theorem ck_y30A_64x64 : check y30A ⟨64, 64, 0, false⟩ 30 64 = true := by decide +kernel
theorem ck_y30A_16x4 : check y30A ⟨16, 4, 0, false⟩ 30 4 = true := by decide +kernel
theorem ck_y30A_4x16 : check y30A ⟨4, 16, 0, false⟩ 30 16 = true := by decide +kernel
theorem ck_y30A_32x8 : check y30A ⟨32, 8, 0, false⟩ 30 8 = true := by decide +kernel
theorem ck_y30A_8x32 : check y30A ⟨8, 32, 0, false⟩ 30 32 = true := by decide +kernel
theorem ck_y30A : Ck y30A 30 [(4, 4), (8, 8), (16, 16), (32, 32), (64, 64), (16, 4), (4, 16), (32, 8), (8, 32)] :=
  .cons ck_y30A_4x4 <| .cons ck_y30A_8x8 <| .cons ck_y30A_16x16 <| .cons ck_y30A_32x32 <| .cons ck_y30A_64x64 <| .cons ck_y30A_16x4 <| .cons ck_y30A_4x16 <| .cons ck_y30A_32x8 <| .cons ck_y30A_8x32 <| .nil

theorem ck_y32A_8x8 : check y32A ⟨8, 8, 0, false⟩ 32 8 = true := by decide +kernel
theorem ck_y32A_16x16 : check y32A ⟨16, 16, 0, false⟩ 32 16 = true := by decide +kernel
theorem ck_y32A_32x32 : check y32A ⟨32, 32, 0, false⟩ 32 32 = true := by decide +kernel
theorem ck_y32A_64x64 : check y32A ⟨64, 64, 0, false⟩ 32 64 = true := by decide +kernel
theorem ck_y32A_4x16 : check y32A ⟨4, 16, 0, false⟩ 32 16 = true := by decide +kernel
theorem ck_y32A_32x8 : check y32A ⟨32, 8, 0, false⟩ 32 8 = true := by decide +kernel
theorem ck_y32A_8x32 : check y32A ⟨8, 32, 0, false⟩ 32 32 = true := by decide +kernel
theorem ck_y32A : Ck y32A 32 [(8, 8), (16, 16), (32, 32), (64, 64), (4, 16), (32, 8), (8, 32)] :=
  .cons ck_y32A_8x8 <| .cons ck_y32A_16x16 <| .cons ck_y32A_32x32 <| .cons ck_y32A_64x64 <| .cons ck_y32A_4x16 <| .cons ck_y32A_32x8 <| .cons ck_y32A_8x32 <| .nil
theorem ck_y32A_4_4 : check y32A ⟨4, 8, 2, true⟩ 32 4 = true := by decide +kernel
theorem ck_y32A_16_4 : check y32A ⟨16, 8, 2, true⟩ 32 4 = true := by decide +kernel

end Davs2.Vp.Sym

import Verif.Lemmas.VpCheck
import Verif.Model.VpSseY
/-
The vector routines of directional prediction run on forms: kernel evaluations of the check of Lemmas/VpSym, one for each shape.
-/
namespace Davs2.Vp.Sym

theorem ck_y25S_4x4 : check y25S ⟨4, 4, 0, false⟩ 25 4 = true := by decide +kernel
theorem ck_y25S_8x8 : check y25S ⟨8, 8, 0, false⟩ 25 8 = true := by decide +kernel
theorem ck_y25S_16x16 : check y25S ⟨16, 16, 0, false⟩ 25 16 = true := by decide +kernel
theorem ck_y25S_32x32 : check y25S ⟨32, 32, 0, false⟩ 25 32 = true := by decide +kernel
theorem ck_y25S_64x64 : check y25S ⟨64, 64, 0, false⟩ 25 64 = true := by decide +kernel
theorem ck_y25S_16x4 : check y25S ⟨16, 4, 0, false⟩ 25 4 = true := by decide +kernel
theorem ck_y25S_4x16 : check y25S ⟨4, 16, 0, false⟩ 25 16 = true := by decide +kernel
theorem ck_y25S_32x8 : check y25S ⟨32, 8, 0, false⟩ 25 8 = true := by decide +kernel
theorem ck_y25S_8x32 : check y25S ⟨8, 32, 0, false⟩ 25 32 = true := by decide +kernel
theorem ck_y25S : Ck y25S 25 [(4, 4), (8, 8), (16, 16), (32, 32), (64, 64), (16, 4), (4, 16), (32, 8), (8, 32)] :=
  .cons ck_y25S_4x4 <| .cons ck_y25S_8x8 <| .cons ck_y25S_16x16 <| .cons ck_y25S_32x32 <| .cons ck_y25S_64x64 <| .cons ck_y25S_16x4 <| .cons ck_y25S_4x16 <| .cons ck_y25S_32x8 <| .cons ck_y25S_8x32 <| .nil

theorem ck_y26S_4x4 : check y26S ⟨4, 4, 0, false⟩ 26 4 = true := by decide +kernel
theorem ck_y26S_8x8 : check y26S ⟨8, 8, 0, false⟩ 26 8 = true := by decide +kernel
theorem ck_y26S_16x16 : check y26S ⟨16, 16, 0, false⟩ 26 16 = true := by decide +kernel
theorem ck_y26S_32x32 : check y26S ⟨32, 32, 0, false⟩ 26 32 = true := by decide +kernel
theorem ck_y26S_64x64 : check y26S ⟨64, 64, 0, false⟩ 26 64 = true := by decide +kernel
theorem ck_y26S_16x4 : check y26S ⟨16, 4, 0, false⟩ 26 4 = true := by decide +kernel
theorem ck_y26S_4x16 : check y26S ⟨4, 16, 0, false⟩ 26 16 = true := by decide +kernel
theorem ck_y26S_32x8 : check y26S ⟨32, 8, 0, false⟩ 26 8 = true := by decide +kernel
theorem ck_y26S_8x32 : check y26S ⟨8, 32, 0, false⟩ 26 32 = true := by decide +kernel
theorem ck_y26S : Ck y26S 26 [(4, 4), (8, 8), (16, 16), (32, 32), (64, 64), (16, 4), (4, 16), (32, 8), (8, 32)] :=
  .cons ck_y26S_4x4 <| .cons ck_y26S_8x8 <| .cons ck_y26S_16x16 <| .cons ck_y26S_32x32 <| .cons ck_y26S_64x64 <| .cons ck_y26S_16x4 <| .cons ck_y26S_4x16 <| .cons ck_y26S_32x8 <| .cons ck_y26S_8x32 <| .nil

theorem ck_y28S_4x4 : check y28S ⟨4, 4, 0, false⟩ 28 4 = true := by decide +kernel
theorem ck_y28S_8x8 : check y28S ⟨8, 8, 0, false⟩ 28 8 = true := by decide +kernel
theorem ck_y28S_16x16 : check y28S ⟨16, 16, 0, false⟩ 28 16 = true := by decide +kernel
theorem ck_y28S_32x32 : check y28S ⟨32, 32, 0, false⟩ 28 32 = true := by decide +kernel
theorem ck_y28S_64x64 : check y28S ⟨64, 64, 0, false⟩ 28 64 = true := by decide +kernel
theorem ck_y28S_16x4 : check y28S ⟨16, 4, 0, false⟩ 28 4 = true := by decide +kernel
theorem ck_y28S_4x16 : check y28S ⟨4, 16, 0, false⟩ 28 16 = true := by decide +kernel
theorem ck_y28S_32x8 : check y28S ⟨32, 8, 0, false⟩ 28 8 = true := by decide +kernel
theorem ck_y28S_8x32 : check y28S ⟨8, 32, 0, false⟩ 28 32 = true := by decide +kernel
theorem ck_y28S : Ck y28S 28 [(4, 4), (8, 8), (16, 16), (32, 32), (64, 64), (16, 4), (4, 16), (32, 8), (8, 32)] :=
  .cons ck_y28S_4x4 <| .cons ck_y28S_8x8 <| .cons ck_y28S_16x16 <| .cons ck_y28S_32x32 <| .cons ck_y28S_64x64 <| .cons ck_y28S_16x4 <| .cons ck_y28S_4x16 <| .cons ck_y28S_32x8 <| .cons ck_y28S_8x32 <| .nil

theorem ck_y30S_4x4 : check y30S ⟨4, 4, 0, false⟩ 30 4 = true := by decide +kernel
theorem ck_y30S_8x8 : check y30S ⟨8, 8, 0, false⟩ 30 8 = true := by decide +kernel
theorem ck_y30S_16x16 : check y30S ⟨16, 16, 0, false⟩ 30 16 = true := by decide +kernel
theorem ck_y30S_32x32 : check y30S ⟨32, 32, 0, false⟩ 30 32 = true := by decide +kernel
theorem ck_y30S_64x64 : check y30S ⟨64, 64, 0, false⟩ 30 64 = true := by decide +kernel
theorem ck_y30S_16x4 : check y30S ⟨16, 4, 0, false⟩ 30 4 = true := by decide +kernel
theorem ck_y30S_4x16 : check y30S ⟨4, 16, 0, false⟩ 30 16 = true := by decide +kernel
theorem ck_y30S_32x8 : check y30S ⟨32, 8, 0, false⟩ 30 8 = true := by decide +kernel
theorem ck_y30S_8x32 : check y30S ⟨8, 32, 0, false⟩ 30 32 = true := by decide +kernel
theorem ck_y30S : Ck y30S 30 [(4, 4), (8, 8), (16, 16), (32, 32), (64, 64), (16, 4), (4, 16), (32, 8), (8, 32)] :=
  .cons ck_y30S_4x4 <| .cons ck_y30S_8x8 <| .cons ck_y30S_16x16 <| .cons ck_y30S_32x32 <| .cons ck_y30S_64x64 <| .cons ck_y30S_16x4 <| .cons ck_y30S_4x16 <| .cons ck_y30S_32x8 <| .cons ck_y30S_8x32 <| .nil

theorem ck_y32S_4x4 : check y32S ⟨4, 4, 0, false⟩ 32 4 = true := by decide +kernel
theorem ck_y32S_8x8 : check y32S ⟨8, 8, 0, false⟩ 32 8 = true := by decide +kernel
theorem ck_y32S_16x16 : check y32S ⟨16, 16, 0, false⟩ 32 16 = true := by decide +kernel
theorem ck_y32S_32x32 : check y32S ⟨32, 32, 0, false⟩ 32 32 = true := by decide +kernel
theorem ck_y32S_64x64 : check y32S ⟨64, 64, 0, false⟩ 32 64 = true := by decide +kernel
theorem ck_y32S_16x4 : check y32S ⟨16, 4, 0, false⟩ 32 4 = true := by decide +kernel
theorem ck_y32S_4x16 : check y32S ⟨4, 16, 0, false⟩ 32 16 = true := by decide +kernel
theorem ck_y32S_32x8 : check y32S ⟨32, 8, 0, false⟩ 32 8 = true := by decide +kernel
theorem ck_y32S_8x32 : check y32S ⟨8, 32, 0, false⟩ 32 32 = true := by decide +kernel
theorem ck_y32S : Ck y32S 32 [(4, 4), (8, 8), (16, 16), (32, 32), (64, 64), (16, 4), (4, 16), (32, 8), (8, 32)] :=
  .cons ck_y32S_4x4 <| .cons ck_y32S_8x8 <| .cons ck_y32S_16x16 <| .cons ck_y32S_32x32 <| .cons ck_y32S_64x64 <| .cons ck_y32S_16x4 <| .cons ck_y32S_4x16 <| .cons ck_y32S_32x8 <| .cons ck_y32S_8x32 <| .nil

end Davs2.Vp.Sym

import Verif.Lemmas.VpCheck
import Verif.Model.VpSseXY
/-
The vector routines of directional prediction run on forms: kernel evaluations of the check of Lemmas/VpSym, one for each shape.
-/
namespace Davs2.Vp.Sym

theorem ck_xy16S_4x4 : check xy16S ⟨4, 4, 0, false⟩ 16 4 = true := by decide +kernel
theorem ck_xy16S_8x8 : check xy16S ⟨8, 8, 0, false⟩ 16 8 = true := by decide +kernel
theorem ck_xy16S_16x16 : check xy16S ⟨16, 16, 0, false⟩ 16 16 = true := by decide +kernel
theorem ck_xy16S_32x32 : check xy16S ⟨32, 32, 0, false⟩ 16 32 = true := by decide +kernel
theorem ck_xy16S_64x64 : check xy16S ⟨64, 64, 0, false⟩ 16 64 = true := by decide +kernel
theorem ck_xy16S_16x4 : check xy16S ⟨16, 4, 0, false⟩ 16 4 = true := by decide +kernel
theorem ck_xy16S_4x16 : check xy16S ⟨4, 16, 0, false⟩ 16 16 = true := by decide +kernel
theorem ck_xy16S_32x8 : check xy16S ⟨32, 8, 0, false⟩ 16 8 = true := by decide +kernel
theorem ck_xy16S_8x32 : check xy16S ⟨8, 32, 0, false⟩ 16 32 = true := by decide +kernel
theorem ck_xy16S : Ck xy16S 16 [(4, 4), (8, 8), (16, 16), (32, 32), (64, 64), (16, 4), (4, 16), (32, 8), (8, 32)] :=
  .cons ck_xy16S_4x4 <| .cons ck_xy16S_8x8 <| .cons ck_xy16S_16x16 <| .cons ck_xy16S_32x32 <| .cons ck_xy16S_64x64 <| .cons ck_xy16S_16x4 <| .cons ck_xy16S_4x16 <| .cons ck_xy16S_32x8 <| .cons ck_xy16S_8x32 <| .nil

theorem ck_xy18S_4x4 : check xy18S ⟨4, 4, 0, false⟩ 18 4 = true := by decide +kernel
theorem ck_xy18S_8x8 : check xy18S ⟨8, 8, 0, false⟩ 18 8 = true := by decide +kernel
theorem ck_xy18S_16x16 : check xy18S ⟨16, 16, 0, false⟩ 18 16 = true := by decide +kernel
theorem ck_xy18S_32x32 : check xy18S ⟨32, 32, 0, false⟩ 18 32 = true := by decide +kernel
theorem ck_xy18S_64x64 : check xy18S ⟨64, 64, 0, false⟩ 18 64 = true := by decide +kernel
theorem ck_xy18S_16x4 : check xy18S ⟨16, 4, 0, false⟩ 18 4 = true := by decide +kernel
theorem ck_xy18S_4x16 : check xy18S ⟨4, 16, 0, false⟩ 18 16 = true := by decide +kernel
theorem ck_xy18S_32x8 : check xy18S ⟨32, 8, 0, false⟩ 18 8 = true := by decide +kernel
theorem ck_xy18S_8x32 : check xy18S ⟨8, 32, 0, false⟩ 18 32 = true := by decide +kernel
theorem ck_xy18S : Ck xy18S 18 [(4, 4), (8, 8), (16, 16), (32, 32), (64, 64), (16, 4), (4, 16), (32, 8), (8, 32)] :=
  .cons ck_xy18S_4x4 <| .cons ck_xy18S_8x8 <| .cons ck_xy18S_16x16 <| .cons ck_xy18S_32x32 <| .cons ck_xy18S_64x64 <| .cons ck_xy18S_16x4 <| .cons ck_xy18S_4x16 <| .cons ck_xy18S_32x8 <| .cons ck_xy18S_8x32 <| .nil

theorem ck_xy20S_4x4 : check xy20S ⟨4, 4, 0, false⟩ 20 4 = true := by decide +kernel
theorem ck_xy20S_8x8 : check xy20S ⟨8, 8, 0, false⟩ 20 8 = true := by decide +kernel
theorem ck_xy20S_16x16 : check xy20S ⟨16, 16, 0, false⟩ 20 16 = true := by decide +kernel
theorem ck_xy20S_32x32 : check xy20S ⟨32, 32, 0, false⟩ 20 32 = true := by decide +kernel
theorem ck_xy20S_64x64 : check xy20S ⟨64, 64, 0, false⟩ 20 64 = true := by decide +kernel
theorem ck_xy20S_16x4 : check xy20S ⟨16, 4, 0, false⟩ 20 4 = true := by decide +kernel
theorem ck_xy20S_4x16 : check xy20S ⟨4, 16, 0, false⟩ 20 16 = true := by decide +kernel
theorem ck_xy20S_32x8 : check xy20S ⟨32, 8, 0, false⟩ 20 8 = true := by decide +kernel
theorem ck_xy20S_8x32 : check xy20S ⟨8, 32, 0, false⟩ 20 32 = true := by decide +kernel
theorem ck_xy20S : Ck xy20S 20 [(4, 4), (8, 8), (16, 16), (32, 32), (64, 64), (16, 4), (4, 16), (32, 8), (8, 32)] :=
  .cons ck_xy20S_4x4 <| .cons ck_xy20S_8x8 <| .cons ck_xy20S_16x16 <| .cons ck_xy20S_32x32 <| .cons ck_xy20S_64x64 <| .cons ck_xy20S_16x4 <| .cons ck_xy20S_4x16 <| .cons ck_xy20S_32x8 <| .cons ck_xy20S_8x32 <| .nil

theorem ck_xy22S_4x4 : check xy22S ⟨4, 4, 0, false⟩ 22 4 = true := by decide +kernel
theorem ck_xy22S_8x8 : check xy22S ⟨8, 8, 0, false⟩ 22 8 = true := by decide +kernel
theorem ck_xy22S_16x16 : check xy22S ⟨16, 16, 0, false⟩ 22 16 = true := by decide +kernel
theorem ck_xy22S_32x32 : check xy22S ⟨32, 32, 0, false⟩ 22 32 = true := by decide +kernel
theorem ck_xy22S_64x64 : check xy22S ⟨64, 64, 0, false⟩ 22 64 = true := by decide +kernel
theorem ck_xy22S_16x4 : check xy22S ⟨16, 4, 0, false⟩ 22 4 = true := by decide +kernel
theorem ck_xy22S_4x16 : check xy22S ⟨4, 16, 0, false⟩ 22 16 = true := by decide +kernel
theorem ck_xy22S_32x8 : check xy22S ⟨32, 8, 0, false⟩ 22 8 = true := by decide +kernel
theorem ck_xy22S_8x32 : check xy22S ⟨8, 32, 0, false⟩ 22 32 = true := by decide +kernel
theorem ck_xy22S : Ck xy22S 22 [(4, 4), (8, 8), (16, 16), (32, 32), (64, 64), (16, 4), (4, 16), (32, 8), (8, 32)] :=
  .cons ck_xy22S_4x4 <| .cons ck_xy22S_8x8 <| .cons ck_xy22S_16x16 <| .cons ck_xy22S_32x32 <| .cons ck_xy22S_64x64 <| .cons ck_xy22S_16x4 <| .cons ck_xy22S_4x16 <| .cons ck_xy22S_32x8 <| .cons ck_xy22S_8x32 <| .nil

theorem ck_xy23S_4x4 : check xy23S ⟨4, 4, 0, false⟩ 23 4 = true := by decide +kernel
theorem ck_xy23S_8x8 : check xy23S ⟨8, 8, 0, false⟩ 23 8 = true := by decide +kernel
theorem ck_xy23S_16x16 : check xy23S ⟨16, 16, 0, false⟩ 23 16 = true := by decide +kernel
theorem ck_xy23S_32x32 : check xy23S ⟨32, 32, 0, false⟩ 23 32 = true := by decide +kernel
theorem ck_xy23S_64x64 : check xy23S ⟨64, 64, 0, false⟩ 23 64 = true := by decide +kernel
theorem ck_xy23S_16x4 : check xy23S ⟨16, 4, 0, false⟩ 23 4 = true := by decide +kernel
theorem ck_xy23S_4x16 : check xy23S ⟨4, 16, 0, false⟩ 23 16 = true := by decide +kernel
theorem ck_xy23S_32x8 : check xy23S ⟨32, 8, 0, false⟩ 23 8 = true := by decide +kernel
theorem ck_xy23S_8x32 : check xy23S ⟨8, 32, 0, false⟩ 23 32 = true := by decide +kernel
theorem ck_xy23S : Ck xy23S 23 [(4, 4), (8, 8), (16, 16), (32, 32), (64, 64), (16, 4), (4, 16), (32, 8), (8, 32)] :=
  .cons ck_xy23S_4x4 <| .cons ck_xy23S_8x8 <| .cons ck_xy23S_16x16 <| .cons ck_xy23S_32x32 <| .cons ck_xy23S_64x64 <| .cons ck_xy23S_16x4 <| .cons ck_xy23S_4x16 <| .cons ck_xy23S_32x8 <| .cons ck_xy23S_8x32 <| .nil

end Davs2.Vp.Sym

import Verif.Lemmas.VpCheck
import Verif.Model.VpAvxXY
/-
The vector routines of directional prediction run on forms: kernel evaluations of the check of Lemmas/VpSym, one for each shape.
-/
namespace Davs2.Vp.Sym

theorem ck_xy13A_4x4 : check xy13A ⟨4, 4, 0, false⟩ 13 4 = true := by decide +kernel
theorem ck_xy13A_8x8 : check xy13A ⟨8, 8, 0, false⟩ 13 8 = true := by decide +kernel
theorem ck_xy13A_16x16 : check xy13A ⟨16, 16, 0, false⟩ 13 16 = true := by decide +kernel
theorem ck_xy13A_16x4 : check xy13A ⟨16, 4, 0, false⟩ 13 4 = true := by decide +kernel
theorem ck_xy13A_4x16 : check xy13A ⟨4, 16, 0, false⟩ 13 16 = true := by decide +kernel
theorem ck_xy13A_8x32 : check xy13A ⟨8, 32, 0, false⟩ 13 32 = true := by decide +kernel
theorem ck_xy13A : Ck xy13A 13 [(4, 4), (8, 8), (16, 16), (16, 4), (4, 16), (8, 32)] :=
  .cons ck_xy13A_4x4 <| .cons ck_xy13A_8x8 <| .cons ck_xy13A_16x16 <| .cons ck_xy13A_16x4 <| .cons ck_xy13A_4x16 <| .cons ck_xy13A_8x32 <| .nil
theorem ck_xy13A_32_32 : check xy13A ⟨32, 32, 0, true⟩ 13 32 = true := by decide +kernel
theorem ck_xy13A_64_64 : check xy13A ⟨64, 64, 0, true⟩ 13 64 = true := by decide +kernel
theorem ck_xy13A_32_8 : check xy13A ⟨32, 8, 0, true⟩ 13 8 = true := by decide +kernel

theorem ck_xy14A_4x4 : check xy14A ⟨4, 4, 0, false⟩ 14 4 = true := by decide +kernel
theorem ck_xy14A_8x8 : check xy14A ⟨8, 8, 0, false⟩ 14 8 = true := by decide +kernel
theorem ck_xy14A_16x16 : check xy14A ⟨16, 16, 0, false⟩ 14 16 = true := by decide +kernel
theorem ck_xy14A_32x32 : check xy14A ⟨32, 32, 0, false⟩ 14 32 = true := by decide +kernel
theorem ck_xy14A_64x64 : check xy14A ⟨64, 64, 0, false⟩ 14 64 = true := by decide +kernel
theorem ck_xy14A_16x4 : check xy14A ⟨16, 4, 0, false⟩ 14 4 = true := by decide +kernel
theorem ck_xy14A_4x16 : check xy14A ⟨4, 16, 0, false⟩ 14 16 = true := by decide +kernel
theorem ck_xy14A_32x8 : check xy14A ⟨32, 8, 0, false⟩ 14 8 = true := by decide +kernel
theorem ck_xy14A_8x32 : check xy14A ⟨8, 32, 0, false⟩ 14 32 = true := by decide +kernel
theorem ck_xy14A : Ck xy14A 14 [(4, 4), (8, 8), (16, 16), (32, 32), (64, 64), (16, 4), (4, 16), (32, 8), (8, 32)] :=
  .cons ck_xy14A_4x4 <| .cons ck_xy14A_8x8 <| .cons ck_xy14A_16x16 <| .cons ck_xy14A_32x32 <| .cons ck_xy14A_64x64 <| .cons ck_xy14A_16x4 <| .cons ck_xy14A_4x16 <| .cons ck_xy14A_32x8 <| .cons ck_xy14A_8x32 <| .nil

theorem ck_xy16A_8x8 : check xy16A ⟨8, 8, 0, false⟩ 16 8 = true := by decide +kernel
theorem ck_xy16A_16x16 : check xy16A ⟨16, 16, 0, false⟩ 16 16 = true := by decide +kernel
theorem ck_xy16A_32x32 : check xy16A ⟨32, 32, 0, false⟩ 16 32 = true := by decide +kernel
theorem ck_xy16A_64x64 : check xy16A ⟨64, 64, 0, false⟩ 16 64 = true := by decide +kernel
theorem ck_xy16A_4x16 : check xy16A ⟨4, 16, 0, false⟩ 16 16 = true := by decide +kernel
theorem ck_xy16A_32x8 : check xy16A ⟨32, 8, 0, false⟩ 16 8 = true := by decide +kernel
theorem ck_xy16A_8x32 : check xy16A ⟨8, 32, 0, false⟩ 16 32 = true := by decide +kernel
theorem ck_xy16A : Ck xy16A 16 [(8, 8), (16, 16), (32, 32), (64, 64), (4, 16), (32, 8), (8, 32)] :=
  .cons ck_xy16A_8x8 <| .cons ck_xy16A_16x16 <| .cons ck_xy16A_32x32 <| .cons ck_xy16A_64x64 <| .cons ck_xy16A_4x16 <| .cons ck_xy16A_32x8 <| .cons ck_xy16A_8x32 <| .nil
theorem ck_xy16A_4_4 : check xy16A ⟨4, 8, 2, true⟩ 16 4 = true := by decide +kernel
theorem ck_xy16A_16_4 : check xy16A ⟨16, 8, 2, true⟩ 16 4 = true := by decide +kernel

theorem ck_xy18A_4x4 : check xy18A ⟨4, 4, 0, false⟩ 18 4 = true := by decide +kernel
theorem ck_xy18A_8x8 : check xy18A ⟨8, 8, 0, false⟩ 18 8 = true := by decide +kernel
theorem ck_xy18A_16x16 : check xy18A ⟨16, 16, 0, false⟩ 18 16 = true := by decide +kernel
theorem ck_xy18A_32x32 : check xy18A ⟨32, 32, 0, false⟩ 18 32 = true := by decide +kernel
theorem ck_xy18A_64x64 : check xy18A ⟨64, 64, 0, false⟩ 18 64 = true := by decide +kernel
theorem ck_xy18A_16x4 : check xy18A ⟨16, 4, 0, false⟩ 18 4 = true := by decide +kernel
theorem ck_xy18A_4x16 : check xy18A ⟨4, 16, 0, false⟩ 18 16 = true := by decide +kernel
theorem ck_xy18A_32x8 : check xy18A ⟨32, 8, 0, false⟩ 18 8 = true := by decide +kernel
theorem ck_xy18A_8x32 : check xy18A ⟨8, 32, 0, false⟩ 18 32 = true := by decide +kernel
theorem ck_xy18A : Ck xy18A 18 [(4, 4), (8, 8), (16, 16), (32, 32), (64, 64), (16, 4), (4, 16), (32, 8), (8, 32)] :=
  .cons ck_xy18A_4x4 <| .cons ck_xy18A_8x8 <| .cons ck_xy18A_16x16 <| .cons ck_xy18A_32x32 <| .cons ck_xy18A_64x64 <| .cons ck_xy18A_16x4 <| .cons ck_xy18A_4x16 <| .cons ck_xy18A_32x8 <| .cons ck_xy18A_8x32 <| .nil

theorem ck_xy20A_4x4 : check xy20A ⟨4, 4, 0, false⟩ 20 4 = true := by decide +kernel
theorem ck_xy20A_8x8 : check xy20A ⟨8, 8, 0, false⟩ 20 8 = true := by decide +kernel
theorem ck_xy20A_16x16 : check xy20A ⟨16, 16, 0, false⟩ 20 16 = true := by decide +kernel
theorem ck_xy20A_32x32 : check xy20A ⟨32, 32, 0, false⟩ 20 32 = true := by decide +kernel
theorem ck_xy20A_64x64 : check xy20A ⟨64, 64, 0, false⟩ 20 64 = true := by decide +kernel
theorem ck_xy20A_16x4 : check xy20A ⟨16, 4, 0, false⟩ 20 4 = true := by decide +kernel
theorem ck_xy20A_4x16 : check xy20A ⟨4, 16, 0, false⟩ 20 16 = true := by decide +kernel
theorem ck_xy20A_32x8 : check xy20A ⟨32, 8, 0, false⟩ 20 8 = true := by decide +kernel
theorem ck_xy20A_8x32 : check xy20A ⟨8, 32, 0, false⟩ 20 32 = true := by decide +kernel
theorem ck_xy20A : Ck xy20A 20 [(4, 4), (8, 8), (16, 16), (32, 32), (64, 64), (16, 4), (4, 16), (32, 8), (8, 32)] :=
  .cons ck_xy20A_4x4 <| .cons ck_xy20A_8x8 <| .cons ck_xy20A_16x16 <| .cons ck_xy20A_32x32 <| .cons ck_xy20A_64x64 <| .cons ck_xy20A_16x4 <| .cons ck_xy20A_4x16 <| .cons ck_xy20A_32x8 <| .cons ck_xy20A_8x32 <| .nil

theorem ck_xy22A_4x4 : check xy22A ⟨4, 4, 0, false⟩ 22 4 = true := by decide +kernel
theorem ck_xy22A_8x8 : check xy22A ⟨8, 8, 0, false⟩ 22 8 = true := by decide +kernel
theorem ck_xy22A_16x16 : check xy22A ⟨16, 16, 0, false⟩ 22 16 = true := by decide +kernel
theorem ck_xy22A_32x32 : check xy22A ⟨32, 32, 0, false⟩ 22 32 = true := by decide +kernel
theorem ck_xy22A_64x64 : check xy22A ⟨64, 64, 0, false⟩ 22 64 = true := by decide +kernel
theorem ck_xy22A_16x4 : check xy22A ⟨16, 4, 0, false⟩ 22 4 = true := by decide +kernel
theorem ck_xy22A_4x16 : check xy22A ⟨4, 16, 0, false⟩ 22 16 = true := by decide +kernel
theorem ck_xy22A_32x8 : check xy22A ⟨32, 8, 0, false⟩ 22 8 = true := by decide +kernel
theorem ck_xy22A_8x32 : check xy22A ⟨8, 32, 0, false⟩ 22 32 = true := by decide +kernel
theorem ck_xy22A : Ck xy22A 22 [(4, 4), (8, 8), (16, 16), (32, 32), (64, 64), (16, 4), (4, 16), (32, 8), (8, 32)] :=
  .cons ck_xy22A_4x4 <| .cons ck_xy22A_8x8 <| .cons ck_xy22A_16x16 <| .cons ck_xy22A_32x32 <| .cons ck_xy22A_64x64 <| .cons ck_xy22A_16x4 <| .cons ck_xy22A_4x16 <| .cons ck_xy22A_32x8 <| .cons ck_xy22A_8x32 <| .nil

end Davs2.Vp.Sym

import Verif.Lemmas.VpCheck
import Verif.Model.VpSseX
/-
The vector routines of directional prediction run on forms: kernel evaluations of the check of Lemmas/VpSym, one for each shape.
-/
namespace Davs2.Vp.Sym

theorem ck_verS_4x4 : check verS ⟨4, 4, 0, false⟩ 12 4 = true := by decide +kernel
theorem ck_verS_8x8 : check verS ⟨8, 8, 0, false⟩ 12 8 = true := by decide +kernel
theorem ck_verS_16x16 : check verS ⟨16, 16, 0, false⟩ 12 16 = true := by decide +kernel
theorem ck_verS_32x32 : check verS ⟨32, 32, 0, false⟩ 12 32 = true := by decide +kernel
theorem ck_verS_64x64 : check verS ⟨64, 64, 0, false⟩ 12 64 = true := by decide +kernel
theorem ck_verS_16x4 : check verS ⟨16, 4, 0, false⟩ 12 4 = true := by decide +kernel
theorem ck_verS_4x16 : check verS ⟨4, 16, 0, false⟩ 12 16 = true := by decide +kernel
theorem ck_verS_32x8 : check verS ⟨32, 8, 0, false⟩ 12 8 = true := by decide +kernel
theorem ck_verS_8x32 : check verS ⟨8, 32, 0, false⟩ 12 32 = true := by decide +kernel
theorem ck_verS : Ck verS 12 [(4, 4), (8, 8), (16, 16), (32, 32), (64, 64), (16, 4), (4, 16), (32, 8), (8, 32)] :=
  .cons ck_verS_4x4 <| .cons ck_verS_8x8 <| .cons ck_verS_16x16 <| .cons ck_verS_32x32 <| .cons ck_verS_64x64 <| .cons ck_verS_16x4 <| .cons ck_verS_4x16 <| .cons ck_verS_32x8 <| .cons ck_verS_8x32 <| .nil

theorem ck_horS_4x4 : check horS ⟨4, 4, 0, false⟩ 24 4 = true := by decide +kernel
theorem ck_horS_8x8 : check horS ⟨8, 8, 0, false⟩ 24 8 = true := by decide +kernel
theorem ck_horS_16x16 : check horS ⟨16, 16, 0, false⟩ 24 16 = true := by decide +kernel
theorem ck_horS_32x32 : check horS ⟨32, 32, 0, false⟩ 24 32 = true := by decide +kernel
theorem ck_horS_64x64 : check horS ⟨64, 64, 0, false⟩ 24 64 = true := by decide +kernel
theorem ck_horS_16x4 : check horS ⟨16, 4, 0, false⟩ 24 4 = true := by decide +kernel
theorem ck_horS_4x16 : check horS ⟨4, 16, 0, false⟩ 24 16 = true := by decide +kernel
theorem ck_horS_32x8 : check horS ⟨32, 8, 0, false⟩ 24 8 = true := by decide +kernel
theorem ck_horS_8x32 : check horS ⟨8, 32, 0, false⟩ 24 32 = true := by decide +kernel
theorem ck_horS : Ck horS 24 [(4, 4), (8, 8), (16, 16), (32, 32), (64, 64), (16, 4), (4, 16), (32, 8), (8, 32)] :=
  .cons ck_horS_4x4 <| .cons ck_horS_8x8 <| .cons ck_horS_16x16 <| .cons ck_horS_32x32 <| .cons ck_horS_64x64 <| .cons ck_horS_16x4 <| .cons ck_horS_4x16 <| .cons ck_horS_32x8 <| .cons ck_horS_8x32 <| .nil

theorem ck_x3S_4x4 : check x3S ⟨4, 4, 0, false⟩ 3 4 = true := by decide +kernel
theorem ck_x3S_8x8 : check x3S ⟨8, 8, 0, false⟩ 3 8 = true := by decide +kernel
theorem ck_x3S_16x16 : check x3S ⟨16, 16, 0, false⟩ 3 16 = true := by decide +kernel
theorem ck_x3S_32x32 : check x3S ⟨32, 32, 0, false⟩ 3 32 = true := by decide +kernel
theorem ck_x3S_64x64 : check x3S ⟨64, 64, 0, false⟩ 3 64 = true := by decide +kernel
theorem ck_x3S_16x4 : check x3S ⟨16, 4, 0, false⟩ 3 4 = true := by decide +kernel
theorem ck_x3S_4x16 : check x3S ⟨4, 16, 0, false⟩ 3 16 = true := by decide +kernel
theorem ck_x3S_32x8 : check x3S ⟨32, 8, 0, false⟩ 3 8 = true := by decide +kernel
theorem ck_x3S_8x32 : check x3S ⟨8, 32, 0, false⟩ 3 32 = true := by decide +kernel
theorem ck_x3S : Ck x3S 3 [(4, 4), (8, 8), (16, 16), (32, 32), (64, 64), (16, 4), (4, 16), (32, 8), (8, 32)] :=
  .cons ck_x3S_4x4 <| .cons ck_x3S_8x8 <| .cons ck_x3S_16x16 <| .cons ck_x3S_32x32 <| .cons ck_x3S_64x64 <| .cons ck_x3S_16x4 <| .cons ck_x3S_4x16 <| .cons ck_x3S_32x8 <| .cons ck_x3S_8x32 <| .nil

theorem ck_x4S_4x4 : check x4S ⟨4, 4, 0, false⟩ 4 4 = true := by decide +kernel
theorem ck_x4S_8x8 : check x4S ⟨8, 8, 0, false⟩ 4 8 = true := by decide +kernel
theorem ck_x4S_16x16 : check x4S ⟨16, 16, 0, false⟩ 4 16 = true := by decide +kernel
theorem ck_x4S_32x32 : check x4S ⟨32, 32, 0, false⟩ 4 32 = true := by decide +kernel
theorem ck_x4S_64x64 : check x4S ⟨64, 64, 0, false⟩ 4 64 = true := by decide +kernel
theorem ck_x4S_16x4 : check x4S ⟨16, 4, 0, false⟩ 4 4 = true := by decide +kernel
theorem ck_x4S_4x16 : check x4S ⟨4, 16, 0, false⟩ 4 16 = true := by decide +kernel
theorem ck_x4S_32x8 : check x4S ⟨32, 8, 0, false⟩ 4 8 = true := by decide +kernel
theorem ck_x4S_8x32 : check x4S ⟨8, 32, 0, false⟩ 4 32 = true := by decide +kernel
theorem ck_x4S : Ck x4S 4 [(4, 4), (8, 8), (16, 16), (32, 32), (64, 64), (16, 4), (4, 16), (32, 8), (8, 32)] :=
  .cons ck_x4S_4x4 <| .cons ck_x4S_8x8 <| .cons ck_x4S_16x16 <| .cons ck_x4S_32x32 <| .cons ck_x4S_64x64 <| .cons ck_x4S_16x4 <| .cons ck_x4S_4x16 <| .cons ck_x4S_32x8 <| .cons ck_x4S_8x32 <| .nil

theorem ck_x5S_4x4 : check x5S ⟨4, 4, 0, false⟩ 5 4 = true := by decide +kernel
theorem ck_x5S_8x8 : check x5S ⟨8, 8, 0, false⟩ 5 8 = true := by decide +kernel
theorem ck_x5S_16x16 : check x5S ⟨16, 16, 0, false⟩ 5 16 = true := by decide +kernel
theorem ck_x5S_32x32 : check x5S ⟨32, 32, 0, false⟩ 5 32 = true := by decide +kernel
theorem ck_x5S_64x64 : check x5S ⟨64, 64, 0, false⟩ 5 64 = true := by decide +kernel
theorem ck_x5S_16x4 : check x5S ⟨16, 4, 0, false⟩ 5 4 = true := by decide +kernel
theorem ck_x5S_4x16 : check x5S ⟨4, 16, 0, false⟩ 5 16 = true := by decide +kernel
theorem ck_x5S_32x8 : check x5S ⟨32, 8, 0, false⟩ 5 8 = true := by decide +kernel
theorem ck_x5S_8x32 : check x5S ⟨8, 32, 0, false⟩ 5 32 = true := by decide +kernel
theorem ck_x5S : Ck x5S 5 [(4, 4), (8, 8), (16, 16), (32, 32), (64, 64), (16, 4), (4, 16), (32, 8), (8, 32)] :=
  .cons ck_x5S_4x4 <| .cons ck_x5S_8x8 <| .cons ck_x5S_16x16 <| .cons ck_x5S_32x32 <| .cons ck_x5S_64x64 <| .cons ck_x5S_16x4 <| .cons ck_x5S_4x16 <| .cons ck_x5S_32x8 <| .cons ck_x5S_8x32 <| .nil

theorem ck_x6S_4x4 : check x6S ⟨4, 4, 0, false⟩ 6 4 = true := by decide +kernel
theorem ck_x6S_8x8 : check x6S ⟨8, 8, 0, false⟩ 6 8 = true := by decide +kernel
theorem ck_x6S_16x16 : check x6S ⟨16, 16, 0, false⟩ 6 16 = true := by decide +kernel
theorem ck_x6S_32x32 : check x6S ⟨32, 32, 0, false⟩ 6 32 = true := by decide +kernel
theorem ck_x6S_64x64 : check x6S ⟨64, 64, 0, false⟩ 6 64 = true := by decide +kernel
theorem ck_x6S_16x4 : check x6S ⟨16, 4, 0, false⟩ 6 4 = true := by decide +kernel
theorem ck_x6S_4x16 : check x6S ⟨4, 16, 0, false⟩ 6 16 = true := by decide +kernel
theorem ck_x6S_32x8 : check x6S ⟨32, 8, 0, false⟩ 6 8 = true := by decide +kernel
theorem ck_x6S_8x32 : check x6S ⟨8, 32, 0, false⟩ 6 32 = true := by decide +kernel
theorem ck_x6S : Ck x6S 6 [(4, 4), (8, 8), (16, 16), (32, 32), (64, 64), (16, 4), (4, 16), (32, 8), (8, 32)] :=
  .cons ck_x6S_4x4 <| .cons ck_x6S_8x8 <| .cons ck_x6S_16x16 <| .cons ck_x6S_32x32 <| .cons ck_x6S_64x64 <| .cons ck_x6S_16x4 <| .cons ck_x6S_4x16 <| .cons ck_x6S_32x8 <| .cons ck_x6S_8x32 <| .nil

theorem ck_x8S_4x4 : check x8S ⟨4, 4, 0, false⟩ 8 4 = true := by decide +kernel
theorem ck_x8S_8x8 : check x8S ⟨8, 8, 0, false⟩ 8 8 = true := by decide +kernel
theorem ck_x8S_16x16 : check x8S ⟨16, 16, 0, false⟩ 8 16 = true := by decide +kernel
theorem ck_x8S_32x32 : check x8S ⟨32, 32, 0, false⟩ 8 32 = true := by decide +kernel
theorem ck_x8S_64x64 : check x8S ⟨64, 64, 0, false⟩ 8 64 = true := by decide +kernel
theorem ck_x8S_16x4 : check x8S ⟨16, 4, 0, false⟩ 8 4 = true := by decide +kernel
theorem ck_x8S_4x16 : check x8S ⟨4, 16, 0, false⟩ 8 16 = true := by decide +kernel
theorem ck_x8S_32x8 : check x8S ⟨32, 8, 0, false⟩ 8 8 = true := by decide +kernel
theorem ck_x8S_8x32 : check x8S ⟨8, 32, 0, false⟩ 8 32 = true := by decide +kernel
theorem ck_x8S : Ck x8S 8 [(4, 4), (8, 8), (16, 16), (32, 32), (64, 64), (16, 4), (4, 16), (32, 8), (8, 32)] :=
  .cons ck_x8S_4x4 <| .cons ck_x8S_8x8 <| .cons ck_x8S_16x16 <| .cons ck_x8S_32x32 <| .cons ck_x8S_64x64 <| .cons ck_x8S_16x4 <| .cons ck_x8S_4x16 <| .cons ck_x8S_32x8 <| .cons ck_x8S_8x32 <| .nil

theorem ck_x10S_4x4 : check x10S ⟨4, 4, 0, false⟩ 10 4 = true := by decide +kernel
theorem ck_x10S_8x8 : check x10S ⟨8, 8, 0, false⟩ 10 8 = true := by decide +kernel
theorem ck_x10S_16x16 : check x10S ⟨16, 16, 0, false⟩ 10 16 = true := by decide +kernel
theorem ck_x10S_32x32 : check x10S ⟨32, 32, 0, false⟩ 10 32 = true := by decide +kernel
theorem ck_x10S_64x64 : check x10S ⟨64, 64, 0, false⟩ 10 64 = true := by decide +kernel
theorem ck_x10S_16x4 : check x10S ⟨16, 4, 0, false⟩ 10 4 = true := by decide +kernel
theorem ck_x10S_4x16 : check x10S ⟨4, 16, 0, false⟩ 10 16 = true := by decide +kernel
theorem ck_x10S_32x8 : check x10S ⟨32, 8, 0, false⟩ 10 8 = true := by decide +kernel
theorem ck_x10S_8x32 : check x10S ⟨8, 32, 0, false⟩ 10 32 = true := by decide +kernel
theorem ck_x10S : Ck x10S 10 [(4, 4), (8, 8), (16, 16), (32, 32), (64, 64), (16, 4), (4, 16), (32, 8), (8, 32)] :=
  .cons ck_x10S_4x4 <| .cons ck_x10S_8x8 <| .cons ck_x10S_16x16 <| .cons ck_x10S_32x32 <| .cons ck_x10S_64x64 <| .cons ck_x10S_16x4 <| .cons ck_x10S_4x16 <| .cons ck_x10S_32x8 <| .cons ck_x10S_8x32 <| .nil

end Davs2.Vp.Sym

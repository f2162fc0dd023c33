import Verif.Lemmas.VpCheck
import Verif.Model.VpAvxX
/-
The vector routines of directional prediction run on forms: kernel evaluations of the check of Lemmas/VpSym, one for each shape.
-/
namespace Davs2.Vp.Sym

theorem ck_verA_4x4 : check verA ⟨4, 4, 0, false⟩ 12 4 = true := by decide +kernel
theorem ck_verA_8x8 : check verA ⟨8, 8, 0, false⟩ 12 8 = true := by decide +kernel
theorem ck_verA_16x16 : check verA ⟨16, 16, 0, false⟩ 12 16 = true := by decide +kernel
theorem ck_verA_32x32 : check verA ⟨32, 32, 0, false⟩ 12 32 = true := by decide +kernel
theorem ck_verA_64x64 : check verA ⟨64, 64, 0, false⟩ 12 64 = true := by decide +kernel
theorem ck_verA_16x4 : check verA ⟨16, 4, 0, false⟩ 12 4 = true := by decide +kernel
theorem ck_verA_4x16 : check verA ⟨4, 16, 0, false⟩ 12 16 = true := by decide +kernel
theorem ck_verA_32x8 : check verA ⟨32, 8, 0, false⟩ 12 8 = true := by decide +kernel
theorem ck_verA_8x32 : check verA ⟨8, 32, 0, false⟩ 12 32 = true := by decide +kernel
theorem ck_verA : Ck verA 12 [(4, 4), (8, 8), (16, 16), (32, 32), (64, 64), (16, 4), (4, 16), (32, 8), (8, 32)] :=
  .cons ck_verA_4x4 <| .cons ck_verA_8x8 <| .cons ck_verA_16x16 <| .cons ck_verA_32x32 <| .cons ck_verA_64x64 <| .cons ck_verA_16x4 <| .cons ck_verA_4x16 <| .cons ck_verA_32x8 <| .cons ck_verA_8x32 <| .nil

theorem ck_horA_4x4 : check horA ⟨4, 4, 0, false⟩ 24 4 = true := by decide +kernel
theorem ck_horA_8x8 : check horA ⟨8, 8, 0, false⟩ 24 8 = true := by decide +kernel
theorem ck_horA_16x16 : check horA ⟨16, 16, 0, false⟩ 24 16 = true := by decide +kernel
theorem ck_horA_32x32 : check horA ⟨32, 32, 0, false⟩ 24 32 = true := by decide +kernel
theorem ck_horA_64x64 : check horA ⟨64, 64, 0, false⟩ 24 64 = true := by decide +kernel
theorem ck_horA_16x4 : check horA ⟨16, 4, 0, false⟩ 24 4 = true := by decide +kernel
theorem ck_horA_4x16 : check horA ⟨4, 16, 0, false⟩ 24 16 = true := by decide +kernel
theorem ck_horA_32x8 : check horA ⟨32, 8, 0, false⟩ 24 8 = true := by decide +kernel
theorem ck_horA_8x32 : check horA ⟨8, 32, 0, false⟩ 24 32 = true := by decide +kernel
theorem ck_horA : Ck horA 24 [(4, 4), (8, 8), (16, 16), (32, 32), (64, 64), (16, 4), (4, 16), (32, 8), (8, 32)] :=
  .cons ck_horA_4x4 <| .cons ck_horA_8x8 <| .cons ck_horA_16x16 <| .cons ck_horA_32x32 <| .cons ck_horA_64x64 <| .cons ck_horA_16x4 <| .cons ck_horA_4x16 <| .cons ck_horA_32x8 <| .cons ck_horA_8x32 <| .nil

theorem ck_x3A_4x4 : check x3A ⟨4, 4, 0, false⟩ 3 4 = true := by decide +kernel
theorem ck_x3A_8x8 : check x3A ⟨8, 8, 0, false⟩ 3 8 = true := by decide +kernel
theorem ck_x3A_16x16 : check x3A ⟨16, 16, 0, false⟩ 3 16 = true := by decide +kernel
theorem ck_x3A_32x32 : check x3A ⟨32, 32, 0, false⟩ 3 32 = true := by decide +kernel
theorem ck_x3A_64x64 : check x3A ⟨64, 64, 0, false⟩ 3 64 = true := by decide +kernel
theorem ck_x3A_16x4 : check x3A ⟨16, 4, 0, false⟩ 3 4 = true := by decide +kernel
theorem ck_x3A_4x16 : check x3A ⟨4, 16, 0, false⟩ 3 16 = true := by decide +kernel
theorem ck_x3A_32x8 : check x3A ⟨32, 8, 0, false⟩ 3 8 = true := by decide +kernel
theorem ck_x3A_8x32 : check x3A ⟨8, 32, 0, false⟩ 3 32 = true := by decide +kernel
theorem ck_x3A : Ck x3A 3 [(4, 4), (8, 8), (16, 16), (32, 32), (64, 64), (16, 4), (4, 16), (32, 8), (8, 32)] :=
  .cons ck_x3A_4x4 <| .cons ck_x3A_8x8 <| .cons ck_x3A_16x16 <| .cons ck_x3A_32x32 <| .cons ck_x3A_64x64 <| .cons ck_x3A_16x4 <| .cons ck_x3A_4x16 <| .cons ck_x3A_32x8 <| .cons ck_x3A_8x32 <| .nil

theorem ck_x4A_4x4 : check x4A ⟨4, 4, 0, false⟩ 4 4 = true := by decide +kernel
theorem ck_x4A_8x8 : check x4A ⟨8, 8, 0, false⟩ 4 8 = true := by decide +kernel
theorem ck_x4A_16x16 : check x4A ⟨16, 16, 0, false⟩ 4 16 = true := by decide +kernel
theorem ck_x4A_32x32 : check x4A ⟨32, 32, 0, false⟩ 4 32 = true := by decide +kernel
theorem ck_x4A_64x64 : check x4A ⟨64, 64, 0, false⟩ 4 64 = true := by decide +kernel
theorem ck_x4A_16x4 : check x4A ⟨16, 4, 0, false⟩ 4 4 = true := by decide +kernel
theorem ck_x4A_4x16 : check x4A ⟨4, 16, 0, false⟩ 4 16 = true := by decide +kernel
theorem ck_x4A_32x8 : check x4A ⟨32, 8, 0, false⟩ 4 8 = true := by decide +kernel
theorem ck_x4A_8x32 : check x4A ⟨8, 32, 0, false⟩ 4 32 = true := by decide +kernel
theorem ck_x4A : Ck x4A 4 [(4, 4), (8, 8), (16, 16), (32, 32), (64, 64), (16, 4), (4, 16), (32, 8), (8, 32)] :=
  .cons ck_x4A_4x4 <| .cons ck_x4A_8x8 <| .cons ck_x4A_16x16 <| .cons ck_x4A_32x32 <| .cons ck_x4A_64x64 <| .cons ck_x4A_16x4 <| .cons ck_x4A_4x16 <| .cons ck_x4A_32x8 <| .cons ck_x4A_8x32 <| .nil

theorem ck_x5A_4x4 : check x5A ⟨4, 4, 0, false⟩ 5 4 = true := by decide +kernel
theorem ck_x5A_8x8 : check x5A ⟨8, 8, 0, false⟩ 5 8 = true := by decide +kernel
theorem ck_x5A_16x16 : check x5A ⟨16, 16, 0, false⟩ 5 16 = true := by decide +kernel
theorem ck_x5A_32x32 : check x5A ⟨32, 32, 0, false⟩ 5 32 = true := by decide +kernel
theorem ck_x5A_64x64 : check x5A ⟨64, 64, 0, false⟩ 5 64 = true := by decide +kernel
theorem ck_x5A_16x4 : check x5A ⟨16, 4, 0, false⟩ 5 4 = true := by decide +kernel
theorem ck_x5A_4x16 : check x5A ⟨4, 16, 0, false⟩ 5 16 = true := by decide +kernel
theorem ck_x5A_32x8 : check x5A ⟨32, 8, 0, false⟩ 5 8 = true := by decide +kernel
theorem ck_x5A_8x32 : check x5A ⟨8, 32, 0, false⟩ 5 32 = true := by decide +kernel
theorem ck_x5A : Ck x5A 5 [(4, 4), (8, 8), (16, 16), (32, 32), (64, 64), (16, 4), (4, 16), (32, 8), (8, 32)] :=
  .cons ck_x5A_4x4 <| .cons ck_x5A_8x8 <| .cons ck_x5A_16x16 <| .cons ck_x5A_32x32 <| .cons ck_x5A_64x64 <| .cons ck_x5A_16x4 <| .cons ck_x5A_4x16 <| .cons ck_x5A_32x8 <| .cons ck_x5A_8x32 <| .nil

theorem ck_x6A_4x4 : check x6A ⟨4, 4, 0, false⟩ 6 4 = true := by decide +kernel
theorem ck_x6A_8x8 : check x6A ⟨8, 8, 0, false⟩ 6 8 = true := by decide +kernel
theorem ck_x6A_16x16 : check x6A ⟨16, 16, 0, false⟩ 6 16 = true := by decide +kernel
theorem ck_x6A_32x32 : check x6A ⟨32, 32, 0, false⟩ 6 32 = true := by decide +kernel
theorem ck_x6A_64x64 : check x6A ⟨64, 64, 0, false⟩ 6 64 = true := by decide +kernel
theorem ck_x6A_16x4 : check x6A ⟨16, 4, 0, false⟩ 6 4 = true := by decide +kernel
theorem ck_x6A_4x16 : check x6A ⟨4, 16, 0, false⟩ 6 16 = true := by decide +kernel
theorem ck_x6A_32x8 : check x6A ⟨32, 8, 0, false⟩ 6 8 = true := by decide +kernel
theorem ck_x6A_8x32 : check x6A ⟨8, 32, 0, false⟩ 6 32 = true := by decide +kernel
theorem ck_x6A : Ck x6A 6 [(4, 4), (8, 8), (16, 16), (32, 32), (64, 64), (16, 4), (4, 16), (32, 8), (8, 32)] :=
  .cons ck_x6A_4x4 <| .cons ck_x6A_8x8 <| .cons ck_x6A_16x16 <| .cons ck_x6A_32x32 <| .cons ck_x6A_64x64 <| .cons ck_x6A_16x4 <| .cons ck_x6A_4x16 <| .cons ck_x6A_32x8 <| .cons ck_x6A_8x32 <| .nil

theorem ck_x8A_8x8 : check x8A ⟨8, 8, 0, false⟩ 8 8 = true := by decide +kernel
theorem ck_x8A_16x16 : check x8A ⟨16, 16, 0, false⟩ 8 16 = true := by decide +kernel
theorem ck_x8A_32x32 : check x8A ⟨32, 32, 0, false⟩ 8 32 = true := by decide +kernel
theorem ck_x8A_64x64 : check x8A ⟨64, 64, 0, false⟩ 8 64 = true := by decide +kernel
theorem ck_x8A_4x16 : check x8A ⟨4, 16, 0, false⟩ 8 16 = true := by decide +kernel
theorem ck_x8A_32x8 : check x8A ⟨32, 8, 0, false⟩ 8 8 = true := by decide +kernel
theorem ck_x8A_8x32 : check x8A ⟨8, 32, 0, false⟩ 8 32 = true := by decide +kernel
theorem ck_x8A : Ck x8A 8 [(8, 8), (16, 16), (32, 32), (64, 64), (4, 16), (32, 8), (8, 32)] :=
  .cons ck_x8A_8x8 <| .cons ck_x8A_16x16 <| .cons ck_x8A_32x32 <| .cons ck_x8A_64x64 <| .cons ck_x8A_4x16 <| .cons ck_x8A_32x8 <| .cons ck_x8A_8x32 <| .nil
theorem ck_x8A_4_4 : check x8A ⟨4, 8, 2, true⟩ 8 4 = true := by decide +kernel
theorem ck_x8A_16_4 : check x8A ⟨16, 8, 2, true⟩ 8 4 = true := by decide +kernel

theorem ck_x10A_4x4 : check x10A ⟨4, 4, 0, false⟩ 10 4 = true := by decide +kernel
theorem ck_x10A_8x8 : check x10A ⟨8, 8, 0, false⟩ 10 8 = true := by decide +kernel
theorem ck_x10A_16x16 : check x10A ⟨16, 16, 0, false⟩ 10 16 = true := by decide +kernel
theorem ck_x10A_32x32 : check x10A ⟨32, 32, 0, false⟩ 10 32 = true := by decide +kernel
theorem ck_x10A_64x64 : check x10A ⟨64, 64, 0, false⟩ 10 64 = true := by decide +kernel
theorem ck_x10A_16x4 : check x10A ⟨16, 4, 0, false⟩ 10 4 = true := by decide +kernel
theorem ck_x10A_4x16 : check x10A ⟨4, 16, 0, false⟩ 10 16 = true := by decide +kernel
theorem ck_x10A_32x8 : check x10A ⟨32, 8, 0, false⟩ 10 8 = true := by decide +kernel
theorem ck_x10A_8x32 : check x10A ⟨8, 32, 0, false⟩ 10 32 = true := by decide +kernel
theorem ck_x10A : Ck x10A 10 [(4, 4), (8, 8), (16, 16), (32, 32), (64, 64), (16, 4), (4, 16), (32, 8), (8, 32)] :=
  .cons ck_x10A_4x4 <| .cons ck_x10A_8x8 <| .cons ck_x10A_16x16 <| .cons ck_x10A_32x32 <| .cons ck_x10A_64x64 <| .cons ck_x10A_16x4 <| .cons ck_x10A_4x16 <| .cons ck_x10A_32x8 <| .cons ck_x10A_8x32 <| .nil

end Davs2.Vp.Sym

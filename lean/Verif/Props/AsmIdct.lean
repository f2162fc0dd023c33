import Verif.Lemmas.AsmIdct8
import Verif.Props.SimdIdct
import Verif.Props.VecAdd
/-
C105: the assembler versions of the inverse transforms of 4x4 and 8x8.
-/
namespace Davs2.Si

open Davs2.Vc Davs2.Spec Finset

/-- The table has assembler for two sizes only. -/
theorem asm_part {cpu : Cpu} {part : Part} {pat : Pat} (h : table cpu part pat = .asm) : part = .p4x4 ∨ part = .p8x8 := by
  obtain ⟨a, b, c⟩ := cpu
  cases part <;> cases pat <;> cases a <;> cases b <;> cases c <;> first | exact Or.inl rfl | exact Or.inr rfl | cases h

/-- What the assembler function in the table leaves in the array, before any limit. -/
theorem asm_raw {cpu : Cpu} {part : Part} {pat : Pat} (h : table cpu part pat = .asm) : Raw part.w part.h (asmIdct cpu part) := by
  rcases asm_part h with rfl | rfl
  · exact asm_4x4_raw
  · show Raw 8 8 fun s => if cpu.ssse3 then asm_8x8_ssse3 s else (exec asm_8x8_sse2 s).mem
    cases cpu.ssse3
    · exact asm_8x8_sse2_raw
    · exact asm_8x8_ssse3_raw

/-- **C105 (residual).**  On every processor, for every block whose transform is in assembler: started with arbitrary registers on arbitrary coefficients of 16 bits, the
function leaves in the array numbers of at most 14 bits and a sign, which limited to 9 bits are exactly the inverse transform as defined, and changes nothing behind the block. -/
theorem C105_residual (cpu : Cpu) (part : Part) (pat : Pat) (h : table cpu part pat = .asm) (c : Nat → Int) (s : St)
    (hc : ∀ a < part.w * part.h, -32768 ≤ c a ∧ c a ≤ 32767) (hs : ∀ a < part.w * part.h, s.mem a = c a) :
    (∀ y < part.outH, ∀ x < part.outW, limitBits 9 (asmIdct cpu part s (y * part.outW + x)) = part.result c y x ∧
      |asmIdct cpu part s (y * part.outW + x)| ≤ 11521) ∧
    ∀ a, part.outW * part.outH ≤ a → asmIdct cpu part s a = s.mem a := by
  have hr := asm_raw h c s hc hs
  have hw : part.w ≤ 32 ∧ part.outW = part.w ∧ part.outH = part.h ∧ part.wave = false := by
    rcases asm_part h with rfl | rfl <;> decide
  obtain ⟨hw, e1, e2, e3⟩ := hw
  rw [e1, e2]
  refine ⟨fun y hy x hx => ?_, hr.2⟩
  rw [hr.1 y hy x hx]
  refine ⟨?_, raw_bound hw c y x⟩
  rw [raw_limit]
  unfold Part.result
  rw [e3]
  rfl

/-- Saturation to a sample absorbs the limit to 9 bits. -/
theorem sat8_limit {p r : Int} (hp : 0 ≤ p ∧ p ≤ 255) : Rec.Spec.sat8 (p + r) = Rec.Spec.sat8 (p + limitBits 9 r) := by
  unfold Rec.Spec.sat8 limitBits
  norm_num
  omega

/-- **C105 (samples).**  The residual of the assembler function, added to the prediction on any processor: each sample is the prediction plus the residual
as defined, saturated; the rest of the picture stays as it is.  `coef` is the array with the residual, `ss` its stride. -/
theorem C105_samples (cpu : Cpu) (part : Part) (pat : Pat) (h : table cpu part pat = .asm) (k : Nat → Int) (s : St)
    (hk : ∀ a < part.w * part.h, -32768 ≤ k a ∧ k a ≤ 32767) (hs : ∀ a < part.w * part.h, s.mem a = k a)
    (cpu' : Va.Cpu) (reg : Nat → V) (coef m : Int → Int) (a ds c ss : Int) (hw : (part.outW : Int) ≤ ds) (hm : ∀ z, 0 ≤ m z ∧ m z ≤ 255)
    (h16 : ∀ z, -32768 ≤ coef z ∧ coef z ≤ 32767)
    (hc : ∀ x y : Nat, x < part.outW → y < part.outH → coef (c + y * ss + x) = asmIdct cpu part s (y * part.outW + x)) :
    (∀ x y : Nat, x < part.outW → y < part.outH → Va.addPs cpu' reg coef part.outW part.outH m a ds c ss (a + y * ds + x) =
      Rec.Spec.sat8 (m (a + y * ds + x) + part.result k y x)) ∧
    ∀ z, (∀ x y : Nat, x < part.outW → y < part.outH → a + (y : Int) * ds + x ≠ z) →
      Va.addPs cpu' reg coef part.outW part.outH m a ds c ss z = m z := by
  obtain ⟨hr, _⟩ := C105_residual cpu part pat h k s hk hs
  rw [Va.C104_same_as_c cpu' reg coef m _ _ a ds c ss hw hm h16 fun y hy x hx => by
    rw [hc x y hx hy]
    have := (abs_le.1 (hr y hy x hx).2).2
    omega]
  obtain ⟨c1, c2⟩ := Rec.C39_recon coef part.outW part.outH m a ds c ss hw
  refine ⟨fun x y hx hy => ?_, c2⟩
  rw [c1 x y hx hy, hc x y hx hy, sat8_limit (hm _), (hr y hy x hx).1]

/-- **C105 (agreement with the C functions).**  The picture is the one that the C functions of the transform and of the addition give. -/
theorem C105_same_as_c (cpu : Cpu) (part : Part) (pat : Pat) (h : table cpu part pat = .asm) (k : Nat → Int) (s : St) (b : Davs2.Tr.Buf)
    (hk : ∀ a < part.w * part.h, -32768 ≤ k a ∧ k a ≤ 32767) (hs : ∀ a < part.w * part.h, s.mem a = k a)
    (hb : ∀ a < part.w * part.h, b a = some (k a))
    (cpu' : Va.Cpu) (reg : Nat → V) (coef coef' m : Int → Int) (a ds c ss : Int) (hw : (part.outW : Int) ≤ ds) (hm : ∀ z, 0 ≤ m z ∧ m z ≤ 255)
    (h16 : ∀ z, -32768 ≤ coef z ∧ coef z ≤ 32767)
    (hc : ∀ x y : Nat, x < part.outW → y < part.outH → coef (c + y * ss + x) = asmIdct cpu part s (y * part.outW + x))
    (hc' : ∀ x y : Nat, x < part.outW → y < part.outH → cIdct part b (y * part.outW + x) = some (coef' (c + y * ss + x))) :
    Va.addPs cpu' reg coef part.outW part.outH m a ds c ss = Rec.addPs coef' part.outW part.outH m a ds c ss := by
  obtain ⟨h1, h2⟩ := C105_samples cpu part pat h k s hk hs cpu' reg coef m a ds c ss hw hm h16 hc
  obtain ⟨c1, c2⟩ := Rec.C39_recon coef' part.outW part.outH m a ds c ss hw
  have key : ∀ x y : Nat, x < part.outW → y < part.outH → coef' (c + y * ss + x) = part.result k y x := by
    intro x y hx hy
    have hb' : Davs2.Tr.IsBlock (part.w * part.h) k b := fun a ha => ⟨hb a ha, hk a ha⟩
    have hsz : Davs2.Tr.IsSize part.w ∧ Davs2.Tr.IsSize part.h := by
      unfold Davs2.Tr.IsSize
      cases part <;> decide
    have e := hc' x y hx hy
    have e' : cIdct part b (y * part.outW + x) = some (part.result k y x) := by
      rcases asm_part h with rfl | rfl
      all_goals exact Davs2.Tr.C38_idct hsz.1 hsz.2 (by omega) hb' hy hx
    rw [e'] at e
    exact (Option.some.inj e).symm
  funext z
  by_cases hz : ∃ x y : Nat, x < part.outW ∧ y < part.outH ∧ a + (y : Int) * ds + x = z
  · obtain ⟨x, y, hx, hy, rfl⟩ := hz
    rw [h1 x y hx hy, c1 x y hx hy, key x y hx hy]
  · rw [h2 z fun x y hx hy e => hz ⟨x, y, hx, hy, e⟩, c2 z fun x y hx hy e => hz ⟨x, y, hx, hy, e⟩]

/-- The limit is really missing: a block with the coefficient 32767 alone has the residual 255 by definition, and the assembler leaves 256. -/
theorem C105_not_limited : invDct 4 4 0 (fun a => if a = 0 then 32767 else 0) 0 0 = 255 ∧
    (exec asm_4x4 ⟨fun _ _ => 0, fun a => if a = 0 then 32767 else 0⟩).mem 0 = 256 := by
  constructor
  · decide +kernel
  · have := (asm_4x4_raw (fun a => if a = 0 then 32767 else 0) ⟨fun _ _ => 0, fun a => if a = 0 then 32767 else 0⟩
      (fun a _ => by split <;> omega) (fun _ _ => rfl)).1 0 (by omega) 0 (by omega)
    rw [show (0 : Nat) * 4 + 0 = 0 from rfl] at this
    exact this.trans (by decide +kernel)

/-- Which blocks: those of 4x4 on every processor with SSE2 and, without AVX2, those of 8x8 with all coefficients. -/
theorem C105_where : ∀ (avx2 ssse3 : Bool) (pat : Pat), table ⟨true, ssse3, avx2⟩ .p4x4 pat = .asm ∧
    (avx2 = false → table ⟨true, ssse3, avx2⟩ .p8x8 .full = .asm) := by
  intro a b p
  cases a <;> cases b <;> cases p <;> exact ⟨rfl, fun h => by first | rfl | cases h⟩

/-- A block of 8x8 on a processor with SSSE3, the coefficients from -32768 on in steps of 1000. -/
example : limitBits 9 (asmIdct ⟨true, true, false⟩ .p8x8 ⟨fun _ _ => 7, fun a => if a < 64 then 1000 * a - 32768 else 5⟩ (3 * 8 + 2)) =
    invDct 8 8 0 (fun a => 1000 * a - 32768) 3 2 :=
  ((C105_residual ⟨true, true, false⟩ .p8x8 .full ((C105_where false true .full).2 rfl) (fun a => 1000 * a - 32768)
    ⟨fun _ _ => 7, fun a => if a < 64 then 1000 * a - 32768 else 5⟩ (fun a ha => by have ha : a < 64 := ha; constructor <;> omega)
    (fun a ha => if_pos ha)).1 3 (by decide) 2 (by decide)).1

end Davs2.Si

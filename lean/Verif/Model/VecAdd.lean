import Verif.Model.Vec
import Verif.Model.Recon
/-
Addition of the residual with vector instructions: the 8-bit branches of source/common/x86/pixeladd8.asm (assembler), and the
table that selects them, source/common/pixel.cc:258-282 and 358-377.  The C functions are in `Model/Recon.lean`.

The bodies of the loops are lists of instructions, written out from the source text by a script.  Not instructions of these lists:
* `mov r6d, n`, `dec r6d` and `jnz .loop`: the loop runs `n` times; the instructions between `dec` and `jnz` do not change the flags;
* `add r5, r5` and `lea r7, [r4 * 3]`, `lea r8, [r5 * 3]`, `lea r9, [r1 * 3]`, pixeladd8.asm:725-727: an operand is given by its base register and
  the multiple of the stride that belongs to the base (`r1` to `r0`, `r4` to `r2`, `r5` to `r3`; the script checks this).
Reads of eight bytes of which only four belong to the block are not checked against the end of the picture buffer.
-/
namespace Davs2.Va
open Davs2.Vc

inductive Ins where
  /-- `pmovzxbw m, [r2 + k * r4 + off]`; 256 bits if `wide` -/
  | pmovzx (wide : Bool) (m k off : Nat)
  /-- `movh`/`movu m, [r3 + k * r5 + off]` with `n` bytes -/
  | ldres (n m k off : Nat)
  | paddw (a b : Nat)
  | packus (wide : Bool) (a b : Nat)
  | vpermq (a b imm : Nat)
  /-- `vextracti128 a, b, 1` -/
  | vextract (a b : Nat)
  /-- `movd`/`movh`/`movu [r0 + k * r1 + off], m` with `n` bytes -/
  | st (n k off m : Nat)
  /-- `lea r0, [r0 + r1 * k]`, `lea r2, [r2 + r4 * k]`, `lea r3, [r3 + r5 * k]` -/
  | lea0 (k : Nat)
  | lea2 (k : Nat)
  | lea3 (k : Nat)

/-- Registers `m0` to `m7`, pointers, and the bytes of the picture. -/
structure St where
  reg : Nat → V
  r0 : Int
  r2 : Int
  r3 : Int
  m : Int → Int

def St.set (s : St) (a : Nat) (v : V) : St := { s with reg := fun i => if i = a then v else s.reg i }

/-- Byte at byte address `z` of an array of 16-bit words, low byte first. -/
def byteOf (coef : Int → Int) (z : Int) : Int := if z % 2 = 0 then coef (z / 2) else coef (z / 2) / 256

/-- Bytes of a register to memory. -/
def put (m : Int → Int) (a : Int) (n : Nat) (v : V) : Int → Int := fun z => if a ≤ z ∧ z < a + n then u8 v (z - a).toNat else m z

/-- One instruction.  `r1`, `r4`, `r5`: the strides in bytes, `coef`: the residual. -/
def step (coef : Int → Int) (r1 r4 r5 : Int) (s : St) : Ins → St
  | .pmovzx wide a k off =>
    s.set a (cvtepu8_16 fun j => if j < (if wide then 16 else 8) then ofB (fun j => s.m (s.r2 + k * r4 + off + j)) j else 0)
  | .ldres n a k off => s.set a fun j => if j < n then ofB (fun j => byteOf coef (s.r3 + k * r5 + off + j)) j else 0
  | .paddw a b => s.set a (add16 (s.reg a) (s.reg b))
  | .packus wide a b => s.set a (if wide then packus16y (s.reg a) (s.reg b) else packus16 (s.reg a) (s.reg b))
  | .vpermq a b imm => s.set a (permute4x64 imm (s.reg b))
  | .vextract a b => s.set a (high128 (s.reg b))
  | .st n k off a => { s with m := put s.m (s.r0 + k * r1 + off) n (s.reg a) }
  | .lea0 k => { s with r0 := s.r0 + k * r1 }
  | .lea2 k => { s with r2 := s.r2 + k * r4 }
  | .lea3 k => { s with r3 := s.r3 + k * r5 }

def exec (coef : Int → Int) (r1 r4 r5 : Int) (p : List Ins) (s : St) : St := p.foldl (step coef r1 r4 r5) s

/-- Body of `pixel_add_ps_4x4`, pixeladd8.asm:71-99 (loop count none, once). -/
def add4x4 : List Ins := [
  .pmovzx false 0 0 0, .pmovzx false 2 1 0, .ldres 8 1 0 0, .ldres 8 3 1 0, .lea2 2, .lea3 2,
  .pmovzx false 4 0 0, .pmovzx false 6 1 0, .ldres 8 5 0 0, .ldres 8 7 1 0, .paddw 0 1, .paddw 2 3,
  .paddw 4 5, .paddw 6 7, .packus false 0 0, .packus false 2 2, .packus false 4 4, .packus false 6 6,
  .st 4 0 0 0, .st 4 1 0 2, .lea0 2, .st 4 0 0 4, .st 4 1 0 6]

/-- Body of `pixel_add_ps_4x%2`, pixeladd8.asm:146-181 (loop count %2/4). -/
def addW4 : List Ins := [
  .pmovzx false 0 0 0, .pmovzx false 2 1 0, .ldres 8 1 0 0, .ldres 8 3 1 0, .lea2 2, .lea3 2,
  .pmovzx false 4 0 0, .pmovzx false 6 1 0, .ldres 8 5 0 0, .ldres 8 7 1 0, .lea2 2, .lea3 2,
  .paddw 0 1, .paddw 2 3, .paddw 4 5, .paddw 6 7, .packus false 0 0, .packus false 2 2,
  .packus false 4 4, .packus false 6 6, .st 4 0 0 0, .st 4 1 0 2, .lea0 2, .st 4 0 0 4,
  .st 4 1 0 6, .lea0 2]

/-- Body of `pixel_add_ps_8x%2`, pixeladd8.asm:238-273 (loop count %2/4). -/
def addW8 : List Ins := [
  .pmovzx false 0 0 0, .pmovzx false 2 1 0, .ldres 16 1 0 0, .ldres 16 3 1 0, .lea2 2, .lea3 2,
  .pmovzx false 4 0 0, .pmovzx false 6 1 0, .ldres 16 5 0 0, .ldres 16 7 1 0, .lea2 2, .lea3 2,
  .paddw 0 1, .paddw 2 3, .paddw 4 5, .paddw 6 7, .packus false 0 0, .packus false 2 2,
  .packus false 4 4, .packus false 6 6, .st 8 0 0 0, .st 8 1 0 2, .lea0 2, .st 8 0 0 4,
  .st 8 1 0 6, .lea0 2]

/-- Body of `pixel_add_ps_16x%2`, pixeladd8.asm:356-406 (loop count %2/4). -/
def addW16 : List Ins := [
  .pmovzx false 0 0 0, .pmovzx false 1 0 8, .pmovzx false 4 1 0, .pmovzx false 5 1 8, .ldres 16 2 0 0, .ldres 16 3 0 16,
  .ldres 16 6 1 0, .ldres 16 7 1 16, .lea2 2, .lea3 2, .paddw 0 2, .paddw 1 3,
  .paddw 4 6, .paddw 5 7, .packus false 0 1, .packus false 4 5, .st 16 0 0 0, .st 16 1 0 4,
  .pmovzx false 0 0 0, .pmovzx false 1 0 8, .pmovzx false 4 1 0, .pmovzx false 5 1 8, .ldres 16 2 0 0, .ldres 16 3 0 16,
  .ldres 16 6 1 0, .ldres 16 7 1 16, .lea0 2, .lea2 2, .lea3 2, .paddw 0 2,
  .paddw 1 3, .paddw 4 6, .paddw 5 7, .packus false 0 1, .packus false 4 5, .st 16 0 0 0,
  .st 16 1 0 4, .lea0 2]

/-- Body of `pixel_add_ps_16x%1`, pixeladd8.asm:468-511 (loop count %1/4). -/
def addW16y : List Ins := [
  .pmovzx true 0 0 0, .pmovzx true 1 1 0, .ldres 32 2 0 0, .ldres 32 3 1 0, .paddw 0 2, .paddw 1 3,
  .packus true 0 1, .lea2 2, .lea3 2, .pmovzx true 2 0 0, .pmovzx true 3 1 0, .ldres 32 4 0 0,
  .ldres 32 5 1 0, .paddw 2 4, .paddw 3 5, .packus true 2 3, .lea2 2, .lea3 2,
  .vpermq 0 0 216, .st 16 0 0 0, .vextract 3 0, .st 16 1 0 3, .lea0 2, .vpermq 2 2 216,
  .st 16 0 0 2, .vextract 3 2, .st 16 1 0 3, .lea0 2]

/-- Body of `pixel_add_ps_32x%2`, pixeladd8.asm:593-640 (loop count %2/2). -/
def addW32 : List Ins := [
  .pmovzx false 0 0 0, .pmovzx false 1 0 8, .pmovzx false 2 0 16, .pmovzx false 3 0 24, .ldres 16 4 0 0, .ldres 16 5 0 16,
  .ldres 16 6 0 32, .ldres 16 7 0 48, .paddw 0 4, .paddw 1 5, .paddw 2 6, .paddw 3 7,
  .packus false 0 1, .packus false 2 3, .st 16 0 0 0, .st 16 0 16 2, .pmovzx false 0 1 0, .pmovzx false 1 1 8,
  .pmovzx false 2 1 16, .pmovzx false 3 1 24, .ldres 16 4 1 0, .ldres 16 5 1 16, .ldres 16 6 1 32, .ldres 16 7 1 48,
  .lea2 2, .lea3 2, .paddw 0 4, .paddw 1 5, .paddw 2 6, .paddw 3 7,
  .packus false 0 1, .packus false 2 3, .st 16 1 0 0, .st 16 1 16 2, .lea0 2]

/-- Body of `pixel_add_ps_32x%1`, pixeladd8.asm:722-779 (loop count %1/4). -/
def addW32y : List Ins := [
  .pmovzx true 0 0 0, .pmovzx true 1 0 16, .ldres 32 2 0 0, .ldres 32 3 0 32, .paddw 0 2, .paddw 1 3,
  .packus true 0 1, .vpermq 0 0 216, .st 32 0 0 0, .pmovzx true 0 1 0, .pmovzx true 1 1 16, .ldres 32 2 1 0,
  .ldres 32 3 1 32, .paddw 0 2, .paddw 1 3, .packus true 0 1, .vpermq 0 0 216, .st 32 1 0 0,
  .pmovzx true 0 2 0, .pmovzx true 1 2 16, .ldres 32 2 2 0, .ldres 32 3 2 32, .paddw 0 2, .paddw 1 3,
  .packus true 0 1, .vpermq 0 0 216, .st 32 2 0 0, .pmovzx true 0 3 0, .pmovzx true 1 3 16, .ldres 32 2 3 0,
  .ldres 32 3 3 32, .paddw 0 2, .paddw 1 3, .packus true 0 1, .vpermq 0 0 216, .st 32 3 0 0,
  .lea2 4, .lea3 4, .lea0 4]

/-- Body of `pixel_add_ps_64x%2`, pixeladd8.asm:909-994 (loop count %2/2). -/
def addW64 : List Ins := [
  .pmovzx false 0 0 0, .pmovzx false 1 0 8, .pmovzx false 2 0 16, .pmovzx false 3 0 24, .ldres 16 4 0 0, .ldres 16 5 0 16,
  .ldres 16 6 0 32, .ldres 16 7 0 48, .paddw 0 4, .paddw 1 5, .paddw 2 6, .paddw 3 7,
  .packus false 0 1, .packus false 2 3, .st 16 0 0 0, .st 16 0 16 2, .pmovzx false 0 0 32, .pmovzx false 1 0 40,
  .pmovzx false 2 0 48, .pmovzx false 3 0 56, .ldres 16 4 0 64, .ldres 16 5 0 80, .ldres 16 6 0 96, .ldres 16 7 0 112,
  .paddw 0 4, .paddw 1 5, .paddw 2 6, .paddw 3 7, .packus false 0 1, .packus false 2 3,
  .st 16 0 32 0, .st 16 0 48 2, .pmovzx false 0 1 0, .pmovzx false 1 1 8, .pmovzx false 2 1 16, .pmovzx false 3 1 24,
  .ldres 16 4 1 0, .ldres 16 5 1 16, .ldres 16 6 1 32, .ldres 16 7 1 48, .paddw 0 4, .paddw 1 5,
  .paddw 2 6, .paddw 3 7, .packus false 0 1, .packus false 2 3, .st 16 1 0 0, .st 16 1 16 2,
  .pmovzx false 0 1 32, .pmovzx false 1 1 40, .pmovzx false 2 1 48, .pmovzx false 3 1 56, .ldres 16 4 1 64, .ldres 16 5 1 80,
  .ldres 16 6 1 96, .ldres 16 7 1 112, .lea2 2, .lea3 2, .paddw 0 4, .paddw 1 5,
  .paddw 2 6, .paddw 3 7, .packus false 0 1, .packus false 2 3, .st 16 1 32 0, .st 16 1 48 2,
  .lea0 2]

/-- Body of `pixel_add_ps_64x%1`, pixeladd8.asm:1118-1168 (loop count %1/2). -/
def addW64y : List Ins := [
  .pmovzx true 0 0 0, .pmovzx true 1 0 16, .pmovzx true 2 0 32, .pmovzx true 3 0 48, .ldres 32 4 0 0, .ldres 32 5 0 32,
  .ldres 32 6 0 64, .ldres 32 7 0 96, .paddw 0 4, .paddw 1 5, .paddw 2 6, .paddw 3 7,
  .packus true 0 1, .packus true 2 3, .vpermq 0 0 216, .st 32 0 0 0, .vpermq 2 2 216, .st 32 0 32 2,
  .pmovzx true 0 1 0, .pmovzx true 1 1 16, .pmovzx true 2 1 32, .pmovzx true 3 1 48, .ldres 32 4 1 0, .ldres 32 5 1 32,
  .ldres 32 6 1 64, .ldres 32 7 1 96, .paddw 0 4, .paddw 1 5, .paddw 2 6, .paddw 3 7,
  .packus true 0 1, .packus true 2 3, .vpermq 0 0 216, .st 32 1 0 0, .vpermq 2 2 216, .st 32 1 32 2,
  .lea2 2, .lea3 2, .lea0 2]

/-- A function: the body of its loop and how often it runs. -/
structure Fn where
  body : List Ins
  count : Nat

/-- The call `add_ps (a, ds, a, c, ds, ss)` of transform.cc:927: `c` and `ss` in words.  `reg`: what the registers held before. -/
def Fn.run (f : Fn) (reg : Nat → V) (coef : Int → Int) (m : Int → Int) (a ds c ss : Int) : Int → Int :=
  ((exec coef ds ds (2 * ss) f.body)^[f.count] { reg := reg, r0 := a, r2 := a, r3 := 2 * c, m := m }).m

/-- What a processor can do. -/
inductive Cpu where | plain | sse4 | avx2
deriving DecidableEq

/-- `pixf->add_ps` from `DAVS2_CPU_SSE4` on, pixel.cc:258-282, 64-bit build: `none` is the C function. -/
def tableSse4 (w h : Nat) : Option Fn :=
  if (w, h) = (4, 4) then some ⟨add4x4, 1⟩
  else if (w, h) ∈ [(4, 8), (4, 16)] then some ⟨addW4, h / 4⟩
  else if (w, h) ∈ [(8, 8), (8, 16), (8, 32)] then some ⟨addW8, h / 4⟩
  else if (w, h) ∈ [(16, 4), (16, 8), (16, 12), (16, 16), (16, 64)] then some ⟨addW16, h / 4⟩
  else if (w, h) ∈ [(32, 8), (32, 16), (32, 24), (32, 32), (32, 64)] then some ⟨addW32, h / 2⟩
  else if (w, h) ∈ [(64, 16), (64, 32), (64, 48), (64, 64)] then some ⟨addW64, h / 2⟩
  else none

/-- The same from `DAVS2_CPU_AVX2` on, pixel.cc:358-377. -/
def tableAvx2 (w h : Nat) : Option Fn :=
  if (w, h) ∈ [(16, 4), (16, 8), (16, 12), (16, 16), (16, 64)] then some ⟨addW16y, h / 4⟩
  else if (w, h) ∈ [(32, 8), (32, 16), (32, 24), (32, 32), (32, 64)] then some ⟨addW32y, h / 4⟩
  else if (w, h) ∈ [(64, 16), (64, 32), (64, 48), (64, 64)] then some ⟨addW64y, h / 2⟩
  else tableSse4 w h

def table : Cpu → Nat → Nat → Option Fn
  | .plain => fun _ _ => none
  | .sse4 => tableSse4
  | .avx2 => tableAvx2

/-- `gf_davs2.add_ps[PART_INDEX(w, h)](a, ds, a, c, ds, ss)`, transform.cc:927. -/
def addPs (cpu : Cpu) (reg : Nat → V) (coef : Int → Int) (w h : Nat) (m : Int → Int) (a ds c ss : Int) : Int → Int :=
  match table cpu w h with
  | some f => f.run reg coef m a ds c ss
  | none => Rec.addPs coef w h m a ds c ss

end Davs2.Va

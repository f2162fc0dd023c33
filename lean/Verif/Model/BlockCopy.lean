import Verif.Model.MemAsm
/-
Copies of whole blocks with vector instructions, as motion compensation makes them for vectors without fraction: the 8-bit functions `blockcopy_pp_WxH` of
source/common/x86/blockcopy8.asm (assembler), the C functions they replace, source/common/pixel.cc:84-95, the table of functions, pixel.cc:191, 253, 327-336,
and the branches of `mc_luma` and `mc_chroma` that call them, source/common/mc.cc:502-562.

The programs are written out from the source text by a script; `%rep` is written out.  General registers are integers: `lea` is exact while addresses do not wrap around.
Not instructions of these lists: `mov cnt, n`, `dec cnt`, `jnz .loop`: the loop runs `n` times.
-/
namespace Davs2.Bc
open Davs2.Ma (Mem Byte)

inductive Ins where
  /-- `lea r_d, [r_a + k * r_b]` -/
  | lea (d a b k : Nat)
  /-- `movd`, `movh`, `movu m_r, [r_a + k * r_b + off]` with `n` bytes; the rest of the register becomes 0 -/
  | ld (n r a b k off : Nat)
  /-- `movd`, `movh`, `movu [r_a + k * r_b + off], m_r` with `n` bytes -/
  | st (n a b k off r : Nat)
deriving DecidableEq

/-- General registers, vector registers, memory. -/
structure St where
  g : Nat → Int
  v : Nat → Nat → Byte
  mem : Mem

def step (s : St) : Ins → St
  | .lea d a b k => { s with g := fun i => if i = d then s.g a + k * s.g b else s.g i }
  | .ld n r a b k off => { s with v := fun i => if i = r then fun j => if j < n then s.mem (s.g a + k * s.g b + off + j) else 0 else s.v i }
  | .st n a b k off r =>
    { s with mem := fun z => if s.g a + k * s.g b + off ≤ z ∧ z < s.g a + k * s.g b + off + n then s.v r (z - (s.g a + k * s.g b + off)).toNat else s.mem z }

def exec (p : List Ins) (s : St) : St := p.foldl step s

/-- Instructions before the loop, of the loop, and how often it runs. -/
structure Prog where
  pre : List Ins
  body : List Ins
  count : Nat

/-- A call `f(dst, dstStride, src, srcStride)`: `r0` to `r3`; the other registers hold anything. -/
def Prog.call (p : Prog) (g : Nat → Int) (v : Nat → Nat → Byte) (m : Mem) (dst i_dst src i_src : Int) : Mem :=
  let s : St := ⟨fun i => if i = 0 then dst else if i = 1 then i_dst else if i = 2 then src else if i = 3 then i_src else g i, v, m⟩
  ((exec p.body)^[p.count] (exec p.pre s)).mem

/-- `blockcopy_pp_4x4`, blockcopy8.asm:138-150. -/
def pp4x4 : Prog := ⟨[
  .ld 4 0 2 2 0 0, .ld 4 1 2 3 1 0, .ld 4 2 2 3 2 0, .lea 3 3 3 2, .ld 4 3 2 3 1 0, .st 4 0 0 0 0 0,
  .st 4 0 1 1 0 1, .st 4 0 1 2 0 2, .lea 1 1 1 2, .st 4 0 1 1 0 3], [], 0⟩

/-- `blockcopy_pp_4x8`, blockcopy8.asm:156-182. -/
def pp4x8 : Prog := ⟨[
  .lea 4 1 1 2, .lea 5 3 3 2, .ld 4 0 2 2 0 0, .ld 4 1 2 3 1 0, .ld 4 2 2 3 2 0, .ld 4 3 2 5 1 0,
  .st 4 0 0 0 0 0, .st 4 0 1 1 0 1, .st 4 0 1 2 0 2, .st 4 0 4 1 0 3, .lea 2 2 3 4, .ld 4 0 2 2 0 0,
  .ld 4 1 2 3 1 0, .ld 4 2 2 3 2 0, .ld 4 3 2 5 1 0, .lea 0 0 1 4, .st 4 0 0 0 0 0, .st 4 0 1 1 0 1,
  .st 4 0 1 2 0 2, .st 4 0 4 1 0 3], [], 0⟩

/-- `blockcopy_pp_%1x%2`, blockcopy8.asm:189-222; the loop runs %2/8 times. -/
def ppW4 (h : Nat) : Prog := ⟨[
  .lea 5 1 1 2, .lea 6 3 3 2], [
  .ld 4 0 2 2 0 0, .ld 4 1 2 3 1 0, .ld 4 2 2 3 2 0, .ld 4 3 2 6 1 0, .st 4 0 0 0 0 0, .st 4 0 1 1 0 1,
  .st 4 0 1 2 0 2, .st 4 0 5 1 0 3, .lea 2 2 3 4, .ld 4 0 2 2 0 0, .ld 4 1 2 3 1 0, .ld 4 2 2 3 2 0,
  .ld 4 3 2 6 1 0, .lea 0 0 1 4, .st 4 0 0 0 0 0, .st 4 0 1 1 0 1, .st 4 0 1 2 0 2, .st 4 0 5 1 0 3,
  .lea 0 0 1 4, .lea 2 2 3 4], h / 8⟩

/-- `blockcopy_pp_8x4`, blockcopy8.asm:317-329. -/
def pp8x4 : Prog := ⟨[
  .ld 8 0 2 2 0 0, .ld 8 1 2 3 1 0, .ld 8 2 2 3 2 0, .lea 3 3 3 2, .ld 8 3 2 3 1 0, .st 8 0 0 0 0 0,
  .st 8 0 1 1 0 1, .st 8 0 1 2 0 2, .lea 1 1 1 2, .st 8 0 1 1 0 3], [], 0⟩

/-- `blockcopy_pp_8x8`, blockcopy8.asm:393-419. -/
def pp8x8 : Prog := ⟨[
  .lea 4 3 3 2, .lea 5 1 1 2, .ld 8 0 2 2 0 0, .ld 8 1 2 3 1 0, .ld 8 2 2 3 2 0, .ld 8 3 2 4 1 0,
  .st 8 0 0 0 0 0, .st 8 0 1 1 0 1, .st 8 0 1 2 0 2, .st 8 0 5 1 0 3, .lea 2 2 3 4, .ld 8 0 2 2 0 0,
  .ld 8 1 2 3 1 0, .ld 8 2 2 3 2 0, .ld 8 3 2 4 1 0, .lea 0 0 1 4, .st 8 0 0 0 0 0, .st 8 0 1 1 0 1,
  .st 8 0 1 2 0 2, .st 8 0 5 1 0 3], [], 0⟩

/-- `blockcopy_pp_8x16`, blockcopy8.asm:425-453. -/
def pp8x16 : Prog := ⟨[
  .lea 4 3 3 2, .lea 5 1 1 2, .ld 8 0 2 2 0 0, .ld 8 1 2 3 1 0, .ld 8 2 2 3 2 0, .ld 8 3 2 4 1 0,
  .st 8 0 0 0 0 0, .st 8 0 1 1 0 1, .st 8 0 1 2 0 2, .st 8 0 5 1 0 3, .lea 2 2 3 4, .ld 8 0 2 2 0 0,
  .ld 8 1 2 3 1 0, .ld 8 2 2 3 2 0, .ld 8 3 2 4 1 0, .lea 0 0 1 4, .st 8 0 0 0 0 0, .st 8 0 1 1 0 1,
  .st 8 0 1 2 0 2, .st 8 0 5 1 0 3, .lea 2 2 3 4, .ld 8 0 2 2 0 0, .ld 8 1 2 3 1 0, .ld 8 2 2 3 2 0,
  .ld 8 3 2 4 1 0, .lea 0 0 1 4, .st 8 0 0 0 0 0, .st 8 0 1 1 0 1, .st 8 0 1 2 0 2, .st 8 0 5 1 0 3,
  .lea 2 2 3 4, .ld 8 0 2 2 0 0, .ld 8 1 2 3 1 0, .ld 8 2 2 3 2 0, .ld 8 3 2 4 1 0, .lea 0 0 1 4,
  .st 8 0 0 0 0 0, .st 8 0 1 1 0 1, .st 8 0 1 2 0 2, .st 8 0 5 1 0 3], [], 0⟩

/-- `blockcopy_pp_8x32`, blockcopy8.asm:459-487. -/
def pp8x32 : Prog := ⟨[
  .lea 4 3 3 2, .lea 5 1 1 2, .ld 8 0 2 2 0 0, .ld 8 1 2 3 1 0, .ld 8 2 2 3 2 0, .ld 8 3 2 4 1 0,
  .st 8 0 0 0 0 0, .st 8 0 1 1 0 1, .st 8 0 1 2 0 2, .st 8 0 5 1 0 3, .lea 2 2 3 4, .ld 8 0 2 2 0 0,
  .ld 8 1 2 3 1 0, .ld 8 2 2 3 2 0, .ld 8 3 2 4 1 0, .lea 0 0 1 4, .st 8 0 0 0 0 0, .st 8 0 1 1 0 1,
  .st 8 0 1 2 0 2, .st 8 0 5 1 0 3, .lea 2 2 3 4, .ld 8 0 2 2 0 0, .ld 8 1 2 3 1 0, .ld 8 2 2 3 2 0,
  .ld 8 3 2 4 1 0, .lea 0 0 1 4, .st 8 0 0 0 0 0, .st 8 0 1 1 0 1, .st 8 0 1 2 0 2, .st 8 0 5 1 0 3,
  .lea 2 2 3 4, .ld 8 0 2 2 0 0, .ld 8 1 2 3 1 0, .ld 8 2 2 3 2 0, .ld 8 3 2 4 1 0, .lea 0 0 1 4,
  .st 8 0 0 0 0 0, .st 8 0 1 1 0 1, .st 8 0 1 2 0 2, .st 8 0 5 1 0 3, .lea 2 2 3 4, .ld 8 0 2 2 0 0,
  .ld 8 1 2 3 1 0, .ld 8 2 2 3 2 0, .ld 8 3 2 4 1 0, .lea 0 0 1 4, .st 8 0 0 0 0 0, .st 8 0 1 1 0 1,
  .st 8 0 1 2 0 2, .st 8 0 5 1 0 3, .lea 2 2 3 4, .ld 8 0 2 2 0 0, .ld 8 1 2 3 1 0, .ld 8 2 2 3 2 0,
  .ld 8 3 2 4 1 0, .lea 0 0 1 4, .st 8 0 0 0 0 0, .st 8 0 1 1 0 1, .st 8 0 1 2 0 2, .st 8 0 5 1 0 3,
  .lea 2 2 3 4, .ld 8 0 2 2 0 0, .ld 8 1 2 3 1 0, .ld 8 2 2 3 2 0, .ld 8 3 2 4 1 0, .lea 0 0 1 4,
  .st 8 0 0 0 0 0, .st 8 0 1 1 0 1, .st 8 0 1 2 0 2, .st 8 0 5 1 0 3, .lea 2 2 3 4, .ld 8 0 2 2 0 0,
  .ld 8 1 2 3 1 0, .ld 8 2 2 3 2 0, .ld 8 3 2 4 1 0, .lea 0 0 1 4, .st 8 0 0 0 0 0, .st 8 0 1 1 0 1,
  .st 8 0 1 2 0 2, .st 8 0 5 1 0 3], [], 0⟩

/-- `blockcopy_pp_%1x%2`, blockcopy8.asm:528-558; the loop runs %2/4 times. -/
def ppW12 (h : Nat) : Prog := ⟨[], [
  .ld 8 0 2 2 0 0, .ld 4 1 2 2 0 8, .ld 8 2 2 3 1 0, .ld 4 3 2 3 1 8, .lea 2 2 3 2, .st 8 0 0 0 0 0,
  .st 4 0 0 0 8 1, .st 8 0 1 1 0 2, .st 4 0 1 1 8 3, .lea 0 0 1 2, .ld 8 0 2 2 0 0, .ld 4 1 2 2 0 8,
  .ld 8 2 2 3 1 0, .ld 4 3 2 3 1 8, .st 8 0 0 0 0 0, .st 4 0 0 0 8 1, .st 8 0 1 1 0 2, .st 4 0 1 1 8 3,
  .lea 0 0 1 2, .lea 2 2 3 2], h / 4⟩

/-- `blockcopy_pp_%1x%2`, blockcopy8.asm:570-591; the loop runs %2/4 times. -/
def ppW16h4 (h : Nat) : Prog := ⟨[], [
  .ld 16 0 2 2 0 0, .ld 16 1 2 3 1 0, .lea 2 2 3 2, .ld 16 2 2 2 0 0, .ld 16 3 2 3 1 0, .st 16 0 0 0 0 0,
  .st 16 0 1 1 0 1, .lea 0 0 1 2, .st 16 0 0 0 0 2, .st 16 0 1 1 0 3, .lea 0 0 1 2, .lea 2 2 3 2], h / 4⟩

/-- `blockcopy_pp_%1x%2`, blockcopy8.asm:602-635; the loop runs %2/8 times. -/
def ppW16h8 (h : Nat) : Prog := ⟨[], [
  .ld 16 0 2 2 0 0, .ld 16 1 2 3 1 0, .lea 2 2 3 2, .ld 16 2 2 2 0 0, .ld 16 3 2 3 1 0, .lea 2 2 3 2,
  .ld 16 4 2 2 0 0, .ld 16 5 2 3 1 0, .lea 2 2 3 2, .st 16 0 0 0 0 0, .st 16 0 1 1 0 1, .lea 0 0 1 2,
  .st 16 0 0 0 0 2, .st 16 0 1 1 0 3, .lea 0 0 1 2, .st 16 0 0 0 0 4, .st 16 0 1 1 0 5, .lea 0 0 1 2,
  .ld 16 0 2 2 0 0, .ld 16 1 2 3 1 0, .st 16 0 0 0 0 0, .st 16 0 1 1 0 1, .lea 0 0 1 2, .lea 2 2 3 2], h / 8⟩

/-- `blockcopy_pp_%1x%2`, blockcopy8.asm:650-679; the loop runs %2/4 times. -/
def ppW24 (h : Nat) : Prog := ⟨[], [
  .ld 16 0 2 2 0 0, .ld 8 1 2 2 0 16, .ld 16 2 2 3 1 0, .ld 8 3 2 3 1 16, .lea 2 2 3 2, .ld 16 4 2 2 0 0,
  .ld 8 5 2 2 0 16, .st 16 0 0 0 0 0, .st 8 0 0 0 16 1, .st 16 0 1 1 0 2, .st 8 0 1 1 16 3, .lea 0 0 1 2,
  .st 16 0 0 0 0 4, .st 8 0 0 0 16 5, .ld 16 0 2 3 1 0, .ld 8 1 2 3 1 16, .st 16 0 1 1 0 0, .st 8 0 1 1 16 1,
  .lea 0 0 1 2, .lea 2 2 3 2], h / 4⟩

/-- `blockcopy_pp_%1x%2`, blockcopy8.asm:691-721; the loop runs %2/4 times. -/
def ppW32 (h : Nat) : Prog := ⟨[], [
  .ld 16 0 2 2 0 0, .ld 16 1 2 2 0 16, .ld 16 2 2 3 1 0, .ld 16 3 2 3 1 16, .lea 2 2 3 2, .st 16 0 0 0 0 0,
  .st 16 0 0 0 16 1, .st 16 0 1 1 0 2, .st 16 0 1 1 16 3, .lea 0 0 1 2, .ld 16 0 2 2 0 0, .ld 16 1 2 2 0 16,
  .ld 16 2 2 3 1 0, .ld 16 3 2 3 1 16, .st 16 0 0 0 0 0, .st 16 0 0 0 16 1, .st 16 0 1 1 0 2, .st 16 0 1 1 16 3,
  .lea 0 0 1 2, .lea 2 2 3 2], h / 4⟩

/-- `blockcopy_pp_32x8`, blockcopy8.asm:733-758. -/
def ppAvx32x8 : Prog := ⟨[
  .lea 4 1 1 2, .lea 5 3 3 2, .ld 32 0 2 2 0 0, .ld 32 1 2 3 1 0, .ld 32 2 2 3 2 0, .ld 32 3 2 5 1 0,
  .lea 2 2 3 4, .ld 32 4 2 2 0 0, .ld 32 5 2 3 1 0, .st 32 0 0 0 0 0, .st 32 0 1 1 0 1, .st 32 0 1 2 0 2,
  .st 32 0 4 1 0 3, .lea 0 0 1 4, .st 32 0 0 0 0 4, .st 32 0 1 1 0 5, .ld 32 0 2 3 2 0, .ld 32 1 2 5 1 0,
  .st 32 0 1 2 0 0, .st 32 0 4 1 0 1], [], 0⟩

/-- `blockcopy_pp_32x16`, blockcopy8.asm:761-808. -/
def ppAvx32x16 : Prog := ⟨[
  .lea 4 1 1 2, .lea 5 3 3 2, .ld 32 0 2 2 0 0, .ld 32 1 2 3 1 0, .ld 32 2 2 3 2 0, .ld 32 3 2 5 1 0,
  .lea 2 2 3 4, .ld 32 4 2 2 0 0, .ld 32 5 2 3 1 0, .st 32 0 0 0 0 0, .st 32 0 1 1 0 1, .st 32 0 1 2 0 2,
  .st 32 0 4 1 0 3, .lea 0 0 1 4, .st 32 0 0 0 0 4, .st 32 0 1 1 0 5, .ld 32 0 2 3 2 0, .ld 32 1 2 5 1 0,
  .lea 2 2 3 4, .ld 32 2 2 2 0 0, .ld 32 3 2 3 1 0, .ld 32 4 2 3 2 0, .ld 32 5 2 5 1 0, .st 32 0 1 2 0 0,
  .st 32 0 4 1 0 1, .lea 0 0 1 4, .st 32 0 0 0 0 2, .st 32 0 1 1 0 3, .st 32 0 1 2 0 4, .st 32 0 4 1 0 5,
  .lea 2 2 3 4, .ld 32 0 2 2 0 0, .ld 32 1 2 3 1 0, .ld 32 2 2 3 2 0, .ld 32 3 2 5 1 0, .lea 0 0 1 4,
  .st 32 0 0 0 0 0, .st 32 0 1 1 0 1, .st 32 0 1 2 0 2, .st 32 0 4 1 0 3], [], 0⟩

/-- `blockcopy_pp_32x24`, blockcopy8.asm:814-846; the loop runs 24/8 times. -/
def ppAvx32x24 : Prog := ⟨[
  .lea 4 1 1 2, .lea 5 3 3 2], [
  .ld 32 0 2 2 0 0, .ld 32 1 2 3 1 0, .ld 32 2 2 3 2 0, .ld 32 3 2 5 1 0, .lea 2 2 3 4, .ld 32 4 2 2 0 0,
  .ld 32 5 2 3 1 0, .st 32 0 0 0 0 0, .st 32 0 1 1 0 1, .st 32 0 1 2 0 2, .st 32 0 4 1 0 3, .lea 0 0 1 4,
  .st 32 0 0 0 0 4, .st 32 0 1 1 0 5, .ld 32 0 2 3 2 0, .ld 32 1 2 5 1 0, .st 32 0 1 2 0 0, .st 32 0 4 1 0 1,
  .lea 2 2 3 4, .lea 0 0 1 4], 3⟩

/-- `blockcopy_pp_%1x%2`, blockcopy8.asm:853-907; the loop runs %2/16 times. -/
def ppAvxW32 (h : Nat) : Prog := ⟨[
  .lea 4 1 1 2, .lea 5 3 3 2], [
  .ld 32 0 2 2 0 0, .ld 32 1 2 3 1 0, .ld 32 2 2 3 2 0, .ld 32 3 2 5 1 0, .lea 2 2 3 4, .ld 32 4 2 2 0 0,
  .ld 32 5 2 3 1 0, .st 32 0 0 0 0 0, .st 32 0 1 1 0 1, .st 32 0 1 2 0 2, .st 32 0 4 1 0 3, .lea 0 0 1 4,
  .st 32 0 0 0 0 4, .st 32 0 1 1 0 5, .ld 32 0 2 3 2 0, .ld 32 1 2 5 1 0, .lea 2 2 3 4, .ld 32 2 2 2 0 0,
  .ld 32 3 2 3 1 0, .ld 32 4 2 3 2 0, .ld 32 5 2 5 1 0, .st 32 0 1 2 0 0, .st 32 0 4 1 0 1, .lea 0 0 1 4,
  .st 32 0 0 0 0 2, .st 32 0 1 1 0 3, .st 32 0 1 2 0 4, .st 32 0 4 1 0 5, .lea 2 2 3 4, .ld 32 0 2 2 0 0,
  .ld 32 1 2 3 1 0, .ld 32 2 2 3 2 0, .ld 32 3 2 5 1 0, .lea 0 0 1 4, .st 32 0 0 0 0 0, .st 32 0 1 1 0 1,
  .st 32 0 1 2 0 2, .st 32 0 4 1 0 3, .lea 2 2 3 4, .lea 0 0 1 4], h / 16⟩

/-- `blockcopy_pp_%1x%2`, blockcopy8.asm:919-957; the loop runs %2/4 times. -/
def ppW48 (h : Nat) : Prog := ⟨[], [
  .ld 16 0 2 2 0 0, .ld 16 1 2 2 0 16, .ld 16 2 2 2 0 32, .ld 16 3 2 3 1 0, .ld 16 4 2 3 1 16, .ld 16 5 2 3 1 32,
  .lea 2 2 3 2, .st 16 0 0 0 0 0, .st 16 0 0 0 16 1, .st 16 0 0 0 32 2, .st 16 0 1 1 0 3, .st 16 0 1 1 16 4,
  .st 16 0 1 1 32 5, .lea 0 0 1 2, .ld 16 0 2 2 0 0, .ld 16 1 2 2 0 16, .ld 16 2 2 2 0 32, .ld 16 3 2 3 1 0,
  .ld 16 4 2 3 1 16, .ld 16 5 2 3 1 32, .st 16 0 0 0 0 0, .st 16 0 0 0 16 1, .st 16 0 0 0 32 2, .st 16 0 1 1 0 3,
  .st 16 0 1 1 16 4, .st 16 0 1 1 32 5, .lea 0 0 1 2, .lea 2 2 3 2], h / 4⟩

/-- `blockcopy_pp_%1x%2`, blockcopy8.asm:967-997; the loop runs %2/4 times. -/
def ppAvxW48 (h : Nat) : Prog := ⟨[], [
  .ld 32 0 2 2 0 0, .ld 16 1 2 2 0 32, .ld 32 2 2 3 1 0, .ld 16 3 2 3 1 32, .lea 2 2 3 2, .st 32 0 0 0 0 0,
  .st 16 0 0 0 32 1, .st 32 0 1 1 0 2, .st 16 0 1 1 32 3, .lea 0 0 1 2, .ld 32 0 2 2 0 0, .ld 16 1 2 2 0 32,
  .ld 32 2 2 3 1 0, .ld 16 3 2 3 1 32, .st 32 0 0 0 0 0, .st 16 0 0 0 32 1, .st 32 0 1 1 0 2, .st 16 0 1 1 32 3,
  .lea 0 0 1 2, .lea 2 2 3 2], h / 4⟩

/-- `blockcopy_pp_%1x%2`, blockcopy8.asm:1007-1055; the loop runs %2/4 times. -/
def ppW64 (h : Nat) : Prog := ⟨[], [
  .ld 16 0 2 2 0 0, .ld 16 1 2 2 0 16, .ld 16 2 2 2 0 32, .ld 16 3 2 2 0 48, .ld 16 4 2 3 1 0, .ld 16 5 2 3 1 16,
  .st 16 0 0 0 0 0, .st 16 0 0 0 16 1, .st 16 0 0 0 32 2, .st 16 0 0 0 48 3, .st 16 0 1 1 0 4, .st 16 0 1 1 16 5,
  .ld 16 0 2 3 1 32, .ld 16 1 2 3 1 48, .lea 2 2 3 2, .ld 16 2 2 2 0 0, .ld 16 3 2 2 0 16, .ld 16 4 2 2 0 32,
  .ld 16 5 2 2 0 48, .st 16 0 1 1 32 0, .st 16 0 1 1 48 1, .lea 0 0 1 2, .st 16 0 0 0 0 2, .st 16 0 0 0 16 3,
  .st 16 0 0 0 32 4, .st 16 0 0 0 48 5, .ld 16 0 2 3 1 0, .ld 16 1 2 3 1 16, .ld 16 2 2 3 1 32, .ld 16 3 2 3 1 48,
  .st 16 0 1 1 0 0, .st 16 0 1 1 16 1, .st 16 0 1 1 32 2, .st 16 0 1 1 48 3, .lea 0 0 1 2, .lea 2 2 3 2], h / 4⟩

/-- `blockcopy_pp_%1x%2`, blockcopy8.asm:1068-1098; the loop runs %2/4 times. -/
def ppAvxW64 (h : Nat) : Prog := ⟨[
  .lea 4 1 1 2, .lea 5 3 3 2], [
  .ld 32 0 2 2 0 0, .ld 32 1 2 2 0 32, .ld 32 2 2 3 1 0, .ld 32 3 2 3 1 32, .ld 32 4 2 3 2 0, .ld 32 5 2 3 2 32,
  .st 32 0 0 0 0 0, .st 32 0 0 0 32 1, .st 32 0 1 1 0 2, .st 32 0 1 1 32 3, .st 32 0 1 2 0 4, .st 32 0 1 2 32 5,
  .ld 32 0 2 5 1 0, .ld 32 1 2 5 1 32, .st 32 0 4 1 0 0, .st 32 0 4 1 32 1, .lea 2 2 3 4, .lea 0 0 1 4], h / 4⟩

/-- `davs2_blockcopy_pp_WxH`, pixel.cc:84-95: rows from the top, samples from the left. -/
def blockcopyC (w h : Nat) (m : Mem) (dst i_dst src i_src : Int) : Mem :=
  (List.range h).foldl (fun m (y : Nat) => (List.range w).foldl (fun m (x : Nat) =>
    fun z => if z = dst + y * i_dst + x then m (src + y * i_src + x) else m z) m) m

/-- `g_partition_map_tab`, pixel.cc:49-67: the 25 sizes with an entry. -/
def sizes : List (Nat × Nat) := [
  (4, 4), (4, 8), (4, 16), (8, 4), (8, 8), (8, 16), (8, 32), (12, 16), (16, 4), (16, 8), (16, 12), (16, 16), (16, 32), (16, 64), (24, 32),
  (32, 8), (32, 16), (32, 24), (32, 32), (32, 64), (48, 64), (64, 16), (64, 32), (64, 48), (64, 64)]

inductive Cpu | plain | sse2 | avx

/-- pixel.cc:253. -/
def sse2Table : Nat × Nat → Option Prog
  | (4, 4) => some pp4x4 | (4, 8) => some pp4x8 | (4, 16) => some (ppW4 16)
  | (8, 4) => some pp8x4 | (8, 8) => some pp8x8 | (8, 16) => some pp8x16 | (8, 32) => some pp8x32
  | (12, 16) => some (ppW12 16)
  | (16, 4) => some (ppW16h4 4) | (16, 12) => some (ppW16h4 12)
  | (16, 8) => some (ppW16h8 8) | (16, 16) => some (ppW16h8 16) | (16, 32) => some (ppW16h8 32) | (16, 64) => some (ppW16h8 64)
  | (24, 32) => some (ppW24 32)
  | (32, 8) => some (ppW32 8) | (32, 16) => some (ppW32 16) | (32, 24) => some (ppW32 24) | (32, 32) => some (ppW32 32) | (32, 64) => some (ppW32 64)
  | (48, 64) => some (ppW48 64)
  | (64, 16) => some (ppW64 16) | (64, 32) => some (ppW64 32) | (64, 48) => some (ppW64 48) | (64, 64) => some (ppW64 64)
  | _ => none

/-- pixel.cc:327-336. -/
def avxTable : Nat × Nat → Option Prog
  | (64, 64) => some (ppAvxW64 64) | (64, 32) => some (ppAvxW64 32) | (32, 64) => some (ppAvxW32 64) | (64, 16) => some (ppAvxW64 16)
  | (64, 48) => some (ppAvxW64 48) | (48, 64) => some (ppAvxW48 64) | (32, 32) => some (ppAvxW32 32) | (32, 16) => some ppAvx32x16
  | (32, 8) => some ppAvx32x8 | (32, 24) => some ppAvx32x24
  | wh => sse2Table wh

/-- `gf_davs2.copy_pp[PART_INDEX(w, h)](dst, i_dst, src, i_src)` after `davs2_pixel_init`; `none`: no entry (the macro gives 255, outside the table). -/
def copyPp (c : Cpu) (g : Nat → Int) (v : Nat → Nat → Byte) (w h : Nat) (m : Mem) (dst i_dst src i_src : Int) : Option Mem :=
  if (w, h) ∈ sizes then
    match c with
    | .plain => some (blockcopyC w h m dst i_dst src i_src)
    | .sse2 => (sse2Table (w, h)).map fun p => p.call g v m dst i_dst src i_src
    | .avx => (avxTable (w, h)).map fun p => p.call g v m dst i_dst src i_src
  else none

/-- `mc_block_copy_c`, mc.cc:136-144; `memcpy` copies bytes. -/
def blockCopyRows (w h : Nat) (m : Mem) (dst i_dst src i_src : Int) : Mem :=
  (List.range h).foldl (fun m (y : Nat) => fun z =>
    if dst + y * i_dst ≤ z ∧ z < dst + y * i_dst + w then m (src + y * i_src + (z - (dst + y * i_dst))) else m z) m

/-- `mc_luma` for a position without fraction, mc.cc:511-517; `fref` is the address of the plane. -/
def mcLumaCopy (c : Cpu) (g : Nat → Int) (v : Nat → Nat → Byte) (m : Mem) (dst i_dst posx posy : Int) (w h : Nat) (fref i_fref : Int) : Option Mem :=
  copyPp c g v w h m dst i_dst (fref + (posy / 4 * i_fref + posx / 4)) i_fref

/-- `mc_chroma` for a position without fraction, mc.cc:544-554. -/
def mcChromaCopy (c : Cpu) (g : Nat → Int) (v : Nat → Nat → Byte) (m : Mem) (dst i_dst posx posy : Int) (w h : Nat) (fref i_fref : Int) : Option Mem :=
  if w ≠ 2 ∧ w ≠ 6 ∧ h ≠ 2 ∧ h ≠ 6 then copyPp c g v w h m dst i_dst (fref + (posy / 8 * i_fref + posx / 8)) i_fref
  else some (blockCopyRows w h m dst i_dst (fref + (posy / 8 * i_fref + posx / 8)) i_fref)

end Davs2.Bc

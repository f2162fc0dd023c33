import Verif.Model.Vec
/-
The statements that the vector versions of the inverse transforms (source/common/vec/intrinsic_idct.cc and
intrinsic_idct_avx2.cc) are made of, and what they do.

A program is a list of assignments to registers and of stores.  Registers are numbered; the numbers are given
by hand-written comments in the files with the programs.  The instructions are those of Model/Vec.lean.  Registers have 32
bytes; a 128-bit instruction is the lower half of the 256-bit instruction of the same name, and the upper half
of a 128-bit register is never looked at by the 128-bit stores.

`src` and `dst` are the same array in the only call (`inv_transform`, source/common/transform.cc:841-864), so there is one
array of 16-bit coefficients.

Not modelled: alignment of the addresses (`_mm_load_si128`, `_mm_store_si128`).
-/
namespace Davs2.Vc

/-! ### More instructions -/

/-- `_mm_sub_epi32`, `_mm256_sub_epi32`. -/
def sub32 (a b : V) : V := ofD fun i => d32 a i - d32 b i

/-- `_mm_unpacklo_epi32`, `_mm_unpackhi_epi32`, `_mm_unpacklo_epi64`, `_mm_unpackhi_epi64` and the 256-bit instructions. -/
def unpacklo32y (a b : V) : V := fun j =>
  if j / 4 % 2 = 0 then a (16 * (j / 16) + 4 * (j % 16 / 8) + j % 4) else b (16 * (j / 16) + 4 * (j % 16 / 8) + j % 4)
def unpackhi32y (a b : V) : V := fun j =>
  if j / 4 % 2 = 0 then a (16 * (j / 16) + 8 + 4 * (j % 16 / 8) + j % 4) else b (16 * (j / 16) + 8 + 4 * (j % 16 / 8) + j % 4)
def unpacklo64y (a b : V) : V := fun j => if j / 8 % 2 = 0 then a (16 * (j / 16) + j % 8) else b (16 * (j / 16) + j % 8)
def unpackhi64y (a b : V) : V := fun j => if j / 8 % 2 = 0 then a (16 * (j / 16) + 8 + j % 8) else b (16 * (j / 16) + 8 + j % 8)

/-- `_mm256_permute2x128_si256 (a, b, 0x20)` and `(a, b, 0x31)`: the lower halves of `a` and `b`, the upper halves. -/
def permute2x128_20 (a b : V) : V := fun j => if j < 16 then a j else b (j - 16)
def permute2x128_31 (a b : V) : V := fun j => if j < 16 then a (16 + j) else b j

/-- Eight or sixteen (`n`) words from an array of coefficients; the rest 0. -/
def loadC (n : Nat) (m : Nat → Int) (off : Nat) : V := ofW fun i => if i < n then m (off + i) else 0

/-- `_mm256_loadu2_m128i (hiaddr, loaddr)`. -/
def loadC2 (m : Nat → Int) (hi lo : Nat) : V := ofW fun i => if i < 8 then m (lo + i) else m (hi + (i - 8))

/-- A store of `n` words. -/
def storeC (n : Nat) (m : Nat → Int) (off : Nat) (v : V) : Nat → Int := fun a =>
  if off ≤ a ∧ a < off + n then w16 v (a - off) else m a

end Davs2.Vc

namespace Davs2.Si

open Davs2.Vc

/-- The instructions with two registers as operands. -/
inductive Op
  | lo16 | hi16 | lo32 | hi32 | lo64 | hi64
  | madd | add32 | sub32 | packs
  | add16 | min16 | max16
  | perm20 | perm31

/-- Values: a register, a load of `n` words, `_mm256_loadu2_m128i`, `_mm_set1_epi32`, `_mm_set1_epi16`, a load from a table whose rows
repeat two entries, and results of instructions. -/
inductive X
  | r (n : Nat)
  | ld (n off : Nat)
  | ld2 (hi lo : Nat)
  | k32 (k : Nat)
  | k16 (k : Int)
  | kk (c0 c1 : Int)
  | op (o : Op) (a b : X)
  | sra32 (a : X) (n : Nat)
  | sra16 (a : X) (n : Nat)

/-- Statements: an assignment to a register, a store of `n` words, `_mm256_storeu2_m128i (hiaddr, loaddr, v)`. -/
inductive S
  | set (r : Nat) (e : X)
  | st (n off : Nat) (e : X)
  | st2 (hi lo : Nat) (e : X)

def Op.run : Op → V → V → V
  | .lo16 => unpacklo16y
  | .hi16 => unpackhi16y
  | .lo32 => unpacklo32y
  | .hi32 => unpackhi32y
  | .lo64 => unpacklo64y
  | .hi64 => unpackhi64y
  | .madd => madd16
  | .add32 => Vc.add32
  | .sub32 => Vc.sub32
  | .packs => packs32y
  | .add16 => Vc.add16
  | .min16 => Vc.min16
  | .max16 => Vc.max16
  | .perm20 => permute2x128_20
  | .perm31 => permute2x128_31

/-- Registers and the array of coefficients. -/
structure St where
  reg : Nat → V
  mem : Nat → Int

def X.run (s : St) : X → V
  | .r n => s.reg n
  | .ld n off => loadC n s.mem off
  | .ld2 hi lo => loadC2 s.mem hi lo
  | .k32 k => set1_32 k
  | .k16 k => set1_16 k
  | .kk c0 c1 => ofW fun i => if i % 2 = 0 then c0 else c1
  | .op o a b => o.run (a.run s) (b.run s)
  | .sra32 a n => srai32 (a.run s) n
  | .sra16 a n => srai16 (a.run s) n

def S.run (s : St) : S → St
  | .set r e => { s with reg := fun k => if k = r then e.run s else s.reg k }
  | .st n off e => { s with mem := storeC n s.mem off (e.run s) }
  | .st2 hi lo e => { s with mem := storeC 8 (storeC 8 s.mem lo (e.run s)) hi (high128 (e.run s)) }

/-- A whole program. -/
def exec (p : List S) (s : St) : St := p.foldl S.run s

/-- `n` times the same statements with the numbers 0, 1, …: the loops of the functions. -/
def rep : Nat → (Nat → List S) → List S
  | 0, _ => []
  | n + 1, f => rep n f ++ f n

/-- `TRANSPOSE_8x8_16BIT`, source/common/vec/intrinsic_idct.cc:1300-1324 (the same text at 1659, 1852, 2138, 2316, 3115, 3739, 4152, 4702, 5091,
5960, 6722, 7079) and `TRANSPOSE_8x8_16BIT_m256i`, source/common/vec/intrinsic_idct_avx2.cc:1515-1539.  `t0` and `t1` are the numbers of
`tr0_0` and `tr1_0`. -/
def transpose8 (t0 t1 i0 i1 i2 i3 i4 i5 i6 i7 o0 o1 o2 o3 o4 o5 o6 o7 : Nat) : List S := [
  .set t0 (.op .lo16 (.r i0) (.r i1)),
  .set (t0 + 1) (.op .lo16 (.r i2) (.r i3)),
  .set (t0 + 2) (.op .hi16 (.r i0) (.r i1)),
  .set (t0 + 3) (.op .hi16 (.r i2) (.r i3)),
  .set (t0 + 4) (.op .lo16 (.r i4) (.r i5)),
  .set (t0 + 5) (.op .lo16 (.r i6) (.r i7)),
  .set (t0 + 6) (.op .hi16 (.r i4) (.r i5)),
  .set (t0 + 7) (.op .hi16 (.r i6) (.r i7)),
  .set t1 (.op .lo32 (.r t0) (.r (t0 + 1))),
  .set (t1 + 1) (.op .lo32 (.r (t0 + 2)) (.r (t0 + 3))),
  .set (t1 + 2) (.op .hi32 (.r t0) (.r (t0 + 1))),
  .set (t1 + 3) (.op .hi32 (.r (t0 + 2)) (.r (t0 + 3))),
  .set (t1 + 4) (.op .lo32 (.r (t0 + 4)) (.r (t0 + 5))),
  .set (t1 + 5) (.op .lo32 (.r (t0 + 6)) (.r (t0 + 7))),
  .set (t1 + 6) (.op .hi32 (.r (t0 + 4)) (.r (t0 + 5))),
  .set (t1 + 7) (.op .hi32 (.r (t0 + 6)) (.r (t0 + 7))),
  .set o0 (.op .lo64 (.r t1) (.r (t1 + 4))),
  .set o1 (.op .hi64 (.r t1) (.r (t1 + 4))),
  .set o2 (.op .lo64 (.r (t1 + 2)) (.r (t1 + 6))),
  .set o3 (.op .hi64 (.r (t1 + 2)) (.r (t1 + 6))),
  .set o4 (.op .lo64 (.r (t1 + 1)) (.r (t1 + 5))),
  .set o5 (.op .hi64 (.r (t1 + 1)) (.r (t1 + 5))),
  .set o6 (.op .lo64 (.r (t1 + 3)) (.r (t1 + 7))),
  .set o7 (.op .hi64 (.r (t1 + 3)) (.r (t1 + 7)))]

end Davs2.Si

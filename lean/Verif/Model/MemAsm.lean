import Mathlib.Logic.Function.Iterate
/-
The memory helpers in assembler that `davs2_memory_init` (source/common/memory.cc:49-83) installs on every x86 processor:
`fast_memcpy`, `memcpy_aligned`, `fast_memzero` and `fast_memset`, source/common/x86/mc-a2.asm:405-642.  They stand behind the copies of reference rows, the padding of pictures,
the borders of intra prediction and the clearing of coefficients.

Memory is bytes at integer addresses.  `n` is a 64-bit register (x86-64).  A loop that ends with `dec` and `jnz` runs as often as its counter says, 2^64 times if it is 0.

Not modelled: prefetching, `sfence`, `emms`; non-temporal stores are stores; the result in `rax`, which no caller uses.
-/
namespace Davs2.Ma

abbrev Byte := BitVec 8
abbrev Mem := Int → Byte

/-- Instructions: load `n` bytes at `r1 + off` into register `k`, store `n` bytes of it at `r0 + off`, add to `r1`, add to `r0`. -/
inductive I
  | ld (n k : Nat) (off : Int)
  | st (n : Nat) (off : Int) (k : Nat)
  | add1 (d : Int)
  | add0 (d : Int)

/-- Memory, pointers, the bytes of the registers. -/
structure St where
  mem : Mem
  r0 : Int
  r1 : Int
  reg : Nat → Nat → Byte

def I.run (s : St) : I → St
  | .ld n k off => { s with reg := fun q => if q = k then fun i => if i < n then s.mem (s.r1 + off + i) else s.reg k i else s.reg q }
  | .st n off k => { s with mem := fun a => if s.r0 + off ≤ a ∧ a < s.r0 + off + n then s.reg k (a - (s.r0 + off)).toNat else s.mem a }
  | .add1 d => { s with r1 := s.r1 + d }
  | .add0 d => { s with r0 := s.r0 + d }

def exec (p : List I) (s : St) : St := p.foldl I.run s

/-- A loop `…; dec cnt; jnz`. -/
def loop (p : List I) (cnt : BitVec 64) (s : St) : St := (exec p)^[if cnt = 0 then 2 ^ 64 else cnt.toNat] s

/-- The loop behind `cmp cnt, 0; je`. -/
def guarded (p : List I) (cnt : BitVec 64) (s : St) : St := if cnt = 0 then s else loop p cnt s

/-- `.L_COPY_64X`, mc-a2.asm:475-502. -/
def copy64 : List I := [
  .ld 8 0 0, .ld 8 1 8, .ld 8 2 16, .ld 8 3 24, .ld 8 4 32, .ld 8 5 40, .ld 8 6 48, .ld 8 7 56,
  .st 8 0 0, .st 8 8 1, .st 8 16 2, .st 8 24 3, .st 8 32 4, .st 8 40 5, .st 8 48 6, .st 8 56 7,
  .add1 64, .add0 64]

/-- `.L_COPY_8X`, mc-a2.asm:508-514. -/
def copy8 : List I := [.ld 8 3 0, .st 8 0 3, .add1 8, .add0 8]

/-- `.L_COPY_1X`, mc-a2.asm:521-527; register 8 is `r2b`. -/
def copy1 : List I := [.ld 1 8 0, .st 1 0 8, .add1 1, .add0 1]

/-- `fast_memcpy`, mc-a2.asm:455-532: the memory afterwards. -/
def fastMemcpy (reg : Nat → Nat → Byte) (m : Mem) (dst src : Int) (n : BitVec 64) : Mem :=
  if n = 0 then m else
    let r3 := n &&& 7
    let r2 := n.sshiftRight 3
    let r4 := r2 &&& 7
    let r2 := r2.sshiftRight 3
    let s : St := ⟨m, dst, src, reg⟩
    (guarded copy1 r3 (guarded copy8 r4 (guarded copy64 r2 s))).mem

/-- `r2d` after `sub r2d, k`: the upper half of the register becomes 0. -/
def sub32 (r : BitVec 64) (k : BitVec 32) : BitVec 64 := (r.setWidth 32 - k).setWidth 64

/-- `mova m_i, [r1 + r2 - 8]` … and the stores, for 2 or 4 registers (mc-a2.asm:424-427, 433-440); `r` is `r2`. -/
def alignedBody (k : Nat) (r : Int) : List I :=
  (List.range k).map (fun i => .ld 8 i (r - 8 * (i + 1))) ++ (List.range k).map (fun i => .st 8 (r - 8 * (i + 1)) i)

/-- `.copy4`, mc-a2.asm:432-442; `fuel` bounds the number of rounds, `none` if it does not suffice.  `jg` after `sub r2d, 32`: the signed number was greater than 32. -/
def copy4 : Nat → BitVec 64 → St → Option St
  | 0, _, _ => none
  | fuel + 1, r, s =>
    let s := exec (alignedBody 4 r.toNat) s
    if 32 < (r.setWidth 32).toInt then copy4 fuel (sub32 r 32) s else some s

/-- `memcpy_aligned` with 8-byte registers, mc-a2.asm:412-445. -/
def memcpyAligned (fuel : Nat) (reg : Nat → Nat → Byte) (m : Mem) (dst src : Int) (n : BitVec 64) : Option Mem :=
  let s : St := ⟨m, dst, src, reg⟩
  let q := if n.setWidth 32 &&& 16#32 = 0 then (n, s) else (sub32 n 16, exec (alignedBody 2 n.toNat) s)
  if q.1.setWidth 32 = 0#32 then some q.2.mem else (copy4 fuel q.1 q.2).map (·.mem)

/-- `.L_SET_8X` and `.L_RESIDUAL`, mc-a2.asm:584-588, 595-599 and 623-627, 633-637: the bytes are in registers 0 and 1. -/
def set8 : List I := [.st 8 0 0, .add0 8]
def set1 : List I := [.st 1 0 1, .add0 1]

/-- `fast_memzero`, mc-a2.asm:572-603. -/
def fastMemzero (reg : Nat → Nat → Byte) (m : Mem) (dst : Int) (n : BitVec 64) : Mem :=
  if n = 0 then m else
    let r2 := n &&& 7
    let r1 := n.sshiftRight 3
    let reg := if r1 = 0 then reg else fun k => if k = 0 then fun _ => 0 else reg k
    let s := guarded set8 r1 ⟨m, dst, 0, reg⟩
    (guarded set1 r2 { s with reg := fun k => if k = 1 then fun _ => 0 else s.reg k }).mem

/-- `movd`, `pshufw`, `packsswb`, mc-a2.asm:619-621: the lowest word of the value, saturated to a signed byte. -/
def packByte (val : BitVec 32) : Byte := BitVec.ofInt 8 (max (-128) (min 127 (val.setWidth 16).toInt))

/-- `fast_memset`, mc-a2.asm:610-641. -/
def fastMemset (reg : Nat → Nat → Byte) (m : Mem) (dst : Int) (val : BitVec 32) (n : BitVec 64) : Mem :=
  if n = 0 then m else
    let r3 := n &&& 7
    let r2 := n.sshiftRight 3
    let reg := if r2 = 0 then reg else fun k => if k = 0 then fun _ => packByte val else reg k
    let s := guarded set8 r2 ⟨m, dst, 0, reg⟩
    (guarded set1 r3 { s with reg := fun k => if k = 1 then fun _ => val.setWidth 8 else s.reg k }).mem

end Davs2.Ma

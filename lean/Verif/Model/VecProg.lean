import Verif.Model.Vec
/-
A small language for the vector routines of intra prediction, source/common/vec/intrinsic_intra-pred.cc and
intrinsic_intra-pred_avx2.cc, and its meaning.  The routines themselves are in Model/VpSse*.lean and Model/VpAvx*.lean, statement by statement.

Values: `int` variables, pointers into arrays of samples and vector registers.  The only unknown integer is
the line stride `i_dst` of the picture; an `int` is a number plus a multiple of it.  Arrays: 0 is the border `src`, indexed from its corner
sample, 1 is the picture at `dst`, 2 and up are local arrays.  Variables are numbered for each function.

Simplified: reads of the border stay in 640 bytes around the corner (the buffer row_rec->buf_edge_pixels has 512) and what lies outside
the padded border is arbitrary; alignment is not modelled (`_mm_store_si128` is `_mm_storeu_si128`); `return` in the middle is an `else`.
-/
namespace Davs2.Vp

/-- An `int`: `a + b * i_dst`. -/
structure Num where
  a : Int
  b : Int

/-- A pointer: array and distance from its start. -/
structure Ptr where
  arr : Nat
  off : Num

/-- Integer expressions; `v i` is variable `i`. -/
inductive E where
  | n (k : Int) | v (i : Nat)
  | add (x y : E) | sub (x y : E) | mul (x y : E) | div (x y : E)
  | shl (x : E) (k : Nat) | shr (x : E) (k : Nat) | land (x : E) (k : Nat)

/-- Conditions. -/
inductive Cd where
  | lt (x y : E) | le (x y : E) | eq (x y : E) | ne (x y : E)
  | and (c d : Cd) | or (c d : Cd)

/-- Pointer expressions: variable `i` (or element of an array of pointers), start of local array `i`, sum and difference. -/
inductive PE where
  | pv (i : E) | pa (i : Nat) | add (p : PE) (e : E) | sub (p : PE) (e : E)

/-- Sample valued expressions; `ld p` is `*p`. -/
inductive SE where
  | n (k : Nat) | ld (p : PE)
  | add (x y : SE) | mul (k : Nat) (x : SE) | shr (x : SE) (k : Nat)

/-- Instructions with one register, and with two.  A trailing `y` marks the 256-bit form where it differs.  `half k`:
`_mm256_extracti128_si256 (·, k)`; `ext16 k`: `_mm_extract_epi16 (·, k)` stored as an `int`. -/
inductive O1 where
  | srli16 (n : Nat) | srliB (n : Nat) | srliBy (n : Nat) | cvtu8 | half (k : Nat) | perm4 (imm : Nat) | ext16 (k : Nat)

inductive O2 where
  | add16 | adds16 | mullo16 | packus16 | packus16y
  | unpacklo8 | unpackhi8 | unpacklo16 | unpackhi16 | unpacklo32 | unpackhi32
  | unpacklo8y | unpackhi8y | unpacklo16y | unpackhi16y
  | shuffle8 | shuffle8y | perm2 (imm : Nat) | permv

/-- Vector expressions.  `ld n p`: a load of `n` bytes; `mask r i`: row `i` of `intrinsic_mask` (`r` = 15) or
`intrinsic_mask_256_8bit` (`r` = 16), vec/intrinsic.cc. -/
inductive X where
  | v (i : Nat) | ld (n : Nat) (p : PE) | zero
  | set1_16 (s : SE) | set1_8 (s : SE) | setr8 (l : List Nat) | setr16 (l : List SE)
  | mask (rows : Nat) (i : E)
  | o1 (o : O1) (x : X) | o2 (o : O2) (x y : X)

/-- Simple statements: assignments to the three kinds of variables, declaration of a local array, `st n p x`: store of the low `n` bytes,
`mst u len p m x`: store of those groups of `u` of `len` bytes whose mask has its highest bit set, `st1`: store of one sample,
`cpy p q n`: memcpy, `fill p s n`: `n` equal samples, `bad`: a failing assertion. -/
inductive L where
  | I (d : Nat) (e : E) | P (d : E) (p : PE) | V (d : Nat) (x : X)
  | alloc (i size : Nat)
  | st (n : Nat) (p : PE) (x : X) | mst (u len : Nat) (p : PE) (m x : X) | st1 (p : PE) (s : SE)
  | cpy (p q : PE) (n : E) | fill (p : PE) (s : SE) (n : E)
  | bad

/-- Statements.  `call` runs another routine on new variables. -/
inductive Stmt where
  | run (l : List L)
  | seq (s t : Stmt)
  | ite (c : Cd) (s t : Stmt)
  | loop (c : Cd) (s : Stmt)
  | call (s : Stmt) (src dst : PE) (stride mode w h : E)

/-- The setting of a run: the block is `w` samples wide, `rows` rows of the picture may be written, local arrays may be exceeded by `slack`
bytes on both sides; with `anyMask` a row outside the table of masks is an arbitrary register instead of a fault. -/
structure Cfg where
  w : Nat
  rows : Nat
  slack : Nat
  anyMask : Bool

open Vc (V)

/-! ### Instructions that Model/Vec does not have -/

/-- `_mm256_srli_si256`: each half for itself. -/
def srliBy (a : V) (n : Nat) : V := fun j => if j % 16 + n < 16 then a (j + n) else 0

/-- `_mm256_extracti128_si256 (a, k)`. -/
def half (a : V) (k : Nat) : V := fun j => a (16 * k + j)

/-- `_mm256_permute2x128_si256 (a, b, imm)` where bits 3 and 7 of `imm` are 0: the halves chosen by bits 0, 1 and 4, 5. -/
def perm2 (imm : Nat) (a b : V) : V := fun j =>
  if imm / 16 ^ (j / 16) % 4 < 2 then a (16 * (imm / 16 ^ (j / 16) % 4) + j % 16) else b (16 * (imm / 16 ^ (j / 16) % 4 - 2) + j % 16)

/-- `_mm256_permutevar8x32_epi32` with the indices in a register. -/
def permv (a m : V) : V := fun j => a (4 * ((m (4 * (j / 4))).toNat % 8) + j % 4)

/-- The low four bytes of `_mm_extract_epi16 (a, k)`. -/
def ext16 (a : V) (k : Nat) : V := fun j => if j < 2 then a (2 * k + j) else 0

def op1 : O1 → V → V
  | .srli16 n, a => Vc.srli16 a n
  | .srliB n, a => Vc.srliB a n
  | .srliBy n, a => srliBy a n
  | .cvtu8, a => Vc.cvtepu8_16 a
  | .half k, a => half a k
  | .perm4 imm, a => Vc.permute4x64 imm a
  | .ext16 k, a => ext16 a k

def op2 : O2 → V → V → V
  | .add16, a, b => Vc.add16 a b
  | .adds16, a, b => Vc.adds16 a b
  | .mullo16, a, b => Vc.mullo16 a b
  | .packus16, a, b => Vc.packus16 a b
  | .packus16y, a, b => Vc.packus16y a b
  | .unpacklo8, a, b => Vc.unpacklo8 a b
  | .unpackhi8, a, b => Vc.unpackhi8 a b
  | .unpacklo16, a, b => Vc.unpacklo16 a b
  | .unpackhi16, a, b => Vc.unpackhi16 a b
  | .unpacklo32, a, b => Vc.unpacklo32 a b
  | .unpackhi32, a, b => Vc.unpackhi32 a b
  | .unpacklo8y, a, b => Vc.unpacklo8y a b
  | .unpackhi8y, a, b => Vc.unpackhi8y a b
  | .unpacklo16y, a, b => Vc.unpacklo16y a b
  | .unpackhi16y, a, b => Vc.unpackhi16y a b
  | .shuffle8, a, b => Vc.shuffle8 a b
  | .shuffle8y, a, b => Vc.shuffle8y a b
  | .perm2 imm, a, b => perm2 imm a b
  | .permv, a, b => permv a b

/-! ### Expressions; `none` is a fault: an address outside the array, an unset variable -/

def E.ev (I : Nat → Num) : E → Option Num
  | .n k => some ⟨k, 0⟩
  | .v i => some (I i)
  | .add x y => do let p ← x.ev I; let q ← y.ev I; return ⟨p.a + q.a, p.b + q.b⟩
  | .sub x y => do let p ← x.ev I; let q ← y.ev I; return ⟨p.a - q.a, p.b - q.b⟩
  | .mul x y => do
    let p ← x.ev I; let q ← y.ev I
    if p.b = 0 then return ⟨p.a * q.a, p.a * q.b⟩ else if q.b = 0 then return ⟨p.a * q.a, p.b * q.a⟩ else none
  | .div x y => do
    let p ← x.ev I; let q ← y.ev I
    if p.b = 0 ∧ q.b = 0 ∧ q.a ≠ 0 then return ⟨p.a.tdiv q.a, 0⟩ else none
  | .shl x k => do let p ← x.ev I; return ⟨p.a * 2 ^ k, p.b * 2 ^ k⟩
  | .shr x k => do let p ← x.ev I; if p.b = 0 then return ⟨p.a / 2 ^ k, 0⟩ else none
  | .land x k => do let p ← x.ev I; if p.b = 0 ∧ 0 ≤ p.a then return ⟨(p.a.toNat &&& k : Nat), 0⟩ else none

/-- A plain number. -/
def E.evZ (I : Nat → Num) (e : E) : Option Int := do let p ← e.ev I; if p.b = 0 then return p.a else none

/-- A plain number that is not negative. -/
def E.evN (I : Nat → Num) (e : E) : Option Nat := do let p ← e.ev I; if p.b = 0 ∧ 0 ≤ p.a then return p.a.toNat else none

def Cd.ev (I : Nat → Num) : Cd → Option Bool
  | .lt x y => do let p ← x.evZ I; let q ← y.evZ I; return decide (p < q)
  | .le x y => do let p ← x.evZ I; let q ← y.evZ I; return decide (p ≤ q)
  | .eq x y => do let p ← x.evZ I; let q ← y.evZ I; return decide (p = q)
  | .ne x y => do let p ← x.evZ I; let q ← y.evZ I; return decide (p ≠ q)
  | .and c d => do if ← c.ev I then d.ev I else return false
  | .or c d => do if ← c.ev I then return true else d.ev I

/-- Variables. -/
structure Env where
  I : Nat → Num
  P : Nat → Option Ptr
  V : Nat → Option V

/-- Size and contents of each array. -/
abbrev Mem := Nat → Nat × (Nat → BitVec 8)

/-- `base`: number of the first local array of the running routine. -/
def PE.ev (base : Nat) (e : Env) : PE → Option Ptr
  | .pv i => do let k ← i.evN e.I; e.P k
  | .pa i => some ⟨base + i, ⟨0, 0⟩⟩
  | .add p d => do let q ← p.ev base e; let d ← d.ev e.I; return ⟨q.arr, ⟨q.off.a + d.a, q.off.b + d.b⟩⟩
  | .sub p d => do let q ← p.ev base e; let d ← d.ev e.I; return ⟨q.arr, ⟨q.off.a - d.a, q.off.b - d.b⟩⟩

/-- Where `n` samples from `p` on lie in the array of size `size`: border samples -320 to 319 at 0 to 639, row `y` of the picture from
`64 y` on, local arrays from `slack` on. -/
def Cfg.addr (cfg : Cfg) (size : Nat) (p : Ptr) (n : Nat) : Option Nat :=
  if p.arr = 0 then
    if p.off.b = 0 ∧ 0 ≤ p.off.a + 320 ∧ p.off.a + 320 + n ≤ 640 then some (p.off.a + 320).toNat else none
  else if p.arr = 1 then
    if 0 ≤ p.off.b ∧ p.off.b < cfg.rows ∧ 0 ≤ p.off.a ∧ p.off.a + n ≤ cfg.w then some (64 * p.off.b.toNat + p.off.a.toNat) else none
  else
    if p.off.b = 0 ∧ 0 ≤ p.off.a + cfg.slack ∧ p.off.a + cfg.slack + n ≤ size + 2 * cfg.slack then some (p.off.a + cfg.slack).toNat else none

section
variable (cfg : Cfg) (jk : Nat → Nat → BitVec 8) (jr : Vc.V) (base : Nat)

/-- `n` bytes from `p` on, the rest of the register 0 (as `_mm_loadl_epi64` does). -/
def rd (mem : Mem) (p : Ptr) (n : Nat) : Option V := do
  let o ← cfg.addr (mem p.arr).1 p n
  return fun j => if j < n then (mem p.arr).2 (o + j) else 0

/-- The border is not written. -/
def wr (mem : Mem) (p : Ptr) (n : Nat) (r : V) : Option Mem := do
  let o ← cfg.addr (mem p.arr).1 p n
  if p.arr = 0 then none
  else return fun i => if i = p.arr then ((mem i).1, fun k => if o ≤ k ∧ k < o + n then r (k - o) else (mem i).2 k) else mem i

/-- `int` of C: nothing overflows with four samples and coefficients below 128. -/
def SE.ev (e : Env) (mem : Mem) : SE → Option Nat
  | .n k => some k
  | .ld p => do let q ← p.ev base e; let r ← rd cfg mem q 1; return (r 0).toNat
  | .add x y => do let p ← x.ev e mem; let q ← y.ev e mem; return p + q
  | .mul k x => do let p ← x.ev e mem; return p * k
  | .shr x k => do let p ← x.ev e mem; return p / 2 ^ k

def evList (e : Env) (mem : Mem) : List SE → Option (List Nat)
  | [] => some []
  | s :: l => do let c ← SE.ev cfg base e mem s; let cs ← evList e mem l; return c :: cs

/-- `jr`: what a row outside the table of masks holds. -/
def X.ev (e : Env) (mem : Mem) : X → Option V
  | .v i => e.V i
  | .ld n p => do let q ← p.ev base e; rd cfg mem q n
  | .zero => some Vc.zero
  | .set1_16 s => do let c ← s.ev cfg base e mem; return Vc.set1_16 c
  | .set1_8 s => do let c ← s.ev cfg base e mem; return Vc.set1_8 c
  | .setr8 l => some (Vc.ofB fun j => (l.getD j 0 : Nat))
  | .setr16 l => do let cs ← evList cfg base e mem l; return Vc.ofW fun i => (cs.getD i 0 : Nat)
  | .mask rows i => do
    let k ← i.evZ e.I
    if 0 ≤ k ∧ k < rows then return Vc.ofB fun j => if (j : Int) ≤ k then 255 else 0
    else if cfg.anyMask then return jr else none
  | .o1 o x => do let r ← x.ev e mem; return op1 o r
  | .o2 o x y => do let r ← x.ev e mem; let s ← y.ev e mem; return op2 o r s

/-! ### Statements -/

/-- `n` groups of `u` bytes, from byte `q` on. -/
def mstore (p : Ptr) (m r : V) (u : Nat) : Nat → Nat → Mem → Option Mem
  | 0, _, mem => some mem
  | n + 1, q, mem => do
    let mem' ← if (m (q + u - 1)).msb then wr cfg mem ⟨p.arr, ⟨p.off.a + q, p.off.b⟩⟩ u (fun j => r (q + j)) else some mem
    mstore p m r u n (q + u) mem'

/-- `jk`: what new local arrays hold. -/
def L.ex (e : Env) (mem : Mem) : L → Option (Env × Mem)
  | .I d x => do let k ← x.ev e.I; return ({ e with I := fun i => if i = d then k else e.I i }, mem)
  | .P d p => do
    let d ← d.evN e.I; let q ← p.ev base e
    return ({ e with P := fun i => if i = d then some q else e.P i }, mem)
  | .V d x => do let r ← x.ev cfg jr base e mem; return ({ e with V := fun i => if i = d then some r else e.V i }, mem)
  | .alloc k size => some (e, fun i => if i = base + k then (size, jk i) else mem i)
  | .st n p x => do
    let q ← p.ev base e; let r ← x.ev cfg jr base e mem
    let mem' ← wr cfg mem q n r
    return (e, mem')
  | .mst u len p m x => do
    let q ← p.ev base e; let k ← m.ev cfg jr base e mem; let r ← x.ev cfg jr base e mem
    let mem' ← mstore cfg q k r u (len / u) 0 mem
    return (e, mem')
  | .st1 p s => do
    let q ← p.ev base e; let c ← s.ev cfg base e mem
    let mem' ← wr cfg mem q 1 (Vc.set1_8 c)
    return (e, mem')
  | .cpy p q n => do
    let p ← p.ev base e; let q ← q.ev base e; let n ← n.evN e.I
    let r ← rd cfg mem q n
    let mem' ← wr cfg mem p n r
    return (e, mem')
  | .fill p s n => do
    let q ← p.ev base e; let c ← s.ev cfg base e mem; let n ← n.evN e.I
    let mem' ← wr cfg mem q n (Vc.set1_8 c)
    return (e, mem')
  | .bad => none

def exL : List L → Env → Mem → Option (Env × Mem)
  | [], e, mem => some (e, mem)
  | l :: ls, e, mem => do let r ← l.ex cfg jk jr base e mem; exL ls r.1 r.2

/-- `while (c) f`, at most `n` times. -/
def iter (c : Cd) (f : Env → Mem → Option (Env × Mem)) : Nat → Env → Mem → Option (Env × Mem)
  | 0, _, _ => none
  | n + 1, e, mem => do
    if ← c.ev e.I then let r ← f e mem; iter c f n r.1 r.2
    else return (e, mem)

/-- The variables of a routine when it starts: `i_dst`, `dir_mode`, `bsx`, `bsy` and `src`, `dst`. -/
def start (src dst : Ptr) (stride mode w h : Num) : Env where
  I i := if i = 0 then stride else if i = 1 then mode else if i = 2 then w else if i = 3 then h else ⟨0, 0⟩
  P i := if i = 0 then some src else if i = 1 then some dst else none
  V _ := none

/-- Loops run at most 4096 times; a called routine numbers its arrays from `base + 2` on. -/
def Stmt.ex : Stmt → Nat → Env → Mem → Option (Env × Mem)
  | .run l, base, e, mem => exL cfg jk jr base l e mem
  | .seq s t, base, e, mem => do let r ← s.ex base e mem; t.ex base r.1 r.2
  | .ite c s t, base, e, mem => do if ← c.ev e.I then s.ex base e mem else t.ex base e mem
  | .loop c s, base, e, mem => iter c (s.ex base) 4096 e mem
  | .call s src dst stride mode w h, base, e, mem => do
    let src ← src.ev base e; let dst ← dst.ev base e
    let stride ← stride.ev e.I; let mode ← mode.ev e.I; let w ← w.ev e.I; let h ← h.ev e.I
    let r ← s.ex (base + 2) (start src dst stride mode w h) mem
    return (e, r.2)

/-- Run a routine on a block of `cfg.w` by `h` samples with this border and these samples of the picture: all arrays afterwards.  `border i` is
`src[i]`; the sample `x` of row `y` of the block is at `64 y + x`. -/
def exec (s : Stmt) (mode h : Nat) (border : Int → BitVec 8) (pic : Nat → BitVec 8) : Option Mem := do
  let r ← s.ex cfg jk jr 2 (start ⟨0, ⟨0, 0⟩⟩ ⟨1, ⟨0, 0⟩⟩ ⟨0, 1⟩ ⟨mode, 0⟩ ⟨cfg.w, 0⟩ ⟨h, 0⟩)
    fun i => if i = 0 then (640, fun k => border (k - 320)) else if i = 1 then (4096, pic) else (0, jk i)
  return r.2

end

end Davs2.Vp

import Verif.Model.Basic
/-
MD5 of the output file, /repo/source/test/md5.h, and its use in /repo/source/test/test.c:385-399.

A file is a list of bytes.  `unsigned int` is taken as 32 bits, stored with the least significant byte first (the
code reads the file straight into an array of words).  Failure to open or read the file is not modelled.
-/
namespace Davs2.Md

/-- The round functions, md5.h:61-64. -/
inductive Fn | F | G | H | I
  deriving DecidableEq, Repr

/-- The local variables of `md5`, md5.h:77. -/
inductive Reg | a | b | c | d
  deriving DecidableEq, Repr

abbrev W := BitVec 32

/-- The macros `F`, `G`, `H`, `I`, md5.h:61-64. -/
def Fn.ap : Fn → W → W → W → W
  | .F, x, y, z => (x &&& y) ||| (~~~x &&& z)
  | .G, x, y, z => (x &&& z) ||| (y &&& ~~~z)
  | .H, x, y, z => x ^^^ y ^^^ z
  | .I, x, y, z => y ^^^ (x ||| ~~~z)

/-- The macro `RL`, md5.h:66. -/
def rl (x : W) (s : Nat) : W := (x <<< s) ||| (x >>> (32 - s))

/-- Values of the variables. -/
structure Regs where
  a : W
  b : W
  c : W
  d : W
  deriving DecidableEq, Repr

def Regs.get (r : Regs) : Reg → W
  | .a => r.a
  | .b => r.b
  | .c => r.c
  | .d => r.d

def Regs.set (r : Regs) (n : Reg) (v : W) : Regs :=
  match n with
  | .a => { r with a := v }
  | .b => { r with b := v }
  | .c => { r with c := v }
  | .d => { r with d := v }

/-- One use of the macros `FF`, `GG`, `HH`, `II`: function, the four variables, index into `x`, `s`, `ac`. -/
structure Ins where
  fn : Fn
  r0 : Reg
  r1 : Reg
  r2 : Reg
  r3 : Reg
  x : Nat
  s : Nat
  ac : W
  deriving DecidableEq, Repr

/-- Effect of the macros, md5.h:70-73. -/
def exec (x : Nat → W) (r : Regs) (i : Ins) : Regs :=
  r.set i.r0 (r.get i.r1 + rl (r.get i.r0 + i.fn.ap (r.get i.r1) (r.get i.r2) (r.get i.r3) + x i.x + i.ac) i.s)

/-- The 64 lines of `md5`, md5.h:82-151. -/
instance : Inhabited Ins := ⟨⟨.F, .a, .b, .c, .d, 0, 0, 0⟩⟩

def prog : List Ins := [
  ⟨.F, .a, .b, .c, .d, 0, 7, 0xd76aa478⟩,
  ⟨.F, .d, .a, .b, .c, 1, 12, 0xe8c7b756⟩,
  ⟨.F, .c, .d, .a, .b, 2, 17, 0x242070db⟩,
  ⟨.F, .b, .c, .d, .a, 3, 22, 0xc1bdceee⟩,
  ⟨.F, .a, .b, .c, .d, 4, 7, 0xf57c0faf⟩,
  ⟨.F, .d, .a, .b, .c, 5, 12, 0x4787c62a⟩,
  ⟨.F, .c, .d, .a, .b, 6, 17, 0xa8304613⟩,
  ⟨.F, .b, .c, .d, .a, 7, 22, 0xfd469501⟩,
  ⟨.F, .a, .b, .c, .d, 8, 7, 0x698098d8⟩,
  ⟨.F, .d, .a, .b, .c, 9, 12, 0x8b44f7af⟩,
  ⟨.F, .c, .d, .a, .b, 10, 17, 0xffff5bb1⟩,
  ⟨.F, .b, .c, .d, .a, 11, 22, 0x895cd7be⟩,
  ⟨.F, .a, .b, .c, .d, 12, 7, 0x6b901122⟩,
  ⟨.F, .d, .a, .b, .c, 13, 12, 0xfd987193⟩,
  ⟨.F, .c, .d, .a, .b, 14, 17, 0xa679438e⟩,
  ⟨.F, .b, .c, .d, .a, 15, 22, 0x49b40821⟩,
  ⟨.G, .a, .b, .c, .d, 1, 5, 0xf61e2562⟩,
  ⟨.G, .d, .a, .b, .c, 6, 9, 0xc040b340⟩,
  ⟨.G, .c, .d, .a, .b, 11, 14, 0x265e5a51⟩,
  ⟨.G, .b, .c, .d, .a, 0, 20, 0xe9b6c7aa⟩,
  ⟨.G, .a, .b, .c, .d, 5, 5, 0xd62f105d⟩,
  ⟨.G, .d, .a, .b, .c, 10, 9, 0x02441453⟩,
  ⟨.G, .c, .d, .a, .b, 15, 14, 0xd8a1e681⟩,
  ⟨.G, .b, .c, .d, .a, 4, 20, 0xe7d3fbc8⟩,
  ⟨.G, .a, .b, .c, .d, 9, 5, 0x21e1cde6⟩,
  ⟨.G, .d, .a, .b, .c, 14, 9, 0xc33707d6⟩,
  ⟨.G, .c, .d, .a, .b, 3, 14, 0xf4d50d87⟩,
  ⟨.G, .b, .c, .d, .a, 8, 20, 0x455a14ed⟩,
  ⟨.G, .a, .b, .c, .d, 13, 5, 0xa9e3e905⟩,
  ⟨.G, .d, .a, .b, .c, 2, 9, 0xfcefa3f8⟩,
  ⟨.G, .c, .d, .a, .b, 7, 14, 0x676f02d9⟩,
  ⟨.G, .b, .c, .d, .a, 12, 20, 0x8d2a4c8a⟩,
  ⟨.H, .a, .b, .c, .d, 5, 4, 0xfffa3942⟩,
  ⟨.H, .d, .a, .b, .c, 8, 11, 0x8771f681⟩,
  ⟨.H, .c, .d, .a, .b, 11, 16, 0x6d9d6122⟩,
  ⟨.H, .b, .c, .d, .a, 14, 23, 0xfde5380c⟩,
  ⟨.H, .a, .b, .c, .d, 1, 4, 0xa4beea44⟩,
  ⟨.H, .d, .a, .b, .c, 4, 11, 0x4bdecfa9⟩,
  ⟨.H, .c, .d, .a, .b, 7, 16, 0xf6bb4b60⟩,
  ⟨.H, .b, .c, .d, .a, 10, 23, 0xbebfbc70⟩,
  ⟨.H, .a, .b, .c, .d, 13, 4, 0x289b7ec6⟩,
  ⟨.H, .d, .a, .b, .c, 0, 11, 0xeaa127fa⟩,
  ⟨.H, .c, .d, .a, .b, 3, 16, 0xd4ef3085⟩,
  ⟨.H, .b, .c, .d, .a, 6, 23, 0x04881d05⟩,
  ⟨.H, .a, .b, .c, .d, 9, 4, 0xd9d4d039⟩,
  ⟨.H, .d, .a, .b, .c, 12, 11, 0xe6db99e5⟩,
  ⟨.H, .c, .d, .a, .b, 15, 16, 0x1fa27cf8⟩,
  ⟨.H, .b, .c, .d, .a, 2, 23, 0xc4ac5665⟩,
  ⟨.I, .a, .b, .c, .d, 0, 6, 0xf4292244⟩,
  ⟨.I, .d, .a, .b, .c, 7, 10, 0x432aff97⟩,
  ⟨.I, .c, .d, .a, .b, 14, 15, 0xab9423a7⟩,
  ⟨.I, .b, .c, .d, .a, 5, 21, 0xfc93a039⟩,
  ⟨.I, .a, .b, .c, .d, 12, 6, 0x655b59c3⟩,
  ⟨.I, .d, .a, .b, .c, 3, 10, 0x8f0ccc92⟩,
  ⟨.I, .c, .d, .a, .b, 10, 15, 0xffeff47d⟩,
  ⟨.I, .b, .c, .d, .a, 1, 21, 0x85845dd1⟩,
  ⟨.I, .a, .b, .c, .d, 8, 6, 0x6fa87e4f⟩,
  ⟨.I, .d, .a, .b, .c, 15, 10, 0xfe2ce6e0⟩,
  ⟨.I, .c, .d, .a, .b, 6, 15, 0xa3014314⟩,
  ⟨.I, .b, .c, .d, .a, 13, 21, 0x4e0811a1⟩,
  ⟨.I, .a, .b, .c, .d, 4, 6, 0xf7537e82⟩,
  ⟨.I, .d, .a, .b, .c, 11, 10, 0xbd3af235⟩,
  ⟨.I, .c, .d, .a, .b, 2, 15, 0x2ad7d2bb⟩,
  ⟨.I, .b, .c, .d, .a, 9, 21, 0xeb86d391⟩]

/-- Word `i` of the buffer `x` of 64 bytes. -/
def word (x : List Byte) (i : Nat) : W :=
  BitVec.ofNat 32 ((x.getD (4 * i) 0).toNat + 2 ^ 8 * (x.getD (4 * i + 1) 0).toNat
    + 2 ^ 16 * (x.getD (4 * i + 2) 0).toNat + 2 ^ 24 * (x.getD (4 * i + 3) 0).toNat)

/-- `md5`, md5.h:75-158. -/
def md5 (r : Regs) (x : List Byte) : Regs :=
  let r' := prog.foldl (exec (word x)) r
  ⟨r.a + r'.a, r.b + r'.b, r.c + r'.c, r.d + r'.d⟩

/-- `memset(x, 0, 64)` followed by `fread(&x, 4, 16, f)` with the rest of the file still to be read,
md5.h:194-195, 205-206. -/
def fill (rest : List Byte) : List Byte := rest.take 64 ++ List.replicate (64 - rest.length) 0

/-- The loop, md5.h:203-213; `n` rounds remain.  Gives the state, the buffer and the rest of the file. -/
def blocks : Nat → Regs → List Byte → List Byte → Regs × List Byte
  | 0, r, x, _ => (r, x)
  | n + 1, r, x, rest => blocks n (md5 r x) (fill rest) (rest.drop 64)

/-- The bytes of a word in memory. -/
def leBytes (v : W) : List Byte := [0, 1, 2, 3].map fun i => BitVec.ofNat 8 (v.toNat / 2 ^ (8 * i))

/-- `flen[0]`, `flen[1]`, md5.h:191-192. -/
def flen (len : Nat) : List Byte :=
  leBytes (BitVec.ofNat 32 (len % 0x20000000 * 8)) ++ leBytes (BitVec.ofNat 32 (len / 0x20000000))

/-- The end of the message, md5.h:214-220. -/
def finish (len : Nat) (r : Regs) (x : List Byte) : Regs :=
  let x := x.set (len % 64) 128
  let (r, x) := if len % 64 > 55 then (md5 r x, List.replicate 64 0) else (r, x)
  md5 r (x.take 56 ++ flen len)

/-- Start values, md5.h:190. -/
def init : Regs := ⟨0x67452301, 0xefcdab89, 0x98badcfe, 0x10325476⟩

/-- The macro `PP`, md5.h:68. -/
def pp (x : W) : W := (x <<< 24) ||| ((x <<< 8) &&& 0xff0000) ||| ((x >>> 8) &&& 0xff00) ||| (x >>> 24)

/-- `FileMD5`, md5.h:160-230.  `none`: the counter `int i` of the loop overflows. -/
def fileMd5 (file : List Byte) : Option (List W) :=
  let len := file.length
  if len / 64 < 2147483648 then
    let (r, x) := blocks (len / 64) init (fill file) (file.drop 64)
    let r := finish len r x
    some [pp r.a, pp r.b, pp r.c, pp r.d]
  else none

/-- A digit of `%X`. -/
def hexDigit (n : Nat) : Char := if n < 10 then Char.ofNat (48 + n) else Char.ofNat (55 + n)

/-- `sprintf("%08X")`. -/
def hex8 (v : W) : List Char := (List.range 8).map fun i => hexDigit (v.toNat / 16 ^ (7 - i) % 16)

/-- `MD5str`, test.c:388. -/
def md5Str (file : List Byte) : Option (List Char) := (fileMd5 file).map fun l => l.flatMap hex8

/-- The verdict, test.c:386-397: `none` if there is no reference of 32 characters, else success or failure. -/
def verdict (file : List Byte) (ref : List Char) : Option Bool :=
  if ref.length = 32 then (md5Str file).map fun s => s == ref else none

end Davs2.Md

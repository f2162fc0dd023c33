import Verif.Model.Basic
/-
MD5 as defined by RFC 1321.
-/
namespace Davs2.Md

/-- Sum of the Taylor series of `sin n`, scaled by 2^256: term `k` is the current term with its sign, rounded
down in absolute value.  200 pairs of terms leave an error far below 2^-32 for the arguments 1 to 64. -/
def sinScaled (n : Nat) : Int :=
  ((List.range 200).foldl (fun (st : Int × Int) k =>
    (st.1 + st.2, - (st.2 * (n * n : Nat)) / ((2 * k + 2) * (2 * k + 3) : Nat))) (0, (n : Int) * 2 ^ 256)).1

/-- `T[i]`, RFC 1321 section 3.4: the integer part of 4294967296 times abs(sin(i)), i in radians, i from 1. -/
def rfcT (i : Nat) : Nat := (sinScaled i).natAbs / 2 ^ 224

/-- The auxiliary functions by round. -/
def rfcF (round : Nat) (x y z : BitVec 32) : BitVec 32 :=
  match round with
  | 0 => (x &&& y) ||| (~~~x &&& z)
  | 1 => (x &&& z) ||| (y &&& ~~~z)
  | 2 => x ^^^ y ^^^ z
  | _ => y ^^^ (x ||| ~~~z)

/-- Index of the message word in step `i` (from 0). -/
def rfcK (i : Nat) : Nat :=
  match i / 16 with
  | 0 => i % 16
  | 1 => (5 * i + 1) % 16
  | 2 => (3 * i + 5) % 16
  | _ => (7 * i) % 16

/-- Amount of the rotation in step `i`. -/
def rfcS (i : Nat) : Nat :=
  ((([[7, 12, 17, 22], [5, 9, 14, 20], [4, 11, 16, 23], [6, 10, 15, 21]] : List (List Nat)).getD (i / 16) []).getD
    (i % 4) 0)

/-- State `(A, B, C, D)`. -/
abbrev RfcSt := BitVec 32 × BitVec 32 × BitVec 32 × BitVec 32

/-- Step `i` on the block `m` of words. -/
def rfcStep (m : Nat → BitVec 32) (st : RfcSt) (i : Nat) : RfcSt :=
  let (a, b, c, d) := st
  (d, b + (a + rfcF (i / 16) b c d + m (rfcK i) + BitVec.ofNat 32 (rfcT (i + 1))).rotateLeft (rfcS i), b, c)

/-- Words of a block: least significant byte first. -/
def rfcWord (blk : List Byte) (k : Nat) : BitVec 32 :=
  (blk.getD (4 * k + 3) 0 ++ blk.getD (4 * k + 2) 0 ++ blk.getD (4 * k + 1) 0 ++ blk.getD (4 * k) 0 : BitVec 32)

/-- A block of 64 bytes. -/
def rfcBlock (st : RfcSt) (blk : List Byte) : RfcSt :=
  let (a, b, c, d) := st
  let (a', b', c', d') := (List.range 64).foldl (rfcStep (rfcWord blk)) st
  (a + a', b + b', c + c', d + d')

/-- The message cut into blocks. -/
def rfcBlocks : Nat → RfcSt → List Byte → RfcSt
  | 0, st, _ => st
  | n + 1, st, msg => rfcBlocks n (rfcBlock st (msg.take 64)) (msg.drop 64)

/-- Least significant bytes first. -/
def le (n : Nat) (v : Nat) : List Byte := (List.range n).map fun i => BitVec.ofNat 8 (v / 256 ^ i)

/-- Padding, sections 3.1 and 3.2: a one bit, zero bits up to 448 modulo 512, the length in bits modulo 2^64. -/
def rfcPad (msg : List Byte) : List Byte :=
  msg ++ [0x80] ++ List.replicate ((119 - msg.length % 64) % 64) 0 ++ le 8 (8 * msg.length % 2 ^ 64)

/-- The digest, 16 bytes. -/
def rfcMd5 (msg : List Byte) : List Byte :=
  let p := rfcPad msg
  let (a, b, c, d) := rfcBlocks (p.length / 64) (0x67452301, 0xefcdab89, 0x98badcfe, 0x10325476) p
  le 4 a.toNat ++ le 4 b.toNat ++ le 4 c.toNat ++ le 4 d.toNat

/-- Upper case hexadecimal notation of bytes. -/
def hexUpper (l : List Byte) : List Char :=
  l.flatMap fun b => [("0123456789ABCDEF".toList).getD (b.toNat / 16) '?', ("0123456789ABCDEF".toList).getD (b.toNat % 16) '?']

end Davs2.Md

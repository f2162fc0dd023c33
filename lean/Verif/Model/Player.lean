import Verif.Model.Basic
/-
The sample player, /repo/source/test/test.c:174-282 (packet loop of `test_decoder`) and
/repo/source/test/inputstream.h:44-153.

`mem` is the buffer allocated for the file, that is the file followed by 1024 zero bytes (inputstream.h:132);
a read outside is the result `none`.  Pointers are offsets into the buffer.  Lengths are mathematical integers:
files of 2^31 bytes and more are not modelled, and neither are unaligned accesses (`*(int *)data`).
-/
namespace Davs2.Pl

/-- The buffer of a file. -/
def buffer (file : List Byte) : List Byte := file ++ List.replicate 1024 0

/-- `*(int *)data & 0x00FFFFFF` on a little-endian machine; the access covers four bytes. -/
def word3 (mem : List Byte) (p : Nat) : Option Nat := do
  let a ← mem[p]?
  let b ← mem[p + 1]?
  let c ← mem[p + 2]?
  let _ ← mem[p + 3]?
  pure (a.toNat + 256 * b.toNat + 65536 * c.toNat)

/-- `find_start_code`, inputstream.h:51-61; the inner `none` is the null pointer. -/
def findStartCode (mem : List Byte) : Nat → Nat → Option (Option Nat)
  | 0, _ => some none
  | n + 1, p =>
    if n + 1 ≥ 4 then
      match word3 mem p with
      | none => none
      | some v => if v ≠ 0x00010000 then findStartCode mem n (p + 1) else some (some p)
    else some none

/-- The call for a length that may be negative: the loop condition `len >= 4` fails. -/
def findSc (mem : List Byte) (p : Nat) (len : Int) : Option (Option Nat) := findStartCode mem len.toNat p

/-- Length of the packet, test.c:214-219. -/
def pieceLen (p : Nat) (len : Int) : Option Nat → Int
  | some q => (q : Int) - p
  | none => len

/-- Packet loop of `test_decoder`, test.c:209-259: offset and length of the packets sent.  `ok` tells whether the
decoder accepts the packet with the given number (`user_dts`); an error ends the loop.  The fuel counts rounds. -/
def packetLoop (mem : List Byte) (ok : Nat → Bool) : Nat → Nat → Nat → Int → Option (List (Nat × Nat))
  | 0, _, _, _ => none
  | fuel + 1, k, p, len => do
    let r ← findSc mem (p + 4) (len - 4)
    let n := pieceLen p len r
    if ok k then
      if len - n = 0 then pure [(p, n.toNat)]
      else do
        let rest ← packetLoop mem ok fuel (k + 1) (p + n.toNat) (len - n)
        pure ((p, n.toNat) :: rest)
    else pure [(p, n.toNat)]

/-- The packets of a file of at least one byte (an empty file is refused, inputstream.h:138-143). -/
def packets (file : List Byte) (ok : Nat → Bool) : Option (List (Nat × Nat)) :=
  packetLoop (buffer file) ok file.length 0 0 file.length

/-- Bytes of a packet. -/
def bytesOf (mem : List Byte) (pk : Nat × Nat) : List Byte := (mem.drop pk.1).take pk.2

/-- `ISPIC`, inputstream.h:46. -/
def isPic (x : Byte) : Bool := x.toNat == 0xB3 || x.toNat == 0xB6

/-- `ISUNIT`, inputstream.h:47. -/
def isUnit (x : Byte) : Bool := x.toNat == 0xB0 || x.toNat == 0xB1 || x.toNat == 0xB7 || isPic x

/-- `check_frame`, inputstream.h:65-78; `p0`, `len0` are the parameters, the fuel counts rounds. -/
def checkLoop (mem : List Byte) (p0 : Nat) (len0 : Int) : Nat → Nat → Int → Option Int
  | 0, _, _ => none
  | fuel + 1, p, len => do
    let r ← findSc mem p len
    match r with
    | none => pure (len0 + 1)
    | some q =>
      let c ← mem[q + 3]?
      if isUnit c then pure ((q : Int) - p0)
      else checkLoop mem p0 len0 fuel (q + 4) (len - ((q : Int) - p + 4))

def checkFrame (mem : List Byte) (p : Nat) (len : Int) : Option Int := checkLoop mem p len (len.toNat + 1) p len

/-- `find_one_frame`, inputstream.h:82-94: start and end, `none` inside for the return value -1. -/
def findOneFrame (mem : List Byte) (p : Nat) (len : Int) : Option (Option (Int × Int)) := do
  let start ← checkFrame mem p len
  if start > len then pure none
  else do
    let e ← checkFrame mem (p + start.toNat + 4) (len - start - 4)
    pure (some (start, if e ≤ len then e + start + 4 else e))

/-- `count_frames`, inputstream.h:98-118; the fuel counts rounds. -/
def countLoop (mem : List Byte) : Nat → Nat → Int → Nat → Option Nat
  | 0, _, _, _ => none
  | fuel + 1, p, size, count => do
    let r ← findOneFrame mem p size
    match r with
    | none => pure count
    | some (start, e) =>
      let c ← mem[p + start.toNat + 3]?
      countLoop mem fuel (p + e.toNat) (size - e) (if isPic c then count + 1 else count)

def countFrames (file : List Byte) : Option Nat := countLoop (buffer file) (file.length + 2) 0 file.length 0

end Davs2.Pl

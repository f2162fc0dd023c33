import Verif.Model.Vlc
/-
The bit reader as the header parsers use it (vlc.h), over a memory that goes on behind the packet.

`Model/Vlc.lean` stops with `oob` at the first byte behind the packet.  The packet buffers of the
decoder are larger than the packet, so a parser of a truncated header keeps reading stale bytes until
one of the (incomplete) checks of vlc.h strikes.  Here memory is a function, the length is the one the
reader was told, and the error returns of vlc.h appear as the value -1, exactly as the parsers see it.
-/
namespace Davs2

/-- `bs->p_stream` with `bs->i_stream` = `len`; bytes at and behind `len` are arbitrary. -/
structure Mem where
  byte : Nat → Byte
  len : Nat

/-- Loop of `read_bits`, vlc.h:55-68; `none` is `return -1`. -/
def mReadLoop (m : Mem) : Nat → Nat → Nat → BitVec 32 → Option (BitVec 32)
  | 0, _, _, inf => some inf
  | n + 1, byteOffset, bitOffset, inf =>
    let inf' := (inf <<< 1) ||| (if bitAt (m.byte byteOffset) bitOffset then 1#32 else 0#32)
    if bitOffset = 0 then
      if byteOffset + 1 > m.len then none
      else mReadLoop m n (byteOffset + 1) 7 inf'
    else mReadLoop m n byteOffset (bitOffset - 1) inf'

/-- Prefix search of `get_vlc_symbol`, vlc.h:88-102.  `fuel` bounds the number of zero bits; running
out of it is `none`.  Used with `fuel = 31`: from 31 zeros on, `1 << (len >> 1)` overflows. -/
def mPrefix (m : Mem) : Nat → Nat → Nat → Nat → Option (Nat × Nat × Nat)
  | 0, _, _, _ => none
  | fuel + 1, byteOffset, bitOffset, len =>
    if bitAt (m.byte byteOffset) bitOffset then some (len, byteOffset, bitOffset)
    else mPrefix m fuel (nextBit byteOffset bitOffset).1 (nextBit byteOffset bitOffset).2 (len + 1)

/-- Information loop of `get_vlc_symbol`, vlc.h:106-124; `none` is `return -1`. -/
def mInfo (m : Mem) : Nat → Nat → Nat → BitVec 32 → Option (BitVec 32)
  | 0, _, _, inf => some inf
  | n + 1, byteOffset, bitOffset, inf =>
    let p := nextBit byteOffset bitOffset
    if p.1 > m.len then none
    else mInfo m n p.1 p.2 ((inf <<< 1) ||| (if bitAt (m.byte p.1) p.2 then 1#32 else 0#32))

/-- A header parser: reads from memory at a bit position. -/
def Rd (α : Type) := Mem → Nat → Res (α × Nat)

namespace Rd

def pure' {α : Type} (a : α) : Rd α := fun _ p => .ok (a, p)

def bind' {α β : Type} (x : Rd α) (f : α → Rd β) : Rd β := fun m p =>
  match x m p with
  | .ok (a, q) => f a m q
  | .err => .err
  | .oob => .oob
  | .ub => .ub

instance : Monad Rd where
  pure := pure'
  bind := bind'

end Rd

/-- `return -1` of a header parser. -/
def rdReject {α : Type} : Rd α := fun _ _ => .err

/-- A store outside a table. -/
def rdOob {α : Type} : Rd α := fun _ _ => .oob

/-- `bs->i_bit_pos += n`. -/
def rdSkip (n : Nat) : Rd Unit := fun _ p => .ok ((), p + n)

/-- `u_v`, vlc.h:135-155. -/
def rdU (n : Nat) : Rd Int := fun m p =>
  match mReadLoop m n (p / 8) (7 - p % 8) 0#32 with
  | some v => .ok (v.toInt, p + n)
  | none => .ok (-1, p)

/-- `get_vlc_symbol`, vlc.h:77-129: `none` is `return -1`. -/
def mVlc (m : Mem) (p : Nat) : Res (Option (Nat × BitVec 32)) :=
  match mPrefix m 31 (p / 8) (7 - p % 8) 1 with
  | none => .ub
  | some (len, byteOffset, bitOffset) =>
    match mInfo m (len - 1) byteOffset bitOffset 0#32 with
    | some inf => .ok (some (len + (len - 1), inf))
    | none => .ok none

/-- `ue_v`, vlc.h:161-186. -/
def rdUe : Rd Int := fun m p =>
  match mVlc m p with
  | .ok (some (len, info)) => .ok ((1#32 <<< (len / 2) + info - 1#32).toInt, p + len)
  | .ok none => .ok (-1, p)
  | .err => .err
  | .oob => .oob
  | .ub => .ub

/-- `se_v`, vlc.h:192-222. -/
def rdSe : Rd Int := fun m p =>
  match mVlc m p with
  | .ok (some (len, info)) =>
    let n : Int := (1#32 <<< (len / 2) + info - 1#32).toInt
    let r : Int := (n + 1) / 2
    .ok (if n % 2 = 0 then -r else r, p + len)
  | .ok none => .ok (-1, p)
  | .err => .err
  | .oob => .oob
  | .ub => .ub

/-- `bs_align`, bitstream.cc:63-66. -/
def rdAlign : Rd Unit := fun _ p => .ok ((), ((p + 7) / 8) * 8)

/-- `for (i = 0; i < n; i++) x[i] = ...` -/
def rdMany {α : Type} (x : Rd α) : Nat → Rd (List α)
  | 0 => pure []
  | n + 1 => do
    let a ← x
    let as ← rdMany x n
    pure (a :: as)

end Davs2

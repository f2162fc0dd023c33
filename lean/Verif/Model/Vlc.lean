import Verif.Model.Basic
/-
Model of the header bit reader: /repo/source/common/vlc.h and the reader part of
/repo/source/common/bitstream.cc.

A buffer is a `List Byte`; its length plays the role of `i_buf` / `bs->i_stream`, the number of bytes
the reader was told it may use.  Reading at an index outside the list is the outcome `Res.oob`.
-/
namespace Davs2

/-- Bit `7 - bit_offset` (counted from the most significant one) of a byte:
`(p_buf[byte_offset] & (1 << bit_offset)) >> bit_offset`, vlc.h:57. -/
def bitAt (b : Byte) (bitOffset : Nat) : Bool := b.getLsbD bitOffset

/-- Loop of `read_bits`, vlc.h:55-68.  `n` is `i_bits`, counted down; `inf` is the 32-bit accumulator. -/
def readBitsLoop (buf : List Byte) : Nat → Nat → Nat → BitVec 32 → Res (BitVec 32)
  | 0, _, _, inf => .ok inf
  | n + 1, byteOffset, bitOffset, inf =>
    match buf[byteOffset]? with
    | none => .oob
    | some b =>
      let inf' := (inf <<< 1) ||| (if bitAt b bitOffset then 1#32 else 0#32)
      if bitOffset = 0 then
        if byteOffset + 1 > buf.length then .err
        else readBitsLoop buf n (byteOffset + 1) 7 inf'
      else readBitsLoop buf n byteOffset (bitOffset - 1) inf'

/-- `read_bits`, vlc.h:48-72. -/
def readBits (buf : List Byte) (pos n : Nat) : Res (BitVec 32) :=
  readBitsLoop buf n (pos / 8) (7 - pos % 8) 0#32

/-- One step of the position pair used by `get_vlc_symbol`, vlc.h:92-99 and 108-114. -/
def nextBit (byteOffset bitOffset : Nat) : Nat × Nat :=
  if bitOffset = 0 then (byteOffset + 1, 7) else (byteOffset, bitOffset - 1)

/-- Search for the leading one bit, vlc.h:88-102.  Returns `len` and the position of the one bit.
`len` counts the bits up to and including the one bit (`bit_counter` runs in step with it). -/
def vlcPrefix (buf : List Byte) (byteOffset bitOffset len : Nat) : Res (Nat × Nat × Nat) :=
  match h : buf[byteOffset]? with
  | none => .oob
  | some b =>
    if bitAt b bitOffset then .ok (len, byteOffset, bitOffset)
    else vlcPrefix buf (nextBit byteOffset bitOffset).1 (nextBit byteOffset bitOffset).2 (len + 1)
termination_by (buf.length - byteOffset, bitOffset)
decreasing_by
  have hb : byteOffset < buf.length := by
    rcases Nat.lt_or_ge byteOffset buf.length with h1 | h1
    · exact h1
    · rw [List.getElem?_eq_none h1] at h; cases h
  unfold nextBit
  split
  · apply Prod.Lex.left; omega
  · apply Prod.Lex.right; omega

/-- Loop that collects the information bits, vlc.h:106-124. -/
def vlcInfo (buf : List Byte) : Nat → Nat → Nat → BitVec 32 → Res (BitVec 32)
  | 0, _, _, inf => .ok inf
  | n + 1, byteOffset, bitOffset, inf =>
    let p := nextBit byteOffset bitOffset
    if p.1 > buf.length then .err
    else
      match buf[p.1]? with
      | none => .oob
      | some b => vlcInfo buf n p.1 p.2 ((inf <<< 1) ||| (if bitAt b p.2 then 1#32 else 0#32))

/-- `get_vlc_symbol`, vlc.h:77-129: code length in bits and information word. -/
def getVlcSymbol (buf : List Byte) (pos : Nat) : Res (Nat × BitVec 32) :=
  match vlcPrefix buf (pos / 8) (7 - pos % 8) 1 with
  | .ok (len, byteOffset, bitOffset) =>
    match vlcInfo buf (len - 1) byteOffset bitOffset 0#32 with
    | .ok inf => .ok (len + (len - 1), inf)
    | .err => .err
    | .oob => .oob
    | .ub => .ub
  | .err => .err
  | .oob => .oob
  | .ub => .ub

/-- `davs2_bs_t`, common.h: stream bytes and bit position (`i_stream` is the length of the list). -/
structure Bs where
  buf : List Byte
  pos : Nat
  deriving DecidableEq, Repr

/-- `vlc_u_v`, vlc.h:135-155.  The C function returns `-1` on error and then leaves the position. -/
def uV (bs : Bs) (n : Nat) : Res (Int × Bs) :=
  match readBits bs.buf bs.pos n with
  | .ok v => .ok (v.toInt, { bs with pos := bs.pos + n })
  | .err => .ok (-1, bs)
  | .oob => .oob
  | .ub => .ub

/-- `vlc_ue_v`, vlc.h:161-186.  `1 << (len >> 1)` with `len >> 1 ≥ 31` overflows `int`: `ub`. -/
def ueV (bs : Bs) : Res (Int × Bs) :=
  match getVlcSymbol bs.buf bs.pos with
  | .ok (len, info) =>
    if len / 2 ≥ 31 then .ub
    else .ok ((1#32 <<< (len / 2) + info - 1#32).toInt, { bs with pos := bs.pos + len })
  | .err => .ok (-1, bs)
  | .oob => .oob
  | .ub => .ub

/-- `vlc_se_v`, vlc.h:192-222. -/
def seV (bs : Bs) : Res (Int × Bs) :=
  match getVlcSymbol bs.buf bs.pos with
  | .ok (len, info) =>
    if len / 2 ≥ 31 then .ub
    else
      let n : Int := (1#32 <<< (len / 2) + info - 1#32).toInt
      let r : Int := (n + 1) / 2
      .ok (if n % 2 = 0 then -r else r, { bs with pos := bs.pos + len })
  | .err => .ok (-1, bs)
  | .oob => .oob
  | .ub => .ub

/-- `bs_align`, bitstream.cc:63-66. -/
def bsAlign (bs : Bs) : Bs := { bs with pos := ((bs.pos + 7) / 8) * 8 }

/-- `bs_left_bytes`, bitstream.cc:70-73 (signed, since the position may have run past the end). -/
def bsLeftBytes (bs : Bs) : Int := (bs.buf.length : Int) - (bs.pos / 8 : Nat)

end Davs2

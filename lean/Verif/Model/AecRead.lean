import Verif.Model.Basic
/-
The bit reader below the entropy decoder, /repo/source/common/aec.cc:157-234, 356-386.

`buf` is the memory the pointer `p_buffer` may be used for; an access outside is a failure.  `toGo` is
`i_bits_to_go`, an `int8_t`: arithmetic on it is done in `int` and converted back modulo 256, as every
compiler supported does.  The value register, to which the bits read are appended, is part of
`Verif.Model.Aec`.
-/
namespace Davs2

/-- Conversion of an `int` to `int8_t`. -/
def toInt8 (x : Int) : Int := (x + 128) % 256 - 128

structure AecRd where
  buf : List Byte
  /-- `i_byte_pos` -/
  pos : Nat
  /-- `i_bytes` -/
  len : Nat
  /-- `i_bits_to_go` -/
  toGo : Int
  /-- `i_byte_buf`, 64 bits -/
  byteBuf : Nat

/-- Bytes `pos .. pos + n - 1` put together, first byte in front (aec.cc:169-170 and 180-182). -/
def loadBytes (buf : List Byte) (pos : Nat) : Nat → Nat → Option Nat
  | 0, acc => some acc
  | n + 1, acc =>
    match buf[pos]? with
    | none => none
    | some x => loadBytes buf (pos + 1) n ((acc * 256 + x.toNat) % 2 ^ 64)

/-- Outcome of `aec_get_next_bit`: a bit; the error return, with the bit error flag raised; or undefined
behaviour (access outside the buffer, shift of a 64-bit number by 64 or more). -/
inductive BitRes where
  | bit (b : Bool) (r : AecRd)
  | eos (r : AecRd)
  | ub

/-- aec.cc:206: `(i_byte_buf >> i_bits_to_go) & 1`. -/
def AecRd.extract (r : AecRd) : BitRes :=
  if r.toGo < 64 then .bit (r.byteBuf.testBit r.toGo.toNat) r else .ub

/-- `aec_get_next_bit`, aec.cc:157-211, without the value register. -/
def aecNextBit (r : AecRd) : BitRes :=
  let r1 : AecRd := { r with toGo := toInt8 (r.toGo - 1) }
  if r1.toGo < (0 : Int) then
    let diff : Int := (r.len : Int) - r.pos
    if diff > 7 then
      match loadBytes r.buf r.pos 8 0 with
      | none => .ub
      | some w => AecRd.extract { r1 with byteBuf := w, toGo := 63, pos := r.pos + 8 }
    else if diff > 0 then
      let tg := toInt8 (r1.toGo + toInt8 (diff * 8))
      match loadBytes r.buf r.pos diff.toNat 0 with
      | none => .ub
      | some w => AecRd.extract { r1 with byteBuf := w, toGo := tg, pos := ((r.pos : Int) + (tg + 1) / 8).toNat }
    else .eos r1
  else r1.extract

/-- First half of `aec_start_decoding`, aec.cc:361-364; `i_byte_buf` keeps its value. -/
def aecRdStart (buf : List Byte) (pos len old : Nat) : AecRd := ⟨buf, pos, len, 0, old⟩

/-- `aec_bits_read`, aec.cc:383-386. -/
def aecBitsRead (r : AecRd) : Int := (r.pos : Int) * 8 - r.toGo

/-- `n` calls of `aec_get_next_bit` in a row: the results (`none` for the error return) and the last state;
`none` if one of them is undefined behaviour. -/
def aecNextBits : Nat → AecRd → Option (List (Option Bool) × AecRd)
  | 0, r => some ([], r)
  | n + 1, r =>
    match aecNextBit r with
    | .bit b r' => (aecNextBits n r').map fun (l, q) => (some b :: l, q)
    | .eos r' => (aecNextBits n r').map fun (l, q) => (none :: l, q)
    | .ub => none

end Davs2

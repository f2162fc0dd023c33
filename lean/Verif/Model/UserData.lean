import Verif.Model.StartCode
/-
The way from the picture header to the first slice: `decode_user_data`, /repo/source/common/decoder.cc:737-764, called at decoder.cc:1117 after `init_frame` has cleared
`b_slice_checked` (decoder.cc:74).
-/
namespace Davs2

/-- `data[3] <= SC_SLICE_CODE_MAX`, decoder.cc:747; common.h:209. -/
def isSliceCode (c : Byte) : Bool := c ≤ 0x8F#8

/-- The loop, decoder.cc:743-759, from `data` with `left` bytes (the list): the offset at which it stops with `left >= 4`, `none` if the bytes end. -/
def userScan : List Byte → Option Nat
  | a :: b :: c :: x :: rest =>
    if a == 0#8 && b == 0#8 && c == 1#8 then
      if x == 0xB2#8 then (userScan rest).map (· + 4)
      else if isSliceCode x then some 0
      else (userScan rest).map (· + 4)
    else (userScan (b :: c :: x :: rest)).map (· + 1)
  | _ => none

/-- `decode_user_data`, decoder.cc:737-764: the reader and `b_slice_checked` after it. -/
def decodeUserData (bs : Bs) : Bs × Bool :=
  let bytes := bs.pos / 8
  match userScan (bs.buf.drop bytes) with
  | some k => ({ bs with pos := 8 * (bytes + k) }, true)
  | none => (bs, false)

end Davs2

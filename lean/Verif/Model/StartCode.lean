import Verif.Model.Vlc
/-
Start-code searches, /repo/source/common/bitstream.cc:82-119 and 217-262.
-/
namespace Davs2

/-- `(*(uint32_t *)data & 0x00FFFFFF) == 0x00010000` on a little-endian machine with at least four bytes
left: the bytes 00 00 01 xx, bitstream.cc:219. -/
def isStart4 : List Byte → Bool
  | a :: b :: c :: _ :: _ => a == 0#8 && b == 0#8 && c == 1#8
  | _ => false

/-- `find_start_code`, bitstream.cc:217-225: offset of the pointer returned, `none` for NULL.  The loop
test `len >= 4` is the pattern with four bytes, so no byte beyond `data + len` is looked at. -/
def findStartCode : List Byte → Option Nat
  | [] => none
  | b :: l =>
    if (b :: l).length ≥ 4 ∧ ¬ isStart4 (b :: l) then (findStartCode l).map (· + 1)
    else if (b :: l).length ≥ 4 then some 0 else none

/-- `ISPIC`, bitstream.cc:232. -/
def isPicCode (c : Byte) : Bool :=
  c == 0xB0#8 || c == 0xB1#8 || c == 0xB3#8 || c == 0xB6#8 || c == 0xB7#8

/-- The loop of `find_pic_start_code`, bitstream.cc:254-257: offset of `p` from `data`; after a start code
that is not a picture code the search continues four bytes further. -/
def findPicLoop (data : List Byte) : Option Nat :=
  match findStartCode data with
  | none => none
  | some i =>
    match h : data.drop i with
    | a :: b :: c :: x :: rest =>
      if isPicCode x then some i else (findPicLoop rest).map (· + (i + 4))
    | _ => none      -- never reached: `find_start_code` leaves four bytes
termination_by data.length
decreasing_by
  skip
  have := congrArg List.length h
  simp only [List.length_drop, List.length_cons] at this
  omega

/-- The value computed after the loop, bitstream.cc:259. -/
def picTail (data : List Byte) : Int :=
  match findPicLoop data with
  | some i => i
  | none => data.length + 1

/-- `find_pic_start_code`, bitstream.cc:229-262. -/
def findPicStartCode (p3 p2 p1 : Byte) (data : List Byte) : Int :=
  let tail := picTail data
  if data.length ≥ 1 ∧ p3 = 0#8 ∧ p2 = 0#8 ∧ p1 = 1#8 then
    match data with
    | x :: _ => if isPicCode x then -3 else tail
    | _ => tail
  else
    match data with
    | a :: x :: rest =>
      if p2 = 0#8 ∧ p1 = 0#8 ∧ a = 1#8 then
        if isPicCode x then -2 else tail
      else
        match rest with
        | y :: _ =>
          if p1 = 0#8 ∧ a = 0#8 ∧ x = 1#8 then
            if isPicCode y then -1 else tail
          else tail
        | [] => tail
    | _ => tail

/-- Four bytes of the buffer at byte offset `i`; `none` if one of them is outside. -/
def load4 (buf : List Byte) (i : Nat) : Option (Byte × Byte × Byte × Byte) :=
  match buf.drop i with
  | a :: b :: c :: d :: _ => some (a, b, c, d)
  | _ => none

/-- The loop of `bs_get_start_code`, bitstream.cc:107-118; `p` is the offset of `p_data`, `left` is
`i_left_bytes`.  Result: `oob`, `err` for "-1", or the offset at which the loop stopped. -/
def getStartCodeLoop (buf : List Byte) : Nat → Nat → Res Nat
  | left, p =>
    if left ≥ 4 then
      match load4 buf p with
      | none => .oob
      | some (a, b, c, _) =>
        if a = 0#8 ∧ b = 0#8 ∧ c = 1#8 then .ok p else getStartCodeLoop buf (left - 1) (p + 1)
    else .err

/-- `bs_get_start_code`, bitstream.cc:100-119: start code value and the advanced reader. `p_data` is
rounded up to a byte, the number of bytes left is computed from the position rounded down. -/
def bsGetStartCode (bs : Bs) : Res (Byte × Bs) :=
  match getStartCodeLoop bs.buf (bs.buf.length - bs.pos / 8) ((bs.pos + 7) / 8) with
  | .ok p =>
    match load4 bs.buf p with
    | some (_, _, _, d) => .ok (d, { bs with pos := bs.pos + 8 * (p - (bs.pos + 7) / 8) })
    | none => .oob
  | .err => .err
  | .oob => .oob
  | .ub => .ub

/-- `found_slice_header`, bitstream.cc:82-96: up to four 32-bit loads from the next byte boundary, with no
check against the end of the buffer. -/
def foundSliceHeaderLoop : Nat → Bs → Res (Bool × Bs)
  | 0, bs => .ok (false, bs)
  | n + 1, bs =>
    match load4 bs.buf ((bs.pos + 7) / 8) with
    | none => .oob
    | some (a, b, c, d) =>
      if a = 0#8 ∧ b = 0#8 ∧ c = 1#8 ∧ d.toNat ≤ 0x8F then .ok (true, bs)
      else foundSliceHeaderLoop n { bs with pos := bs.pos + 8 }

def foundSliceHeader (bs : Bs) : Res (Bool × Bs) := foundSliceHeaderLoop 4 bs

end Davs2

import Verif.Model.Basic
/-
Model of `bs_dispose_pseudo_code`, /repo/source/common/bitstream.cc:130-211.
-/
namespace Davs2

/-- Local variables of `bs_dispose_pseudo_code` that survive a loop iteration, bitstream.cc:133-140
(`curr_bit_count`, `curr_byte` are recomputed in each iteration, `i_pos`/`i_dst` are the lengths of the
consumed and produced lists). -/
structure DispState where
  found   : Bool      -- b_found_start_code
  zeros   : Nat       -- leading_zeros
  lbc     : Nat       -- last_bit_count
  dispose : Bool      -- b_dispose
  last    : Byte      -- last_byte
  deriving DecidableEq, Repr

/-- Initial values, bitstream.cc:133-140. -/
def dispInit : DispState := ⟨false, 0, 0, false, 0#8⟩

/-- `BITMASK`, bitstream.cc:132 (only the even entries below 8 are ever used). -/
def bitmask : Nat → Byte
  | 2 => 0xc0#8
  | 4 => 0xf0#8
  | 6 => 0xfc#8
  | _ => 0x00#8

/-- The `switch` of the loop, bitstream.cc:147-185: new state, `curr_bit_count`, bytes written. -/
def dispClassify (s : DispState) (b : Byte) : DispState × Nat × List Byte :=
  if b = 0#8 then
    let s := if s.found then { s with dispose := true, found := false } else s
    ({ s with zeros := s.zeros + 1 }, 8, [])
  else if b = 1#8 then
    if s.zeros ≥ 2 then
      if s.lbc ≠ 0 then ({ s with found := true, lbc := 0, zeros := 0 }, 8, [0#8])
      else ({ s with found := true, zeros := 0 }, 8, [])
    else ({ s with zeros := 0 }, 8, [])
  else if b = 2#8 then
    ({ s with zeros := 0 }, if s.dispose ∧ s.zeros = 2 then 6 else 8, [])
  else
    let s := if s.found then
        if b = 0xB0#8 ∨ b = 0xB2#8 ∨ b = 0xB5#8 then { s with dispose := false, found := false }
        else { s with dispose := true, found := false }
      else s
    ({ s with zeros := 0 }, 8, [])

/-- The byte formed from the pending bits and the current byte, bitstream.cc:191 and 199. -/
def dispMerge (last : Byte) (lbc : Nat) (b : Byte) : Byte :=
  (last &&& bitmask lbc) ||| ((b &&& bitmask (8 - lbc)) >>> lbc)

/-- One iteration of the loop, bitstream.cc:144-204: new state and the bytes written to `dst`. -/
def dispStep (s : DispState) (b : Byte) : DispState × List Byte :=
  let (s, cbc, w) := dispClassify s b
  if cbc = 8 then
    if s.lbc = 0 then (s, w ++ [b])
    else ({ s with last := (b <<< (8 - s.lbc)) &&& bitmask s.lbc }, w ++ [dispMerge s.last s.lbc b])
  else
    if s.lbc = 0 then ({ s with last := b, lbc := cbc }, w)
    else ({ s with last := (b <<< (8 - s.lbc)) &&& bitmask (s.lbc - 2), lbc := s.lbc - 2 },
          w ++ [dispMerge s.last s.lbc b])

/-- The loop, bitstream.cc:144-204: final state and all bytes written. -/
def dispRun : DispState → List Byte → DispState × List Byte
  | s, [] => (s, [])
  | s, b :: l =>
    let (s', w) := dispStep s b
    let (s'', w') := dispRun s' l
    (s'', w ++ w')

/-- Tail of the function, bitstream.cc:206-208. -/
def dispFinish (s : DispState) : List Byte :=
  if s.lbc ≠ 0 ∧ s.last ≠ 0#8 then [s.last] else []

/-- `bs_dispose_pseudo_code` with separate source and destination. -/
def disposePseudoCode (src : List Byte) : List Byte :=
  let (s, w) := dispRun dispInit src
  w ++ dispFinish s

/-! The callers pass the same buffer as source and destination (davs2.cc: `bs_dispose_pseudo_code(
es_unit->data, es_unit->data, es_unit->len)`), so the same function is also modelled as a loop that
mutates one memory: reads happen at `i_pos`, writes at `i_dst`. -/

/-- Writes `w` into `mem` from index `i` on; `none` when the index leaves the buffer. -/
def memWrite (mem : List Byte) (i : Nat) : List Byte → Option (List Byte)
  | [] => some mem
  | x :: w => if i < mem.length then memWrite (mem.set i x) (i + 1) w else none

/-- The loop running in place over a buffer of `mem.length` bytes; `n` iterations are left. -/
def dispInPlaceLoop : Nat → DispState → List Byte → Nat → Nat → Option (DispState × List Byte × Nat)
  | 0, s, mem, _, dst => some (s, mem, dst)
  | n + 1, s, mem, pos, dst =>
    match mem[pos]? with
    | none => none
    | some b =>
      let (s', w) := dispStep s b
      match memWrite mem dst w with
      | none => none
      | some mem' => dispInPlaceLoop n s' mem' (pos + 1) (dst + w.length)

/-- `bs_dispose_pseudo_code(buf, buf, len)`: contents of the buffer afterwards and the new length. -/
def disposeInPlace (mem : List Byte) : Option (List Byte × Nat) :=
  match dispInPlaceLoop mem.length dispInit mem 0 0 with
  | none => none
  | some (s, mem, dst) =>
    match memWrite mem dst (dispFinish s) with
    | none => none
    | some mem => some (mem, dst + (dispFinish s).length)

end Davs2

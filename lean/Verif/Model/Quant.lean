import Verif.Model.Mv
import Verif.Model.AecRead
/-
Quantiser: source/common/quant.h, quant.cc, the quantiser tables of cu.cc and the part of aec.cc that derives
the quantiser of a coding unit.  8-bit build.
-/
namespace Davs2

/-- `QP_SCALE_CR`, cu.cc:65-73. -/
def qpScaleCr : List Int :=
  [0, 1, 2, 3, 4, 5, 6, 7, 8, 9, 10, 11, 12, 13, 14, 15,
   16, 17, 18, 19, 20, 21, 22, 23, 24, 25, 26, 27, 28, 29, 30, 31,
   32, 33, 34, 35, 36, 37, 38, 39, 40, 41, 42, 42, 43, 43, 44, 44,
   45, 45, 46, 46, 47, 47, 48, 48, 48, 49, 49, 49, 50, 50, 50, 51]

/-- `IQ_SHIFT`, cu.cc:91-102. -/
def iqShift : List Int :=
  [15, 15, 15, 15, 15, 15, 15, 15,
   14, 14, 14, 14, 14, 14, 14, 14,
   14, 13, 13, 13, 13, 13, 13, 13,
   12, 12, 12, 12, 12, 12, 12, 12,
   12, 11, 11, 11, 11, 11, 11, 11,
   11, 10, 10, 10, 10, 10, 10, 10,
   10, 9, 9, 9, 9, 9, 9, 9,
   8, 8, 8, 8, 8, 8, 8, 8,
   7, 7, 7, 7, 7, 7, 7, 7,
   6, 6, 6, 6, 6, 6, 6, 6]

/-- `IQ_TAB`, cu.cc:106-117. -/
def iqTab : List Int :=
  [32768, 36061, 38968, 42495, 46341, 50535, 55437, 60424,
   32932, 35734, 38968, 42495, 46177, 50535, 55109, 59933,
   65535, 35734, 38968, 42577, 46341, 50617, 55027, 60097,
   32809, 35734, 38968, 42454, 46382, 50576, 55109, 60056,
   65535, 35734, 38968, 42495, 46320, 50515, 55109, 60076,
   65535, 35744, 38968, 42495, 46341, 50535, 55099, 60087,
   65535, 35734, 38973, 42500, 46341, 50535, 55109, 60097,
   32771, 35734, 38965, 42497, 46341, 50535, 55109, 60099,
   32768, 36061, 38968, 42495, 46341, 50535, 55437, 60424,
   32932, 35734, 38968, 42495, 46177, 50535, 55109, 59933]

/-- A table read with a C `int` index: `none` outside the table (undefined behaviour). -/
def tabGet (t : List Int) (i : Int) : Option Int := if 0 ≤ i then t[i.toNat]? else none

/-- `cu_get_quant_params`, quant.h:112-117 with `sample_bit_depth` 8 and `LIMIT_BIT` 16: shift and scale. -/
def cuGetQuantParams (qp bitSize : Int) : Option (Int × Int) := do
  let s ← tabGet iqShift qp
  let c ← tabGet iqTab qp
  some (s + (8 + 1) + bitSize - 16, c)

/-- `cu_get_chroma_qp`, quant.h:89-105 (8-bit branch); `delta` is `chroma_quant_param_delta_u/v`. -/
def cuGetChromaQp (lumaQp delta : Int) : Option Int := tabGet qpScaleCr (clip3 0 63 (lumaQp + delta))

/-- Scaling of one level, aec.cc:2145-2146 and `dequant_c`, quant.cc:260-270; `none`: a 32-bit operation
overflows or a shift count is outside 0..31.  The final cast to `coeff_t` (16 bits) is `toInt16`; the shift right
is arithmetic. -/
def dequantLevel (shift scale level : Int) : Option Int :=
  if 1 ≤ shift ∧ shift ≤ 31 then do
    let add ← i32 (2 ^ (shift - 1).toNat)
    let p ← i32 (level * scale)
    let s ← i32 (p + add)
    some (toInt16 (clip3 (-32768) 32767 (s / 2 ^ shift.toNat)))
  else none

/-- `dequant_c`, quant.cc:260-270, over a whole array: zeros are skipped. -/
def dequantC (shift scale : Int) (l : List Int) : Option (List Int) :=
  l.mapM fun c => if c = 0 then some c else dequantLevel shift scale c

/-- `aec_read_cu_delta_qp`, aec.cc:1467-1489, as a function of the unary value (0..257) read. -/
def deltaQpOfSym (actSym : Nat) : Int :=
  let d : Int := (actSym + 1) / 2
  if actSym % 2 = 0 then -d else d

/-- `cu_read_cbp`, aec.cc:1663-1682: delta of the quantiser (cast to 8 bits, clipped to -32..32). -/
def cuDeltaQp (cbp : Nat) (actSym : Nat) : Int :=
  if cbp ≠ 0 then clip3 (-32) 32 (toInt8 (deltaQpOfSym actSym)) else 0

/-- `cu_read_cbp`, aec.cc:1663-1686: quantiser of the coding unit; `p_cu->i_qp` is `int8_t`.
`left` is `lcu.i_left_cu_qp` from `cu_init` (cu.cc:283-294): the quantiser of the coding unit to the left in the
same slice, that of the slice otherwise. -/
def cuQp (bDqp : Bool) (sliceQp left : Int) (cbp actSym : Nat) : Int :=
  if bDqp then toInt8 (cuDeltaQp cbp actSym + left) else toInt8 sliceQp

/-- `is_valid_qp`, header.cc:109-112, 8-bit.  A failed test only prints a message (header.cc:486, 685, 808). -/
def isValidQp (qp : Int) : Bool := 0 ≤ qp && qp ≤ 63

/-- Quantisers of the coding units of one row of a slice, from left to right: `cu_init`, cu.cc:269-294 and
`cu_read_cbp`, aec.cc:1663-1686.  Each unit is given by its coded-block pattern and its unary quantiser symbol. -/
def rowQps (bDqp : Bool) (sliceQp : Int) : List (Nat × Nat) → List Int :=
  go (toInt8 sliceQp)
where
  go (left : Int) : List (Nat × Nat) → List Int
    | [] => []
    | (cbp, sym) :: l => cuQp bDqp sliceQp left cbp sym :: go (cuQp bDqp sliceQp left cbp sym) l

end Davs2

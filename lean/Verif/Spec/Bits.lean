import Verif.Model.Basic
/-
Specification vocabulary for bit strings: the bits of a byte string, big-endian numbers, the
Exp-Golomb codes.  Nothing here refers to the model of the decoder.
-/
namespace Davs2.Spec

/-- Bits of a byte, most significant first. -/
def bitsOfByte (b : Byte) : List Bool :=
  [b.getLsbD 7, b.getLsbD 6, b.getLsbD 5, b.getLsbD 4, b.getLsbD 3, b.getLsbD 2, b.getLsbD 1, b.getLsbD 0]

/-- Bits of a byte string. -/
def bitsOf (bs : List Byte) : List Bool := bs.flatMap bitsOfByte

/-- Big-endian number denoted by a bit string. -/
def valOf (l : List Bool) : Nat := l.foldl (fun a b => 2 * a + b.toNat) 0

/-- `n` written as a big-endian number with `k` bits. -/
def bitsOfNat : Nat → Nat → List Bool
  | 0, _ => []
  | k + 1, n => bitsOfNat k (n / 2) ++ [n % 2 == 1]

/-- Exp-Golomb code number `v`: as many zeros as `v+1` has bits, minus one, then `v+1`. -/
def ueCode (v : Nat) : List Bool :=
  List.replicate (Nat.log2 (v + 1)) false ++ bitsOfNat (Nat.log2 (v + 1) + 1) (v + 1)

/-- Code number of a signed value: 0, 1, -1, 2, -2, ... are 0, 1, 2, 3, 4, ... -/
def seNum (x : Int) : Nat := if x > 0 then (2 * x - 1).toNat else (-2 * x).toNat

def seCode (x : Int) : List Bool := ueCode (seNum x)

end Davs2.Spec

import Mathlib.Algebra.Order.Field.Rat
/-
Specification of binary arithmetic decoding, with exact numbers and no registers.

The code word is a number.  The decoder keeps the offset of the code word inside the current interval and the
size of the interval, `m / 2 ^ e` with `256 ≤ m < 512`.  A cost `lg` (1 to 256) gives the part at the upper end
that belongs to the less probable symbol.
-/
namespace Davs2.Spec

/-- The number `0.b₁b₂b₃…` in binary. -/
def frac : List Bool → ℚ
  | [] => 0
  | b :: l => ((if b then 1 else 0) + frac l) / 2

structure Ival where
  off : ℚ
  m : Nat
  e : Nat

/-- Size of the interval. -/
def Ival.size (i : Ival) : ℚ := (i.m : ℚ) / 2 ^ i.e

/-- The lower part, for the more probable symbol: in the logarithmic domain the cost is subtracted from the
fraction of the size; below a power of two the exponent changes. -/
def Ival.mpsPart (i : Ival) (lg : Nat) : Nat × Nat :=
  if lg ≤ i.m - 256 then (i.m - lg, i.e) else (i.m + 256 - lg, i.e + 1)

/-- Number of doublings that bring `n` up to at least 256. -/
def doublings (n : Nat) : Nat := 8 - Nat.log2 n

/-- Size of the rest: `lg / 2 ^ e`, or `(m - 256 + lg) / 2 ^ (e + 1)`. -/
def Ival.lpsPart (i : Ival) (lg : Nat) : Nat × Nat :=
  if lg ≤ i.m - 256 then (lg, i.e) else (i.m - 256 + lg, i.e + 1)

/-- Decoding one symbol of cost `lg`: is it the less probable one, and the next interval. -/
def Ival.decode (i : Ival) (lg : Nat) : Bool × Ival :=
  let p := i.mpsPart lg
  let mps : ℚ := (p.1 : ℚ) / 2 ^ p.2
  if i.off < mps then (false, ⟨i.off, p.1, p.2⟩)
  else
    let q := i.lpsPart lg
    let n := doublings q.1
    (true, ⟨i.off - mps, q.1 * 2 ^ n, q.2 + n⟩)

end Davs2.Spec

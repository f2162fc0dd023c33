/-
Conversion of samples to the output bit depth.
-/
namespace Davs2.Wf

/-- A sample of `coded` bits brought to `output` bits: multiplied, or divided with rounding and kept within range. -/
def converted (coded output : Nat) (v : Nat) : Nat :=
  if coded ≤ output then v * 2 ^ (output - coded)
  else min (2 ^ output - 1) ((v + 2 ^ (coded - output - 1)) / 2 ^ (coded - output))

end Davs2.Wf

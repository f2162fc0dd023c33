/-
Z-order: the position of a point in the recursive order top-left, top-right, bottom-left, bottom-right of the quarters of a square.
-/
namespace Davs2.Spec

/-- Number of points before `(x, y)` in the square of side `2 ^ k` (coordinates modulo the side). -/
def zOrder : Nat → Nat → Nat → Nat
  | 0, _, _ => 0
  | k + 1, x, y => 4 ^ k * (2 * (y / 2 ^ k % 2) + x / 2 ^ k % 2) + zOrder k x y

example : zOrder 2 3 1 = 7 := by decide

end Davs2.Spec

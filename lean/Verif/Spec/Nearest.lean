/-
The infinite extension of a picture: outside, the nearest sample of the picture.
-/
namespace Davs2

/-- Nearest number to `x` in `0 .. n - 1`. -/
def nearest (x : Int) (n : Nat) : Int := if x < 0 then 0 else if x < n then x else n - 1

end Davs2

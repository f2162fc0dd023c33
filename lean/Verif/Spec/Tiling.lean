/-
Exact cover of a square by rectangles.
-/
namespace Davs2.Spec

/-- The rectangle with corner `(x, y)`, width `w` and height `h` contains the point `(px, py)`. -/
def inRect (x y w h px py : Nat) : Bool := x ≤ px && px < x + w && y ≤ py && py < y + h

/-- Each point of the square with side `n` is in exactly one of the rectangles, other points are in none. -/
def Tiles (n : Nat) (rs : List (Nat × Nat × Nat × Nat)) : Prop :=
  ∀ px py, rs.countP (fun r => inRect r.1 r.2.1 r.2.2.1 r.2.2.2 px py) = if px < n ∧ py < n then 1 else 0

end Davs2.Spec

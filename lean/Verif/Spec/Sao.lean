/-
Sample adaptive offset, per sample.
-/
namespace Davs2.Spec

/-- -1, 0, 1 for smaller, equal, larger. -/
def comparison (a b : Int) : Int := if a < b then -1 else if a = b then 0 else 1

def saturate (bd : Nat) (v : Int) : Int := max 0 (min (2 ^ bd - 1) v)

/-- Whether position `(x, y)`, counted from the corner of a `w` by `h` region, may be looked at: either it
lies in the region or beyond sides that are available. -/
def visible (left top right down : Bool) (w h : Int) (x y : Int) : Prop :=
  (0 ≤ x ∨ left = true) ∧ (x < w ∨ right = true) ∧ (0 ≤ y ∨ top = true) ∧ (y < h ∨ down = true)

instance (l t r d : Bool) (w h x y : Int) : Decidable (visible l t r d w h x y) := by
  unfold visible; infer_instance

/-- Edge offset: the class of a sample is its comparison with the two neighbours in direction
`(dx, dy)`; class 0 is a valley, 4 a peak.  The result is `none` where the sample keeps its value because
a neighbour may not be looked at. -/
def edgeOffset (bd : Nat) (off : Int → Int) (dx dy : Int) (see : Int → Int → Prop) [∀ x y, Decidable (see x y)]
    (s : Int → Int → Int) (x y : Int) : Option Int :=
  if see (x - dx) (y - dy) ∧ see (x + dx) (y + dy) then
    some (saturate bd (s x y + off (2 + comparison (s x y) (s (x - dx) (y - dy)) + comparison (s x y) (s (x + dx) (y + dy)))))
  else none

/-- Band offset: 32 equal bands. -/
def bandOffset (bd : Nat) (off : Int → Int) (v : Int) : Int := saturate bd (v + off (v / 2 ^ (bd - 5)))

/-- Number of an edge offset in the order of the code lengths: 1, 0, 2, -1, 3, 4, 5, 6 (for peaks: of the negated
offset). -/
def edgeNumber (v : Int) : Nat := if v = 1 then 0 else if v = 0 then 1 else if v = 2 then 2 else if v < 0 then 3 else (v + 1).toNat

/-- Truncated unary code: zeros closed by a one, without the one for the largest number. -/
def truncated (n max : Nat) : List Bool := List.replicate n false ++ (if n < max then [true] else [])

/-- Code of the offset of a class: 0 valley, 1 and 3 half valley and half peak, 4 peak, 5 band (magnitude and, unless zero,
sign). -/
def offsetCode (type : Nat) (v : Int) : List Bool :=
  match type with
  | 0 => truncated (edgeNumber v) 7
  | 4 => truncated (edgeNumber (-v)) 7
  | 5 => truncated v.natAbs 7 ++ (if v = 0 then [] else [decide (v < 0)])
  | _ => truncated v.natAbs 1

end Davs2.Spec

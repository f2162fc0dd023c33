/-
What the border of an intra predicted block holds, stated without reference to the code.
-/
namespace Davs2.Spec

/-- One arm of the border of a block whose side is `n`: sample `k ≥ 1` counted from the corner, `f k` the
reconstructed neighbour there.  The first `n` samples come from the adjacent neighbour if it is available
and are mid-grey otherwise.  The next `n` come from the far neighbour if it is available, otherwise the
last adjacent one is repeated.  Beyond `2 n` the last sample is repeated. -/
def borderArm (near far : Bool) (g : Int) (n : Nat) (f : Nat → Int) (k : Nat) : Int :=
  if k ≤ n then (if near then f k else g)
  else if far then f (min k (2 * n))
  else if near then f n else g

/-- The corner sample: its own neighbour, else the first above, else the first on the left, else grey. -/
def borderCorner (topLeft top left : Bool) (g : Int) (own above beside : Int) : Int :=
  if topLeft then own else if top then above else if left then beside else g

/-- The whole border, counted from the corner: positive positions run to the right along the row above
(`row k` the reconstructed samples there), negative ones down the column on the left. -/
def border (left top topLeft topRight leftDown : Bool) (g : Int) (w h : Nat) (row column : Nat → Int) (i : Int) : Int :=
  if 0 < i then borderArm top topRight g w row i.toNat
  else if i < 0 then borderArm left leftDown g h column (-i).toNat
  else borderCorner topLeft top left g (row 0) (row 1) (column 1)

/-- Bilinear prediction of sample `(x, y)` of a `w` by `h` block in exact arithmetic, for 8-bit samples:
`left` and `top` are the border samples of the row and the column, `a` the last sample of the row above
and `b` the last one of the column on the left. -/
def bilinear8 (left top a b : Int) (w h x y : Nat) : Int :=
  let c := if w = h then (a + b + 1) / 2
    else ((a * w + b * h) * 13 + 32 * (min w h : Nat)) / (64 * (min w h : Nat))
  let across := left * w + (a - left) * (x + 1)
  let down := top * h + (b - top) * (y + 1)
  max 0 (min 255 ((across * h + down * w + (2 * c - a - b) * x * y + w * h) / (2 * w * h)))

end Davs2.Spec

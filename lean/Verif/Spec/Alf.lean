import Verif.Spec.Sao
/-
The adaptive loop filter, per sample.
-/
namespace Davs2.Spec

/-- The eight pairs of taps, in the order in which their weights are transmitted. -/
def alfTaps : List (Int × Int) := [(0, 3), (0, 2), (1, 1), (0, 1), (-1, 1), (3, 0), (2, 0), (1, 0)]

/-- Where a tap of sample `(x, y)` of a `w` by `h` region is taken: taps beyond the upper or lower side of
the region come from the nearest sample of the region, all others from where they are, even beyond the
left and right side. -/
def alfPos (w h x y dx dy : Int) : Int × Int :=
  if 0 ≤ y + dy ∧ y + dy < h then (x + dx, y + dy)
  else (max 0 (min (w - 1) (x + dx)), max 0 (min (h - 1) (y + dy)))

def alfTap (s : Int → Int → Int) (w h x y : Int) (t : Int × Int) : Int :=
  s (alfPos w h x y t.1 t.2).1 (alfPos w h x y t.1 t.2).2 + s (alfPos w h x y (-t.1) (-t.2)).1 (alfPos w h x y (-t.1) (-t.2)).2

/-- The filtered sample for transmitted weights `raw` (eight pairs and the centre): all weights together
are 64 plus the last transmitted one. -/
def alfSample (bd : Nat) (raw : List Int) (s : Int → Int → Int) (w h x y : Int) : Int :=
  let pairs := raw.take 8
  let centre := 64 - 2 * pairs.sum + raw.getD 8 0
  saturate bd (((pairs.zip (alfTaps.map (alfTap s w h x y))).foldr (fun p a => p.1 * p.2 + a) 0 + centre * s x y + 32) / 64)

end Davs2.Spec

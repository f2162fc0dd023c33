import Verif.Model.Quant
/-
Deblocking filter, source/common/deblock.cc.  8-bit build, C functions (the vector versions are in Model/VecDeblock); `HDR_CHROMA_DELTA_QP` is 0 (defines.h:325).
A plane is a function of column and row.
-/
namespace Davs2.Db

/-- `ALPHA_TABLE`, deblock.cc:42-51. -/
def alphaTable : List Int :=
  [0, 0, 0, 0, 0, 0, 1, 1, 1, 1, 1, 2, 2, 2, 3, 3, 4, 4, 5, 5, 6, 7, 8, 9,
   10, 11, 12, 13, 15, 16, 18, 20, 22, 24, 26, 28, 30, 33, 33, 35, 35, 36, 37, 37, 39, 39, 42, 44,
   46, 48, 50, 52, 53, 54, 55, 56, 57, 58, 59, 60, 61, 62, 63, 64]

/-- `BETA_TABLE`, deblock.cc:55-64. -/
def betaTable : List Int :=
  [0, 0, 0, 0, 0, 0, 1, 1, 1, 1, 1, 1, 1, 2, 2, 2, 2, 2, 3, 3, 3, 3, 4, 4,
   4, 4, 5, 5, 5, 5, 6, 6, 6, 7, 7, 7, 8, 8, 8, 9, 9, 10, 10, 11, 11, 12, 13, 14,
   15, 16, 17, 18, 19, 20, 21, 22, 23, 23, 24, 24, 25, 25, 26, 27]

/-- The six samples across an edge. -/
structure Line where
  l2 : Int
  l1 : Int
  l0 : Int
  r0 : Int
  r1 : Int
  r2 : Int
  deriving DecidableEq, Repr

/-- `(pel_t)` -/
def pel (v : Int) : Int := v % 256

/-- Filtering strength, deblock.cc:307-334. -/
def strength (chroma : Bool) (beta : Int) (s : Line) : Nat :=
  let fl : Nat := (if |s.l1 - s.l0| < beta then 2 else 0) + (if |s.l2 - s.l0| < beta then 1 else 0)
  let fr : Nat := (if |s.r0 - s.r1| < beta then 2 else 0) + (if |s.r0 - s.r2| < beta then 1 else 0)
  let eq : Nat := if s.r1 = s.r0 ∧ s.l0 = s.l1 then 1 else 0
  let fs : Nat :=
    match fl + fr with
    | 6 => 3 + eq
    | 5 => 2 + eq
    | 4 => 1 + (if fl = 2 then 1 else 0)
    | 3 => if |s.l1 - s.r1| < beta then 1 else 0
    | _ => 0
  fs - (if chroma ∧ fs > 0 then 1 else 0)

/-- The filters, deblock.cc:336-363; shifts left are products. -/
def smooth (fs : Nat) (s : Line) : Line :=
  match fs with
  | 4 =>
    { l0 := pel ((s.l0 + (s.l0 + s.l2) * 8 + s.l2 + s.r0 * 8 + s.r2 * 4 + s.r2 * 2 + 16) / 32)
      l1 := pel ((s.l0 * 8 - s.l0 + s.l2 * 4 + s.l2 * 2 + s.r0 + s.r0 * 2 + 8) / 16)
      l2 := pel ((s.l0 * 4 + s.l2 + s.l2 * 2 + s.r0 + 4) / 8)
      r0 := pel ((s.r0 + (s.r0 + s.r2) * 8 + s.r2 + s.l0 * 8 + s.l2 * 4 + s.l2 * 2 + 16) / 32)
      r1 := pel ((s.r0 * 8 - s.r0 + s.r2 * 4 + s.r2 * 2 + s.l0 + s.l0 * 2 + 8) / 16)
      r2 := pel ((s.r0 * 4 + s.r2 + s.r2 * 2 + s.l0 + 4) / 8) }
  | 3 =>
    { s with
      l0 := pel ((s.l2 + s.l1 * 4 + s.l0 * 4 + s.l0 * 2 + s.r0 * 4 + s.r1 + 8) / 16)
      r0 := pel ((s.l1 + s.l0 * 4 + s.r0 * 4 + s.r0 * 2 + s.r1 * 4 + s.r2 + 8) / 16)
      l1 := pel ((s.l2 * 3 + s.l1 * 8 + s.l0 * 4 + s.r0 + 8) / 16)
      r1 := pel ((s.r2 * 3 + s.r1 * 8 + s.r0 * 4 + s.l0 + 8) / 16) }
  | 2 =>
    { s with
      l0 := pel ((s.l1 * 2 + s.l1 + s.l0 * 8 + s.l0 * 2 + s.r0 * 2 + s.r0 + 8) / 16)
      r0 := pel ((s.l0 * 2 + s.l0 + s.r0 * 8 + s.r0 * 2 + s.r1 * 2 + s.r1 + 8) / 16) }
  | 1 =>
    { s with
      l0 := pel ((s.l0 * 3 + s.r0 + 2) / 4)
      r0 := pel ((s.r0 * 3 + s.l0 + 2) / 4) }
  | _ => s

/-- One iteration of the loop of `lf_edge_core`, deblock.cc:291-361, on the samples across the edge. -/
def filterLine (chroma : Bool) (alpha beta : Int) (flag : Bool) (s : Line) : Line :=
  if flag ∧ |s.r0 - s.l0| < alpha ∧ |s.r0 - s.l0| > 1 then smooth (strength chroma beta s) s else s

/-- A plane of samples. -/
abbrev Plane := Int → Int → Int

inductive Dir where
  | ver | hor
  deriving DecidableEq, Repr

/-- Sample number `k` (0 is `src[0]`) across the edge through `(x, y)`: `src[k * inc1]`. -/
def at_ (d : Dir) (x y k : Int) : Int × Int := match d with
  | .ver => (x + k, y)
  | .hor => (x, y + k)

def getLine (m : Plane) (d : Dir) (x y : Int) : Line :=
  let g := fun k => m (at_ d x y k).1 (at_ d x y k).2
  ⟨g (-3), g (-2), g (-1), g 0, g 1, g 2⟩

def Line.get (s : Line) (k : Int) : Int :=
  if k = -3 then s.l2 else if k = -2 then s.l1 else if k = -1 then s.l0
  else if k = 0 then s.r0 else if k = 1 then s.r1 else s.r2

/-- Store the six samples (samples the filter does not change are stored back unchanged). -/
def putLine (m : Plane) (d : Dir) (x y : Int) (s : Line) : Plane := fun px py =>
  match d with
  | .ver => if py = y ∧ x - 3 ≤ px ∧ px ≤ x + 2 then s.get (px - x) else m px py
  | .hor => if px = x ∧ y - 3 ≤ py ∧ py ≤ y + 2 then s.get (py - y) else m px py

/-- Parameters of one edge of an 8x8 block: whether each half is filtered and the thresholds. -/
structure EdgePrm where
  alpha : Int
  beta : Int
  flag0 : Bool
  flag1 : Bool

/-- `lf_edge_core`, deblock.cc:283-362, through `deblock_edge_ver` and `deblock_edge_hor`, 373-385, and the
chroma variants, 391-427: the edge starts at `(x, y)`; `pel` advances by 2 for chroma, so it has 4 lines instead
of 8. -/
def edgeCore (chroma : Bool) (p : EdgePrm) (d : Dir) (x y : Int) (m : Plane) : Plane :=
  (List.range (if chroma then 4 else 8)).foldl (fun m (i : Nat) =>
    let pelIdx := if chroma then 2 * i else i
    let flag := if pelIdx < 4 then p.flag0 else p.flag1
    let (px, py) := match d with
      | .ver => (x, y + i)
      | .hor => (x + i, y)
    putLine m d px py (filterLine chroma p.alpha p.beta flag (getLine m d px py))) m

/-- Luma thresholds of an edge, deblock.cc:446-452. -/
def lumaThresholds (qpP qpQ alphaOff betaOff : Int) : Option (Int × Int) := do
  let qp := (qpP + qpQ + 1) / 2
  let a ← tabGet alphaTable (clip3 0 63 (qp + alphaOff))
  let b ← tabGet betaTable (clip3 0 63 (qp + betaOff))
  some (a, b)

/-- Luma part of `lf_scu_deblock`, deblock.cc:431-456, of block `(sx, sy)`; `prm` is `none` if the edge is not marked
or not to be filtered. -/
def scuLuma (prm : Dir → Nat → Nat → Option EdgePrm) (e : Dir × Nat × Nat) (m : Plane) : Plane :=
  match prm e.1 e.2.1 e.2.2 with
  | none => m
  | some p => edgeCore false p e.1 (8 * e.2.1) (8 * e.2.2) m

/-- Chroma part, deblock.cc:459-487, for one of the two planes: every other edge. -/
def scuChroma (prm : Dir → Nat → Nat → Option EdgePrm) (e : Dir × Nat × Nat) (m : Plane) : Plane :=
  if (e.2.2 % 2 = 0 ∧ e.1 = .hor) ∨ (e.2.1 % 2 = 0 ∧ e.1 = .ver) then
    match prm e.1 e.2.1 e.2.2 with
    | none => m
    | some p => edgeCore true p e.1 (4 * e.2.1) (4 * e.2.2) m
  else m

/-- Blocks of a rectangle, row by row. -/
def rect (x y w h : Nat) (d : Dir) : List (Dir × Nat × Nat) :=
  (List.range h).flatMap fun j => (List.range w).map fun i => (d, x + i, y + j)

/-- `davs2_lcu_deblock`, deblock.cc:492-547: edges visited for coding tree `(lx, ly)` in a picture of `w` × `h` 8x8 blocks;
`n` is the size of a coding tree in blocks. -/
def lcuDeblock (w h n lx ly : Nat) : List (Dir × Nat × Nat) :=
  let sx := lx * n
  let sy := ly * n
  let nh := min (w - sx) n
  let nv := min (h - sy) n
  rect sx sy nh nv .ver ++
    (if sx = 0 then rect sx sy (nh - 1) nv .hor
     else if sx + nh = w then rect (sx - 1) sy (nh + 1) nv .hor
     else rect (sx - 1) sy nh nv .hor)

/-- The coding trees in the order in which they are deblocked: decoder.cc:407-473, rows from top to bottom
(davs2.cc: `davs2_decode`, row after row), `i_width_in_lcu` = ⌈w / n⌉. -/
def picDeblock (w h n : Nat) : List (Dir × Nat × Nat) :=
  (List.range ((h + n - 1) / n)).flatMap fun ly =>
    (List.range ((w + n - 1) / n)).flatMap fun lx => lcuDeblock w h n lx ly

/-- Deblocking of a whole plane. -/
def deblockPlane (step : Dir × Nat × Nat → Plane → Plane) (w h n : Nat) (m : Plane) : Plane :=
  (picDeblock w h n).foldl (fun m e => step e m) m

end Davs2.Db

import Verif.Spec.SkipModes
import Verif.Spec.Motion
import Verif.Spec.MvSpec
/-
What the motion of a finished picture is to satisfy (C92 to C94), in terms of the finished picture only.
-/
namespace Davs2.Mo.Spec
open Davs2.Spec

/-- The coding units of a picture in decoding order. -/
def order (p : Pic) (sy : Syn) : List Qt.Cu := (lcus p).flatMap (tree p sy)

/-- The block `(X, Y)` belongs to a coding unit that is decoded before `c`. -/
def Decoded (p : Pic) (sy : Syn) (c : Qt.Cu) (X Y : Nat) : Prop :=
  ∃ pre post d, order p sy = pre ++ c :: post ∧ d ∈ pre ∧ (d.x ≤ 4 * X ∧ 4 * X < d.x + 2 ^ d.l) ∧ d.y ≤ 4 * Y ∧ 4 * Y < d.y + 2 ^ d.l

/-- The motion of the block `(x, y)` if it is in the picture and in slice `s`. -/
def visible (p : Pic) (F : St) (s : Int) (x y : Int) : Option Blk :=
  if 0 ≤ x ∧ x < p.w ∧ 0 ≤ y ∧ y < p.h ∧ F.slice (x.toNat / 2) (y.toNat / 2) = s then F.mot x.toNat y.toNat else none

/-- The neighbours of the coding unit at `(x, y)` with `n` x `n` blocks that are visible, in the order bottom left (F), top at the right end (G), top right (C, if `t`), left (A), top (B),
top left (D). -/
def scan (p : Pic) (F : St) (s : Int) (x y n : Nat) (t : Bool) : List Blk :=
  [visible p F s (x - 1) (y + n - 1), visible p F s (x + n - 1) (y - 1), if t then visible p F s (x + n) (y - 1) else none,
   visible p F s (x - 1) y, visible p F s x (y - 1), visible p F s (x - 1) (y - 1)].filterMap id

/-- Prediction directions of the skip modes of B pictures: bidirectional 3, backward 1, symmetric 2, forward 0. -/
def bDir (ds : Nat) : Int := if ds = 1 then 3 else if ds = 2 then 1 else if ds = 3 then 2 else 0

/-- References of a direction in a B picture: entry 1 is the forward reference, entry 0 the backward one. -/
def bRefs (dir : Int) : Int × Int := if dir = 0 then (1, -1) else if dir = 1 then (-1, 0) else (1, 0)

/-- `w` is the number `e`, stored in 16 bits. -/
def Stored (w e : Int) : Prop := IsMv w ∧ (65536 : Int) ∣ w - e

/-- `w` is the vector `v` over the distance `src`, continued to the distance `dst`, with the reciprocal of `src` in 14 bits, rounded to nearest. -/
def Cont (v w dst src : Int) : Prop := Stored w (roundUp14 (v * (dst * (16384 / src))))

/-- The same with the rounding of B pictures. -/
def ContB (v w dst src : Int) : Prop := Stored w (v.sign * (((16384 / src) * (1 + |v| * dst) - 1) / 16384))

/-- First block of the quarter of a coding unit at `o` with `n` blocks in a row that contains block `X`; a unit of two blocks is not divided. -/
def quarter (o n X : Nat) : Nat := if n ≤ 2 then o else if X < o + n / 2 then o else o + n / 2

/-- A vector component over the distance `src`, scaled to the distance `dst` with the reciprocal of `src` in 14 bits: the magnitude rounded to nearest, limited to 16 bits. -/
def scale (v dst src : Int) : Int := limit16 (v.sign * ((|v| * dst * (16384 / src) + 8192) / 16384))

/-- What a block `o` contributes to the prediction of a vector to the reference `ref` (the second reference of the block if `bwd`): its reference and its vector scaled to the distance of `ref`.  Nothing
if there is no block or it has no such reference.  If the last reference of a P or F picture is a background picture, vectors to it and vectors to others do not predict each other.
In B pictures the distance is the same. -/
def cand (p : Pic) (bwd : Bool) (ref : Int) (o : Option Blk) : Option (Int × Vec) :=
  match o with
  | none => none
  | some b =>
    let r := if bwd then b.r2 else b.r1
    let last : Int := (p.refs.length : Int) - 1
    if r < 0 ∨ (p.bkgnd ∧ p.frame ≠ 2 ∧ ¬ (ref = last ↔ r = last)) then none
    else
      let v := ((if bwd then b.v2 else b.v1).getD (0, 0) : Vec)
      let dst := if p.frame = 2 then (if bwd then p.dist 0 else p.dist 1) else p.dist ref.toNat
      let src := if p.frame = 2 then dst else p.dist r.toNat
      some (r, scale v.1 dst src, scale v.2 dst src)

/-- `x` has the opposite sign of both `y` and `z`. -/
def outlier (x y z : Int) : Bool := (x < 0 && 0 < y && 0 < z) || (0 < x && y < 0 && z < 0)

/-- The mean of two of three numbers, rounded towards zero: the two that agree in sign if the third has the opposite one; otherwise the two nearest to each other, the first pair in the order given if
distances are equal. -/
def middle (a b c : Int) : Int :=
  let pairs := [(a, b, c), (b, c, a), (c, a, b)]
  match pairs.find? (fun q => outlier q.2.2 q.1 q.2.1), pairs.find? (fun q => pairs.all fun r => |q.1 - q.2.1| ≤ |r.1 - r.2.1|) with
  | some q, _ => (q.1 + q.2.1).tdiv 2
  | none, some q => (q.1 + q.2.1).tdiv 2
  | none, none => 0

/-- The prediction from the contributions of the left, the top and the top right block: the only one there is; otherwise, for the halves of a divided unit, the one on the side of the half if it has the
same reference (`pu`: 1 left, 2 right, 3 upper, 4 lower part); otherwise the middle of the three in each component, with zero for a missing one. -/
def combine (pu : Nat) (ref : Int) (a b c : Option (Int × Vec)) : Vec :=
  let vec (o : Option (Int × Vec)) : Vec := (o.map Prod.snd).getD (0, 0)
  match a, b, c with
  | some a, none, none => a.2
  | none, some b, none => b.2
  | none, none, some c => c.2
  | _, _, _ =>
    let side := if pu = 1 ∨ pu = 4 then a else if pu = 2 then c else if pu = 3 then b else none
    match side with
    | some q => if q.1 = ref then q.2 else (middle (vec a).1 (vec b).1 (vec c).1, middle (vec a).2 (vec b).2 (vec c).2)
    | none => (middle (vec a).1 (vec b).1 (vec c).1, middle (vec a).2 (vec b).2 (vec c).2)

/-- The predicted vector of the unit at `(x, y)`, `bw` blocks wide, from the finished picture; the top left block takes the place of the top right one if that is not decoded yet (`t`), outside the
picture or in another slice. -/
def predict (p : Pic) (F : St) (s : Int) (x y bw : Nat) (t bwd : Bool) (ref : Int) (pu : Nat) : Vec :=
  let tr := if t then visible p F s (x + bw) (y - 1) else none
  combine pu ref (cand p bwd ref (visible p F s (x - 1) y)) (cand p bwd ref (visible p F s x (y - 1))) (cand p bwd ref (tr.or (visible p F s (x - 1) (y - 1))))

/-- Which half unit `i` of a divided coding unit is: types 2, 4 and 5 are divided into an upper and a lower part, types 3, 6 and 7 into a left and a right one; type 1 is not divided. -/
def part (mode i : Nat) : Nat := if mode = 1 then 0 else if mode = 2 ∨ mode = 4 ∨ mode = 5 then 3 + i else 1 + i

/-- The vector for a prediction and a difference that is read, limited to 16 bits; progressive resolution if `pm`. -/
def explicit (pm : Bool) (mvd pred : Vec) : Vec :=
  if pm then (limit16 (pmvr mvd pred).1, limit16 (pmvr mvd pred).2) else (limit16 (pred.1 + mvd.1), limit16 (pred.2 + mvd.2))

end Davs2.Mo.Spec

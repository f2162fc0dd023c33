import Verif.Model.Mc
import Mathlib.Algebra.Order.Group.Unbundled.Int
import Mathlib.Algebra.Order.Ring.Int
/-
Motion vector arithmetic: /repo/source/common/predict.h:36-250, /repo/source/common/predict.cc:52-165, 197-251,
distances /repo/source/common/header.cc:956-982, helpers /repo/source/common/common.h:108-114, 1374-1383.

`int` arithmetic that overflows is undefined in C and is `none` here; conversions to `int16_t` wrap.
Shifts to the right of negative numbers are floors, as with every compiler supported; `mvd->x << 1` is
multiplication by two.
-/
namespace Davs2

/-- Result of an `int` operation. -/
def i32 (x : Int) : Option Int := if -2 ^ 31 ≤ x ∧ x < 2 ^ 31 then some x else none

/-- `DAVS2_CLIP3`, common.h:111-114. -/
def clip3 (l h v : Int) : Int := if v < l then l else if v > h then h else v

/-- `AVS2_DISTANCE_INDEX`, predict.h:41: the last nine bits. -/
def distanceIndex (d : Int) : Int := (d + 512) % 512

/-- Distance of two pictures as stored in `dist_refs`, header.cc:962-966 and 970-978; 0 is replaced by 1. -/
def distRef (d : Int) : Int := if distanceIndex (2 * d) ≤ 0 then 1 else distanceIndex (2 * d)

/-- `dist_scale_refs`, header.cc:967. -/
def distScale (d : Int) : Int := 16384 / d

/-- `davs2_sign3`, common.h:1380-1383 (the bit operations are treated in `Verif.Model.Bits`). -/
def sign3 (x : Int) : Int := if x < 0 then -1 else if x = 0 then 0 else 1

/-- `davs2_sign2`, common.h:1374-1377. -/
def sign2 (x : Int) : Int := if x < 0 then -1 else 1

/-- `scale_mv_default`, predict.h:124-129. -/
def scaleMvDefault (mv dst src : Int) : Option Int := do
  let t ← i32 (|mv| * dst)
  let t ← i32 (t * src)
  let t ← i32 (t + 8192)
  let v ← i32 (sign3 mv * (t / 16384))
  some (toInt16 (clip3 (-32768) 32767 v))

/-- `scale_mv_skip`, predict.h:153-158. -/
def scaleMvSkip (mv dst src : Int) : Option Int := do
  let t ← i32 (mv * dst)
  let t ← i32 (t * src)
  let t ← i32 (t + 8192)
  some (toInt16 (clip3 (-32768) 32767 (toInt16 (t / 16384))))

/-- `scale_mv_biskip`, predict.h:180-185. -/
def scaleMvBiskip (mv dst src : Int) : Option Int := do
  let t ← i32 (|mv| * dst)
  let t ← i32 (1 + t)
  let t ← i32 (src * t)
  let t ← i32 (t - 1)
  let v ← i32 (sign3 mv * (t / 16384))
  some (toInt16 (clip3 (-32768) 32767 (toInt16 v)))

/-- `getDeltas`, predict.h:78-118 (the asserts are off in release builds): `(delt, delt2)`. -/
def getDeltas (top : Bool) (oriPOC oriRefPOC scaledPOC scaledRefPOC : Int) : Int × Int :=
  let o := distanceIndex oriPOC / 2
  let oR := distanceIndex oriRefPOC / 2
  let s := distanceIndex scaledPOC / 2
  let sR := distanceIndex scaledRefPOC / 2
  let sgn : Int := if top then 1 else -1
  let d2 := if sR % 2 ≠ s % 2 then 2 * sgn else 0
  let d := if oR % 2 ≠ o % 2 then (if s % 2 = o % 2 then 2 * sgn else -2 * sgn) else 0
  (d, d2)

/-- `scale_mv_default_y`, `scale_mv_skip_y`, `scale_mv_biskip_y` (predict.h:134-149, 161-175, 188-202), with the
horizontal function `f`; `field` is `b_field_coding`. -/
def scaleMvY (f : Int → Int → Int → Option Int) (field top : Bool) (poc mvy dst src srcMul : Int) : Option Int :=
  if field then
    let d := getDeltas top poc (poc - src) poc (poc - dst)
    (f (mvy + d.1) dst srcMul).map fun v => toInt16 (v - d.2)
  else f mvy dst srcMul

/-- `pmvr_mv_derivation`, predict.h:207-234: the vector `(x, y)` from difference and prediction. -/
def pmvrMvDerivation (pmvr : Bool) (mvd mvp : Int × Int) : Int × Int :=
  let v : Int × Int :=
    if pmvr then
      let cx := mvp.1 / 2 * 2 - mvp.1
      let cy := mvp.2 / 2 * 2 - mvp.2
      if |mvd.1 - cx| > 2 then
        (mvp.1 + mvd.1 * 2 - cx - sign2 (mvd.1 - cx) * 2, mvp.2 + mvd.2 * 2 + cy)
      else if |mvd.2 - cy| > 2 then
        (mvp.1 + mvd.1 * 2 + cx, mvp.2 + mvd.2 * 2 - cy - sign2 (mvd.2 - cy) * 2)
      else (mvd.1 + mvp.1, mvd.2 + mvp.2)
    else (mvd.1 + mvp.1, mvd.2 + mvp.2)
  (toInt16 (clip3 (-32768) 32767 v.1), toInt16 (clip3 (-32768) 32767 v.2))

/-- A vector component negated and stored, e.g. cu.cc:568-569, predict.cc:583-586, 297-303. -/
def negMv (x : Int) : Int := toInt16 (-x)

/-- A vector component with an offset of `dmh_pos` added and stored, cu.cc:1000-1004. -/
def dmhAdd (x off : Int) : Int := toInt16 (x + off)

/-- `derive_median_mv`, predict.cc:141-167; the division of C truncates. -/
def deriveMedianMv (a b c : Int) : Int :=
  let v :=
    if (a < 0 ∧ b > 0 ∧ c > 0) ∨ (a > 0 ∧ b < 0 ∧ c < 0) then (b + c).tdiv 2
    else if (b < 0 ∧ a > 0 ∧ c > 0) ∨ (b > 0 ∧ a < 0 ∧ c < 0) then (c + a).tdiv 2
    else if (c < 0 ∧ a > 0 ∧ b > 0) ∨ (c > 0 ∧ a < 0 ∧ b < 0) then (a + b).tdiv 2
    else
      let dAB := |a - b|
      let dBC := |b - c|
      let dCA := |c - a|
      let m := min dAB (min dBC dCA)
      if m = dAB then (a + b).tdiv 2 else if m = dBC then (b + c).tdiv 2 else (c + a).tdiv 2
  toInt16 v

/-- A neighbouring block: reference index (-1: none) and vector. -/
structure MvNb where
  ref : Int
  x : Int
  y : Int

inductive MvPred | median | left | up | upRight
deriving DecidableEq, Repr

/-- `derive_mv_pred_type`, predict.cc:100-136. -/
def deriveMvPredType (ref l u ur : Int) (pu : Nat) : MvPred :=
  if l ≠ -1 ∧ u = -1 ∧ ur = -1 then .left
  else if l = -1 ∧ u ≠ -1 ∧ ur = -1 then .up
  else if l = -1 ∧ u = -1 ∧ ur ≠ -1 then .upRight
  else if pu = 1 ∨ pu = 4 then (if l = ref then .left else .median)
  else if pu = 2 then (if ur = ref then .upRight else .median)
  else if pu = 3 then (if u = ref then .up else .median)
  else .median

/-- What the prediction depends on: picture type, distances. -/
structure MvCfg where
  bSlice : Bool
  field : Bool
  top : Bool
  poc : Int
  /-- `dist_refs` -/
  dist : Nat → Int
  /-- the adjustment of `recheck_neighbor_ref_avail`, predict.cc:80-97, for the reference used -/
  recheck : Int → Int

/-- `check_scaling_neighbor_mv` and `check_scaling_neighbor_mv_b`, predict.cc:52-77; `k` is the reference index
(list number in B pictures) of the current block. -/
def scaleNeighbor (g : MvCfg) (k : Nat) (ref : Int) (n : MvNb) : Option (Int × Int) :=
  if ref ≥ 0 then
    let dst := g.dist k
    let src := if g.bSlice then g.dist k else g.dist ref.toNat
    do
      let y ← scaleMvY scaleMvDefault g.field g.top g.poc n.y dst src (distScale src)
      let x ← scaleMvDefault n.x dst (distScale src)
      some (x, y)
  else some (0, 0)

/-- `get_mvp_default` after the neighbours have been fetched, predict.cc:214-250; `c` is the top right
neighbour or, if that is not available, the top left one. -/
def getMvp (g : MvCfg) (k : Nat) (refFrame : Int) (pu : Nat) (a b c : MvNb) : Option (Int × Int) :=
  let rl := g.recheck a.ref
  let ru := g.recheck b.ref
  let rur := g.recheck c.ref
  let t := deriveMvPredType refFrame rl ru rur pu
  do
    let va ← scaleNeighbor g k rl a
    let vb ← scaleNeighbor g k ru b
    let vc ← scaleNeighbor g k rur c
    match t with
    | .median => some (deriveMedianMv va.1 vb.1 vc.1, deriveMedianMv va.2 vb.2 vc.2)
    | .left => some va
    | .up => some vb
    | .upRight => some vc

end Davs2

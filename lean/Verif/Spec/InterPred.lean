import Verif.Spec.Interp
import Verif.Spec.Transform
/-
What the samples of an inter coding unit are: one or two blocks of reference pictures, pointed at by vectors, their mean rounded up, plus the
residual, limited to the range of samples.
-/
namespace Davs2.Spec


/-- Displacements of the modes 1 to 8 of directional multi-hypothesis prediction. -/
def hypothesis : Nat → Int × Int
  | 1 => (1, 0) | 2 => (0, 1) | 3 => (1, -1) | 4 => (1, 1)
  | 5 => (2, 0) | 6 => (0, 2) | 7 => (2, -2) | 8 => (2, 2)
  | _ => (0, 0)

/-- Pictures and vectors a unit is predicted from. In B pictures the list holds the following picture (0) and the preceding one (1).  `r`, `s` are
the coded reference numbers, `v`, `v'` the first and the second vector. -/
def sources (isB : Bool) (dir : Nat) (dmh r s : Nat) (v v' : Int × Int) : List (Nat × (Int × Int)) :=
  match isB, dir with
  | _, 1 => [(0, v')]
  | _, 2 | _, 3 => [(1, v), (0, v')]
  | true, _ => [(1, v)]
  | false, 4 => [(r, v), (s, v')]
  | false, _ =>
    let d := hypothesis dmh
    if d = (0, 0) then [(r, v)] else [(r, (v.1 - d.1, v.2 - d.2)), (r, (v.1 + d.1, v.2 + d.2))]

/-- One sample, or the mean of two rounded up. -/
def mean : List Int → Int
  | [a] => a
  | [a, b] => (a + b + 1) / 2
  | _ => 0

/-- Predicted luma sample `(X, Y)` of a picture of `w` by `h` samples; `pic i` is picture `i` of the list. -/
def predLuma (w h : Nat) (pic : Nat → Int → Int → Int) (src : List (Nat × (Int × Int))) (X Y : Int) : Int :=
  mean (src.map fun s => interpLuma (extend (pic s.1) w h) (4 * X + s.2.1) (4 * Y + s.2.2))

/-- Predicted chroma sample; `w` and `h` are those of the chroma plane. -/
def predChroma (w h : Nat) (pic : Nat → Int → Int → Int) (src : List (Nat × (Int × Int))) (X Y : Int) : Int :=
  mean (src.map fun s => interpChroma (extend (pic s.1) w h) (8 * X + s.2.1) (8 * Y + s.2.2))

/-- Residual of a block of `w` by `h` samples from its coefficients: blocks with a side of 64 have coefficients for half of both sides only, the
last stage being a wavelet. -/
def blockResidual (w h : Nat) (c : Nat → Int) (y x : Nat) : Int :=
  if w = 64 ∨ h = 64 then invWavelet (w / 2) (h / 2) c y x else invDct w h 0 c y x

end Davs2.Spec

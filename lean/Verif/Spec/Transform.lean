import Mathlib.Algebra.BigOperators.Group.Finset.Basic
import Mathlib.Algebra.Order.Ring.Int
/-
The inverse transform as defined: product with an integer cosine matrix in each direction, rounding, limiting.
-/
namespace Davs2.Spec
open Finset

/-- `32 √2 cos (j π / 64)` rounded, `0 < j < 32`. -/
def cosQuarter : List Int :=
  [0, 45, 45, 45, 44, 44, 43, 43, 42, 41, 40, 39, 38, 36, 35, 34, 32, 30, 29, 27, 25, 23, 21, 19, 17, 15, 13, 11, 9, 7, 4, 2]

/-- `32 √2 cos (j π / 64)` rounded, for all `j` that are not multiples of 32, by symmetry of the cosine. -/
def cos64 (j : Nat) : Int :=
  let r := j % 128
  if r < 32 then cosQuarter.getD r 0
  else if r < 64 then -cosQuarter.getD (64 - r) 0
  else if r < 96 then -cosQuarter.getD (r - 64) 0
  else cosQuarter.getD (128 - r) 0

/-- Entry of the transform matrix of size `n`: frequency `i`, position `k`. -/
def dctMat (n i k : Nat) : Int := if i = 0 then 32 else cos64 ((2 * k + 1) * i * (32 / n))

/-- Limiting to `d` bits. -/
def limitBits (d : Nat) (v : Int) : Int := max (-2 ^ (d - 1)) (min (2 ^ (d - 1) - 1) v)

/-- `v / 2^s` rounded. -/
def roundShift (s : Nat) (v : Int) : Int := (v + 2 ^ (s - 1)) / 2 ^ s

/-- First (vertical) stage: frequency column `j` at row `y`. -/
def invVert (w h : Nat) (c : Nat → Int) (y j : Nat) : Int :=
  limitBits 16 (roundShift 5 (∑ i ∈ range h, dctMat h i y * c (i * w + j)))

/-- Inverse transform of a `w` × `h` block `c` (stored row by row) at row `y` and column `x`; `wl` is one if a wavelet stage
follows. -/
def invDct (w h wl : Nat) (c : Nat → Int) (y x : Nat) : Int :=
  limitBits (9 + wl) (roundShift (12 - wl) (∑ j ∈ range w, dctMat w j x * invVert w h c y j))

/-- Inverse 5-3 wavelet of a low band of length `n`. -/
def lift (n : Nat) (f : Nat → Int) (y : Nat) : Int :=
  if y % 2 = 0 then f (y / 2) else (f (y / 2) + f (min (y / 2 + 1) (n - 1))) / 2

/-- Inverse transform of blocks with a side of 64: `w` × `h` frequencies give `2 w` × `2 h` values. -/
def invWavelet (w h : Nat) (c : Nat → Int) (y x : Nat) : Int :=
  lift w (fun j => lift h (fun i => invDct w h 1 c i j / 2) y) x

/-- Secondary transforms: product with a 4 × 4 matrix along a column. -/
def mat4 (t : Nat → Nat → Int) (s : Nat → Int) (i : Nat) : Int := ∑ k ∈ range 4, t k i * s k

end Davs2.Spec

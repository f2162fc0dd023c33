import Verif.Model.Sao
/-
Adaptive loop filter.  source/common/alf.cc.

Planes as in `Model/Sao.lean`, relative to the corner of the filtered region (`startPos`, `lcu_pix_x`).
A filtered sample is `none` if the `int` arithmetic overflows.  Here the C versions of the block filters;
the vector version is in Model/VecAlf.
-/
namespace Davs2.Al
open Davs2.Sa (Plane loop Avail)

/-- The result of an `int` operation. -/
def i32 (v : Int) : Option Int := if -2147483648 ≤ v ∧ v ≤ 2147483647 then some v else none

/-- `pel_val += alf_coeff[k] * (…)`, once per element. -/
def accum : Int → List (Int × Int) → Option Int
  | acc, [] => some acc
  | acc, (c, s) :: r => do
    let p ← i32 (c * s)
    let a ← i32 (acc + p)
    accum a r

/-- alf.cc:124-148 and 182-196: the nine products and the final rounding. -/
def pixel (bd : Nat) (c : Nat → Int) (s0 s1 s2 s3 s4 s7 s6 s5 s8 : Int) : Option Int := do
  let v ← accum 0 [(c 0, s0), (c 1, s1), (c 2, s2), (c 3, s3), (c 4, s4), (c 7, s7), (c 6, s6), (c 5, s5), (c 8, s8)]
  let v ← i32 (v + 32)
  some (clip3 0 (2 ^ bd - 1) (v / 64))

abbrev OPlane := Int → Int → Option Int

def put (p : OPlane) (x y : Int) (v : Option Int) : OPlane := fun x' y' => if x' = x ∧ y' = y then v else p x' y'

section
variable (bd : Nat) (c : Nat → Int) (src : Plane) (w h : Int)

/-- One sample of alf_filter_block1, alf.cc:107-148. -/
def sample1 (x y : Int) : Option Int :=
  let lo := clip3 0 (h - 1)
  let cx := clip3 (-3) (w - 1 + 3)
  pixel bd c
    (src x (lo (y + 3)) + src x (lo (y - 3)))
    (src x (lo (y + 2)) + src x (lo (y - 2)))
    (src (cx (x + 1)) (lo (y + 1)) + src (cx (x - 1)) (lo (y - 1)))
    (src x (lo (y + 1)) + src x (lo (y - 1)))
    (src (cx (x - 1)) (lo (y + 1)) + src (cx (x + 1)) (lo (y - 1)))
    (src (cx (x + 1)) y + src (cx (x - 1)) y)
    (src (cx (x + 2)) y + src (cx (x - 2)) y)
    (src (cx (x + 3)) y + src (cx (x - 3)) y)
    (src x y)

/-- alf_filter_block1, alf.cc:88-155. -/
def block1 (dst : OPlane) : OPlane :=
  loop 0 h (fun y dst => loop 0 w (fun x dst => put dst x y (sample1 bd c src w h x y)) dst) dst

/-- First line, left corner, alf.cc:174-197. -/
def cornerTL (dst : OPlane) : OPlane :=
  if src 0 0 ≠ src (-1) 0 then
    put dst 0 0 (pixel bd c (src 0 3 + src 0 0) (src 0 2 + src 0 0) (src 1 1 + src 0 0) (src 0 1 + src 0 0)
      (src (-1) 1 + src 1 0) (src 1 0 + src (-1) 0) (src 2 0 + src (-2) 0) (src 3 0 + src (-3) 0) (src 0 0))
  else dst

/-- First line, right corner, alf.cc:199-222. -/
def cornerTR (dst : OPlane) : OPlane :=
  let x := w - 1
  if src x 0 ≠ src (x + 1) 0 then
    put dst x 0 (pixel bd c (src x 3 + src x 0) (src x 2 + src x 0) (src (x + 1) 1 + src (x - 1) 0) (src x 1 + src x 0)
      (src (x - 1) 1 + src x 0) (src (x + 1) 0 + src (x - 1) 0) (src (x + 2) 0 + src (x - 2) 0)
      (src (x + 3) 0 + src (x - 3) 0) (src x 0))
  else dst

/-- Last line, left corner, alf.cc:224-250. -/
def cornerDL (dst : OPlane) : OPlane :=
  let y := h - 1
  if src 0 y ≠ src (-1) y then
    put dst 0 y (pixel bd c (src 0 y + src 0 (y - 3)) (src 0 y + src 0 (y - 2)) (src 1 y + src (-1) (y - 1))
      (src 0 y + src 0 (y - 1)) (src 0 y + src 1 (y - 1)) (src 1 y + src (-1) y) (src 2 y + src (-2) y)
      (src 3 y + src (-3) y) (src 0 y))
  else dst

/-- Last line, right corner, alf.cc:252-275. -/
def cornerDR (dst : OPlane) : OPlane :=
  let x := w - 1
  let y := h - 1
  if src x y ≠ src (x + 1) y then
    put dst x y (pixel bd c (src x y + src x (y - 3)) (src x y + src x (y - 2)) (src x y + src (x - 1) (y - 1))
      (src x y + src x (y - 1)) (src (x - 1) y + src (x + 1) (y - 1)) (src (x + 1) y + src (x - 1) y)
      (src (x + 2) y + src (x - 2) y) (src (x + 3) y + src (x - 3) y) (src x y))
  else dst

/-- alf_filter_block2, alf.cc:159-275. -/
def block2 (dst : OPlane) : OPlane :=
  cornerDR bd c src w h (cornerDL bd c src h (cornerTR bd c src w (cornerTL bd c src dst)))

/-- The two calls of alf_lcu_block for one component, alf.cc:451-456. -/
def filter (dst : OPlane) : OPlane := block2 bd c src w h (block1 bd c src w h dst)

end

/-! ### Parameters -/

/-- `sum` of alf_recon_coefficients, alf.cc:61-63. -/
def coeffSum : Int → List Int → Option Int
  | acc, [] => some acc
  | acc, c :: r => do
    let d ← i32 (2 * c)
    let a ← i32 (acc + d)
    coeffSum a r

/-- alf_recon_coefficients for one filter, alf.cc:52-68. -/
def recon (raw : List Int) : Option (Nat → Int) := do
  let s ← coeffSum 0 (raw.take 8)
  let d ← i32 (64 - s)
  let last ← i32 (d + raw.getD 8 0)
  some fun k => if k = 8 then last else raw.getD k 0

/-- alf_init_var_table, alf.cc:71-84: entry `i`; `marks` are the positions at which `filterPattern` is 1. -/
def varTab (filters : Nat) (marks : List Int) : Nat → Nat
  | 0 => 0
  | i + 1 => if filters > 1 then varTab filters marks i + (if ((i + 1 : Nat) : Int) ∈ marks then 1 else 0) else 0

def regionTable : List Nat := [0, 1, 4, 5, 15, 2, 3, 6, 14, 11, 10, 7, 13, 12, 9, 8]

/-- `region_idx_x` and `region_idx_y`, alf.cc:343-345. -/
def regionIdx (n i : Nat) : Nat :=
  let q := (n + 1) / 4
  if q = 0 then 3 else min (i / q) 3

/-- `tab_lcu_region[j * width_in_lcu + i]`, alf.cc:326-348. -/
def region (wLcu hLcu i j : Nat) : Option Nat := regionTable[regionIdx hLcu j * 4 + regionIdx wLcu i]?

/-- The weights used for luma in tree `(i, j)`, alf.cc:444-449; `none` if a table is indexed outside what
the picture header has set or on overflow. -/
def lumaCoeffs (coeffs : List (List Int)) (marks : List Int) (wLcu hLcu i j : Nat) : Option (List Int) := do
  let r ← region wLcu hLcu i j
  coeffs[varTab coeffs.length marks r]?

end Davs2.Al

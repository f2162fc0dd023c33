/-
Coding-tree traversal: source/common/cu.cc.
Positions and sizes are in luma samples; a level is the binary logarithm of a size.
-/
namespace Davs2.Qt

/-- A coding unit: position and level. -/
structure Cu where
  x : Nat
  y : Nat
  l : Nat
  deriving DecidableEq, Repr

/-- `decode_lcu_parse`, cu.cc:1294-1334: the coding units in the order in which they are parsed. The first explicit argument is
`i_level - MIN_CU_SIZE_IN_BIT`. `split l x y` is the flag read from the bitstream for the node; a node is visited at most once, so
every bitstream is covered by some such function. `w`, `h` are `h->i_width`, `h->i_height`. -/
def parse (w h : Nat) (split : Nat → Nat → Nat → Bool) : Nat → Nat → Nat → List Cu
  | 0, x, y => [⟨x, y, 3⟩]
  | k + 1, x, y =>
    let inside := x + 2 ^ (k + 4) ≤ w ∧ y + 2 ^ (k + 4) ≤ h
    let splitFlag := if inside then split (k + 4) x y else true
    if splitFlag then
      (List.range 4).flatMap fun i =>
        let sx := x + (i % 2) * 2 ^ (k + 3)
        let sy := y + (i / 2) * 2 ^ (k + 3)
        if sx < w ∧ sy < h then parse w h split k sx sy else []
    else [⟨x, y, k + 4⟩]

/-- `scu_data[..].i_cu_level` as a function of the position of the 8x8 unit. -/
abbrev Levels := Nat → Nat → Nat

/-- `cu_init`, cu.cc:275 (the unit at the corner) and `cu_read_end`, 299-319 (the others): level stored for all units of a coding
unit; `ok` is false if parsing the unit failed, in which case only the corner is written (cu.cc:1327-1330). -/
def storeCu (ok : Cu → Bool) (m : Levels) (c : Cu) : Levels := fun sx sy =>
  if sx = c.x / 8 ∧ sy = c.y / 8 then c.l
  else if ok c ∧ c.x / 8 ≤ sx ∧ sx < c.x / 8 + 2 ^ (c.l - 3) ∧ c.y / 8 ≤ sy ∧ sy < c.y / 8 + 2 ^ (c.l - 3) then c.l
  else m sx sy

/-- `decode_lcu_recon`, cu.cc:1339-1376: the coding units in the order in which they are reconstructed, from the stored levels. -/
def recon (w h : Nat) (m : Levels) : Nat → Nat → Nat → List Cu
  | 0, x, y => [⟨x, y, 3⟩]
  | k + 1, x, y =>
    if m (x / 8) (y / 8) < k + 4 then
      (List.range 4).flatMap fun i =>
        let sx := x + (i % 2) * 2 ^ (k + 3)
        let sy := y + (i / 2) * 2 ^ (k + 3)
        if sx < w ∧ sy < h then recon w h m k sx sy else []
    else [⟨x, y, k + 4⟩]

/-- `tab_b8xy_to_zigzag`, cu.cc:52-61. -/
def zigzagTab : List (List Nat) := [
  [  0,  1,  4,  5, 16, 17, 20, 21 ],
  [  2,  3,  6,  7, 18, 19, 22, 23 ],
  [  8,  9, 12, 13, 24, 25, 28, 29 ],
  [ 10, 11, 14, 15, 26, 27, 30, 31 ],
  [ 32, 33, 36, 37, 48, 49, 52, 53 ],
  [ 34, 35, 38, 39, 50, 51, 54, 55 ],
  [ 40, 41, 44, 45, 56, 57, 60, 61 ],
  [ 42, 43, 46, 47, 58, 59, 62, 63 ]]

/-- Index of a coding unit in scan order, cu.cc:1364: position within the coding tree of level `lcu`; `none` outside the table. -/
def zscan (lcu : Nat) (c : Cu) : Option Nat := do
  let row ← zigzagTab[c.y / 8 % 2 ^ (lcu - 3)]?
  row[c.x / 8 % 2 ^ (lcu - 3)]?

/-- Start and length of the luma coefficients of a coding unit, cu.cc:604-608 and transform.cc:876. -/
def coeffRange (lcu : Nat) (c : Cu) : Option (Nat × Nat) := (zscan lcu c).map fun z => (z * 64, 4 ^ c.l)

/-- Chroma, cu.cc:609-610: a quarter. -/
def coeffRangeC (lcu : Nat) (c : Cu) : Option (Nat × Nat) := (zscan lcu c).map fun z => (z * 16, 4 ^ (c.l - 1))

/-- All coding units of a picture: coding trees row by row (decoder.cc:407-473), `lcu` is the level of a coding tree. -/
def picture (w h lcu : Nat) (split : Nat → Nat → Nat → Bool) : List Cu :=
  (List.range ((h + 2 ^ lcu - 1) / 2 ^ lcu)).flatMap fun ly =>
    (List.range ((w + 2 ^ lcu - 1) / 2 ^ lcu)).flatMap fun lx => parse w h split (lcu - 3) (lx * 2 ^ lcu) (ly * 2 ^ lcu)

/-- `tab_DL_Avail64`, `32`, `16`, `8`, intra.cc:138-181; `tab_TR_Avail64`, `32`, `16`, `8`, intra.cc:184-233. -/
def tabDL64 : List (List Nat) := [
    [1, 0, 1, 0, 1, 0, 1, 0, 1, 0, 1, 0, 1, 0, 1, 0],
    [1, 0, 0, 0, 1, 0, 0, 0, 1, 0, 0, 0, 1, 0, 0, 0],
    [1, 0, 1, 0, 1, 0, 1, 0, 1, 0, 1, 0, 1, 0, 1, 0],
    [1, 0, 0, 0, 0, 0, 0, 0, 1, 0, 0, 0, 0, 0, 0, 0],
    [1, 0, 1, 0, 1, 0, 1, 0, 1, 0, 1, 0, 1, 0, 1, 0],
    [1, 0, 0, 0, 1, 0, 0, 0, 1, 0, 0, 0, 1, 0, 0, 0],
    [1, 0, 1, 0, 1, 0, 1, 0, 1, 0, 1, 0, 1, 0, 1, 0],
    [1, 0, 0, 0, 0, 0, 0, 0, 0, 0, 0, 0, 0, 0, 0, 0],
    [1, 0, 1, 0, 1, 0, 1, 0, 1, 0, 1, 0, 1, 0, 1, 0],
    [1, 0, 0, 0, 1, 0, 0, 0, 1, 0, 0, 0, 1, 0, 0, 0],
    [1, 0, 1, 0, 1, 0, 1, 0, 1, 0, 1, 0, 1, 0, 1, 0],
    [1, 0, 0, 0, 0, 0, 0, 0, 1, 0, 0, 0, 0, 0, 0, 0],
    [1, 0, 1, 0, 1, 0, 1, 0, 1, 0, 1, 0, 1, 0, 1, 0],
    [1, 0, 0, 0, 1, 0, 0, 0, 1, 0, 0, 0, 1, 0, 0, 0],
    [1, 0, 1, 0, 1, 0, 1, 0, 1, 0, 1, 0, 1, 0, 1, 0],
    [0, 0, 0, 0, 0, 0, 0, 0, 0, 0, 0, 0, 0, 0, 0, 0]]

def tabDL32 : List (List Nat) := [
    [1, 0, 1, 0, 1, 0, 1, 0],
    [1, 0, 0, 0, 1, 0, 0, 0],
    [1, 0, 1, 0, 1, 0, 1, 0],
    [1, 0, 0, 0, 0, 0, 0, 0],
    [1, 0, 1, 0, 1, 0, 1, 0],
    [1, 0, 0, 0, 1, 0, 0, 0],
    [1, 0, 1, 0, 1, 0, 1, 0],
    [0, 0, 0, 0, 0, 0, 0, 0]]

def tabDL16 : List (List Nat) := [
    [1, 0, 1, 0],
    [1, 0, 0, 0],
    [1, 0, 1, 0],
    [0, 0, 0, 0]]

def tabTR64 : List (List Nat) := [
    [1, 1, 1, 1, 1, 1, 1, 1, 1, 1, 1, 1, 1, 1, 1, 1],
    [1, 0, 1, 0, 1, 0, 1, 0, 1, 0, 1, 0, 1, 0, 1, 0],
    [1, 1, 1, 0, 1, 1, 1, 0, 1, 1, 1, 0, 1, 1, 1, 0],
    [1, 0, 1, 0, 1, 0, 1, 0, 1, 0, 1, 0, 1, 0, 1, 0],
    [1, 1, 1, 1, 1, 1, 1, 0, 1, 1, 1, 1, 1, 1, 1, 0],
    [1, 0, 1, 0, 1, 0, 1, 0, 1, 0, 1, 0, 1, 0, 1, 0],
    [1, 1, 1, 0, 1, 1, 1, 0, 1, 1, 1, 0, 1, 1, 1, 0],
    [1, 0, 1, 0, 1, 0, 1, 0, 1, 0, 1, 0, 1, 0, 1, 0],
    [1, 1, 1, 1, 1, 1, 1, 1, 1, 1, 1, 1, 1, 1, 1, 0],
    [1, 0, 1, 0, 1, 0, 1, 0, 1, 0, 1, 0, 1, 0, 1, 0],
    [1, 1, 1, 0, 1, 1, 1, 0, 1, 1, 1, 0, 1, 1, 1, 0],
    [1, 0, 1, 0, 1, 0, 1, 0, 1, 0, 1, 0, 1, 0, 1, 0],
    [1, 1, 1, 1, 1, 1, 1, 0, 1, 1, 1, 1, 1, 1, 1, 0],
    [1, 0, 1, 0, 1, 0, 1, 0, 1, 0, 1, 0, 1, 0, 1, 0],
    [1, 1, 1, 0, 1, 1, 1, 0, 1, 1, 1, 0, 1, 1, 1, 0],
    [1, 0, 1, 0, 1, 0, 1, 0, 1, 0, 1, 0, 1, 0, 1, 0]]

def tabTR32 : List (List Nat) := [
    [1, 1, 1, 1, 1, 1, 1, 1],
    [1, 0, 1, 0, 1, 0, 1, 0],
    [1, 1, 1, 0, 1, 1, 1, 0],
    [1, 0, 1, 0, 1, 0, 1, 0],
    [1, 1, 1, 1, 1, 1, 1, 0],
    [1, 0, 1, 0, 1, 0, 1, 0],
    [1, 1, 1, 0, 1, 1, 1, 0],
    [1, 0, 1, 0, 1, 0, 1, 0]]

def tabTR16 : List (List Nat) := [
    [1, 1, 1, 1],
    [1, 0, 1, 0],
    [1, 1, 1, 0],
    [1, 0, 1, 0]]

/-- `tab_DL_Avails[i_lcu_level]`, `tab_TR_Avails[i_lcu_level]`, intra.cc:240-249, header.cc:1051-1052 (the level of a coding tree
is 4, 5 or 6; the tables for level 3 are not used). The linear index `(y << (level - 2)) + x` is row `y`, column `x`. -/
def tabDL : Nat → List (List Nat)
  | 4 => tabDL16
  | 5 => tabDL32
  | 6 => tabDL64
  | _ => []

def tabTR : Nat → List (List Nat)
  | 4 => tabTR16
  | 5 => tabTR32
  | 6 => tabTR64
  | _ => []

/-- Entry of a table for the 4x4 unit `(x, y)` of a coding tree, 1 meaning available. -/
def entry (t : List (List Nat)) (x y : Nat) : Option Bool := do
  let row ← t[y]?
  let v ← row[x]?
  some (v != 0)

/-- Availability of the top-right neighbour of a block with `bw` units of width at `(x, y)` (in 4x4 units of the picture),
table part: cu.cc:250-252, predict.cc:180-184, intra.cc:291-297. -/
def availTR (lcu x y bw : Nat) : Option Bool := entry (tabTR lcu) (x % 2 ^ (lcu - 2) + bw - 1) (y % 2 ^ (lcu - 2))

/-- Bottom-left neighbour, intra.cc:291-296. -/
def availDL (lcu x y bh : Nat) : Option Bool := entry (tabDL lcu) (x % 2 ^ (lcu - 2)) (y % 2 ^ (lcu - 2) + bh - 1)

end Davs2.Qt

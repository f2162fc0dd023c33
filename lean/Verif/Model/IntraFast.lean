import Verif.Model.Intra
/-
The specialised directional predictors that replace the general ones in the table,
source/common/intra.cc 679-2216 and 2607-2632 (C code only, BUGFIX_PREDICTION_INTRA = 1).

Each function is the value it leaves at column `x` and row `y` of the block, or `none` if it writes
nothing there or copies a cell of its line buffer that it has not written.  A `…Line` function is one
sample of a line buffer with `src` already advanced: its argument is indexed as the code indexes `src`.
-/
namespace Davs2.Ip

/-- `src += i`. -/
def up (s : Border) (i : Int) : Border := fun k => s (k + i)

/-- A line buffer of which the first `size` cells have been written with `f`. -/
def lineAt (size : Nat) (f : Nat → Int) (n : Nat) : Option Int := if n < size then some (f n) else none

/-- intra.cc:705-708. -/
def x3Line (r : Nat) (s : Border) : Int :=
  match r with
  | 0 => (s 2 + 5 * s 3 + 7 * s 4 + 3 * s 5 + 8) / 16
  | 1 => (s 5 + 3 * s 6 + 3 * s 7 + s 8 + 4) / 8
  | 2 => (3 * s 8 + 7 * s 9 + 5 * s 10 + s 11 + 8) / 16
  | _ => (s 11 + 2 * s 12 + s 13 + 0 * s 14 + 2) / 4

/-- intra_pred_ang_x_3_c, intra.cc:679-760. -/
def x3 (s : Border) (bsx bsy x y : Nat) : Option Int :=
  if y / 4 < bsy / 4 then
    lineAt (bsx + bsy / 4 * 11 - 1) (fun i => x3Line (y % 4) (up s i)) (y / 4 * 11 + x)
  else none

/-- intra_pred_ang_x_4_c, intra.cc:764-794. -/
def x4 (s : Border) (bsx bsy x y : Nat) : Option Int :=
  let s := up s 3
  lineAt (bsx + (bsy - 1) * 2) (fun i => let s := up s i; (s (-1) + s 0 * 2 + s 1 + 2) / 4) (2 * y + x)

/-- intra.cc:840-848, 928-931, 944-952, 1075-1078. -/
def x5Line (r : Nat) (s : Border) : Int :=
  match r with
  | 0 => (5 * s 1 + 13 * s 2 + 11 * s 3 + 3 * s 4 + 16) / 32
  | 1 => (s 2 + 5 * s 3 + 7 * s 4 + 3 * s 5 + 8) / 16
  | 2 => (7 * s 4 + 15 * s 5 + 9 * s 6 + s 7 + 16) / 32
  | 3 => (s 5 + 3 * s 6 + 3 * s 7 + s 8 + 4) / 8
  | 4 => (s 6 + 9 * s 7 + 15 * s 8 + 7 * s 9 + 16) / 32
  | 5 => (3 * s 8 + 7 * s 9 + 5 * s 10 + s 11 + 8) / 16
  | 6 => (3 * s 9 + 11 * s 10 + 13 * s 11 + 5 * s 12 + 16) / 32
  | _ => (s 11 + 2 * s 12 + s 13 + 2) / 4

/-- intra_pred_ang_x_5_c, intra.cc:798-1147.  The 8x32 and 4x16 shapes fill the rows below the eighth or
fourth with one border sample and then overwrite the few samples that differ. -/
def x5 (s : Border) (bsx bsy x y : Nat) : Option Int :=
  if bsy > 4 ∧ bsx > 8 then
    if y / 8 < bsy / 8 then
      lineAt (bsx + (bsy - 8) * 11 / 8) (fun i => x5Line (y % 8) (up s i)) (y / 8 * 11 + x)
    else none
  else if bsx = 16 then
    if y < 4 then some (x5Line y (up s x)) else none
  else if bsx = 8 then
    if y < 8 then some (x5Line y (up s x))
    else if bsy = 32 then
      let s := up s 8
      let pad1 := s 8
      let s := up s 4
      if y = 8 ∧ x = 0 then some ((5 * s 0 + 13 * s 1 + 11 * s 2 + 3 * s 3 + 16) / 32)
      else if y = 8 ∧ x = 1 then some ((5 * s 1 + 13 * s 2 + 11 * s 3 + 3 * s 4 + 16) / 32)
      else if y = 8 ∧ x = 2 then some ((5 * s 2 + 13 * s 3 + 11 * s 4 + 3 * s 5 + 16) / 32)
      else if y = 8 ∧ x = 3 then some ((5 * s 3 + 13 * s 4 + 11 * s 5 + 3 * s 6 + 16) / 32)
      else if y = 9 ∧ x = 0 then some ((s 1 + 5 * s 2 + 7 * s 3 + 3 * s 4 + 8) / 16)
      else if y = 9 ∧ x = 1 then some ((s 2 + 5 * s 3 + 7 * s 4 + 3 * s 5 + 8) / 16)
      else if y = 9 ∧ x = 2 then some ((s 3 + 5 * s 4 + 7 * s 5 + 3 * s 6 + 8) / 16)
      else if y = 10 ∧ x = 0 then some ((7 * s 3 + 15 * s 4 + 9 * s 5 + s 6 + 16) / 32)
      else if y < 32 then some pad1 else none
    else none
  else
    if y < 4 then some (x5Line y (up s x))
    else if bsy = 16 then
      let s := up s 4
      let s := up s 4
      let pad1 := s 0
      if y = 4 ∧ x = 0 then some ((s (-2) + 9 * s (-1) + 15 * s 0 + 7 * s 1 + 16) / 32)
      else if y = 4 ∧ x = 1 then some ((s (-1) + 9 * s 0 + 15 * s 1 + 7 * s 2 + 16) / 32)
      else if y < 16 then some pad1 else none
    else none

/-- intra_pred_ang_x_6_c, intra.cc:1151-1183. -/
def x6 (s : Border) (bsx bsy x y : Nat) : Option Int :=
  lineAt (bsx + bsy - 1) (fun i => let s := up s i; (s 1 + s 2 * 2 + s 3 + 2) / 4) (y + x)

/-- intra.cc:1196-1199, 1207-1214. -/
def x7Line (r : Nat) (s : Border) : Int :=
  match r with
  | 0 => (s 0 * 9 + s 1 * 41 + s 2 * 55 + s 3 * 23 + 64) / 128
  | 1 => (s 1 * 9 + s 2 * 25 + s 3 * 23 + s 4 * 7 + 32) / 64
  | 2 => (s 2 * 27 + s 3 * 59 + s 4 * 37 + s 5 * 5 + 64) / 128
  | 3 => (s 2 * 3 + s 3 * 35 + s 4 * 61 + s 5 * 29 + 64) / 128
  | 4 => (s 3 * 3 + s 4 * 11 + s 5 * 13 + s 6 * 5 + 16) / 32
  | 5 => (s 4 * 21 + s 5 * 53 + s 6 * 43 + s 7 * 11 + 64) / 128
  | 6 => (s 5 * 15 + s 6 * 31 + s 7 * 17 + s 8 + 32) / 64
  | _ => (s 5 * 3 + s 6 * 19 + s 7 * 29 + s 8 * 13 + 32) / 64

/-- intra_pred_ang_x_7_c, intra.cc:1187-1219. -/
def x7 (s : Border) (_bsx bsy x y : Nat) : Option Int :=
  if bsy = 4 then (if y < 4 then some (x7Line y (up s x)) else none)
  else if bsy = 8 then (if y < 8 then some (x7Line y (up s x)) else none)
  else some (angX s 7 x y)

/-- intra_pred_ang_x_8_c, intra.cc:1223-1269. -/
def x8Line (r : Nat) (s : Border) : Int :=
  match r with
  | 0 => (s 0 + (s 1 + s 2) * 3 + s 3 + 4) / 8
  | _ => (s 1 + s 2 * 2 + s 3 + 2) / 4

def x8 (s : Border) (bsx bsy x y : Nat) : Option Int :=
  if y / 2 < bsy / 2 then
    lineAt (bsx + bsy / 2 - 1) (fun i => x8Line (y % 2) (up s i)) (y / 2 + x)
  else none

/-- intra.cc:1393-1401, 1409-1412. -/
def x9Line (r : Nat) (s : Border) : Int :=
  match r with
  | 0 => (21 * s 0 + 53 * s 1 + 43 * s 2 + 11 * s 3 + 64) / 128
  | 1 => (9 * s 0 + 41 * s 1 + 55 * s 2 + 23 * s 3 + 64) / 128
  | 2 => (15 * s 1 + 31 * s 2 + 17 * s 3 + s 4 + 32) / 64
  | 3 => (9 * s 1 + 25 * s 2 + 23 * s 3 + 7 * s 4 + 32) / 64
  | 4 => (3 * s 1 + 19 * s 2 + 29 * s 3 + 13 * s 4 + 32) / 64
  | 5 => (27 * s 2 + 59 * s 3 + 37 * s 4 + 5 * s 5 + 64) / 128
  | 6 => (15 * s 2 + 47 * s 3 + 49 * s 4 + 17 * s 5 + 64) / 128
  | _ => (3 * s 2 + 35 * s 3 + 61 * s 4 + 29 * s 5 + 64) / 128

/-- intra_pred_ang_x_9_c, intra.cc:1273-1416. -/
def x9 (s : Border) (_bsx bsy x y : Nat) : Option Int :=
  if bsy > 8 then some (angX s 9 x y)
  else if bsy = 8 then (if y < 8 then some (x9Line y (up s x)) else none)
  else (if y < 4 then some (x9Line y (up s x)) else none)

/-- intra.cc:1440-1443, 1460-1463. -/
def x10Line (r : Nat) (s : Border) : Int :=
  match r with
  | 0 => (s 0 * 3 + s 1 * 7 + s 2 * 5 + s 3 + 8) / 16
  | 1 => (s 0 + (s 1 + s 2) * 3 + s 3 + 4) / 8
  | 2 => (s 0 + s 1 * 5 + s 2 * 7 + s 3 * 3 + 8) / 16
  | _ => (s 1 + s 2 * 2 + s 3 + 2) / 4

/-- intra_pred_ang_x_10_c, intra.cc:1420-1466. -/
def x10 (s : Border) (bsx bsy x y : Nat) : Option Int :=
  if bsy ≠ 4 then
    if y / 4 < bsy / 4 then
      lineAt (bsx + bsy / 4 - 1) (fun i => x10Line (y % 4) (up s i)) (y / 4 + x)
    else none
  else if y < 4 then some (x10Line y (up s x)) else none

/-- intra.cc:1489-1497, 1522-1530, 1538-1541. -/
def x11Line (r : Nat) (s : Border) : Int :=
  match r with
  | 0 => (7 * s 0 + 15 * s 1 + 9 * s 2 + s 3 + 16) / 32
  | 1 => (3 * s 0 + 7 * s 1 + 5 * s 2 + s 3 + 8) / 16
  | 2 => (5 * s 0 + 13 * s 1 + 11 * s 2 + 3 * s 3 + 16) / 32
  | 3 => (s 0 + 3 * s 1 + 3 * s 2 + s 3 + 4) / 8
  | 4 => (3 * s 0 + 11 * s 1 + 13 * s 2 + 5 * s 3 + 16) / 32
  | 5 => (s 0 + 5 * s 1 + 7 * s 2 + 3 * s 3 + 8) / 16
  | 6 => (s 0 + 9 * s 1 + 15 * s 2 + 7 * s 3 + 16) / 32
  | _ => (s 1 + 2 * s 2 + s 3 + 0 * s 4 + 2) / 4

/-- intra_pred_ang_x_11_c, intra.cc:1470-1544. -/
def x11 (s : Border) (bsx bsy x y : Nat) : Option Int :=
  if bsy > 8 then
    if y / 8 < bsy / 8 then
      lineAt (bsx + bsy / 8 - 1) (fun i => x11Line (y % 8) (up s i)) (y / 8 + x)
    else none
  else if bsy = 8 then (if y < 8 then some (x11Line y (up s x)) else none)
  else (if y < 4 then some (x11Line y (up s x)) else none)

/-! ### From the left column; `src` moves by −1 -/

/-- intra.cc:1558-1566, 1574-1582, 1587-1590. -/
def y25Col (r : Nat) (s : Border) : Int :=
  match r with
  | 0 => (s 0 * 7 + s (-1) * 15 + s (-2) * 9 + s (-3) * 1 + 16) / 32
  | 1 => (s 0 * 3 + s (-1) * 7 + s (-2) * 5 + s (-3) * 1 + 8) / 16
  | 2 => (s 0 * 5 + s (-1) * 13 + s (-2) * 11 + s (-3) * 3 + 16) / 32
  | 3 => (s 0 * 1 + s (-1) * 3 + s (-2) * 3 + s (-3) * 1 + 4) / 8
  | 4 => (s 0 * 3 + s (-1) * 11 + s (-2) * 13 + s (-3) * 5 + 16) / 32
  | 5 => (s 0 * 1 + s (-1) * 5 + s (-2) * 7 + s (-3) * 3 + 8) / 16
  | 6 => (s 0 * 1 + s (-1) * 9 + s (-2) * 15 + s (-3) * 7 + 16) / 32
  | _ => (s (-1) * 1 + s (-2) * 2 + s (-3) * 1 + 2) / 4

/-- Cells written by `for (i = 0; i < size; i += step)` when the body writes `step` cells from `i` on. -/
def stepSize (size step : Nat) : Nat := (size + step - 1) / step * step

/-- intra_pred_ang_y_25_c, intra.cc:1549-1594. -/
def y25 (s : Border) (bsx bsy x y : Nat) : Option Int :=
  if bsx > 8 then
    if y < bsy then
      lineAt (stepSize (bsx + (bsy - 1) * 8) 8) (fun n => y25Col (n % 8) (up s (-(n / 8 : Nat)))) (8 * y + x)
    else none
  else if bsx = 8 then (if y < bsy ∧ x < 8 then some (y25Col x (up s (-y))) else none)
  else (if y < bsy ∧ x < 4 then some (y25Col x (up s (-y))) else none)

/-- intra.cc:1608-1611, 1620-1623. -/
def y26Col (r : Nat) (s : Border) : Int :=
  match r with
  | 0 => (s 0 * 3 + s (-1) * 7 + s (-2) * 5 + s (-3) + 8) / 16
  | 1 => (s 0 + (s (-1) + s (-2)) * 3 + s (-3) + 4) / 8
  | 2 => (s 0 + s (-1) * 5 + s (-2) * 7 + s (-3) * 3 + 8) / 16
  | _ => (s (-1) + s (-2) * 2 + s (-3) + 2) / 4

/-- intra_pred_ang_y_26_c, intra.cc:1598-1627. -/
def y26 (s : Border) (bsx bsy x y : Nat) : Option Int :=
  if bsx ≠ 4 then
    if y < bsy then
      lineAt (stepSize (bsx + (bsy - 1) * 4) 4) (fun n => y26Col (n % 4) (up s (-(n / 4 : Nat)))) (4 * y + x)
    else none
  else (if y < bsy ∧ x < 4 then some (y26Col x (up s (-y))) else none)

/-- intra.cc:1638-1646, 1651-1654. -/
def y27Col (r : Nat) (s : Border) : Int :=
  match r with
  | 0 => (21 * s 0 + 53 * s (-1) + 43 * s (-2) + 11 * s (-3) + 64) / 128
  | 1 => (9 * s 0 + 41 * s (-1) + 55 * s (-2) + 23 * s (-3) + 64) / 128
  | 2 => (15 * s (-1) + 31 * s (-2) + 17 * s (-3) + 1 * s (-4) + 32) / 64
  | 3 => (9 * s (-1) + 25 * s (-2) + 23 * s (-3) + 7 * s (-4) + 32) / 64
  | 4 => (3 * s (-1) + 19 * s (-2) + 29 * s (-3) + 13 * s (-4) + 32) / 64
  | 5 => (27 * s (-2) + 59 * s (-3) + 37 * s (-4) + 5 * s (-5) + 64) / 128
  | 6 => (15 * s (-2) + 47 * s (-3) + 49 * s (-4) + 17 * s (-5) + 64) / 128
  | _ => (3 * s (-2) + 35 * s (-3) + 61 * s (-4) + 29 * s (-5) + 64) / 128

/-- intra_pred_ang_y_27_c, intra.cc:1631-1658. -/
def y27 (s : Border) (bsx bsy x y : Nat) : Option Int :=
  if bsx > 8 then some (angY s 27 x y)
  else if bsx = 8 then (if y < bsy ∧ x < 8 then some (y27Col x (up s (-y))) else none)
  else (if y < bsy ∧ x < 4 then some (y27Col x (up s (-y))) else none)

/-- intra.cc:1680-1681. -/
def y28Col (r : Nat) (s : Border) : Int :=
  match r with
  | 0 => (s 0 + (s (-1) + s (-2)) * 3 + s (-3) + 4) / 8
  | _ => (s (-1) + s (-2) * 2 + s (-3) + 2) / 4

/-- intra_pred_ang_y_28_c, intra.cc:1662-1702. -/
def y28 (s : Border) (bsx bsy x y : Nat) : Option Int :=
  if y < bsy then
    lineAt (stepSize (bsx + (bsy - 1) * 2) 2) (fun n => y28Col (n % 2) (up s (-(n / 2 : Nat)))) (2 * y + x)
  else none

/-- intra.cc:1713-1721, 1726-1729. -/
def y29Col (r : Nat) (s : Border) : Int :=
  match r with
  | 0 => (s 0 * 9 + s (-1) * 41 + s (-2) * 55 + s (-3) * 23 + 64) / 128
  | 1 => (s (-1) * 9 + s (-2) * 25 + s (-3) * 23 + s (-4) * 7 + 32) / 64
  | 2 => (s (-2) * 27 + s (-3) * 59 + s (-4) * 37 + s (-5) * 5 + 64) / 128
  | 3 => (s (-2) * 3 + s (-3) * 35 + s (-4) * 61 + s (-5) * 29 + 64) / 128
  | 4 => (s (-3) * 3 + s (-4) * 11 + s (-5) * 13 + s (-6) * 5 + 16) / 32
  | 5 => (s (-4) * 21 + s (-5) * 53 + s (-6) * 43 + s (-7) * 11 + 64) / 128
  | 6 => (s (-5) * 15 + s (-6) * 31 + s (-7) * 17 + s (-8) + 32) / 64
  | _ => (s (-5) * 3 + s (-6) * 19 + s (-7) * 29 + s (-8) * 13 + 32) / 64

/-- intra_pred_ang_y_29_c, intra.cc:1706-1733. -/
def y29 (s : Border) (bsx bsy x y : Nat) : Option Int :=
  if bsx > 8 then some (angY s 29 x y)
  else if bsx = 8 then (if y < bsy ∧ x < 8 then some (y29Col x (up s (-y))) else none)
  else (if y < bsy ∧ x < 4 then some (y29Col x (up s (-y))) else none)

/-- intra_pred_ang_y_30_c, intra.cc:1737-1770. -/
def y30 (s : Border) (bsx bsy x y : Nat) : Option Int :=
  let s := up s (-2)
  lineAt (bsx + bsy - 1) (fun i => let s := up s (-i); (s (-1) + s 0 * 2 + s 1 + 2) / 4) (y + x)

/-- intra.cc:1797-1805, 1810-1813. -/
def y31Col (r : Nat) (s : Border) : Int :=
  match r with
  | 0 => (5 * s (-1) + 13 * s (-2) + 11 * s (-3) + 3 * s (-4) + 16) / 32
  | 1 => (1 * s (-2) + 5 * s (-3) + 7 * s (-4) + 3 * s (-5) + 8) / 16
  | 2 => (7 * s (-4) + 15 * s (-5) + 9 * s (-6) + 1 * s (-7) + 16) / 32
  | 3 => (1 * s (-5) + 3 * s (-6) + 3 * s (-7) + 1 * s (-8) + 4) / 8
  | 4 => (1 * s (-6) + 9 * s (-7) + 15 * s (-8) + 7 * s (-9) + 16) / 32
  | 5 => (3 * s (-8) + 7 * s (-9) + 5 * s (-10) + 1 * s (-11) + 8) / 16
  | 6 => (3 * s (-9) + 11 * s (-10) + 13 * s (-11) + 5 * s (-12) + 16) / 32
  | _ => (1 * s (-11) + 2 * s (-12) + 1 * s (-13) + 0 * s (-14) + 2) / 4

/-- intra_pred_ang_y_31_c, intra.cc:1774-1817.  `junk` is what the local array `src_tran` holds where the
loop at 1783 has not written. -/
def y31 (junk : Border) (s : Border) (bsx bsy x y : Nat) : Option Int :=
  if bsx ≥ bsy then
    let srcTran : Border := fun i => if 0 ≤ i ∧ i < (bsy + bsx * 11 / 8 + 3 : Nat) then s (-i) else junk i
    x5 srcTran bsy bsx y x
  else if bsx = 8 then (if y < bsy ∧ x < 8 then some (y31Col x (up s (-y))) else none)
  else (if y < bsy ∧ x < 4 then some (y31Col x (up s (-y))) else none)

/-- intra.cc:1845-1846. -/
def y32Line (r : Nat) (s : Border) : Int :=
  match r with
  | 0 => (s 1 + s 0 * 2 + s (-1) + 2) / 4
  | _ => (s 0 + s (-1) * 2 + s (-2) + 2) / 4

/-- intra_pred_ang_y_32_c, intra.cc:1821-1864. -/
def y32 (s : Border) (bsx bsy x y : Nat) : Option Int :=
  let s := up s (-3)
  if y / 2 < bsy / 2 then
    lineAt (bsy / 2 + bsx - 1) (fun i => y32Line (y % 2) (up s (-2 * i))) (y / 2 + x)
  else none

/-! ### Between the top row and the left column -/

/-- intra.cc:1901-1909, 1942-1950, 1958-1961. -/
def xy13Line (r : Nat) (s : Border) : Int :=
  match r with
  | 0 => (7 * s 2 + 15 * s 1 + 9 * s 0 + s (-1) + 16) / 32
  | 1 => (3 * s 2 + 7 * s 1 + 5 * s 0 + s (-1) + 8) / 16
  | 2 => (5 * s 2 + 13 * s 1 + 11 * s 0 + 3 * s (-1) + 16) / 32
  | 3 => (s 2 + 3 * s 1 + 3 * s 0 + s (-1) + 4) / 8
  | 4 => (3 * s 2 + 11 * s 1 + 13 * s 0 + 5 * s (-1) + 16) / 32
  | 5 => (s 2 + 5 * s 1 + 7 * s 0 + 3 * s (-1) + 8) / 16
  | 6 => (s 2 + 9 * s 1 + 15 * s 0 + 7 * s (-1) + 16) / 32
  | _ => (s 1 + 2 * s 0 + s (-1) + 2) / 4

/-- intra.cc:1889-1897. -/
def xy13Left (r : Nat) (s : Border) : Int :=
  match r with
  | 0 => (s 6 + s 7 * 2 + s 8 + 2) / 4
  | 1 => (s 5 + s 6 * 2 + s 7 + 2) / 4
  | 2 => (s 4 + s 5 * 2 + s 6 + 2) / 4
  | 3 => (s 3 + s 4 * 2 + s 5 + 2) / 4
  | 4 => (s 2 + s 3 * 2 + s 4 + 2) / 4
  | 5 => (s 1 + s 2 * 2 + s 3 + 2) / 4
  | 6 => (s 0 + s 1 * 2 + s 2 + 2) / 4
  | _ => (s (-1) + s 0 * 2 + s 1 + 2) / 4

/-- A line buffer written in two parts: `left` cells with `src` advancing by `step` from `base`, the rest
with `src` advancing by one from where the first part left it. -/
def twoPart (s : Border) (base : Int) (left size step : Nat) (f g : Border → Int) (n : Nat) : Option Int :=
  if n < left then some (f (up s (base + step * n)))
  else if n < size then some (g (up s (base + step * left + (n - left : Nat))))
  else none

/-- intra_pred_ang_xy_13_c, intra.cc:1868-1964. -/
def xy13 (s : Border) (bsx bsy x y : Nat) : Option Int :=
  if bsy > 8 then
    let size := bsx + bsy / 8 - 1
    let left := size - bsx
    if y / 8 < bsy / 8 then
      twoPart s (-((bsy : Int) - 8)) left size 8 (xy13Left (y % 8)) (xy13Line (y % 8)) (left - y / 8 + x)
    else none
  else if bsy = 8 then (if y < 8 then some (xy13Line y (up s x)) else none)
  else (if y < 4 then some (xy13Line y (up s x)) else none)

/-- intra.cc:1990-1993, 2019-2022. -/
def xy14Line (r : Nat) (s : Border) : Int :=
  match r with
  | 0 => (s (-1) + s 0 * 5 + s 1 * 7 + s 2 * 3 + 8) / 16
  | 1 => (s (-1) + (s 0 + s 1) * 3 + s 2 + 4) / 8
  | 2 => (s (-1) * 3 + s 0 * 7 + s 1 * 5 + s 2 + 8) / 16
  | _ => (s (-1) + s 0 * 2 + s 1 + 2) / 4

/-- intra.cc:1983-1986. -/
def xy14Left (r : Nat) (s : Border) : Int :=
  match r with
  | 0 => (s 2 + s 3 * 2 + s 4 + 2) / 4
  | 1 => (s 1 + s 2 * 2 + s 3 + 2) / 4
  | 2 => (s 0 + s 1 * 2 + s 2 + 2) / 4
  | _ => (s (-1) + s 0 * 2 + s 1 + 2) / 4

/-- intra_pred_ang_xy_14_c, intra.cc:1965-2025. -/
def xy14 (s : Border) (bsx bsy x y : Nat) : Option Int :=
  if bsy ≠ 4 then
    let size := bsx + bsy / 4 - 1
    let left := size - bsx
    if y / 4 < bsy / 4 then
      twoPart s (-((bsy : Int) - 4)) left size 4 (xy14Left (y % 4)) (xy14Line (y % 4)) (left - y / 4 + x)
    else none
  else (if y < 4 then some (xy14Line y (up s x)) else none)

/-- intra.cc:2049-2050. -/
def xy16Line (r : Nat) (s : Border) : Int :=
  match r with
  | 0 => (s (-1) + (s 0 + s 1) * 3 + s 2 + 4) / 8
  | _ => (s (-1) + s 0 * 2 + s 1 + 2) / 4

/-- intra.cc:2044-2045. -/
def xy16Left (r : Nat) (s : Border) : Int :=
  match r with
  | 0 => (s 0 + s 1 * 2 + s 2 + 2) / 4
  | _ => (s (-1) + s 0 * 2 + s 1 + 2) / 4

/-- intra_pred_ang_xy_16_c, intra.cc:2029-2062. -/
def xy16 (s : Border) (bsx bsy x y : Nat) : Option Int :=
  let size := bsx + bsy / 2 - 1
  let left := size - bsx
  if y / 2 < bsy / 2 then
    twoPart s (-((bsy : Int) - 2)) left size 2 (xy16Left (y % 2)) (xy16Line (y % 2)) (left - y / 2 + x)
  else none

/-- intra_pred_ang_xy_18_c, intra.cc:2066-2083. -/
def xy18 (s : Border) (bsx bsy x y : Nat) : Option Int :=
  let s := up s (-((bsy : Int) - 1))
  if y < bsy then
    lineAt (bsx + bsy - 1) (fun i => let s := up s i; (s (-1) + s 0 * 2 + s 1 + 2) / 4) (bsy - 1 - y + x)
  else none

/-- A line buffer written in steps of `step` cells and then, from the last of those cells on (`i--`),
one by one: intra.cc:2096-2105, 2121-2138, 2170-2186. -/
def stepped (s : Border) (bsy left size step : Nat) (f : Nat → Border → Int) (n : Nat) : Option Int :=
  if n < stepSize left step - 1 then some (f (n % step) (up s (-(bsy : Int) + (n / step : Nat))))
  else if n < size then
    let s := up s (-(bsy : Int) + (stepSize left step / step : Nat) + (n - (stepSize left step - 1) : Nat))
    some ((s (-1) + s 0 * 2 + s 1 + 2) / 4)
  else if n < stepSize left step then some (f (n % step) (up s (-(bsy : Int) + (n / step : Nat))))
  else none

/-- intra.cc:2098-2099. -/
def xy20Col (r : Nat) (s : Border) : Int :=
  match r with
  | 0 => (s (-1) + (s 0 + s 1) * 3 + s 2 + 4) / 8
  | _ => (s 0 + s 1 * 2 + s 2 + 2) / 4

/-- intra_pred_ang_xy_20_c, intra.cc:2087-2112. -/
def xy20 (s : Border) (bsx bsy x y : Nat) : Option Int :=
  let left := (bsy - 1) * 2 + 1
  let top := bsx - 1
  if y < bsy then stepped s bsy left (left + top) 2 xy20Col (left - 1 - 2 * y + x) else none

/-- intra.cc:2129-2132. -/
def xy22Col (r : Nat) (s : Border) : Int :=
  match r with
  | 0 => (s (-1) * 3 + s 0 * 7 + s 1 * 5 + s 2 + 8) / 16
  | 1 => (s (-1) + (s 0 + s 1) * 3 + s 2 + 4) / 8
  | 2 => (s (-1) + s 0 * 5 + s 1 * 7 + s 2 * 3 + 8) / 16
  | _ => (s 0 + s 1 * 2 + s 2 + 2) / 4

/-- intra.cc:2147-2150. -/
def xy22Small (r : Nat) (s : Border) : Int :=
  match r with
  | 0 => (s (-2) * 3 + s (-1) * 7 + s 0 * 5 + s 1 + 8) / 16
  | 1 => (s (-2) + (s (-1) + s 0) * 3 + s 1 + 4) / 8
  | 2 => (s (-2) + s (-1) * 5 + s 0 * 7 + s 1 * 3 + 8) / 16
  | _ => (s (-1) + s 0 * 2 + s 1 + 2) / 4

/-- intra_pred_ang_xy_22_c, intra.cc:2116-2155. -/
def xy22 (s : Border) (bsx bsy x y : Nat) : Option Int :=
  if bsx ≠ 4 then
    let left := (bsy - 1) * 4 + 3
    let top := bsx - 3
    if y < bsy then stepped s bsy left (left + top) 4 xy22Col (left - 3 - 4 * y + x) else none
  else (if y < bsy ∧ x < 4 then some (xy22Small x (up s (-y))) else none)

/-- intra.cc:2172-2180. -/
def xy23Col (r : Nat) (s : Border) : Int :=
  match r with
  | 0 => (7 * s (-1) + 15 * s 0 + 9 * s 1 + s 2 + 16) / 32
  | 1 => (3 * s (-1) + 7 * s 0 + 5 * s 1 + s 2 + 8) / 16
  | 2 => (5 * s (-1) + 13 * s 0 + 11 * s 1 + 3 * s 2 + 16) / 32
  | 3 => (s (-1) + 3 * s 0 + 3 * s 1 + s 2 + 4) / 8
  | 4 => (3 * s (-1) + 11 * s 0 + 13 * s 1 + 5 * s 2 + 16) / 32
  | 5 => (s (-1) + 5 * s 0 + 7 * s 1 + 3 * s 2 + 8) / 16
  | 6 => (s (-1) + 9 * s 0 + 15 * s 1 + 7 * s 2 + 16) / 32
  | _ => (s 0 + 2 * s 1 + s 2 + 0 * s 3 + 2) / 4

/-- intra.cc:2195-2203, 2209-2212. -/
def xy23Small (r : Nat) (s : Border) : Int :=
  match r with
  | 0 => (7 * s (-2) + 15 * s (-1) + 9 * s 0 + s 1 + 16) / 32
  | 1 => (3 * s (-2) + 7 * s (-1) + 5 * s 0 + s 1 + 8) / 16
  | 2 => (5 * s (-2) + 13 * s (-1) + 11 * s 0 + 3 * s 1 + 16) / 32
  | 3 => (s (-2) + 3 * s (-1) + 3 * s 0 + s 1 + 4) / 8
  | 4 => (3 * s (-2) + 11 * s (-1) + 13 * s 0 + 5 * s 1 + 16) / 32
  | 5 => (s (-2) + 5 * s (-1) + 7 * s 0 + 3 * s 1 + 8) / 16
  | 6 => (s (-2) + 9 * s (-1) + 15 * s 0 + 7 * s 1 + 16) / 32
  | _ => (s (-1) + 2 * s 0 + s 1 + 0 * s 2 + 2) / 4

/-- intra_pred_ang_xy_23_c, intra.cc:2159-2216. -/
def xy23 (s : Border) (bsx bsy x y : Nat) : Option Int :=
  if bsx > 8 then
    let left := bsy * 8 - 1
    let top := bsx - 7
    if y < bsy then stepped s bsy left (left + top) 8 xy23Col (left - 7 - 8 * y + x) else none
  else if bsx = 8 then (if y < bsy ∧ x < 8 then some (xy23Small x (up s (-y))) else none)
  else (if y < bsy ∧ x < 4 then some (xy23Small x (up s (-y))) else none)

/-- The function table after the specialised predictors have been installed,
davs2_intra_pred_init intra.cc:2589-2632. -/
def table (bd : Nat) (top left : Bool) (junk s : Border) (mode w h x y : Nat) : Option Int :=
  match mode with
  | 3 => x3 s w h x y | 4 => x4 s w h x y | 5 => x5 s w h x y | 6 => x6 s w h x y
  | 7 => x7 s w h x y | 8 => x8 s w h x y | 9 => x9 s w h x y | 10 => x10 s w h x y
  | 11 => x11 s w h x y
  | 13 => xy13 s w h x y | 14 => xy14 s w h x y | 16 => xy16 s w h x y | 18 => xy18 s w h x y
  | 20 => xy20 s w h x y | 22 => xy22 s w h x y | 23 => xy23 s w h x y
  | 25 => y25 s w h x y | 26 => y26 s w h x y | 27 => y27 s w h x y | 28 => y28 s w h x y
  | 29 => y29 s w h x y | 30 => y30 s w h x y | 31 => y31 junk s w h x y | 32 => y32 s w h x y
  | m => some (general bd top left s m w h x y)

end Davs2.Ip

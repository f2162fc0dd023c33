import Verif.Spec.Binarise
import Mathlib.Data.Nat.Find
/-
How the coefficients of a block are written: position of the last group of 4x4 coefficients that is not empty; then, from
this group to the first, a flag whether the group is empty, the position of its last coefficient, the levels with a flag
for each position in between, and the signs.  Written from the encoder's side: the block is given by its levels.
-/
namespace Davs2.Sx

/-- Zig-zag order of an `n` by `n` square: the diagonals one after the other, alternately downwards and upwards. -/
def zigzag (n : Nat) : List (Nat × Nat) :=
  (List.range (2 * n - 1)).flatMap fun d =>
    let l := (List.range n).filterMap fun x => if x ≤ d ∧ d - x < n then some (x, d - x) else none
    if d % 2 = 1 then l.reverse else l

/-- Column and row of the coefficient with number `j` in its group. -/
def zz (j : Nat) : Nat × Nat := (zigzag 4).getD j (0, 0)

/-- Number of coefficients of the group from `p` on that are not 0. -/
def countFrom (g : Nat → Int) (p : Nat) : Nat := ((List.range' p (16 - p)).filter fun j => decide (g j ≠ 0)).length

/-- Largest absolute level of the group from `p` on. -/
def maxFrom (g : Nat → Int) (p : Nat) : Nat := (List.range' p (16 - p)).foldr (fun j a => max (g j).natAbs a) 0

/-- Sum of the absolute levels of `p` and the following six positions. -/
def near (g : Nat → Int) (p : Nat) : Nat := ((List.range' p 7).map fun j => (g j).natAbs).sum

/-- Class of a largest level. -/
def rankOf (x : Nat) : Nat := if x = 0 then 0 else if x = 1 then 1 else if x = 2 then 2 else if x ≤ 4 then 3 else 4

/-- Context for the flag "not 0" of position `p`; `first` is the group of the lowest frequencies, `one` a block with only one
group. -/
def sigCtx (luma diag one first : Bool) (p : Nat) : Nat :=
  if luma then
    let zone := if diag then (if p < 3 then 0 else if p < 10 then 1 else 2) else [0, 1, 1, 2].getD (zz p).2 0
    (if first then (if p = 0 then 0 else 1 + zone) else 4 + zone) + (if one then 0 else 4)
  else
    let zone := if p < 5 then 0 else 1
    (if first then (if p = 0 then 0 else 1 + zone) else 3 + zone) + (if one then 0 else 3)

/-- Level at position `p`; `top` is the largest level of the groups before. -/
def levelAt (b : Blk) (first : Bool) (top : Nat) (g : Nat → Int) (p : Nat) : List Bin :=
  levelCode (levelCtx b.luma (first && decide (p < 3)) (rankOf (max top (maxFrom g (p + 1)))) (countFrom g (p + 1))) (g p).natAbs

/-- The positions below `p`: for each a flag, followed by the level if it is not 0.  `q` is the last position with a level. -/
def restCode (b : Blk) (one first : Bool) (top : Nat) (g : Nat → Int) : Nat → Nat → List Bin
  | _, 0 => []
  | q, p + 1 =>
    let flag := fun v => Bin.ctx (.run (!b.luma) (min 2 (near g q / 2))) (sigCtx b.luma b.diag one first p) v
    if g p = 0 then flag false :: restCode b one first top g q p
    else flag true :: (levelAt b first top g p ++ restCode b one first top g p p)

/-- Signs of the positions below `p`, downwards. -/
def signCode (g : Nat → Int) : Nat → List Bin
  | 0 => []
  | p + 1 => if g p = 0 then signCode g p else .eq (decide (g p < 0)) :: signCode g p

/-- Contexts of the last position in group `(cx, cy)`; `top` is 0 if the group is the first that is written. -/
def lastCtx (b : Blk) (one : Bool) (top cx cy : Nat) : Nat :=
  match b.luma, one with
  | false, true => 48
  | false, false => if top = 0 then 56 else 52
  | true, true => if b.diag then 44 else 40
  | true, false =>
    if cx ≠ 0 ∧ cy ≠ 0 then (if top = 0 then 36 else 32)
    else (if top = 0 then 16 else 0) + (if cx = 0 ∧ cy = 0 then 8 else 0) + (if b.diag then 4 else 0)

/-- Last position of a group: column and row, counted from the far side in all groups but the first that is written. -/
def lastCode (b : Blk) (one : Bool) (top cx cy : Nat) (pos : Nat) : List Bin :=
  let x := (zz pos).1
  let y := (zz pos).2
  let x := if top = 0 then x else 3 - x
  let y := if top = 0 ∨ !b.diag then y else 3 - y
  let c := lastCtx b one top cx cy
  let turn := cx = 0 ∧ cy > 0 ∧ b.diag
  unary .lastPos (fun j => c + min j 1) 3 (if turn then y else x) ++
    unary .lastPos (fun j => c + 2 + min j 1) 3 (if turn then x else y)

/-- Last position that is not 0. -/
def lastOf (g : Nat → Int) : Nat := Nat.findGreatest (fun j => g j ≠ 0) 15

/-- A group that is not empty. -/
def groupCode (b : Blk) (one first : Bool) (top cx cy : Nat) (g : Nat → Int) : List Bin :=
  let pos := lastOf g
  lastCode b one top cx cy pos ++ (levelAt b first top g pos ++ restCode b one first top g pos pos) ++ signCode g 16

/-- Place of coefficient `j` of the group number `k`. -/
def placeOf (b : Blk) (k j : Nat) : Nat × Nat :=
  let c := b.scan.getD k (0, 0)
  let x := 4 * c.1 + (zz j).1
  let y := 4 * c.2 + (zz j).2
  if b.swap then (y, x) else (x, y)

/-- Levels of group number `k` of a block. -/
def groupOf (b : Blk) (lev : Nat → Nat → Int) (k j : Nat) : Int :=
  if j < 16 then lev (placeOf b k j).1 (placeOf b k j).2 else 0

def emptyGroup (g : Nat → Int) : Prop := ∀ j < 16, g j = 0

instance (g : Nat → Int) : Decidable (emptyGroup g) := by unfold emptyGroup; infer_instance

/-- Number of groups. -/
def groupsIn (b : Blk) : Nat := b.w * b.h / 16

/-- Largest absolute level of the groups from `n` on. -/
def topFrom (b : Blk) (lev : Nat → Nat → Int) (n : Nat) : Nat :=
  (List.range' n (groupsIn b - n)).foldr (fun k a => max (maxFrom (groupOf b lev k) 0) a) 0

/-- The groups below `n`, downwards; `last` is the last one that is not empty. -/
def groupsCode (b : Blk) (lev : Nat → Nat → Int) (last : Nat) : Nat → List Bin
  | 0 => []
  | n + 1 =>
    let g := groupOf b lev n
    let first := n == 0
    let flag := fun v => Bin.ctx .sigCg (if b.luma then (if first then 0 else 1) else 2) v
    let c := b.scan.getD n (0, 0)
    let body := groupCode b (groupsIn b == 1) first (topFrom b lev (n + 1)) c.1 c.2 g
    (if n = last then body else if emptyGroup g then [flag false] else flag true :: body) ++ groupsCode b lev last n

/-- Number of the last group that is not empty: unary for four groups, otherwise a flag for the first group, or column and
row; the largest column and row are those of the last group of the scan. -/
def lastGroupCode (b : Blk) (k : Nat) : List Bin :=
  let c := if b.luma then 0 else 6
  if groupsIn b = 4 then unary .lastCg (fun j => c + min j 2) 3 k
  else
    let turn := fun e : Nat × Nat => if b.luma && b.diag then (e.2, e.1) else e
    let e := turn (b.scan.getD k (0, 0))
    let n := turn (b.scan.getD (groupsIn b - 1) (0, 0))
    if e = (0, 0) then [.ctx .lastCg (c + 3) false]
    else .ctx .lastCg (c + 3) true :: (unary .lastCg (fun _ => c + 4) n.1 e.1 ++
      (if e.1 = 0 then unary .lastCg (fun _ => c + 5) (n.2 - 1) (e.2 - 1) else unary .lastCg (fun _ => c + 5) n.2 e.2))

/-- The last group that is not empty. -/
def lastGroup (b : Blk) (lev : Nat → Nat → Int) : Nat :=
  Nat.findGreatest (fun k => ¬ emptyGroup (groupOf b lev k)) (groupsIn b - 1)

/-- Code of a block with at least one level that is not 0. -/
def blockCode (b : Blk) (lev : Nat → Nat → Int) : List Bin :=
  let last := lastGroup b lev
  (if groupsIn b > 1 then lastGroupCode b last else []) ++ groupsCode b lev last (last + 1)

/-- The coefficients `ws` are the scaled levels of the block, each at its place. -/
def Delivers (b : Blk) (lev : Nat → Nat → Int) (deq : Int → Int) (ws : List Wr) : Prop :=
  ∀ w : Wr, w ∈ ws ↔ ∃ x y : Nat, x < b.w ∧ y < b.h ∧ lev x y ≠ 0 ∧ w = ⟨x, y, deq (lev x y)⟩

end Davs2.Sx

import Verif.Model.IntraPicture
import Verif.Spec.ZOrder
/-
The blocks of intra coding units and the availability tables, for every position in a coding tree: a finite check.
-/
namespace Davs2.Rp
open Davs2.Spec Davs2.Ip

/-- The blocks of a coding unit of level `l` at `(x, y)` in its coding tree. -/
def relBlks (s l x y trans : Nat) : List Blk :=
  if s = 0 then ((Un.tuUnits trans l).take (if trans = 0 then 1 else 4)).map fun u => ⟨x + u.x, y + u.y, u.w, u.h⟩
  else [⟨x / 2, y / 2, 2 ^ (l - 1), 2 ^ (l - 1)⟩]

/-- The transform splits of intra coding units. -/
def splits (l : Nat) : List Nat := if l = 3 then [0, 3] else if l = 6 then [0] else [0, 1, 2]

/-- The 4x4 unit `(px, py)` of the coding tree comes before block `t` of the coding unit at `(x, y)`. -/
def doneB (s lcu l x y trans t px py : Nat) : Bool :=
  decide (zOrder lcu (4 * px) (4 * py) < zOrder lcu x y) ||
    ((relBlks s l x y trans).take t).any fun b =>
      b.x ≤ px * 2 ^ (2 - s) && px * 2 ^ (2 - s) < b.x + b.w && b.y ≤ py * 2 ^ (2 - s) && py * 2 ^ (2 - s) < b.y + b.h

/-- All about one block. -/
def blkOk (s lcu l x y trans t : Nat) (b : Blk) : Bool :=
  let q := 2 ^ (2 - s)
  let N := 2 ^ (lcu - 2)
  let (ux, uy, uw, uh) := (b.x / q, b.y / q, b.w / q, b.h / q)
  let D := doneB s lcu l x y trans t
  decide ((b.w, b.h) ∈ shapes) && b.x == q * ux && b.y == q * uy && b.w == q * uw && b.h == q * uh && decide (0 < uw) && decide (0 < uh) &&
  decide (x ≤ 4 * ux) && decide (4 * (ux + uw) ≤ x + 2 ^ l) && decide (y ≤ 4 * uy) && decide (4 * (uy + uh) ≤ y + 2 ^ l) &&
  (ux == 0 || (List.range uh).all fun k => D (ux - 1) (uy + k)) &&
  (uy == 0 || (List.range uw).all fun k => D (ux + k) (uy - 1)) &&
  (ux == 0 || uy == 0 || D (ux - 1) (uy - 1)) &&
  (decide (ux + 2 * uw ≤ N) || ux + uw == N) &&
  (decide (uy + 2 * uh ≤ N) || uy + uh == N) &&
  Qt.entry (Qt.tabTR lcu) (ux + uw - 1) uy == some (uy == 0 || (decide (ux + 2 * uw ≤ N) && (List.range uw).all fun k => D (ux + uw + k) (uy - 1))) &&
  Qt.entry (Qt.tabDL lcu) ux (uy + uh - 1) == some (decide (uy + 2 * uh ≤ N) && (ux == 0 || (List.range uh).all fun k => D (ux - 1) (uy + uh + k)))

def allOk (s lcu : Nat) : Bool :=
  (List.range (lcu - 2)).all fun l => (List.range (2 ^ (lcu - (l + 3)))).all fun i => (List.range (2 ^ (lcu - (l + 3)))).all fun j =>
    (splits (l + 3)).all fun trans => (relBlks s (l + 3) (i * 2 ^ (l + 3)) (j * 2 ^ (l + 3)) trans).zipIdx.all fun b =>
      blkOk s lcu (l + 3) (i * 2 ^ (l + 3)) (j * 2 ^ (l + 3)) trans b.2 b.1

theorem ok04 : allOk 0 4 = true := by decide +kernel
theorem ok05 : allOk 0 5 = true := by decide +kernel
theorem ok06 : allOk 0 6 = true := by decide +kernel
theorem ok14 : allOk 1 4 = true := by decide +kernel
theorem ok15 : allOk 1 5 = true := by decide +kernel
theorem ok16 : allOk 1 6 = true := by decide +kernel

end Davs2.Rp

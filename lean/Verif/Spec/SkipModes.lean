import Verif.Model.Motion
/-
Specification of the spatial skip modes: the neighbours are scanned in the order F, G, C, A, B, D (names of common.h:318-323).  A
candidate of a kind is a neighbour of that kind; "first" and "last" refer to this order.
-/
namespace Davs2.Mo.Spec

/-- First and last element that satisfies `k`. -/
def first (k : Blk → Bool) (scan : List Blk) : Option Blk := scan.find? k
def last (k : Blk → Bool) (scan : List Blk) : Option Blk := scan.foldl (fun a b => if k b then some b else a) none

/-- At least two neighbours of kind `k`: after the first one there is another one. -/
def two (k : Blk → Bool) (scan : List Blk) : Bool := (scan.dropWhile fun b => !k b).tail.any k

abbrev V := Option Vec

/-- The skip modes of a B picture: the two vectors for a mode.
* 1, bidirectional: the first bidirectional neighbour; without one, the first forward and the first backward one if both exist.
* 2, backward: the first backward neighbour; without one, the last bidirectional one.
* 3, symmetric: the first symmetric neighbour; without one, the last bidirectional one if there are two, else the first backward one
  mirrored, else the first forward one mirrored.
* 4, forward: the first forward neighbour; without one, the last bidirectional one.
Zero vectors otherwise and for the direction not used. -/
def bSkip (scan : List Blk) (ds : Nat) : V × V :=
  let bid := fun b : Blk => decide (b.dir = 3)
  let sym := fun b : Blk => decide (b.dir = 2)
  let bwd := fun b : Blk => decide (b.dir = 1)
  let fwd := fun b : Blk => decide (b.dir = 0)
  let z : V := some (0, 0)
  match ds with
  | 1 => match first bid scan, first fwd scan, first bwd scan with
    | some b, _, _ => (b.v1, b.v2)
    | none, some f, some g => (f.v1, g.v2)
    | none, _, _ => (z, z)
  | 2 => match first bwd scan, last bid scan with
    | some b, _ => (z, b.v2)
    | none, some b => (z, b.v2)
    | none, none => (z, z)
  | 3 => match first sym scan with
    | some b => (b.v1, b.v2)
    | none => match two bid scan, last bid scan, first bwd scan, first fwd scan with
      | true, some b, _, _ => (b.v1, b.v2)
      | _, _, some b, _ => (b.v2.map negVec, b.v2)
      | _, _, none, some b => (b.v1, b.v1.map negVec)
      | _, _, none, none => (z, z)
  | _ => match first fwd scan, last bid scan with
    | some b, _ => (b.v1, z)
    | none, some b => (b.v1, z)
    | none, none => (z, z)

/-- The skip modes of an F picture: references and vectors for a mode; a neighbour is "dual" with two references, "single" with the
first one only.
* 1: the first dual neighbour; without one, the first and the last single one if there are two.
* 2: the last dual neighbour if there are two; with just one, the first and the last single one if there are two.
* 3: the first single neighbour; without one, the first half of the last dual one.
* 4: the last single neighbour if there are two; else the second half of the last dual one.
Otherwise reference 0 (and no second one in the modes 3 and 4) and zero vectors. -/
def fSkip (scan : List Blk) (ds : Nat) : Int × Int × V × V :=
  let dual := fun b : Blk => decide (b.r1 ≠ -1) && decide (b.r2 ≠ -1)
  let single := fun b : Blk => decide (b.r1 ≠ -1) && decide (b.r2 = -1)
  let z : V := some (0, 0)
  let pair := match two single scan, first single scan, last single scan with
    | true, some a, some b => (a.r1, b.r1, a.v1, b.v1)
    | _, _, _ => (0, 0, z, z)
  match ds with
  | 1 => match first dual scan with
    | some b => (b.r1, b.r2, b.v1, b.v2)
    | none => pair
  | 2 => match last dual scan, two dual scan with
    | some b, true => (b.r1, b.r2, b.v1, b.v2)
    | some _, false => pair
    | none, _ => (0, 0, z, z)
  | 3 => match first single scan, last dual scan with
    | some b, _ => (b.r1, -1, b.v1, z)
    | none, some b => (b.r1, -1, b.v1, z)
    | none, none => (0, -1, z, z)
  | _ => match two single scan, last single scan, last dual scan with
    | true, some b, _ => (b.r1, -1, b.v1, z)
    | _, _, some b => (b.r2, -1, b.v2, z)
    | _, _, none => (0, -1, z, z)

end Davs2.Mo.Spec

import Verif.Spec.IntraBorder
/-
Reconstruction of a plane, block by block, without in-loop filters and without saved rows and columns.
-/
namespace Davs2.Spec

/-- How a block gets its samples: predicted from its border, then a residual is added which may depend on the availability of the row above and the
column on the left; or in a way that does not depend on this picture. -/
inductive Fill where
  | intra (mode : Nat) (fin : Bool → Bool → Nat → Nat → Int → Int)
  | other (val : Nat → Nat → Int)

/-- A block of the plane. -/
structure Block where
  x : Nat
  y : Nat
  w : Nat
  h : Nat
  fill : Fill

/-- A plane in the course of reconstruction: the samples and which of them are there. -/
structure Part where
  val : Int → Int → Int
  done : Int → Int → Bool

/-- The plane: width and height, the slice a sample belongs to, the value of a sample without any neighbour, the prediction
from a border (availability of the row above and the column on the left, border, mode, size of the block, position). -/
structure Setting where
  w : Nat
  h : Nat
  slice : Int → Int → Nat
  grey : Int
  predict : Bool → Bool → (Int → Int) → Nat → Nat → Nat → Nat → Nat → Int

/-- A sample may be used for prediction in slice `cur` if it lies in the picture and in the same slice and has been reconstructed. -/
def usable (s : Setting) (u : Part) (cur : Nat) (X Y : Int) : Bool :=
  0 ≤ X && X < s.w && 0 ≤ Y && Y < s.h && u.done X Y && s.slice X Y == cur

/-- All of `n` samples to the right of, or below, a sample are usable. -/
def across (s : Setting) (u : Part) (cur : Nat) (X Y : Int) (n : Nat) : Bool := (List.range n).all fun i => usable s u cur (X + i) Y
def down (s : Setting) (u : Part) (cur : Nat) (X Y : Int) (n : Nat) : Bool := (List.range n).all fun i => usable s u cur X (Y + i)

/-- Reconstruct a block. Each of the five groups of neighbours is used if all of its samples are usable. -/
def Block.step (s : Setting) (u : Part) (b : Block) : Part :=
  let cur := s.slice b.x b.y
  let left := down s u cur (b.x - 1) b.y b.h
  let top := across s u cur b.x (b.y - 1) b.w
  let topLeft := usable s u cur (b.x - 1) (b.y - 1)
  let topRight := across s u cur (b.x + b.w) (b.y - 1) b.w
  let leftDown := down s u cur (b.x - 1) (b.y + b.h) b.h
  let bd := border left top topLeft topRight leftDown s.grey b.w b.h (fun k => u.val (b.x - 1 + k) (b.y - 1)) (fun k => u.val (b.x - 1) (b.y - 1 + k))
  let f : Nat → Nat → Int := match b.fill with
    | .intra mode fin => fun x y => fin top left x y (s.predict top left bd mode b.w b.h x y)
    | .other val => val
  let inside := fun X Y : Int => decide ((b.x : Int) ≤ X ∧ X < b.x + b.w ∧ (b.y : Int) ≤ Y ∧ Y < b.y + b.h)
  { val := fun X Y => if inside X Y then f (X - b.x).toNat (Y - b.y).toNat else u.val X Y
    done := fun X Y => inside X Y || u.done X Y }

/-- Reconstruct a plane from its blocks in decoding order. -/
def reconstruct (s : Setting) (bs : List Block) : Part := bs.foldl (Block.step s) ⟨fun _ _ => 0, fun _ _ => false⟩

end Davs2.Spec

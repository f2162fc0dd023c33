import Verif.Model.Basic
/-
Pictures in memory: rows of samples at a distance of `stride`.
-/
namespace Davs2.Tl

/-- Sample in column `x` of row `y`. -/
def sampleAt {α : Type} [Zero α] (mem : List α) (stride x y : Nat) : α := mem.getD (y * stride + x) 0

/-- Sum of squared differences over the visible samples. -/
def sumSquares (w h : Nat) (f g : Nat → Nat → Nat) : Nat :=
  ((List.range h).map fun y => ((List.range w).map fun x => (((f x y : Int) - g x y) * ((f x y : Int) - g x y)).toNat).sum).sum

/-- First differing position in the order of reading, row by row. -/
def IsFirstMismatch (w h : Nat) (f g : Nat → Nat → Nat) (x y : Nat) : Prop :=
  x < w ∧ y < h ∧ f x y ≠ g x y ∧ ∀ x' y', x' < w → y' < h → f x' y' ≠ g x' y' → y < y' ∨ (y = y' ∧ x ≤ x')

/-- The visible bytes of a plane, row by row. -/
def visibleBytes (mem : List Byte) (rowBytes lines stride : Nat) : List Byte :=
  (List.range lines).flatMap fun y => (List.range rowBytes).map fun x => mem.getD (y * stride + x) 0

/-- Frame rates of the standard by code, as fractions. -/
def standardRate : Nat → Nat × Nat
  | 1 => (24000, 1001)
  | 2 => (24, 1)
  | 3 => (25, 1)
  | 4 => (30000, 1001)
  | 5 => (30, 1)
  | 6 => (50, 1)
  | 7 => (60000, 1001)
  | 8 => (60, 1)
  | 9 => (100, 1)
  | 10 => (120, 1)
  | 11 => (200, 1)
  | 12 => (240, 1)
  | _ => (300, 1)

end Davs2.Tl

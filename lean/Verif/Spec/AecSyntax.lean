import Verif.Model.AecSyntax
/-
Notions used to state what the syntax functions guarantee.
-/
namespace Davs2.Sx

/-- What the arithmetic decoder promises: the unary results do not exceed the limit they were given. -/
structure Machine.Ok {σ : Type} (m : Machine σ) : Prop where
  run0 : ∀ a i max s v s', m.run0 a i max s = some (v, s') → v ≤ max
  runExt : ∀ a i inc max s v s', m.runExt a i inc max s = some (v, s') → v ≤ max

/-- From every state the piece of decoding ends with a result that satisfies `Q`, or with one of the faults
allowed by `F`. -/
def Within {σ α : Type} (F : Fault → Prop) (p : P σ α) (Q : α → Prop) : Prop :=
  ∀ s, match p s with
    | .ok (a, _) => Q a
    | .error f => F f

/-- Faults of the arithmetic decoder only. -/
def Rd : Fault → Prop := fun f => f = .reader

/-- Faults of the arithmetic decoder and unrepresentable integers, but no index outside a table. -/
def RdAr : Fault → Prop := fun f => f = .reader ∨ f = .arith

/-- Area of a `w` by `h` block read by the half transform: half of the longer side, of both sides if they are
equal. -/
def InHalf (w h : Nat) (x y : Int) : Prop :=
  (h ≤ w → x < (w / 2 : Nat)) ∧ (w ≤ h → y < (h / 2 : Nat))

/-- Area read by the quarter transform. -/
def InQuarter (w h : Nat) (x y : Int) : Prop :=
  (h ≤ w → x < (w / 4 : Nat)) ∧ (w ≤ h → y < (h / 4 : Nat))

/-- What a decoded block must look like: every coefficient lies in the block, no position is written twice,
and the area announced for the inverse transform covers all of them. -/
def GoodCoeffs (w h : Nat) (c : Coeffs) : Prop :=
  (∀ k ∈ c.writes, 0 ≤ k.x ∧ k.x < w ∧ 0 ≤ k.y ∧ k.y < h) ∧
  (c.writes.map fun k => (k.x, k.y)).Nodup ∧
  c.pattern ∈ [-1, 0, 1, 2] ∧
  (c.pattern = 1 → ∀ k ∈ c.writes, InHalf w h k.x k.y) ∧
  (c.pattern = 2 → ∀ k ∈ c.writes, InQuarter w h k.x k.y)

end Davs2.Sx

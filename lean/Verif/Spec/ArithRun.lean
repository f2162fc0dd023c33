import Verif.Spec.ArithDec
/-
Specification of a run of the binary arithmetic decoder: adaptive symbols with their probability states,
equiprobable symbols and end-of-slice symbols, over exact intervals.
-/
namespace Davs2.Spec

/-- A request: an adaptive symbol with the probability state number `c`, an equiprobable symbol, or an
end-of-slice symbol. -/
inductive BinOp where
  | sym (c : Nat)
  | eq
  | fin
deriving DecidableEq

/-- `P` is the type of probability states, with cost, more probable symbol and update. -/
structure ProbModel (P : Type) where
  cost : P → Nat
  mps : P → Bool
  update : Bool → P → P

def idealStep {P : Type} (pm : ProbModel P) (op : BinOp) (i : Ival) (cs : Nat → P) : Bool × Ival × (Nat → P) :=
  match op with
  | .sym c =>
    let d := i.decode (pm.cost (cs c))
    (d.1 != pm.mps (cs c), d.2, fun k => if k = c then pm.update d.1 (cs c) else cs k)
  | .eq => let d := i.decode 256; (d.1, d.2, cs)
  | .fin => let d := i.decode 1; (d.1, d.2, cs)

/-- The symbols decoded. -/
def idealBins {P : Type} (pm : ProbModel P) : List BinOp → Ival → (Nat → P) → List Bool
  | [], _, _ => []
  | op :: ops, i, cs =>
    let s := idealStep pm op i cs
    s.1 :: idealBins pm ops s.2.1 s.2.2

/-- The interval before each symbol. -/
def idealIvals {P : Type} (pm : ProbModel P) : List BinOp → Ival → (Nat → P) → List Ival
  | [], _, _ => []
  | op :: ops, i, cs =>
    let s := idealStep pm op i cs
    i :: idealIvals pm ops s.2.1 s.2.2

/-- The interval after the last symbol. -/
def idealEnd {P : Type} (pm : ProbModel P) : List BinOp → Ival → (Nat → P) → Ival
  | [], i, _ => i
  | op :: ops, i, cs =>
    let s := idealStep pm op i cs
    idealEnd pm ops s.2.1 s.2.2

/-- The interval at the start of a payload: the first nine bits are the integer part of the offset. -/
def idealStart (bits : List Bool) : Ival := ⟨2 ^ 9 * frac bits, 511, 0⟩

end Davs2.Spec

import Verif.Spec.ArithRun
import Verif.Spec.Binarise
import Verif.Spec.Bits
/-
Specification of binary arithmetic coding from the encoder's side, with exact numbers: every bin takes its part of
the interval, and a payload carries the bins if its number lies in the interval that is left at the end.
-/
namespace Davs2.Sx
open Spec

/-- The numbers from `low / 2 ^ e` up to, without, `(low + m) / 2 ^ e`. -/
structure Enc where
  low : Nat
  m : Nat
  e : Nat
deriving DecidableEq

/-- Before the first bin. -/
def Enc.start : Enc := ⟨0, 511, 0⟩

/-- A bin of cost `lg` (1 to 256).  The less probable value has the upper part of the interval, of size `lg`, or
`m - 256 + lg` after halving the unit; the other value has the rest.  The size is brought back to at least 256. -/
def Enc.put (E : Enc) (lg : Nat) (less : Bool) : Enc :=
  if lg ≤ E.m - 256 then
    if less then ⟨(E.low + (E.m - lg)) * 2 ^ doublings lg, lg * 2 ^ doublings lg, E.e + doublings lg⟩
    else ⟨E.low, E.m - lg, E.e⟩
  else if less then
    let r := E.m - 256 + lg
    ⟨(2 * E.low + (E.m + 256 - lg)) * 2 ^ doublings r, r * 2 ^ doublings r, E.e + 1 + doublings r⟩
  else ⟨2 * E.low, E.m + 256 - lg, E.e + 1⟩

section
variable {P : Type} (pm : ProbModel P)

def binCost (cs : Arr → Nat → P) : Bin → Nat
  | .ctx a i _ => pm.cost (cs a i)
  | .eq _ => 256
  | .fin _ => 1

/-- Has the bin the less probable value? -/
def binLess (cs : Arr → Nat → P) : Bin → Bool
  | .ctx a i b => b != pm.mps (cs a i)
  | .eq b => b
  | .fin b => b

/-- Probability states after a bin. -/
def learn (cs : Arr → Nat → P) : Bin → Arr → Nat → P
  | .ctx a i b => fun a' i' =>
    if a' = a ∧ i' = i then pm.update (binLess pm cs (.ctx a i b)) (cs a i) else cs a' i'
  | .eq _ => cs
  | .fin _ => cs

def Enc.bin (E : Enc) (cs : Arr → Nat → P) (b : Bin) : Enc := E.put (binCost pm cs b) (binLess pm cs b)

/-- The interval after a sequence of bins. -/
def encode : List Bin → Enc → (Arr → Nat → P) → Enc
  | [], E, _ => E
  | b :: c, E, cs => encode c (E.bin pm cs b) (learn pm cs b)

/-- The intervals before each bin. -/
def encStates : List Bin → Enc → (Arr → Nat → P) → List Enc
  | [], _, _ => []
  | b :: c, E, cs => E :: encStates c (E.bin pm cs b) (learn pm cs b)

/-- The exponent before the next bin with the less probable value, or at the end. -/
def settle : List Bin → Enc → (Arr → Nat → P) → Nat
  | [], E, _ => E.e
  | b :: c, E, cs => if binLess pm cs b then E.e else settle c (E.bin pm cs b) (learn pm cs b)

/-- No stretch of bins with the more probable value halves the unit more than 253 times. -/
def Lively : List Bin → Enc → (Arr → Nat → P) → Prop
  | [], _, _ => True
  | b :: c, E, cs => settle pm (b :: c) E cs ≤ E.e + 253 ∧ Lively c (E.bin pm cs b) (learn pm cs b)

instance decLively : ∀ (c : List Bin) (E : Enc) (cs : Arr → Nat → P), Decidable (Lively pm c E cs)
  | [], _, _ => isTrue trivial
  | b :: c, E, cs => @instDecidableAnd _ _ _ (decLively c (E.bin pm cs b) (learn pm cs b))

end

/-- The lower end of the interval. -/
def Enc.lo (E : Enc) : ℚ := (E.low : ℚ) / 2 ^ E.e

/-- The upper end. -/
def Enc.hi (E : Enc) : ℚ := ((E.low + E.m : Nat) : ℚ) / 2 ^ E.e

/-- The number that a payload stands for: the first nine bits are its integer part. -/
def payloadNum (bits : List Bool) : ℚ := 2 ^ 9 * frac bits

/-- What an encoder writes for an interval: the number 128 units above its lower end. -/
def Enc.word (E : Enc) : List Bool := bitsOfNat (9 + E.e) (E.low + 128)

end Davs2.Sx

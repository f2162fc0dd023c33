import Verif.Model.Basic
/-
Start codes of a file, as the AVS2 byte stream format defines them: the prefix 00 00 01 followed by the code.
-/
namespace Davs2.Pl

/-- A complete start code begins at position `i`. -/
def IsCode (f : List Byte) (i : Nat) : Prop :=
  f[i]? = some 0 ∧ f[i + 1]? = some 0 ∧ f[i + 2]? = some 1 ∧ i + 3 < f.length

end Davs2.Pl

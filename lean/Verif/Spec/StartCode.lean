import Verif.Model.Basic
/- What a start code is.  No reference to the model. -/
namespace Davs2.Spec

/-- A start code with value `c` stands at offset `k`, completely inside the data. -/
def StartAt (l : List Byte) (k : Nat) (c : Byte) : Prop :=
  l[k]? = some 0#8 ∧ l[k + 1]? = some 0#8 ∧ l[k + 2]? = some 1#8 ∧ l[k + 3]? = some c

instance (l : List Byte) (k : Nat) (c : Byte) : Decidable (StartAt l k c) := by
  unfold StartAt; infer_instance

/-- Codes that begin a picture or a sequence: sequence header, sequence end, intra picture, inter picture,
video edit. -/
def PicCode (c : Byte) : Prop := c = 0xB0#8 ∨ c = 0xB1#8 ∨ c = 0xB3#8 ∨ c = 0xB6#8 ∨ c = 0xB7#8

instance (c : Byte) : Decidable (PicCode c) := by unfold PicCode; infer_instance

/-- A picture start at offset `k`. -/
def PicStartAt (l : List Byte) (k : Nat) : Prop := ∃ c, StartAt l k c ∧ PicCode c

/-- `k` is the least offset with property `P`. -/
def Least (P : Nat → Prop) (k : Nat) : Prop := P k ∧ ∀ j < k, ¬ P j

end Davs2.Spec

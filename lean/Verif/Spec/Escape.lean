import Verif.Spec.Bits
/-
Specification of the AVS2 byte stream format as far as start-code emulation prevention goes:
an *encoder* that escapes payload bits.  Nothing here refers to the model of the decoder.
-/
namespace Davs2.Spec

/-- The byte made of the first eight bits of a bit string, zero filled. -/
def byteOfBits (l : List Bool) : Byte :=
  BitVec.ofNat 8 (valOf ((l ++ List.replicate 8 false).take 8))

/-- A bit string as bytes, the last one zero filled. -/
def packBits : List Bool → List Byte
  | [] => []
  | b :: l => byteOfBits (b :: l) :: packBits (l.drop 7)
termination_by l => l.length
decreasing_by simp only [List.length_drop, List.length_cons]; omega

/-- Escaping: bytes are formed from the payload bits; after two zero bytes, if the next six bits are all
zero (so that 22 zero bits in a row start at a byte boundary), the byte is completed by the inserted bits
`10` instead of payload bits.  `z` is the number of zero bytes (at most two) just written. -/
def escapeBits (z : Nat) : List Bool → List Byte
  | [] => []
  | b :: l =>
    if z = 2 ∧ true ∉ (b :: l).take 6 then 2#8 :: escapeBits 0 (l.drop 5)
    else byteOfBits (b :: l) ::
      escapeBits (if byteOfBits (b :: l) = 0#8 then z + 1 else 0) (l.drop 7)
termination_by l => l.length
decreasing_by
  all_goals simp only [List.length_drop, List.length_cons]; omega

/-- Unit types whose content is never escaped: sequence header, user data, extension data. -/
def isRawCode (c : Byte) : Prop := c = 0xB0#8 ∨ c = 0xB2#8 ∨ c = 0xB5#8

instance (c : Byte) : Decidable (isRawCode c) := by unfold isRawCode; infer_instance

/-- No byte 01 after two (or more) zero bytes; `z` zero bytes precede. -/
def noStartCode : Nat → List Byte → Prop
  | _, [] => True
  | z, b :: l => ¬ (b = 1#8 ∧ 2 ≤ z) ∧ noStartCode (if b = 0#8 then z + 1 else 0) l

instance decNoStartCode : (z : Nat) → (l : List Byte) → Decidable (noStartCode z l)
  | _, [] => inferInstanceAs (Decidable True)
  | z, b :: l =>
    have := decNoStartCode (if b = 0#8 then z + 1 else 0) l
    inferInstanceAs (Decidable (¬ (b = 1#8 ∧ 2 ≤ z) ∧ noStartCode (if b = 0#8 then z + 1 else 0) l))

/-- A unit of the byte stream: a start code value with escaped payload bits, or with raw bytes. -/
inductive StreamUnit where
  | coded (code : Byte) (payload : List Bool)
  | raw (code : Byte) (bytes : List Byte)
  deriving DecidableEq, Repr

/-- The bytes of a unit in the stream. -/
def encUnit : StreamUnit → List Byte
  | .coded c p => [0#8, 0#8, 1#8, c] ++ escapeBits (if c = 0#8 then 1 else 0) p
  | .raw c bs => [0#8, 0#8, 1#8, c] ++ bs

/-- What a consumer of the stream must get for a unit: the start code followed by the payload bits, zero
filled to a byte (and at most one more zero byte, which the format allows before a start code); raw units
literally. -/
def CleanUnit : StreamUnit → List Byte → Prop
  | .coded c p, out => ∃ k ≤ 1, out = [0#8, 0#8, 1#8, c] ++ packBits p ++ List.replicate k 0#8
  | .raw c bs, out => out = [0#8, 0#8, 1#8, c] ++ bs

/-- What a consumer must get for a whole stream: the clean units, one after the other. -/
def CleanStream : List StreamUnit → List Byte → Prop
  | [], out => out = []
  | u :: us, out => ∃ a b, out = a ++ b ∧ CleanUnit u a ∧ CleanStream us b

/-- Well-formed units: the payload ends with the stop bit `1`; raw units have one of the raw codes and
contain no start code. -/
def WfUnit : StreamUnit → Prop
  | .coded c p => ¬ isRawCode c ∧ p.getLast? = some true
  | .raw c bs => isRawCode c ∧ noStartCode 0 bs

/-- Condition under which the decoder recognises the type of the unit (see `C01_escape_roundtrip_violated`): after the
unit codes 01 and 02 the first byte must not look like a unit code with special meaning. -/
def RecognisedUnit : StreamUnit → Prop
  | .coded c p => (c = 1#8 ∨ c = 2#8) →
      byteOfBits p ≠ 1#8 ∧ byteOfBits p ≠ 2#8 ∧ ¬ isRawCode (byteOfBits p)
  | .raw _ _ => True

instance : (u : StreamUnit) → Decidable (RecognisedUnit u)
  | .coded c p => inferInstanceAs (Decidable ((c = 1#8 ∨ c = 2#8) →
      byteOfBits p ≠ 1#8 ∧ byteOfBits p ≠ 2#8 ∧ ¬ isRawCode (byteOfBits p)))
  | .raw _ _ => inferInstanceAs (Decidable True)

instance : (u : StreamUnit) → Decidable (WfUnit u)
  | .coded c p => inferInstanceAs (Decidable (¬ isRawCode c ∧ p.getLast? = some true))
  | .raw c bs => inferInstanceAs (Decidable (isRawCode c ∧ noStartCode 0 bs))

/-- No byte 02 after exactly two zero bytes; `z` zero bytes precede. -/
def noPseudo : Nat → List Byte → Prop
  | _, [] => True
  | z, b :: l => ¬ (b = 2#8 ∧ z = 2) ∧ noPseudo (if b = 0#8 then z + 1 else 0) l

end Davs2.Spec

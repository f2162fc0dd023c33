import Verif.Model.Basic
/-
How packets are grouped into units: a new unit begins exactly with a packet whose start code is a sequence
header, sequence end, picture or video edit code; flushing closes the current unit.  No reference to the
model.
-/
namespace Davs2.Spec

/-- A packet with its timestamps. -/
structure Pkt where
  data : List Byte
  pts  : Int
  dts  : Int
  deriving DecidableEq, Repr

/-- A packet the interface accepts: four bytes at least, beginning with 00 00 01. -/
def Acceptable (d : List Byte) : Prop :=
  4 ≤ d.length ∧ d[0]? = some 0#8 ∧ d[1]? = some 0#8 ∧ d[2]? = some 1#8

instance (d : List Byte) : Decidable (Acceptable d) := by unfold Acceptable; infer_instance

/-- Does the packet begin a unit? -/
def beginsUnit (p : Pkt) : Bool :=
  p.data[3]? == some 0xB0#8 || p.data[3]? == some 0xB1#8 || p.data[3]? == some 0xB3#8 ||
  p.data[3]? == some 0xB6#8 || p.data[3]? == some 0xB7#8

/-- The events of a session: packet or flush. -/
inductive Ev where
  | pkt (p : Pkt)
  | flush
  deriving DecidableEq, Repr

/-- A closed group of packets: why it was closed. -/
inductive Closed where
  | byPacket
  | byFlush
  deriving DecidableEq, Repr

/-- Groups of a session: closed groups in order, and the open group. -/
def group : List Pkt → List Ev → List (List Pkt × Closed) × List Pkt
  | g, [] => ([], g)
  | g, .pkt p :: evs =>
    if beginsUnit p ∧ g ≠ [] then
      ((g, .byPacket) :: (group [p] evs).1, (group [p] evs).2)
    else group (g ++ [p]) evs
  | g, .flush :: evs =>
    if g ≠ [] then ((g, .byFlush) :: (group [] evs).1, (group [] evs).2) else group [] evs

/-- Bytes of a group. -/
def bytesOf (g : List Pkt) : List Byte := g.flatMap (·.data)

end Davs2.Spec

/-
What the luma intra prediction mode of a block is, without any storage: the modes of the blocks to the left and above decide which
two modes are probable, the coded index selects one of these or one of the other modes in increasing order.
-/
namespace Davs2.Spec.Im

/-- A decoded block: position, size (in units of 4x4 samples) and mode. -/
structure Done where
  x : Nat
  y : Nat
  w : Nat
  h : Nat
  mode : Int

/-- Mode of the decoded block that contains the position; DC (0) if there is none. -/
def modeAt (ds : List Done) (px py : Int) : Int :=
  match ds.find? (fun d => decide ((d.x : Int) ≤ px ∧ px < d.x + d.w ∧ (d.y : Int) ≤ py ∧ py < d.y + d.h)) with
  | some d => d.mode
  | none => 0

/-- The two probable modes for the modes above and to the left: both, if they differ; else DC and the common mode, or DC and
bilinear (2) if the common mode is DC. In increasing order. -/
def probable (top left : Int) : List Int :=
  if top = left then (if top = 0 then [0, 2] else [0, top]) else if top < left then [top, left] else [left, top]

/-- The modes 0 to 32 without the probable ones, in increasing order. -/
def others (top left : Int) : List Int :=
  ((List.range 33).map Int.ofNat).filter fun m => !(probable top left).contains m

end Davs2.Spec.Im

import Verif.Model.Motion
import Verif.Model.AecSyntax
/-
The syntax elements of a coding unit as they are read: `cu_read_header`, /repo/source/common/cu.cc:734-806, and the beginning of `cu_read_mv`,
cu.cc:445-459.
-/
namespace Davs2.Mo
open Davs2.Sx Davs2.Un

variable {σ : Type} (m : Machine σ)

/-- Tools of the sequence: `enable_amp`, `enable_mhp_skip`, `enable_wsm`, `enable_dhp`, `enable_sdip`. -/
structure Tools where
  amp : Bool
  mhp : Bool
  wsm : Bool
  dhp : Bool
  sdip : Bool

/-- Is there a `dmh_mode`?  cu.cc:445-459. -/
def hasDmh (frame t level : Nat) (dirs : List Int) : Bool :=
  decide (frame = 4 ∧ t ≠ 0 ∧ dirs = [0, 0, 0, 0] ∧ ¬ (level = 3 ∧ 2 ≤ t ∧ t ≤ 7))

/-- `cu_read_header` without intra modes, cu.cc:734-768, and `dmh_mode`, cu.cc:445-459 (0 otherwise, cu.cc:279); `none` if the type could not be read.  `old` is the content of
`ref_idx`.  The differences of vectors are read later, one after the other; here they are given. -/
def readSym (t : Tools) (frame level nrefs : Nat) (old : List (Int × Int)) (mvd1 mvd2 : Nat → Vec) : P σ (Option Sym) := do
  match ← cuType m frame level nrefs t.amp t.mhp t.wsm with
  | none => pure none
  | some c =>
    if c.type ≤ 7 then
      let k := (max 0 c.type).toNat
      let r ← interPredDir m frame k level nrefs c.wsm c.ds t.dhp old
      let d ← (if hasDmh frame k level r.1 then dmhMode m level else pure 0)
      pure (some ⟨k, c.ds, c.wsm, d.toNat, r.1, r.2, mvd1, mvd2⟩)
    else
      let r ← intraCuType m t.sdip level
      pure (some ⟨r.1, 0, 0, 0, [-1, -1, -1, -1], [(-1, -1), (-1, -1), (-1, -1), (-1, -1)], mvd1, mvd2⟩)

end Davs2.Mo

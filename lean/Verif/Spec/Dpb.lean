import Verif.Model.Dpb

/-!
# Who uses a picture buffer, and which reference a stream asks for
-/

namespace Davs2

/-- Number of uses of frame `j` by a task. -/
def DTask.uses (t : DTask) (j : Nat) : Nat :=
  t.refs.count j + t.fdec.toList.count j + t.out.toList.count j

def tasksUses : List DTask → Nat → Nat
  | [], _ => 0
  | t :: ts, j => t.uses j + tasksUses ts j

/-- Number of users of frame `j`: tasks and output. -/
def usersOf (s : DpbSt) (j : Nat) : Nat :=
  (s.setup.elim 0 fun t => t.uses j) + tasksUses s.tasks j + s.outs.count j

/-- A stored picture the stream may refer to by coding order `want`: it carries
that coding order, is complete with an order number, was announced as a
reference and has not been given up. -/
def StoredRef (frames : List DFrame) (want : Int) (j : Nat) : Prop :=
  ∃ f, frames[j]? = some f ∧ f.coi = want ∧ 0 ≤ want ∧ f.poc ≠ -1 ∧ f.refd = true ∧ f.disp = 0

/-- The use counts of all frames. -/
def useCounts (frames : List DFrame) : List Nat := frames.map (·.rc)

end Davs2

import Verif.Model.Output

/-!
# What the output stage promises, as a property of the event log

Logs are newest-first.
-/

namespace Davs2

/-- Pictures finished and not yet returned. -/
def waitingOf : List OutEv → List OutPic
  | [] => []
  | .finished p :: t => p :: waitingOf t
  | .retFrame p :: t => (waitingOf t).erase p
  | _ :: t => waitingOf t

/-- Pictures accepted for decoding. -/
def acceptedOf : List OutEv → List OutPic
  | [] => []
  | .accepted p :: t => p :: acceptedOf t
  | _ :: t => acceptedOf t

/-- Pictures returned to the caller. -/
def returnedOf : List OutEv → List OutPic
  | [] => []
  | .retFrame p :: t => p :: returnedOf t
  | _ :: t => returnedOf t

/-- Each returned picture was waiting, and none waiting had a smaller picture
order count. -/
def InOrder : List OutEv → Prop
  | [] => True
  | .retFrame p :: t => p ∈ waitingOf t ∧ (∀ q ∈ waitingOf t, p.poc ≤ q.poc) ∧ InOrder t
  | _ :: t => InOrder t

/-- The header that still has to be announced: the last size-changing one, if it
has not been announced, with the contents of the last header parsed. -/
def pendingHeader : List OutEv → Option Nat
  | [] => none
  | .header h :: _ => some h
  | .sameSize h :: t => (pendingHeader t).map fun _ => h
  | .retHeader _ :: _ => none
  | _ :: t => pendingHeader t

/-- Headers are announced only when pending, with the pending contents, and no
picture is returned (nor "nothing to report") while one is pending. -/
def Announced : List OutEv → Prop
  | [] => True
  | .retHeader h :: t => pendingHeader t = some h ∧ Announced t
  | .retFrame _ :: t => pendingHeader t = none ∧ Announced t
  | .retNone :: t => pendingHeader t = none ∧ Announced t
  | _ :: t => Announced t

end Davs2

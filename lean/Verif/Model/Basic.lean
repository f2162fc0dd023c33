/-
Basic types shared by all parts of the model.
-/
namespace Davs2

/-- `uint8_t`. -/
abbrev Byte := BitVec 8

/-- Outcome of a piece of C code.  `err` is the error return of the C function, `oob` an access
outside the buffer the function was given, `ub` any other undefined behaviour (for instance a shift
by at least the width of the type). -/
inductive Res (α : Type) where
  | ok (a : α)
  | err
  | oob
  | ub
  deriving DecidableEq, Repr

namespace Res

def bind {α β : Type} (x : Res α) (f : α → Res β) : Res β :=
  match x with
  | ok a => f a
  | err => err
  | oob => oob
  | ub => ub

instance : Monad Res where
  pure := ok
  bind := bind

end Res

end Davs2

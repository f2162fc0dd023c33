import Verif.Model.Basic
/-
The linked list shared between the API and the decoding tasks: `xl_init`, `xl_append`, `xl_remove_head`,
/repo/source/common/common.cc:212-318, structure in /repo/source/common/common.h:455-470.

Nodes are numbers, `next` is the `next` field of each node (of every node in the program, in the list or
not).  One atomic step per critical section; what `xl_append` does before taking the lock is a step of its
own.  A thread inside `pthread_cond_wait` may wake up at any time (POSIX allows spurious wake-ups), which
covers every use of `pthread_cond_signal`.
-/
namespace Davs2

/-- `xlist_t` and the `next` fields. -/
structure Xlist where
  head : Option Nat
  tail : Option Nat
  num : Nat
  next : Nat → Option Nat

/-- `xl_init`, common.cc:219-224; the `next` fields have any value. -/
def xlInit (next : Nat → Option Nat) : Xlist := ⟨none, none, 0, next⟩

/-- A store to `n->next`. -/
def Xlist.setNext (x : Xlist) (n : Nat) (v : Option Nat) : Xlist :=
  { x with next := fun m => if m = n then v else x.next m }

/-- Critical section of `xl_append`, common.cc:264-273. -/
def xlAppend (x : Xlist) (n : Nat) : Xlist :=
  let y := match x.tail with
    | some t => x.setNext t (some n)
    | none => { x with head := some n }
  { y with tail := some n, num := y.num + 1 }

/-- Result of the end of `xl_remove_head`, common.cc:298-312, after the wait: the new list and the node
returned.  A non-empty count with a null head would dereference a null pointer (`none`). -/
def xlTake (x : Xlist) : Option (Xlist × Option Nat) :=
  if 0 < x.num then
    match x.head with
    | none => none
    | some n =>
      let h := x.next n
      some ({ x with head := h, tail := if h = none then none else x.tail, num := x.num - 1 }, some n)
  else some (x, none)

/-- Where a thread is. -/
inductive XlPc where
  /-- outside the list functions -/
  | idle
  /-- in `xl_append`, `next` cleared (common.cc:260), lock not taken yet -/
  | appending (n : Nat)
  /-- in `pthread_cond_wait`, common.cc:295 -/
  | waiting
  /-- woken up, waiting for the lock -/
  | woken
deriving DecidableEq

/-- The list, the threads, the nodes owned by callers, and the history: nodes in the order their
`xl_append` took the lock, and results of `xl_remove_head` in the order of its lock. -/
structure XlSys where
  list : Xlist
  pc : Nat → XlPc
  owned : List Nat
  appended : List Nat
  results : List (Option Nat)

inductive XlAct where
  /-- `xl_append(n)` called by thread `t` up to the lock -/
  | beginAppend (t n : Nat)
  | doAppend (t : Nat)
  /-- `xl_remove_head(wait)` called by thread `t`, up to its end or to the wait -/
  | remove (t : Nat) (wait : Bool)
  | wake (t : Nat)
  /-- thread `t` gets the lock again after a wait and finishes -/
  | resume (t : Nat)

def XlSys.setPc (s : XlSys) (t : Nat) (p : XlPc) : XlSys :=
  { s with pc := fun u => if u = t then p else s.pc u }

/-- Taking the head by thread `t`; the node goes to the caller. -/
def XlSys.take (s : XlSys) (t : Nat) : Option XlSys :=
  match xlTake s.list with
  | none => none
  | some (l, r) =>
    some { s.setPc t .idle with list := l, owned := r.toList ++ s.owned, results := s.results ++ [r] }

/-- One atomic step; `none` if it is not possible in this state or goes wrong.  A caller appends only nodes
it owns. -/
def xlStep (s : XlSys) : XlAct → Option XlSys
  | .beginAppend t n =>
    if s.pc t = .idle ∧ n ∈ s.owned then
      some { s.setPc t (.appending n) with owned := s.owned.erase n, list := s.list.setNext n none }
    else none
  | .doAppend t =>
    match s.pc t with
    | .appending n => some { s.setPc t .idle with list := xlAppend s.list n, appended := s.appended ++ [n] }
    | _ => none
  | .remove t wait =>
    if s.pc t = .idle then
      if wait = true ∧ s.list.num = 0 then some (s.setPc t .waiting) else s.take t
    else none
  | .wake t => if s.pc t = .waiting then some (s.setPc t .woken) else none
  | .resume t => if s.pc t = .woken then s.take t else none

/-- All threads outside, all nodes with callers, `next` fields arbitrary. -/
def xlStart (next : Nat → Option Nat) (nodes : List Nat) : XlSys :=
  ⟨xlInit next, fun _ => .idle, nodes, [], []⟩

def xlRun (s : XlSys) : List XlAct → Option XlSys
  | [] => some s
  | a :: as => match xlStep s a with
    | some s' => xlRun s' as
    | none => none

end Davs2

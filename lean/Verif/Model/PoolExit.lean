/-
Sleeping, waking and ending of the worker threads: `davs2_threadpool_thread`, source/common/threadpool.cc:187-227, `davs2_sync_job_list_push` on the list `run`,
threadpool.cc:148-158, and `davs2_threadpool_delete`, threadpool.cc:335-353.

Simplified: jobs are only counted (which job runs is Model/ThreadPool).  The code between locking and unlocking `run.mutex` is one step; so is `davs2_thread_cond_wait`'s release of
the mutex together with falling asleep.  The broadcast of a submission is a step of its own, since it comes after the unlock.  A sleeping thread may wake without cause (`spurious`).
The function of a job returns (its waiting is C52); handing the job back never waits (C25_no_block).
-/
namespace Davs2.Px

/-- Where a worker is: at the test of the outer loop (197), before the critical section (201), asleep (203), woken and waiting for the mutex, in the job (216), ended (227). -/
inductive W | top | crit | asleep | woken | job | ended
deriving DecidableEq

structure St where
  exit : Bool
  jobs : Nat
  /-- submissions whose broadcast is still to come -/
  pending : Nat
  ws : List W

/-- After `davs2_threadpool_init` with `n` threads. -/
def start (n : Nat) : St := ⟨false, 0, 0, List.replicate n .top⟩

/-- `davs2_thread_cond_broadcast`. -/
def wake (w : W) : W := if w = .asleep then .woken else w

inductive Op
  | work (k : Nat) | spurious (k : Nat) | submit | signal | delete

/-- One step; `none`: not possible now. -/
def step (s : St) : Op → Option St
  | .work k => match s.ws[k]? with
    | some .top => some { s with ws := s.ws.set k (if s.exit then .ended else .crit) }
    | some .crit =>
      if s.jobs ≠ 0 then some { s with jobs := s.jobs - 1, ws := s.ws.set k .job }
      else if s.exit then some { s with ws := s.ws.set k .top }
      else some { s with ws := s.ws.set k .asleep }
    | some .woken => some { s with ws := s.ws.set k .crit }
    | some .job => some { s with ws := s.ws.set k .top }
    | _ => none
  | .spurious k => match s.ws[k]? with
    | some .asleep => some { s with ws := s.ws.set k .woken }
    | _ => none
  | .submit => some { s with jobs := s.jobs + 1, pending := s.pending + 1 }
  | .signal => if s.pending = 0 then none else some { s with pending := s.pending - 1, ws := s.ws.map wake }
  | .delete => some { s with exit := true, ws := s.ws.map wake }

def run (s : St) : List Op → Option St
  | [] => some s
  | o :: l => (step s o).bind fun s => run s l

end Davs2.Px

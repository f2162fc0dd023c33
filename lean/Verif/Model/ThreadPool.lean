import Verif.Model.Basic
/-
The worker pool, /repo/source/common/threadpool.cc.

`DAVS2_WORK_MAX` is 128; each job list is an array of 130 pointers.  One atomic step per critical section.
Jobs are numbered 0..127; `Req` is what the caller of `davs2_threadpool_run` hands over (function and the
two arguments are opaque numbers).  `ticket`, `submitted`, `started`, `executed` and `waits` are history and
not part of the program.
-/
namespace Davs2

structure Req where
  func : Nat
  arg1 : Nat
  arg2 : Nat
  wait : Bool
deriving DecidableEq, Repr

/-- `threadpool_job_t`, threadpool.cc:47-53, with the number of the submission it carries. -/
structure PJob where
  req : Req
  ret : Nat
  ticket : Nat

/-- `davs2_sync_job_list_t`, threadpool.cc:58-65. -/
structure JobArr where
  size : Nat
  arr : Nat → Option Nat

def setAt (a : Nat → Option Nat) (i : Nat) (v : Option Nat) : Nat → Option Nat :=
  fun k => if k = i then v else a k

/-- `davs2_sync_job_list_push`, threadpool.cc:148-158; `none`: the caller has to wait. -/
def JobArr.push (a : JobArr) (j : Nat) : Option JobArr :=
  if a.size = 128 then none else some ⟨a.size + 1, setAt a.arr a.size (some j)⟩

/-- `davs2_sync_job_list_pop`, threadpool.cc:162-176; `none`: the caller has to wait (or, with a null
pointer at the end of the list, the caller dereferences it). -/
def JobArr.pop (a : JobArr) : Option (JobArr × Nat) :=
  if a.size = 0 then none
  else (a.arr (a.size - 1)).map fun j => (⟨a.size - 1, setAt a.arr (a.size - 1) none⟩, j)

/-- Loop of `davs2_job_shift`, threadpool.cc:101-103, from index `i`; `fuel` entries are left in the array,
`none` when the loop leaves it. -/
def shiftFrom (a : Nat → Option Nat) (i : Nat) : Nat → Option (Nat → Option Nat)
  | 0 => none
  | fuel + 1 =>
    match a i with
    | none => some a
    | some _ => shiftFrom (setAt a i (a (i + 1))) (i + 1) fuel

/-- `davs2_job_shift(list + i)` and the decrement of `i_size` (threadpool.cc:207-208, 316-317). -/
def JobArr.shift (a : JobArr) (i : Nat) : Option (JobArr × Nat) :=
  match a.arr i, shiftFrom a.arr i (130 - i) with
  | some j, some arr => some (⟨a.size - 1, arr⟩, j)
  | _, _ => none

/-- Search of `davs2_threadpool_wait`, threadpool.cc:313-322: index of the first job with the given
arguments among entries `i .. i + n - 1`. -/
def findJob (jobs : Nat → PJob) (a : Nat → Option Nat) (a1 a2 : Nat) : Nat → Nat → Option Nat
  | _, 0 => none
  | i, n + 1 =>
    match a i with
    | some j => if (jobs j).req.arg1 = a1 ∧ (jobs j).req.arg2 = a2 then some i else findJob jobs a a1 a2 (i + 1) n
    | none => none

structure Pool where
  jobs : Nat → PJob
  uninit : JobArr
  run : JobArr
  done : JobArr
  /-- jobs taken by `davs2_threadpool_run`, not queued yet -/
  filling : List Nat
  /-- jobs taken by a worker, function not returned yet -/
  working : List Nat
  /-- function returned, job not handed back yet -/
  finished : List Nat
  /-- jobs found by `davs2_threadpool_wait`, not handed back yet -/
  returning : List Nat
  submitted : List Req
  started : List Nat
  executed : List (Nat × Nat)
  waits : List (Nat × Nat × Nat × Nat)

/-- State at the end of `davs2_threadpool_init`, threadpool.cc:250-275: all jobs in `uninit`. -/
def poolInit (jobs : Nat → PJob) : Pool :=
  { jobs := jobs
    uninit := ⟨128, fun i => if i < 128 then some i else none⟩
    run := ⟨0, fun _ => none⟩
    done := ⟨0, fun _ => none⟩
    filling := [], working := [], finished := [], returning := []
    submitted := [], started := [], executed := [], waits := [] }

inductive PoolAct where
  /-- `davs2_threadpool_run` up to the queueing, threadpool.cc:286-291 -/
  | fill (r : Req)
  /-- its last line -/
  | submit (j : Nat)
  /-- a worker fetches a job, threadpool.cc:203-215 -/
  | fetch
  /-- the function of job `j` returns `r`, threadpool.cc:216 -/
  | exec (j r : Nat)
  /-- threadpool.cc:218-223 -/
  | store (j : Nat)
  /-- a waiting caller finds its job, threadpool.cc:311-325 -/
  | wait (a1 a2 : Nat)
  /-- threadpool.cc:328 -/
  | recycle (j : Nat)

def setJob (jobs : Nat → PJob) (j : Nat) (v : PJob) : Nat → PJob := fun k => if k = j then v else jobs k

/-- One atomic step; `none` if it is not possible (the thread has to wait) or goes wrong. -/
def poolStep (s : Pool) : PoolAct → Option Pool
  | .fill r =>
    s.uninit.pop.map fun (u, j) =>
      { s with uninit := u, filling := j :: s.filling, jobs := setJob s.jobs j ⟨r, (s.jobs j).ret, 0⟩ }
  | .submit j =>
    if j ∈ s.filling then
      (s.run.push j).map fun q =>
        { s with run := q, filling := s.filling.erase j
                 submitted := s.submitted ++ [(s.jobs j).req]
                 jobs := setJob s.jobs j { s.jobs j with ticket := s.submitted.length } }
    else none
  | .fetch =>
    if s.run.size = 0 then none
    else (s.run.shift 0).map fun (q, j) =>
      { s with run := q, working := j :: s.working, started := s.started ++ [(s.jobs j).ticket] }
  | .exec j r =>
    if j ∈ s.working then
      some { s with working := s.working.erase j, finished := j :: s.finished
                    executed := s.executed ++ [((s.jobs j).ticket, r)]
                    jobs := setJob s.jobs j { s.jobs j with ret := r } }
    else none
  | .store j =>
    if j ∈ s.finished then
      if (s.jobs j).req.wait = true then
        (s.done.push j).map fun d => { s with done := d, finished := s.finished.erase j }
      else
        (s.uninit.push j).map fun u => { s with uninit := u, finished := s.finished.erase j }
    else none
  | .wait a1 a2 =>
    match findJob s.jobs s.done.arr a1 a2 0 s.done.size with
    | none => none
    | some i => (s.done.shift i).map fun (d, j) =>
        { s with done := d, returning := j :: s.returning
                 waits := s.waits ++ [((s.jobs j).ticket, (s.jobs j).ret, a1, a2)] }
  | .recycle j =>
    if j ∈ s.returning then
      (s.uninit.push j).map fun u => { s with uninit := u, returning := s.returning.erase j }
    else none

def poolRun (s : Pool) : List PoolAct → Option Pool
  | [] => some s
  | a :: as => match poolStep s a with
    | some s' => poolRun s' as
    | none => none

end Davs2

/-
Who owns the packets and output pictures of a decoder: `davs2_pack_es_unit`, `es_unit_alloc`, `es_unit_free`, `create_all_lists`, `destroy_all_lists`,
`output_list_recycle_picture`, `decoder_get_output`, `davs2_decoder_frame_unref`, `task_unload_packet`, `decoder_decode_es_unit`, `davs2_decoder_close`
(source/common/davs2.cc:65-228, 245-429, 583-622, 768-820), `get_one_free_picture`, `task_send_picture_to_output_list`, `task_output_decoding_frame`
(source/common/decoder.cc:199-223, 277-346) and the end of the worker threads (source/common/threadpool.cc:186-222, 335-353).

Simplified: a block of memory is a number, `heap` holds the blocks that are allocated; contents are not modelled.  Allocations succeed.  An operation is one step between two
points where all lists are unlocked; an operation that would wait leaves the state as it is.  The end of a task (picture to the output list, packet to the idle list) is one step,
since what it holds in between is in local variables of a thread that `davs2_decoder_close` waits for.  Frames of the picture buffer are not here (Model/Dpb).
-/
namespace Davs2.Own

/-- An output picture: its block, size and order number. -/
structure Pic where
  id : Nat
  w : Nat
  h : Nat
  poc : Int

def ids (l : List Pic) : List Nat := l.map Pic.id

structure St where
  heap : List Nat
  /-- the next number to be given to a block -/
  next : Nat
  /-- `packets_idle`, `es_unit` -/
  idle : List Nat
  cur : Option Nat
  /-- packets of the jobs in `run` of the thread pool and of those being executed -/
  queued : List Nat
  running : List Nat
  /-- `pic_recycle`, `outpics.pics`, pictures delivered and not given back -/
  recycle : List Pic
  out : List Pic
  user : List Pic

/-- `davs2_free`; `none`: the block is not allocated (freed twice). -/
def free (x : Nat) (heap : List Nat) : Option (List Nat) := if x ∈ heap then some (heap.erase x) else none

def freeAll : List Nat → List Nat → Option (List Nat)
  | [], heap => some heap
  | x :: l, heap => (free x heap).bind (freeAll l)

/-- `create_all_lists`, davs2.cc:191-217: `n` is `MAX_ES_FRAME_NUM + threads`. -/
def opened (n : Nat) : St := ⟨List.range n, n, List.range n, none, [], [], [], [], []⟩

/-- `get_one_free_picture`, decoder.cc:199-223: the picture, the recycle list after it, the heap, and whether a block was allocated. -/
def getFree (w h : Nat) (poc : Int) (next : Nat) : List Pic → List Nat → Option (Pic × List Pic × List Nat × Nat)
  | [], heap => some (⟨next, w, h, poc⟩, [], next :: heap, next + 1)
  | p :: l, heap => if p.w = w ∧ p.h = h then some ({ p with poc := poc }, l, heap, next) else (free p.id heap).bind fun heap => getFree w h poc next l heap

/-- `task_send_picture_to_output_list`, decoder.cc:277-312. -/
def insertPic (p : Pic) : List Pic → List Pic
  | [] => [p]
  | q :: l => if q.poc < p.poc then q :: insertPic p l else p :: q :: l

inductive Op
  /-- davs2.cc:108-110 -/
  | fetch
  /-- davs2.cc:115-130, a larger buffer -/
  | grow
  /-- davs2.cc:133-138 with 583-622: the collected unit is decoded (`ok`) or dropped, another buffer is fetched -/
  | pack (ok : Bool)
  /-- `davs2_decoder_flush`: the same without another buffer, davs2.cc:744-748 -/
  | flush (ok : Bool)
  /-- a worker takes the first job, threadpool.cc:206-209 -/
  | start
  /-- the `k`-th running task ends; `shown`: with a picture (decoder.cc:521-524, 724-727) or, without a slice, without (decoder.cc:1186-1187) -/
  | finish (k : Nat) (shown : Option (Nat × Nat × Int))
  /-- `decoder_get_output`, davs2.cc:255-263, 344-357 -/
  | deliver
  /-- `davs2_decoder_frame_unref` of the `k`-th picture the user holds, davs2.cc:369-389, 222-228 -/
  | unref (k : Nat)

/-- The collected unit goes to the thread pool or, if its headers cannot be used, back to the idle list. -/
def submit (ok : Bool) (u : Nat) (s : St) : St := if ok then { s with queued := s.queued ++ [u] } else { s with idle := s.idle ++ [u] }

def step (s : St) : Op → Option St
  | .fetch => match s.cur, s.idle with
    | none, u :: l => some { s with cur := some u, idle := l }
    | _, _ => some s
  | .grow => match s.cur with
    | some u => (free u (s.next :: s.heap)).map fun heap => { s with heap := heap, next := s.next + 1, cur := some s.next }
    | none => some s
  | .pack ok => match s.cur, s.idle with
    | some u, v :: l => some (submit ok u { s with cur := some v, idle := l })
    | _, _ => some s
  | .flush ok => match s.cur with
    | some u => some (submit ok u { s with cur := none })
    | none => some s
  | .start => match s.queued with
    | u :: l => some { s with queued := l, running := s.running ++ [u] }
    | [] => some s
  | .finish k shown => match s.running[k]? with
    | some u =>
      match shown with
      | some (w, h, poc) => (getFree w h poc s.next s.recycle s.heap).map fun (p, rec, heap, next) =>
          { s with running := s.running.erase u, idle := s.idle ++ [u], recycle := rec, heap := heap, next := next, out := insertPic p s.out }
      | none => some { s with running := s.running.erase u, idle := s.idle ++ [u] }
    | none => some s
  | .deliver => match s.out with
    | p :: l => some { s with out := l, user := p :: s.user }
    | [] => some s
  | .unref k => match s.user[k]? with
    | some p => some { s with user := s.user.eraseIdx k, recycle := s.recycle ++ [p] }
    | none => some s

def run (s : St) : List Op → Option St
  | [] => some s
  | o :: l => (step s o).bind fun s => run s l

/-- `davs2_decoder_close`, davs2.cc:768-820 with `destroy_all_lists`, davs2.cc:156-187, after the worker threads have ended (no task is running; jobs they have not taken stay
in `queued`, threadpool.cc:197-213): the heap that is left. -/
def close (s : St) : Option (List Nat) := (freeAll s.idle s.heap).bind fun heap => (freeAll (ids s.recycle) heap).bind fun heap => freeAll s.cur.toList heap

end Davs2.Own

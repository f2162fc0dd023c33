/-!
# Output stage and receive / flush calls

Model of the part of the decoder that reorders finished pictures and hands them
to the caller: `task_send_picture_to_output_list` (source/common/decoder.cc
277-312), `output_list_get_one_output_picture` (source/common/davs2.cc 245-305),
`decoder_get_output` (davs2.cc 310-358), `davs2_decoder_recv_frame` (davs2.cc
692-710) and `davs2_decoder_flush` (davs2.cc 715-764).

The API is used from one thread; decoding tasks run on worker threads.  The
model is a transition system whose transitions are the critical sections of the
code, so every interleaving of worker completions with a blocked API call is a
sequence of actions.  Simplifications: the counters are unbounded naturals
(`int` in the code); pictures carry their picture order count and a unique
number (ghost); sample data are left out; the warning logs are left out.
-/

namespace Davs2

/-- A picture as the output stage sees it: `davs2_outpic_t` with its frame
(source/common/common.h `davs2_outpic_t`).  `id` is a ghost: the position of the
picture in the order of acceptance. -/
structure OutPic where
  poc : Int
  id : Nat
deriving DecidableEq, Repr

/-- `davs2_output_t` (source/common/common.h): the waiting list, the next
expected picture order count and the length counter. -/
structure OutList where
  pics : List OutPic
  output : Int
  num : Nat
deriving DecidableEq, Repr

/-- Search and insertion loop of `task_send_picture_to_output_list`
(decoder.cc 286-305): skip while the list element has a smaller POC. -/
def insertPic (p : OutPic) : List OutPic → List OutPic
  | [] => [p]
  | c :: rest => if c.poc < p.poc then c :: insertPic p rest else p :: c :: rest

/-- `task_send_picture_to_output_list` (decoder.cc 277-312), one critical
section. -/
def sendToOutput (o : OutList) (p : OutPic) : OutList :=
  { o with pics := insertPic p o.pics, num := o.num + 1 }

/-- Result of one critical section of `output_list_get_one_output_picture`. -/
inductive GetOne
  /-- the list is empty: the function returns NULL -/
  | none
  /-- a picture is returned -/
  | pic (p : OutPic)
  /-- `keep waiting`: the lock is dropped for 1 ms and the loop continues -/
  | sleep
deriving DecidableEq, Repr

/-- The loop of `output_list_get_one_output_picture` (davs2.cc 251-298) from one
acquisition of the lock to the next release.  `flushing`, `fin`, `fout` are
`b_flushing`, `num_frames_in`, `num_frames_out`.  The two `continue` paths that
keep the lock (skip one POC while flushing; advance to the head's POC) are the
recursive calls. -/
def getOne (flushing : Bool) (fin fout : Nat) (o : OutList) : GetOne × OutList :=
  match hm : o.pics with
  | [] => (.none, o)
  | f :: rest =>
    if f.poc = o.output then
      (.pic f, { pics := rest, output := o.output + 1, num := o.num - 1 })
    else if h : f.poc > o.output then
      if flushing && fin == fout + o.num then
        getOne flushing fin fout { o with output := o.output + 1 }
      else if (f :: rest).length < 8 then
        (.sleep, o)
      else
        -- output := poc, next iteration delivers
        (.pic f, { pics := rest, output := f.poc + 1, num := o.num - 1 })
    else
      (.pic f, { pics := rest, output := f.poc + 1, num := o.num - 1 })
termination_by (match o.pics with | [] => 0 | f :: _ => (f.poc - o.output).toNat)
decreasing_by
  simp only [hm]
  omega

/-- Where the API thread is. -/
inductive ApiPc
  /-- not inside a receive or flush call -/
  | idle
  /-- at the head of the loop of `decoder_get_output` (davs2.cc 315) -/
  | loop (flush wait : Bool)
  /-- inside `output_list_get_one_output_picture`, after the 1 ms sleep
  (davs2.cc 287-290) -/
  | inGet (flush wait : Bool)
deriving DecidableEq, Repr

/-- What the caller and the decoder can observe.  `header h` means a sequence
header changing the picture size was parsed (davs2.cc / header.cc 1078-1122 set
`new_sps`), `sameSize h` a header that does not change it; `finished` a picture
entering the waiting list; the rest are the returns of receive / flush calls. -/
inductive OutEv
  | header (h : Nat)
  | sameSize (h : Nat)
  | accepted (p : OutPic)
  | finished (p : OutPic)
  | retHeader (h : Nat)
  | retFrame (p : OutPic)
  | retNone
deriving DecidableEq, Repr

/-- The parts of `davs2_mgr_t` used by the output stage, the pictures being
decoded on worker threads, and the event log (newest first, ghost).
`numDecoders`, `numAec` are `num_decoders`, `num_aec_thread`; `hdr` stands for
the contents of `seq_info.head`. -/
structure OutSt where
  out : OutList
  decoding : List OutPic
  lost : List OutPic
  framesIn : Nat
  framesOut : Nat
  toOutput : Int
  numDecoders : Nat
  numAec : Nat
  flushing : Bool
  newSps : Bool
  hdr : Nat
  pc : ApiPc
  log : List OutEv
deriving DecidableEq, Repr

/-- State after `davs2_decoder_open` (davs2.cc 439-579): the manager is zeroed,
`outpics.output` is `-1` (507), `num_decoders` is one more than the thread count and `num_aec_thread` is the
thread count. -/
def outInit (threads : Nat) : OutSt :=
  { out := ⟨[], -1, 0⟩, decoding := [], lost := [], framesIn := 0, framesOut := 0,
    toOutput := 0, numDecoders := threads + 1, numAec := threads, flushing := false,
    newSps := false, hdr := 0, pc := .idle, log := [] }

/-- One transition. -/
inductive OutAct
  /-- API thread: a sequence header is parsed; the flag says whether it changes
  the picture size (`task_set_sequence_head`, header.cc 1078-1122) -/
  | parseHeader (h : Nat) (newSize : Bool)
  /-- API thread: the header of the first intra picture sets the first expected
  picture order count (`parse_picture_header`, header.cc 749-755) -/
  | startOutput (poc : Int)
  /-- API thread: a picture is accepted for decoding (davs2.cc 601-609), by a
  send call or by the flush of the buffered unit (davs2.cc 742-746) -/
  | accept (poc : Int) (byFlush : Bool)
  /-- API thread, blocked for a free buffer: skip to the first waiting picture
  (header.cc 1441-1448) -/
  | skip
  /-- worker: picture with this number is finished (decoder.cc 516-524) -/
  | finish (id : Nat)
  /-- worker: the task of picture `id` ends on the path without slice data
  (decoder.cc 1169-1188) and the picture never reaches the waiting list -/
  | lose (id : Nat)
  /-- API thread: `davs2_decoder_recv_frame` is called -/
  | recv
  /-- API thread: `davs2_decoder_flush` is called (its buffered unit already
  handled by `accept`) -/
  | flush
  /-- API thread: run up to the next point where other threads can interfere -/
  | tick
deriving DecidableEq, Repr

/-- Return path of `decoder_get_output` when a header is pending (davs2.cc
317-322, 334-339). -/
def retHeader (s : OutSt) : OutSt :=
  { s with newSps := false, pc := .idle, log := .retHeader s.hdr :: s.log }

/-- Return path when a picture was obtained (davs2.cc 343-357 and 704-706: the
receive call, not the flush call, decrements `num_frames_to_output`). -/
def retFrame (s : OutSt) (o : OutList) (p : OutPic) (flush : Bool) : OutSt :=
  { s with out := o, framesOut := s.framesOut + 1,
           toOutput := if flush then s.toOutput else s.toOutput - 1,
           pc := .idle, log := .retFrame p :: s.log }

/-- `pic == NULL` after the loop (davs2.cc 333-341): `DAVS2_DEFAULT` (the flush
call turns it into `DAVS2_END`). -/
def retNone (s : OutSt) : OutSt :=
  { s with pc := .idle, log := .retNone :: s.log }

/-- One critical section of `output_list_get_one_output_picture` entered from
the loop, and what `decoder_get_output` does with its result. -/
def runGetOne (s : OutSt) (flush wait : Bool) : OutSt :=
  match getOne s.flushing s.framesIn s.framesOut s.out with
  | (.none, o) => { s with out := o, pc := .loop flush wait }
  | (.sleep, o) => { s with out := o, pc := .inGet flush wait }
  | (.pic p, o) => retFrame s o p flush

/-- API thread inside a receive or flush call (davs2.cc 310-358). -/
def tickOut (s : OutSt) : Option OutSt :=
  match s.pc with
  | .idle => none
  | .loop fl wait =>
    if s.framesIn > s.framesOut ∧ (wait = true ∨ fl = true) then
      if s.newSps then some (retHeader s) else some (runGetOne s fl wait)
    else
      if s.newSps then some (retHeader s) else some (retNone s)
  | .inGet fl wait => some (runGetOne s fl wait)

/-- `b_wait_new_frame` (davs2.cc 313). -/
def waitNewFrame (s : OutSt) : Bool :=
  decide ((s.framesIn : Int) + s.numDecoders - s.framesOut > 8 + s.numAec)

/-- Transition function; `none` when the action is not enabled. -/
def outStep (s : OutSt) : OutAct → Option OutSt
  | .parseHeader h newSize =>
    if s.pc = .idle then
      if newSize then some { s with hdr := h, newSps := true, log := .header h :: s.log }
      else some { s with hdr := h, log := .sameSize h :: s.log }
    else none
  | .startOutput poc =>
    if s.pc = .idle ∧ s.out.output = -1 then some { s with out := { s.out with output := poc } }
    else none
  | .accept poc byFlush =>
    if s.pc = .idle then
      some { s with
        decoding := ⟨poc, s.framesIn⟩ :: s.decoding,
        framesIn := s.framesIn + 1,
        toOutput := if byFlush then s.toOutput else s.toOutput + 1,
        log := .accepted ⟨poc, s.framesIn⟩ :: s.log }
    else none
  | .skip =>
    match s.pc, s.out.pics with
    | .idle, f :: _ =>
      if s.out.output < f.poc then some { s with out := { s.out with output := f.poc } } else none
    | _, _ => none
  | .finish id =>
    match s.decoding.find? (fun p => p.id == id) with
    | some p => some { s with decoding := s.decoding.erase p, out := sendToOutput s.out p,
                              log := .finished p :: s.log }
    | none => none
  | .lose id =>
    match s.decoding.find? (fun p => p.id == id) with
    | some p => some { s with decoding := s.decoding.erase p, lost := p :: s.lost }
    | none => none
  | .recv =>
    if s.pc = .idle then
      if s.toOutput ≠ 0 ∨ s.newSps = true then
        some { s with pc := .loop false (waitNewFrame s) }
      else some (retNone s)
    else none
  | .flush =>
    if s.pc = .idle then
      some { s with flushing := true, pc := .loop true (waitNewFrame s) }
    else none
  | .tick => tickOut s

/-- Run a schedule. -/
def outRun (s : OutSt) : List OutAct → Option OutSt
  | [] => some s
  | a :: as => match outStep s a with
    | some s' => outRun s' as
    | none => none

end Davs2

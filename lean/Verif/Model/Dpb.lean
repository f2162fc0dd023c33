/-!
# Decoded picture buffer: use counts

Model of the buffer management of source/common/header.cc: `clean_one_frame`
(1126-1132), `release_one_frame` (1136-1163), `task_release_frames` (1167-1182),
`task_get_references` (1243-1486), and of the places that drop references
(source/common/decoder.cc 516-524, source/common/davs2.cc 348-350 and 369-389).

`DpbSt`/`dpbStep` is a transition system whose transitions are the sections the
code executes under one frame's lock, so that all interleavings of the API
thread with worker threads are schedules.  `getReferences` is the sequential
function the API thread computes.

Simplifications: sample planes, motion buffers and locks are left out; a frame is
identified by its index in the buffer; background pictures (`AVS2_GB_SLICE`,
`AVS2_S_SLICE`), which use a buffer outside the pool, are not modelled; a change
of picture size (`destroy_dpb`) is modelled separately in Model/Resize.
-/

namespace Davs2

/-- Fields of `davs2_frame_t` (source/common/common.h) used by the pool. -/
structure DFrame where
  poc : Int
  coi : Int
  /-- `i_disposable` -/
  disp : Nat
  /-- `b_refered_by_others` -/
  refd : Bool
  /-- `i_ref_count` -/
  rc : Nat
deriving DecidableEq, Repr

/-- A fresh frame: `davs2_frame_new` sets POC and COI to `INVALID_FRAME`
(source/common/frame.cc 213-340). -/
def freshFrame : DFrame := ⟨-1, -1, 0, false, 0⟩

/-- `IS_VALID_FRAME` (header.cc 1250). -/
def DFrame.valid (f : DFrame) : Bool := f.coi != -1 && f.poc != -1

/-- `clean_one_frame` (header.cc 1126-1132). -/
def cleanFrame (f : DFrame) : DFrame := { f with poc := -1, coi := -1, disp := 0, refd := false }

/-- Body of `release_one_frame` under the frame lock (header.cc 1144-1157);
`none` when the `assert (i_ref_count > 0)` fails. -/
def releaseFrame (f : DFrame) : Option DFrame :=
  if f.rc = 0 then none
  else
    let f := { f with rc := f.rc - 1 }
    some (if f.rc = 0 ∧ f.disp = 1 then cleanFrame f else f)

/-- Retiring a frame, by request of the stream (header.cc 1272-1283) or because
its POC is too far away (1341-1356). -/
def retireFrame (f : DFrame) : DFrame :=
  if f.rc = 0 then cleanFrame f else { f with disp := 1 }

/-- Taking a frame as decoding target (header.cc 1364-1376, 1395-1426) followed by
`init_fdec` (header.cc 943-958). -/
def takeFrame (f : DFrame) (poc coi : Int) (refd : Bool) : DFrame :=
  { f with rc := f.rc + 2, disp := if refd then 0 else 1, poc := poc, coi := coi, refd := refd }

/-- Condition under which a frame is used as reference for coding order `want`
(header.cc 1296-1312). -/
def DFrame.usable (f : DFrame) (want : Int) : Bool :=
  f.valid && decide (f.coi ≥ 0) && want == f.coi && f.disp == 0 && f.refd

/-! ## Concurrent view -/

/-- The references one decoding task holds: its reference pictures
(`fref[0..num_of_references)`), its target (`fdec`), and the use of the target
that will be handed to the output stage. -/
structure DTask where
  refs : List Nat
  fdec : Option Nat
  out : Option Nat
deriving DecidableEq, Repr

structure DpbSt where
  frames : List DFrame
  /-- the task being set up by the API thread -/
  setup : Option DTask
  /-- tasks running on workers, or unwinding after a failed setup -/
  tasks : List DTask
  /-- frames owned by the output stage or by the caller -/
  outs : List Nat
  /-- uses that no code path will ever drop (ghost) -/
  leaked : List Nat
deriving DecidableEq, Repr

/-- Pool after `create_dpb` (header.cc 903-938). -/
def dpbInit (n : Nat) : DpbSt :=
  { frames := List.replicate n freshFrame, setup := none, tasks := [], outs := [], leaked := [] }

inductive DpbAct
  /-- start of `task_get_references` -/
  | begin
  /-- retire frame `j` -/
  | retire (j : Nat)
  /-- use frame `j` as reference for coding order `want` -/
  | addRef (j : Nat) (want : Int)
  /-- use frame `j` as target: the normal search (header.cc 1359-1382) -/
  | take (j : Nat) (poc coi : Int) (refd : Bool)
  /-- use frame `j` as target: the forced choice when the pool is exhausted
  (header.cc 1391-1428); the net effect of its loop, which undoes earlier picks -/
  | force (j : Nat) (poc coi : Int) (refd : Bool)
  /-- hand the task to a worker (davs2.cc 606-611) -/
  | launch
  /-- `goto fail`: unwind (header.cc 1478-1486) -/
  | fail
  /-- worker `t`: the target enters the waiting list (decoder.cc 521) -/
  | finish (t : Nat)
  /-- worker `t`: `task_release_frames`, next reference picture -/
  | releaseRef (t : Nat)
  /-- worker `t`: `task_release_frames`, the target -/
  | releaseFdec (t : Nat)
  /-- worker `t`: picture without slice data, nothing is released (decoder.cc
  1169-1188) -/
  | lose (t : Nat)
  /-- output stage or caller drops frame `j` (davs2.cc 348-350, 379-382) -/
  | releaseOut (j : Nat)
deriving DecidableEq, Repr

/-- Replace frame `j`. -/
def setFrame (s : DpbSt) (j : Nat) (f : DFrame) : DpbSt := { s with frames := s.frames.set j f }

/-- Transition function; `none` when the action is not enabled. -/
def dpbStep (s : DpbSt) : DpbAct → Option DpbSt
  | .begin =>
    match s.setup with
    | none => some { s with setup := some ⟨[], none, none⟩ }
    | some _ => none
  | .retire j =>
    match s.setup, s.frames[j]? with
    | some _, some f => if f.valid then some (setFrame s j (retireFrame f)) else none
    | _, _ => none
  | .addRef j want =>
    match s.setup, s.frames[j]? with
    | some t, some f =>
      if t.fdec = none ∧ f.usable want then
        some { setFrame s j { f with rc := f.rc + 1 } with
          setup := some { t with refs := t.refs ++ [j] } }
      else none
    | _, _ => none
  | .take j poc coi refd =>
    match s.setup, s.frames[j]? with
    | some t, some f =>
      if t.fdec = none ∧ f.rc = 0 ∧ f.refd = false then
        some { setFrame s j (takeFrame f poc coi refd) with
          setup := some { t with fdec := some j, out := some j } }
      else none
    | _, _ => none
  | .force j poc coi refd =>
    match s.setup, s.frames[j]? with
    | some t, some f =>
      if t.fdec = none ∧ f.rc = 0 then
        some { setFrame s j (takeFrame f poc coi refd) with
          setup := some { t with fdec := some j, out := some j } }
      else none
    | _, _ => none
  | .launch =>
    match s.setup with
    | some t => if t.fdec = none then none else some { s with setup := none, tasks := t :: s.tasks }
    | none => none
  | .fail =>
    match s.setup with
    | some t => if t.fdec = none then some { s with setup := none, tasks := t :: s.tasks } else none
    | none => none
  | .finish t =>
    match s.tasks[t]? with
    | some k =>
      match k.out with
      | some j => some { s with tasks := s.tasks.set t { k with out := none }, outs := j :: s.outs }
      | none => none
    | none => none
  | .releaseRef t =>
    match s.tasks[t]? with
    | some k =>
      match k.out, k.refs with
      | none, j :: rest =>
        match s.frames[j]? with
        | some f =>
          match releaseFrame f with
          | some f' => some { setFrame s j f' with tasks := s.tasks.set t { k with refs := rest } }
          | none => none
        | none => none
      | _, _ => none
    | none => none
  | .releaseFdec t =>
    match s.tasks[t]? with
    | some k =>
      match k.out, k.refs, k.fdec with
      | none, [], some j =>
        match s.frames[j]? with
        | some f =>
          match releaseFrame f with
          | some f' => some { setFrame s j f' with tasks := s.tasks.set t { k with fdec := none } }
          | none => none
        | none => none
      | _, _, _ => none
    | none => none
  | .lose t =>
    match s.tasks[t]? with
    | some k =>
      match k.out with
      | some j => some { s with tasks := s.tasks.set t ⟨[], none, none⟩,
                                leaked := j :: (k.fdec.toList ++ (k.refs ++ s.leaked)) }
      | none => none
    | none => none
  | .releaseOut j =>
    if j ∈ s.outs then
      match s.frames[j]? with
      | some f =>
        match releaseFrame f with
        | some f' => some { setFrame s j f' with outs := s.outs.erase j }
        | none => none
      | none => none
    else none

def dpbRun (s : DpbSt) : List DpbAct → Option DpbSt
  | [] => some s
  | a :: as => match dpbStep s a with
    | some s' => dpbRun s' as
    | none => none

/-! ## Sequential view: `task_get_references` up to the choice of the target -/

/-- Index of the first frame satisfying a test, as the `for (j ...)` loops of
`task_get_references` find it. -/
def firstIdx (p : DFrame → Bool) : List DFrame → Option Nat
  | [] => none
  | f :: rest => if p f then some 0 else (firstIdx p rest).map (· + 1)

/-- Removal of one coding order (header.cc 1262-1284). -/
def removeCoi (frames : List DFrame) (c : Int) : List DFrame :=
  match firstIdx (fun f => f.valid && f.coi == c) frames with
  | some j => frames.modify j retireFrame
  | none => frames

/-- Reference set of the picture header (`rps_t`, common.h 645-652), as lists. -/
structure Rps where
  refPic : List Int
  removePic : List Int
  refd : Bool
deriving DecidableEq, Repr

/-- The parts of the picture header `task_get_references` uses. -/
structure PicReq where
  coi : Int
  poc : Int
  isB : Bool
  rps : Rps
deriving DecidableEq, Repr

/-- Search for all reference pictures (header.cc 1291-1326).  Returns the frames
with use counts incremented and the chosen indices, or (`inr`) the frames and the
indices collected before the failure. -/
def searchRefs (frames : List DFrame) : List Int → List Nat →
    Sum (List DFrame × List Nat) (List DFrame × List Nat)
  | [], acc => .inl (frames, acc)
  | w :: ws, acc =>
    match firstIdx (·.usable w) frames with
    | some j => searchRefs (frames.modify j fun f => { f with rc := f.rc + 1 }) ws (acc ++ [j])
    | none => .inr (frames, acc)

/-- `task_release_frames` on the references of a failed setup (header.cc
1172-1177). -/
def releaseAll (frames : List DFrame) : List Nat → List DFrame
  | [] => frames
  | j :: js => releaseAll (frames.modify j fun f => (releaseFrame f).getD f) js

/-- POC of a frame. -/
def pocAt (frames : List DFrame) (j : Nat) : Int := (frames[j]?.map (·.poc)).getD (-1)

/-- B-picture check (header.cc 1328-1333): true when the references are wrong. -/
def badB (frames : List DFrame) (p : PicReq) (refs : List Nat) : Bool :=
  p.isB && match refs with
    | [a, b] => decide (pocAt frames a ≤ p.poc) || decide (pocAt frames b ≥ p.poc)
    | _ => true

/-- Retiring frames whose POC is at least 128 away (header.cc 1341-1356). -/
def cleanOld (frames : List DFrame) (poc : Int) : List DFrame :=
  frames.map fun f => if f.valid ∧ (f.poc - poc).natAbs ≥ 128 then retireFrame f else f

/-- `task_get_references` (header.cc 1243-1356, 1478-1486).  `removeList` is
`mgr->coi_remove_frame`.  Result: new frames, new removal list, and the
references if the picture is accepted so far. -/
def getReferences (frames : List DFrame) (removeList : List Int) (p : PicReq) :
    List DFrame × List Int × Option (List Nat) :=
  let frames := removeList.foldl removeCoi frames
  match searchRefs frames (p.rps.refPic.map fun d => p.coi - d) [] with
  | .inr (frames', got) => (releaseAll frames' got, removeList, none)
  | .inl (frames', refs) =>
    if badB frames' p refs then (releaseAll frames' refs, removeList, none)
    else (cleanOld frames' p.poc, p.rps.removePic.map fun d => p.coi - d, some refs)

end Davs2

/-
A sequence header during decoding: `task_set_sequence_head`, source/common/header.cc:1078-1123, `destroy_dpb`, header.cc:873-897, `create_dpb`, header.cc:902-936, `release_one_frame`,
header.cc:1136-1163, with `davs2_frame_new` and `davs2_frame_destroy`, source/common/frame.cc:216-373.

All frames of a pool lie in one block of memory, `mgr->dpb` (`davs2_frame_new` with `mem_base`, `is_self_malloc = 0`), which `destroy_dpb` frees at its end.

Simplified: pools are numbered; a frame is its reference count and its mark `i_disposable`; a reference held by a task (`fdec`, `fref`) or by an output picture (`pic->frame`) is a pair
of pool and index.  What is done with a reference (decoding into the frame, waiting for its rows, copying it out) is one operation `use`, undefined (`none`) if the block of the frame
has been freed.  Allocation succeeds.  `davs2_reconfigure_decoder` does nothing (header.cc:118-121).
-/
namespace Davs2.Rz

structure Fr where
  refCount : Nat
  disposable : Nat

structure Pool where
  freed : Bool
  frames : List Fr

structure St where
  width : Nat
  height : Nat
  /-- number of the pool in `mgr->dpb` -/
  cur : Nat
  pools : Nat → Pool
  /-- references held by tasks and output pictures -/
  held : List (Nat × Nat)

/-- After opening: no pool, `seq_info` is zero. -/
def opened : St := ⟨0, 0, 0, fun _ => ⟨false, []⟩, []⟩

def setPool (f : Nat → Pool) (i : Nat) (p : Pool) : Nat → Pool := fun j => if j = i then p else f j

/-- The loop of `destroy_dpb` for one frame, header.cc:885-892. -/
def destroyOne (f : Fr) : Fr := if f.refCount = 0 then f else { f with disposable := 2 }

/-- `create_dpb`: frames without references, frame.cc:327-330. -/
def newPool (n : Nat) : Pool := ⟨false, List.replicate n ⟨0, 0⟩⟩

inductive Op
  /-- a task takes a frame of the pool, as target or reference, or a picture takes its frame for output -/
  | acquire (i : Nat)
  /-- the `k`-th holder works with its frame -/
  | use (k : Nat)
  /-- the `k`-th holder gives its frame back -/
  | release (k : Nat)
  /-- a valid sequence header with this size; `n` is the size of the pool it asks for -/
  | header (w h n : Nat)

/-- The frame a reference points to, if its memory is still allocated. -/
def get (s : St) (r : Nat × Nat) : Option Fr := if (s.pools r.1).freed then none else (s.pools r.1).frames[r.2]?

def setFrame (s : St) (r : Nat × Nat) (f : Fr) : St :=
  { s with pools := setPool s.pools r.1 { s.pools r.1 with frames := (s.pools r.1).frames.set r.2 f } }

def step (s : St) : Op → Option St
  | .acquire i => match (s.pools s.cur).frames[i]? with
    | some f => some { setFrame s (s.cur, i) { f with refCount := f.refCount + 1 } with held := s.held ++ [(s.cur, i)] }
    | none => some s
  | .use k => match s.held[k]? with
    | some r => (get s r).map fun _ => s
    | none => some s
  | .release k => match s.held[k]? with
    | some r => (get s r).map fun f => { setFrame s r ⟨f.refCount - 1, if f.refCount = 1 ∧ f.disposable = 1 then 0 else f.disposable⟩ with held := s.held.eraseIdx k }
    | none => some s
  | .header w h n =>
    if s.width ≠ w ∨ s.height ≠ h then
      some { s with width := w, height := h, cur := s.cur + 1,
                    pools := setPool (setPool s.pools s.cur ⟨true, (s.pools s.cur).frames.map destroyOne⟩) (s.cur + 1) (newPool n) }
    else some { s with width := w, height := h }

def run (s : St) : List Op → Option St
  | [] => some s
  | o :: l => (step s o).bind fun s => run s l

end Davs2.Rz

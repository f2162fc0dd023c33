/-
The mutexes of the decoder and the sections of the code that hold them.

`mutex_aec` and `mutex_mgr` of the manager, `mutex_frm` of frame `i`, and the mutexes that are only held alone (`leaf`): `mutex_recon` of a frame (source/common/decoder.cc:251-255,
267-270, cu.cc:893-899), `list_mutex` of a list (common.cc:263-276, 292-313), the mutexes of the pool's lists (threadpool.cc:150-155, 166-173, 202-210, 311-325, 339-342).
Simplified: only locking and unlocking; which way the code takes is arbitrary (the lists of the definitions below).  Waiting for conditions is C52, C57 and C114.
CTRL_AEC_THREAD is 0.
-/
namespace Davs2.Lk

inductive Lock | aec | mgr | frm (i : Nat) | leaf (k : Nat)
deriving DecidableEq

inductive Op | lock (l : Lock) | unlock (l : Lock)
deriving DecidableEq

/-- A mutex held alone for a while: every `leaf`; `mutex_mgr` in davs2.cc:249-302, 400-406, 425-427, decoder.cc:284-311; `mutex_frm` in `release_one_frame`, header.cc:1144-1158. -/
def alone (l : Lock) : List Op := [.lock l, .unlock l]

/-- The frames one after the other: `destroy_dpb`, header.cc:880-892, and the loops of `task_get_references`, header.cc:1276-1285, 1302-1319, 1351-1368, 1376-1393. -/
def frames (is : List Nat) : List Op := is.flatMap fun i => alone (.frm i)

/-- The forced choice of a frame, header.cc:1412-1431, from frame `i` on: for each frame whether it is chosen; the frame chosen before is given back under its own mutex. -/
def force (i : Nat) (fdec : Option Nat) : List Bool → List Op
  | [] => []
  | false :: l => alone (.frm i) ++ force (i + 1) fdec l
  | true :: l => [.lock (.frm i)] ++ (fdec.elim [] fun j => alone (.frm j)) ++ [.unlock (.frm i)] ++ force (i + 1) (some i) l

/-- `task_set_sequence_head`, header.cc:1083-1120, and one round of `task_get_references` under `mutex_mgr`, header.cc:1252-1474 (it is given up and taken again at 1453-1459). -/
def round (is : List Nat) (f : List Bool) : List Op := [.lock .mgr] ++ (frames is ++ force 0 none f) ++ [.unlock .mgr]

/-- `decoder_decode_es_unit` from taking `mutex_aec` to giving it up, davs2.cc:595-616: any number of rounds, then the releases of a failed setup (header.cc:1483). -/
def send (rounds : List (List Nat × List Bool)) (rel : List Nat) : List Op :=
  [.lock .aec] ++ (rounds.flatMap (fun r => round r.1 r.2) ++ frames rel) ++ [.unlock .aec]

/-- What a thread does: sections of the code, one after the other. -/
inductive Prog : List Op → Prop
  | nil : Prog []
  | alone (l : Lock) {r : List Op} : l ≠ .aec → Prog r → Prog (Lk.alone l ++ r)
  | send (rounds : List (List Nat × List Bool)) (rel : List Nat) {r : List Op} : Prog r → Prog (Lk.send rounds rel ++ r)

/-- A thread: mutexes held, what is still to be done. -/
structure Th where
  held : List Lock
  rest : List Op

abbrev St := List Th

/-- Step of thread `k`; `none`: it has ended or has to wait for a mutex. -/
def step (s : St) (k : Nat) : Option St :=
  match s[k]? with
  | some ⟨held, .lock l :: r⟩ => if s.any fun t => t.held.contains l then none else some (s.set k ⟨l :: held, r⟩)
  | some ⟨held, .unlock l :: r⟩ => some (s.set k ⟨held.erase l, r⟩)
  | _ => none

def run (s : St) : List Nat → Option St
  | [] => some s
  | k :: l => (step s k).bind fun s => run s l

/-- All threads before their first step. -/
def start (ps : List (List Op)) : St := ps.map fun p => ⟨[], p⟩

end Davs2.Lk

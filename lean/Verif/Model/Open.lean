import Verif.Model.Basic
/-
Opening the decoder: thread counts and the memory block of the manager, `davs2_decoder_open`,
/repo/source/common/davs2.cc:434-580, and `davs2_cpu_num_processors`, /repo/source/common/cpu.cc:389-407
(Linux).  `CTRL_AEC_THREAD` is 0 (defines.h:47), so `max_num_thread` is `AVS2_THREAD_MAX / 2`.
Allocation is assumed to succeed; logging and function tables are left out.
-/
namespace Davs2

/-- The processors a process may run on, as the kernel reports them: 1024 flags. -/
abbrev Affinity := Nat → Bool

/-- Byte `k` of `cpu_set_t` as filled in by `sched_getaffinity` (little endian). -/
def affByte (a : Affinity) (k : Nat) : BitVec 8 :=
  BitVec.ofNat 8 ((List.range 8).foldl (fun s i => s + (if a (8 * k + i) then 2 ^ i else 0)) 0)

/-- The loop of `davs2_cpu_num_processors`, cpu.cc:403-405; its bound is `sizeof(p_aff)`, that is 128. -/
def cpuNumProcessors (a : Affinity) : Nat :=
  (List.range 128).foldl (fun np bit => np + ((affByte a (bit / 8)).toNat >>> (bit % 8)) % 2) 0

/-- `davs2_param_t`: the fields used here. -/
structure OpenParam where
  threads : Int
  infoLevel : Int

structure MgrConfig where
  totalThreads : Int
  aecThreads : Int
  recThreads : Int
  decoders : Int
  /-- `num_es_frames` of the idle packet list, davs2.cc `create_all_lists`: `MAX_ES_FRAME_NUM` plus threads -/
  packets : Int
deriving DecidableEq, Repr

inductive OpenRes where
  | opened (c : MgrConfig)
  /-- the function returns `NULL` -/
  | failed
  /-- a null pointer is dereferenced -/
  | crash
deriving DecidableEq, Repr

/-- `davs2_decoder_open`, davs2.cc:437-578.  `param->info_level` is read at 448, before `param` is compared
with `NULL` at 459. -/
def decoderOpen (param : Option OpenParam) (a : Affinity) : OpenRes :=
  match param with
  | none => .crash
  | some p =>
    let t := if p.threads ≤ 0 then (cpuNumProcessors a : Int) else p.threads
    let t := if t > 8 then 8 else t
    let c : MgrConfig := ⟨t, t, 0, t + 1, 64 + t⟩
    if c.totalThreads < 1 ∨ c.decoders < c.aecThreads ∨ c.recThreads < 0 ∨ c.aecThreads < 1 ∨
        c.aecThreads > c.totalThreads then .failed
    else .opened c

/-- The block allocated for the manager: start of the task array and of task `i`, and size requested
(davs2.cc:481-488, 523-525), for a manager of `szMgr` and tasks of `szTask` bytes, at address `base`. -/
def mgrBlockSize (szMgr szTask : Nat) : Nat := szMgr + 32 + 16 * (szTask + 32)
def mgrTaskAddr (base szMgr szTask i : Nat) : Nat := (base + szMgr + 31) / 32 * 32 + i * szTask

end Davs2

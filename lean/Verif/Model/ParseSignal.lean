/-
Build option CTRL_AEC_THREAD 1 (source/common/defines.h:47 sets it to 0): one thread parses the LCUs of a picture, another reconstructs them.
`decode_one_lcu_row_parse`, source/common/decoder.cc:581-582, stores the number of the LCU and wakes the other thread; `wait_lcu_row_parsed`, decoder.cc:227-239, waits for it.

Simplified: one reconstructing thread (the code starts one for each picture, decoder.cc:1142-1145); its waiting for other rows and pictures is left out (it goes from the first LCU to the last and waits
only for LCUs it has reconstructed itself); no read errors.  Each access to the shared number is a step.  Waking without cause is left out: the code must not depend on it.
-/
namespace Davs2.Ps

/-- The reconstructing thread: before the first test (232), holding the mutex before the test of the loop (234), holding it after the test was true (235), asleep, woken. -/
inductive Rec | test | locked | sleepy | asleep | woken
deriving DecidableEq

structure St where
  /-- `i_parsed_lcu_xy + 1` -/
  parsed : Nat
  /-- stored, but the broadcast is still to come -/
  pending : Bool
  /-- LCUs reconstructed -/
  done : Nat
  pc : Rec
deriving DecidableEq

def start : St := ⟨0, false, 0, .test⟩

inductive Op | store | wake | recon
deriving DecidableEq

/-- One step for a picture of `n` LCUs; `none`: not possible now.  `lock`: whether the parsing thread holds the mutex while it stores; it does not in the code (`lock = false`). -/
def step (lock : Bool) (n : Nat) (s : St) : Op → Option St
  | .store =>
    if s.pending ∨ s.parsed = n ∨ (lock = true ∧ (s.pc = .locked ∨ s.pc = .sleepy)) then none
    else some { s with parsed := s.parsed + 1, pending := true }
  | .wake => if s.pending then some { s with pending := false, pc := if s.pc = .asleep then .woken else s.pc } else none
  | .recon =>
    if s.done = n then none else
    match s.pc with
    | .test => some (if s.done < s.parsed then { s with done := s.done + 1 } else { s with pc := .locked })
    | .locked => some (if s.done < s.parsed then { s with done := s.done + 1, pc := .test } else { s with pc := .sleepy })
    | .sleepy => some { s with pc := .asleep }
    | .asleep => none
    | .woken => some { s with pc := .locked }

def run (lock : Bool) (n : Nat) (s : St) : List Op → Option St
  | [] => some s
  | o :: l => (step lock n s o).bind fun s => run lock n s l

end Davs2.Ps

import Verif.Model.Basic
/-
Waiting for rows of reference pictures: /repo/source/common/cu.cc:887-911 (decoder_wait_lcu_row, decoder_wait_row),
decoder.cc:243-273 (wait_lcu_row_reconed, decoder_signal), 397-500 (decode_one_lcu_row), 1107-1189
(decoder_decode_picture_data), header.cc:951 (init_fdec).

Many pictures are decoded by the threads of the pool at the same time.  The state changes by atomic steps, chosen in any
order.  Simplifications: testing the counters and going to sleep is one step (both happen while `mutex_recon` is
held, and the counters only change under this mutex); each picture has a frame of its own (frames are not taken again
while they are referenced).  CTRL_AEC_THREAD is 0 (defines.h:47), so that `num_rec_thread` is 0 (davs2.cc:523) and
decode_lcu_row_recon is never run.
-/
namespace Davs2.Rw

/-- A picture as far as it matters here. -/
structure Pic where
  /-- `rps.refered_by_others` -/
  refd : Bool
  /-- decode_user_data has found a slice -/
  slices : Bool
  /-- check_slice_header returns -1 in row `j`, so that decode_one_lcu_row returns early -/
  fails : Nat → Bool
  /-- the calls of decoder_wait_lcu_row made for row `j`: picture and row (before clipping) -/
  waits : Nat → List (Nat × Int)

structure Cfg where
  /-- pictures in decoding order -/
  pics : List Pic
  /-- `i_width_in_lcu` -/
  w : Nat
  /-- `i_height_in_lcu` -/
  n : Nat
  threads : Nat
  /-- what `num_decoded_lcu_in_row` holds before the picture is begun -/
  stale : Nat → Nat → Int

/-- Clipping of the row, cu.cc:889-890. -/
def clipRow (n : Nat) (line : Int) : Nat := (min (max line 0) ((n : Int) - 1)).toNat

/-- The row decoder_wait_row waits for, cu.cc:905-911. -/
def rowOf (n lvl : Nat) (maxY : Int) : Nat := clipRow n ((maxY + 8) / 2 ^ lvl)

inductive Act
  /-- memset of the counters, decoder.cc:1127 -/
  | reset
  /-- decoder_wait_lcu_row for row `line` of picture `q`, cu.cc:887-902 -/
  | wait (q line : Nat)
  /-- reconstruction, filtering and padding of row `j`, decoder.cc:407-497 -/
  | recon (j : Nat)
  /-- wait_lcu_row_reconed in decoder_signal, decoder.cc:262-264 -/
  | own (j : Nat)
  /-- the assignments of decoder_signal, decoder.cc:266-269 -/
  | mark (j : Nat)
  /-- davs2_thread_cond_broadcast, decoder.cc:272 -/
  | wake (j : Nat)
  deriving DecidableEq, Repr

/-- decoder_signal, decoder.cc:258-273. -/
def signal (j : Nat) : List Act := [.own j, .mark j, .wake j]

/-- decode_one_lcu_row for row `j`, with the wait of decoder_decode_picture_data (decoder.cc:1158-1168). -/
def rowActs (n : Nat) (p : Pic) (j : Nat) : List Act :=
  (p.waits j).map (fun r => Act.wait r.1 (clipRow n r.2)) ++
    (if p.fails j then [] else Act.recon j :: if p.refd then signal j else [])

/-- decoder_decode_picture_data, decoder.cc:1107-1189. -/
def program (n : Nat) (p : Pic) : List Act :=
  if p.slices then Act.reset :: (List.range n).flatMap (rowActs n p)
  else if p.refd then (List.range n).flatMap signal
  else []

structure St where
  /-- number of pictures taken by a thread; the pool takes them in order -/
  started : Nat
  /-- what remains to be done for a picture -/
  rest : Nat → List Act
  /-- the condition variable (picture, row) a thread sleeps on -/
  asleep : Nat → Option (Nat × Nat)
  /-- `i_decoded_line` -/
  line : Nat → Int
  /-- `num_decoded_lcu_in_row` -/
  num : Nat → Nat → Int
  /-- rows that have been reconstructed -/
  recon : Nat → Nat → Bool

def Cfg.prog (c : Cfg) (p : Nat) : List Act := match c.pics[p]? with
  | some x => program c.n x
  | none => []

/-- `i_decoded_line` was set by init_fdec, header.cc:951, before the picture is given to the pool; the counters were not. -/
def Cfg.init (c : Cfg) : St := ⟨0, c.prog, fun _ => none, fun _ => -1, c.stale, fun _ _ => false⟩

/-- The condition of the loop, cu.cc:895. -/
def Cfg.blocked (c : Cfg) (s : St) (q line : Nat) : Bool := decide (s.line q < line) && decide (s.num q line < c.w + 1)

def upd {α : Type} (f : Nat → α) (p : Nat) (v : α) : Nat → α := fun q => if q = p then v else f q

/-- One step of the thread that decodes picture `p`. -/
def Cfg.exec (c : Cfg) (s : St) (p : Nat) : Act → List Act → St
  | .reset, r => { s with rest := upd s.rest p r, num := upd s.num p (fun j => if j < c.n then 0 else s.num p j) }
  | .wait q l, r => if c.blocked s q l then { s with asleep := upd s.asleep p (some (q, l)) } else { s with rest := upd s.rest p r }
  | .recon j, r => { s with rest := upd s.rest p r, recon := upd s.recon p (upd (s.recon p) j true) }
  | .own j, r =>
    if j > 0 ∧ s.num p (j - 1) < c.w + 1 then { s with asleep := upd s.asleep p (some (p, j - 1)) } else { s with rest := upd s.rest p r }
  | .mark j, r => { s with rest := upd s.rest p r, line := upd s.line p (s.line p + 1), num := upd s.num p (upd (s.num p) j (c.w + 3)) }
  | .wake j, r => { s with rest := upd s.rest p r, asleep := fun k => if s.asleep k = some (p, j) then none else s.asleep k }

/-- Number of threads at work. -/
def St.running (s : St) : Nat := ((List.range s.started).filter fun p => !(s.rest p).isEmpty).length

inductive Step (c : Cfg) : St → St → Prop
  /-- A thread of the pool takes the next picture. -/
  | start (s : St) (h : s.started < c.pics.length) (ht : s.running < c.threads) : Step c s { s with started := s.started + 1 }
  | act (s : St) (p : Nat) (a : Act) (r : List Act) (h : p < s.started) (ha : s.asleep p = none) (hr : s.rest p = a :: r) : Step c s (c.exec s p a r)

inductive Reach (c : Cfg) : St → Prop
  | init : Reach c c.init
  | step {s s' : St} : Reach c s → Step c s s' → Reach c s'

end Davs2.Rw

import Verif.Model.Dispose
/-
Packet assembly: `davs2_pack_es_unit`, `davs2_decoder_send_packet`, the first half of
`davs2_decoder_flush` and `task_unload_packet` (/repo/source/common/davs2.cc:65-152, 415-428, 626-764).

Not modelled: memory exhaustion (`es_unit_alloc` returning NULL), tracing and logging.  The decoding that
starts with each unit handed out is not part of this file; what matters here is which bytes and timestamps
are handed to it.
-/
namespace Davs2

/-- `MAX_ES_FRAME_SIZE`, /repo/source/common/defines.h. -/
def maxEsFrameSize : Nat := 4000000

/-- `es_unit_t`.  `size` is the field, `cap` the number of bytes that were allocated for `data`
(davs2.cc:69-71; rounding up to a multiple of 32 is ignored, so `cap` is at most 31 bytes too small);
`len` is `data.length`. -/
structure EsUnit where
  size : Nat
  cap  : Nat
  data : List Byte
  pts  : Int
  dts  : Int
  deriving DecidableEq, Repr

/-- `es_unit_alloc`, davs2.cc:65-85. -/
def esUnitAlloc (n : Nat) : EsUnit := ⟨n, n, [], 0, 0⟩

/-- The part of `davs2_mgr_t` concerned: the unit being assembled, the idle list, and the units that are
being decoded (those are not in any list in the code; a decoding task holds the pointer). -/
structure PackMgr where
  cur  : Option EsUnit
  idle : List EsUnit
  busy : List EsUnit
  deriving DecidableEq, Repr

/-- State after `create_all_lists`, davs2.cc:202-210: 64 + threads idle units. -/
def packInit (threads : Nat) : PackMgr :=
  ⟨none, List.replicate (64 + threads) (esUnitAlloc maxEsFrameSize), []⟩

/-- A packet as the caller sees it. -/
structure Packet where
  data : List Byte
  pts  : Int
  dts  : Int
  deriving DecidableEq, Repr

/-- What a call can do. `blocked`: it waits for an idle unit. `overflow`: a write outside a buffer.
`ub`: signed integer overflow. `oob`: a read outside the packet. -/
inductive PackRes (α : Type) where
  | ok (a : α)
  | blocked
  | overflow
  | oob
  | ub
  deriving DecidableEq, Repr

/-- Sequencing: anything but `ok` ends the call. -/
def PackRes.bind {α β : Type} : PackRes α → (α → PackRes β) → PackRes β
  | .ok a, f => f a
  | .blocked, _ => .blocked
  | .overflow, _ => .overflow
  | .oob, _ => .oob
  | .ub, _ => .ub

instance : Monad PackRes where
  pure := PackRes.ok
  bind := PackRes.bind

/-- `DAVS2_ISUNIT`, davs2.cc:103. -/
def isUnitCode (c : Byte) : Bool :=
  c == 0xB0#8 || c == 0xB1#8 || c == 0xB7#8 || c == 0xB3#8 || c == 0xB6#8

/-- Lines 139-142: append the packet to the unit. -/
def esAppend (u : EsUnit) (p : Packet) : PackRes EsUnit :=
  if u.data.length + p.data.length ≤ u.cap then
    .ok { u with data := u.data ++ p.data, pts := p.pts, dts := p.dts }
  else .overflow

/-- Lines 115-130: reallocation.  Line 124 copies the old header, so `size` keeps its old value although
the new buffer is larger. -/
def esGrow (u : EsUnit) (n : Nat) : PackRes EsUnit :=
  if u.data.length + n ≥ 2147483648 then .ub
  else if u.size < u.data.length + n then
    if u.data.length + n + maxEsFrameSize * 2 ≥ 2147483648 then .ub
    else .ok { u with cap := u.data.length + n + maxEsFrameSize * 2 }
  else .ok u

/-- Lines 108-112: the unit being assembled, fetched from the idle list if there is none. -/
def fetchUnit (m : PackMgr) : PackRes (EsUnit × List EsUnit) :=
  match m.cur with
  | some u => .ok (u, m.idle)
  | none => match m.idle with
    | [] => .blocked
    | u :: rest => .ok (u, rest)

/-- `davs2_pack_es_unit`, davs2.cc:100-152, for a packet with `len > 0`: new state and the unit to decode
(its data already cleaned, line 147). -/
def packEsUnit (m : PackMgr) (p : Packet) : PackRes (PackMgr × Option EsUnit) :=
  match p.data[3]? with
  | none => .oob
  | some code => do
    let (u, idle) ← fetchUnit m
    let u ← esGrow u p.data.length
    if isUnitCode code ∧ u.data.length > 0 then
      -- lines 133-138
      match idle with
      | [] => .blocked
      | v :: rest => do
        let v ← esAppend v p
        let ret := { u with data := disposePseudoCode u.data }
        .ok (⟨some v, rest, m.busy ++ [ret]⟩, some ret)
    else do
      let u ← esAppend u p
      .ok (⟨some u, idle, m.busy⟩, none)

/-- Argument of `davs2_decoder_send_packet`: NULL, or a structure with a possibly NULL data pointer, the
claimed length and the bytes really present behind the pointer. -/
structure ApiPacket where
  data : Option (List Byte)
  len  : Int
  pts  : Int
  dts  : Int
  deriving DecidableEq, Repr

/-- Return values, /repo/source/davs2.h. -/
inductive ApiRet where
  | error | default | gotFrame | gotHeader | ended
  deriving DecidableEq, Repr

/-- `davs2_decoder_send_packet`, davs2.cc:626-687: new state, return value and the unit that goes to
decoding. -/
def sendPacket (m : PackMgr) (pkt : Option ApiPacket) : PackRes (PackMgr × ApiRet × Option EsUnit) :=
  match pkt with
  | none => .ok (m, .error, none)
  | some p =>
    match p.data with
    | none => .ok (m, .error, none)
    | some bytes =>
      if p.len ≤ 0 then .ok (m, .error, none)
      else if p.len < 4 then .ok (m, .error, none)
      else match bytes[0]?, bytes[1]?, bytes[2]? with
        | some a, some b, some c =>
          if a ≠ 0#8 ∨ b ≠ 0#8 ∨ c ≠ 1#8 then .ok (m, .error, none)
          else if bytes.length < p.len.toNat then .oob    -- memcpy of `len` bytes, line 139
          else do
            let (m', ret) ← packEsUnit m ⟨bytes.take p.len.toNat, p.pts, p.dts⟩
            .ok (m', .default, ret)
        | _, _, _ => .oob

/-- First half of `davs2_decoder_flush`, davs2.cc:743-748: the unit that is still being assembled goes to
decoding as it is. -/
def flushUnit (m : PackMgr) : PackMgr × Option EsUnit :=
  match m.cur with
  | some u => if u.data.length ≥ 4 then (⟨none, m.idle, m.busy ++ [u]⟩, some u) else (m, none)
  | none => (m, none)

/-- `task_unload_packet`, davs2.cc:415-423: decoding of the `k`-th busy unit has ended, the unit is emptied
and appended to the idle list. -/
def finishUnit (m : PackMgr) (k : Nat) : PackMgr :=
  match m.busy[k]? with
  | some u => ⟨m.cur, m.idle ++ [{ u with data := [] }], m.busy.eraseIdx k⟩
  | none => m

/-- Everything that can happen: the caller sends a packet or flushes, a decoding task finishes. -/
inductive PackOp where
  | send (p : ApiPacket)
  | flush
  | finish (k : Nat)
  deriving DecidableEq, Repr

/-- One operation; returns the unit handed to decoding, if any. -/
def packStep (m : PackMgr) : PackOp → PackRes (PackMgr × Option EsUnit)
  | .send p => do
    let (m', _, u) ← sendPacket m (some p)
    .ok (m', u)
  | .flush => .ok (flushUnit m)
  | .finish k => .ok (finishUnit m k, none)

/-- A history of operations: final state and all units handed to decoding, in order. -/
def packRun (m : PackMgr) : List PackOp → PackRes (PackMgr × List EsUnit)
  | [] => .ok (m, [])
  | op :: ops => do
    let (m', u) ← packStep m op
    let (m'', us) ← packRun m' ops
    .ok (m'', u.toList ++ us)

end Davs2

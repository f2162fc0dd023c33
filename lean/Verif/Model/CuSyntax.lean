import Verif.Model.MotionSyntax
import Verif.Model.AecRead
/-
Parsing of whole coding units and coding trees: `cu_init`, `cu_read_header`, `cu_read_mv` (which vectors are
read), `cu_read_cbp`, `cu_read_all_coeffs`, `cu_read_info`, `cu_read_end`, `decode_lcu_parse`,
/repo/source/common/cu.cc:269-387, 430-880 and 1291-1335, with the neighbours of
/repo/source/common/block_info.cc:48-98 and /repo/source/common/aec.cc:1492-1541, 1655-1689.

Positions are in units of 8x8 samples (`scu`); the 4x4 blocks of a unit have twice these coordinates.  The derivation of
motion vectors is not part of this model (Model/Motion); it reads no symbols.
-/
namespace Davs2.Cs
open Davs2.Sx Davs2.Mo

/-- What does not change within a slice.  `frame`: I 0, P 1, B 2, F 4, S 5 (common.h:188-193). -/
structure Env where
  frame : Nat
  nrefs : Nat
  tools : Tools
  /-- `enable_nsqt` -/
  nsqt : Bool
  /-- `b_DQP` -/
  dqp : Bool
  /-- `h->i_qp` -/
  qp : Int
  /-- `h->i_slice_index` -/
  slice : Int
  /-- picture size in units of 8x8 samples -/
  w : Nat
  h : Nat
  /-- `ref_idx` of the unit at a position before it is read (from an earlier picture) -/
  old : Nat → Nat → List (Int × Int)
  /-- scaling of a level (Model/Quant): component 0, 1, 2, quantiser of the unit, `bit_size` of the block -/
  deq : Nat → Int → Nat → Int → Int

/-- The members of `cu_t` (common.h:810-850) that other units look at. -/
structure Cell where
  slice : Int
  level : Nat
  trans : Nat
  cbp : Nat
  cmode : Nat
  qp : Int
  /-- `i_weighted_skipmode` -/
  wsm : Nat

/-- `scu_data` by column and row, `p_ipredmode` and `i_last_dquant`. -/
structure Pic where
  cu : Nat → Nat → Cell
  modes : Im.Buf
  last : Int

/-- `get_neighbor_cbp_y`, block_info.cc:74-97: flag of the transform block that contains the 4x4 block `(x, y)` of the picture. -/
def cellFlag (c : Cell) (x y : Nat) : Bool :=
  if c.trans = 0 then c.cbp.testBit 0
  else
    let l := c.level - 2
    let x := x % 2 ^ l
    let y := y % 2 ^ l
    if c.trans = 2 then c.cbp.testBit (x / 2 ^ (l - 2))
    else if c.trans = 1 then c.cbp.testBit (y / 2 ^ (l - 2))
    else c.cbp.testBit (x / 2 ^ (l - 1) + 2 * (y / 2 ^ (l - 1)))

/-- `get_neighbor_cu_in_slice` and `get_neighbor_cbp_y`, block_info.cc:49-73; `cur` is the unit at `(sx, sy)`. -/
def neighbourFlag (E : Env) (S : Pic) (cur : Cell) (sx sy : Nat) (x y : Int) : Bool :=
  if x < 0 ∨ y < 0 ∨ x ≥ 2 * E.w ∨ y ≥ 2 * E.h then false
  else if 2 * (sx : Int) ≤ x ∧ 2 * (sy : Int) ≤ y then cellFlag cur x.toNat y.toNat
  else
    let c := S.cu (x.toNat / 2) (y.toNat / 2)
    if c.slice = cur.slice then cellFlag c x.toNat y.toNat else false

/-- Offset of block `b8` in the unit, in 4x4 blocks, aec.cc:1504-1520. -/
def blkOffset (trans level b8 : Nat) : Nat × Nat :=
  if trans = 1 then (0, 2 ^ level * b8 / 4 / 4)
  else if trans = 2 then (2 ^ level * b8 / 4 / 4, 0)
  else (2 ^ level * (b8 % 2) / 2 / 4, 2 ^ level * (b8 / 2) / 2 / 4)

/-- The two neighbouring flags in `aec_read_ctp_y`, aec.cc:1495-1536; `cbp` is the pattern read so far. -/
def nbFlags (E : Env) (S : Pic) (level sx sy trans b8 cbp : Nat) : Bool × Bool :=
  let cur : Cell := ⟨E.slice, level, trans, cbp, 0, 0, 0⟩
  let x : Int := 2 * sx + (blkOffset trans level b8).1
  let y : Int := 2 * sy + (blkOffset trans level b8).2
  (if trans = 2 ∧ b8 > 0 then cbp.testBit (b8 - 1) else neighbourFlag E S cur sx sy (x - 1) y,
   if trans = 1 ∧ b8 > 0 then cbp.testBit (b8 - 1) else neighbourFlag E S cur sx sy x (y - 1))

/-- `c_ipred_mode_ctx` and `i_left_cu_qp`, `cu_init`, cu.cc:282-294. -/
def leftOf (E : Env) (S : Pic) (sx sy : Nat) : Bool × Int :=
  if 0 < sx ∧ (S.cu (sx - 1) sy).slice = E.slice then
    (decide ((S.cu (sx - 1) sy).cmode ≠ 0), (S.cu (sx - 1) sy).qp)
  else (false, toInt8 E.qp)

/-- A unit as it was read.  `type` is -1 for a skipped unit (`real_cu_type`); `coeffs` lists the blocks that were read (0 to 3
luma, 4 and 5 chroma). -/
structure CuRead where
  type : Int
  wsm : Nat
  ds : Nat
  dirs : List Int
  refs : List (Int × Int)
  dmh : Int
  mvd1 : List (Option (Int × Int))
  mvd2 : List (Option (Int × Int))
  trans : Nat
  modes : List Int
  cmode : Nat
  cbp : Nat
  qp : Int
  coeffs : List (Nat × Coeffs)

section
variable {σ : Type} (m : Machine σ)

/-- The type in `cu_read_header`, cu.cc:741-756.  In S pictures, on an error and for other types than skip and direct
`i_weighted_skipmode` keeps its content (`stale`).  An error in `aec_read_cu_type` gives the type -1 and clears the flag. -/
def readType (E : Env) (level stale : Nat) : P σ (Option CuType) := do
  let r : CuType ← (if E.frame = 5 then do
      let t ← cuTypeS m
      pure ⟨t, stale, 0⟩
    else do
      match ← cuType m E.frame level E.nrefs E.tools.amp E.tools.mhp E.tools.wsm with
      | none => pure ⟨-1, stale, 0⟩
      | some r => pure (if r.type ≤ 0 then r else { r with wsm := stale }))
  if ← failed m then pure none else pure (some r)

/-- `cu_read_intrapred_mode_luma` for the blocks of a unit one after the other, cu.cc:323-387 and 776-801; also the buffer. -/
def readModes (wspu : Nat) : List Im.Blk → Im.Buf → P σ (Option (List Int) × Im.Buf)
  | [], buf => pure (some [], buf)
  | b :: bs, buf => do
    let top := buf (Im.addr wspu b.x (b.y - 1))
    let left := buf (Im.addr wspu (b.x - 1) b.y)
    let c ← intraPmode m
    if ← failed m then pure (none, buf)
    else
      let v := Im.mode top left c
      let r ← readModes wspu bs (Im.store wspu buf b v)
      match r.1 with
      | none => pure (none, r.2)
      | some vs => pure (some (v :: vs), r.2)

/-- The vector differences of one list in `cu_read_mv`, cu.cc:461-484 and 541-580: one for each prediction unit with a
direction for which `has` holds. -/
def readVecs (has : Int → Bool) : List Int → P σ (Option (List (Option (Int × Int))))
  | [] => pure (some [])
  | d :: ds => do
    if has d then
      let v ← mvds m
      if ← failed m then pure none
      else
        match ← readVecs has ds with
        | none => pure none
        | some vs => pure (some (some v :: vs))
    else
      match ← readVecs has ds with
      | none => pure none
      | some vs => pure (some (none :: vs))

/-- Differences of vectors and `dmh_mode`, `cu_read_mv`, cu.cc:432-595. -/
def readMotion (E : Env) (level k : Nat) (dirs : List Int) :
    P σ (Option (Int × List (Option (Int × Int)) × List (Option (Int × Int)))) := do
  let dmh ← (if hasDmh E.frame k level dirs then dmhMode m level else pure 0)
  if ← failed m then pure none
  else
    let pus := dirs.take (Un.numPu.getD k 0)
    match ← readVecs m (fun d => decide (d ≠ 1 ∧ E.frame ≠ 5)) pus with
    | none => pure none
    | some v1 =>
      if E.frame = 2 then
        match ← readVecs m (fun d => decide (d ≠ 0 ∧ d ≠ 2)) pus with
        | none => pure none
        | some v2 => pure (some (dmh, v1, v2))
      else pure (some (dmh, v1, []))

/-- `cu_read_cbp`, aec.cc:1655-1689: pattern, transform split, quantiser and `i_last_dquant`.  `trans0` is the split of an intra
unit, which has been read before. -/
def readCbp (E : Env) (nb : Nat → Nat → Nat → Bool × Bool) (level k trans0 : Nat) (leftQp last : Int) :
    P σ (Option (Nat × Nat × Int) × Int) := do
  let full := if k < 8 then (Un.tuSplit true E.nsqt k level).getD 0 else trans0
  let r ← cbp m (nb full) k
  let trans := if k < 8 then (Un.tuSplit r.2 E.nsqt k level).getD 0 else trans0
  let last := if r.1 = 0 then 0 else last
  let d ← (if E.dqp then (if r.1 ≠ 0 then deltaQp m 8 last else pure 0) else pure 0)
  let qp := if E.dqp then toInt8 (d + leftQp) else toInt8 E.qp
  let last := if E.dqp then d else last
  if ← failed m then pure (none, last) else pure (some (r.1, trans, qp), last)

/-- The block or the fault `table`. -/
def getBlk (b : Option Sx.Blk) : P σ Sx.Blk :=
  match b with
  | some b => pure b
  | none => fault .table

/-- Blocks that stop the reading on an error, cu.cc:670-692 and 706-727: index, block and scaling for each coded one. -/
def readBlocks : List (Nat × Option Sx.Blk × (Int → Int)) → P σ (Option (List (Nat × Coeffs)))
  | [] => pure (some [])
  | (i, b, deq) :: bs => do
    let b ← getBlk b
    let c ← blockCoeffs m b deq
    if c.pattern < 0 then pure none
    else
      match ← readBlocks bs with
      | none => pure none
      | some cs => pure (some ((i, c) :: cs))

/-- `cu_read_all_coeffs`, cu.cc:598-732.  In an unsplit unit the result of the luma block is not tested (cu.cc:643-647). -/
def readCoeffs (E : Env) (level k trans cbp : Nat) (qp : Int) (modes : List Int) : P σ (Option (List (Nat × Coeffs))) := do
  let luma (b8 : Nat) := lumaBlk k level trans b8 (modes.getD b8 0).toNat
  let first ← (if trans = 0 then
      (if cbp % 16 ≠ 0 then do
        let b ← getBlk (luma 0)
        let c ← blockCoeffs m b (E.deq 0 qp level)
        pure (some [(0, c)])
      else pure (some []))
    else readBlocks m (((List.range 4).filter fun b8 => cbp.testBit b8).map fun b8 => (b8, luma b8, E.deq 0 qp (level - 1))))
  match first with
  | none => pure none
  | some first =>
    match ← readBlocks m (((List.range 2).filter fun uv => cbp.testBit (4 + uv)).map fun uv =>
        (4 + uv, chromaBlk level trans, E.deq (1 + uv) qp (level - 1))) with
    | none => pure none
    | some second => pure (some (first ++ second))

/-- Pattern, quantiser and coefficients, cu.cc:856-873; also `i_last_dquant`. -/
def readRest (E : Env) (S : Pic) (level sx sy k trans0 : Nat) (modes : List Int) :
    P σ (Option (Nat × Nat × Int × List (Nat × Coeffs)) × Int) := do
  let r ← readCbp m E (fun full => nbFlags E S level sx sy full) level k trans0 (leftOf E S sx sy).2 S.last
  match r.1 with
  | none => pure (none, r.2)
  | some (c, tr, qp) =>
    let cs ← (if c ≠ 0 then readCoeffs m E level k tr c qp modes else pure (some []))
    match cs with
    | none => pure (none, r.2)
    | some cs => if ← failed m then pure (none, r.2) else pure (some (c, tr, qp, cs), r.2)

/-- A unit could not be read: `i_slice_nr = -1` at its corner, cu.cc:1327-1330.  Its other members are not modelled then; all
readers of this model compare the slice number first. -/
def Pic.fail (S : Pic) (sx sy : Nat) : Pic :=
  { S with cu := fun i j => if i = sx ∧ j = sy then { S.cu i j with slice := -1 } else S.cu i j }

/-- `cu_read_end`, cu.cc:299-319: the unit is copied to all its 8x8 blocks. -/
def Pic.fill (S : Pic) (level sx sy : Nat) (c : Cell) : Pic :=
  { S with cu := fun i j =>
      if sx ≤ i ∧ i < sx + 2 ^ (level - 3) ∧ sy ≤ j ∧ j < sy + 2 ^ (level - 3) then c else S.cu i j }

/-- An intra unit after its type, cu.cc:768-815, and the residual. -/
def readIntra (E : Env) (level sx sy : Nat) (ds : Nat) (S : Pic) : P σ (Option CuRead × Pic) := do
  let stale := (S.cu sx sy).wsm
  let t ← intraCuType m E.tools.sdip level
  if ← failed m then pure (none, S.fail sx sy)
  else
    let trans := t.2.getD 0
    let r ← readModes m (2 * E.w) (Im.cuBlks (2 * sx) (2 * sy) level t.1 trans) S.modes
    let S := { S with modes := r.2 }
    match r.1 with
    | none => pure (none, S.fail sx sy)
    | some modes =>
      let c ← intraPmodeC m (leftOf E S sx sy).1 (Im.luma2chroma (modes.getD 0 0).toNat)
      if ← failed m then pure (none, S.fail sx sy)
      else
        let r ← readRest m E S level sx sy t.1 trans modes
        let S := { S with last := r.2 }
        match r.1 with
        | none => pure (none, S.fail sx sy)
        | some (p, tr, qp, cs) =>
          pure (some ⟨t.1, stale, ds, [-1, -1, -1, -1], [], 0, [], [], tr, modes, c, p, qp, cs⟩,
            S.fill level sx sy ⟨E.slice, level, tr, p, c, qp, stale⟩)

/-- An inter unit after its type, cu.cc:758-764 and 840-873. -/
def readInter (E : Env) (level sx sy : Nat) (r : CuType) (S : Pic) : P σ (Option CuRead × Pic) := do
  let k := (max 0 r.type).toNat
  let d ← interPredDir m E.frame k level E.nrefs r.wsm r.ds E.tools.dhp (E.old sx sy)
  if ← failed m then pure (none, S.fail sx sy)
  else
    let v ← (if k = 0 then pure (some (0, [], [])) else readMotion m E level k d.1)
    match v with
    | none => pure (none, S.fail sx sy)
    | some (dmh, v1, v2) =>
      if r.type < 0 then
        if ← failed m then pure (none, S.fail sx sy)
        else
          let qp := (leftOf E S sx sy).2
          pure (some ⟨r.type, r.wsm, r.ds, d.1, d.2, dmh, v1, v2, 0, [], 0, 0, qp, []⟩,
            S.fill level sx sy ⟨E.slice, level, 0, 0, 0, qp, r.wsm⟩)
      else
        let q ← readRest m E S level sx sy k 0 []
        let S := { S with last := q.2 }
        match q.1 with
        | none => pure (none, S.fail sx sy)
        | some (p, tr, qp, cs) =>
          pure (some ⟨r.type, r.wsm, r.ds, d.1, d.2, dmh, v1, v2, tr, [], 0, p, qp, cs⟩,
            S.fill level sx sy ⟨E.slice, level, tr, p, 0, qp, r.wsm⟩)

/-- `cu_read_info`, cu.cc:820-883, with the marking of errors by its caller. -/
def readCu (E : Env) (level sx sy : Nat) (S : Pic) : P σ (Option CuRead × Pic) := do
  match ← readType m E level (S.cu sx sy).wsm with
  | none => pure (none, S.fail sx sy)
  | some r =>
    if r.type ≤ 7 then readInter m E level sx sy r S
    else readIntra m E level sx sy r.ds S

/-- A unit with its position and level. -/
structure Leaf (α : Type) where
  sx : Nat
  sy : Nat
  level : Nat
  val : α

/-- `decode_lcu_parse`, cu.cc:1291-1335: units in order; `none` for a unit that could not be read.  The first argument is
`i_level - 3`.  The results of the recursive calls are not used. -/
def readTree (E : Env) : Nat → Nat → Nat → Pic → P σ (List (Leaf (Option CuRead)) × Pic)
  | 0, sx, sy, S => do
    let r ← readCu m E 3 sx sy S
    pure ([⟨sx, sy, 3, r.1⟩], r.2)
  | n + 1, sx, sy, S => do
    let split ← (if sx + 2 ^ (n + 1) ≤ E.w ∧ sy + 2 ^ (n + 1) ≤ E.h then splitFlag m (n + 4) else pure true)
    if split then
      let a ← (if sx < E.w ∧ sy < E.h then readTree E n sx sy S else pure ([], S))
      let b ← (if sx + 2 ^ n < E.w ∧ sy < E.h then readTree E n (sx + 2 ^ n) sy a.2 else pure ([], a.2))
      let c ← (if sx < E.w ∧ sy + 2 ^ n < E.h then readTree E n sx (sy + 2 ^ n) b.2 else pure ([], b.2))
      let d ← (if sx + 2 ^ n < E.w ∧ sy + 2 ^ n < E.h then readTree E n (sx + 2 ^ n) (sy + 2 ^ n) c.2 else pure ([], c.2))
      pure (a.1 ++ b.1 ++ c.1 ++ d.1, d.2)
    else
      let r ← readCu m E (n + 4) sx sy S
      pure ([⟨sx, sy, n + 4, r.1⟩], r.2)

end

end Davs2.Cs

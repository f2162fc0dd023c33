import Verif.Model.Aec
import Verif.Model.Units
import Verif.Model.IntraMode
import Verif.Model.Mv
/-
Syntax elements of the coding units, /repo/source/common/aec.cc:801-2222, and the caller that reads the
coefficients, /repo/source/common/cu.cc:598-734.

The functions run over an abstract arithmetic decoder (`Machine`); `aecMachine` is the one of Model/Aec.
Every use of a context names the array (member of `context_set_t`, /repo/source/common/common.h:490-520) and
the index; an index outside the array, like an index outside a constant table, is the fault `table`.  An
`int` result that is not representable (also `1 << 31`) is the fault `arith`.  A failure inside the
arithmetic decoder itself is the fault `reader`.
Not modelled: traces (`AVS2_TRACE`), logging, CHROMA_400.
-/
namespace Davs2.Sx

/-- Arrays of contexts, common.h:490-520. -/
inductive Arr
  | cuType | intraPuType | split | tuSplit | amp | refIdx | cbp | mvd0 | mvd1 | puType | bPuMin | subtype
  | wsm | dqp | lumaMode | chromaMode | run (uv : Bool) (k : Nat) | level | lastCg | sigCg | lastPos
  | saoMerge | saoMode | saoOff | alf
  deriving DecidableEq

/-- Number of contexts, common.h:409-444; `coeff_run` is `[2][NUM_BLOCK_TYPES = 3][NUM_MAP_CTX = 11]`. -/
def Arr.size : Arr → Nat
  | cuType => 6 | intraPuType => 1 | split => 3 | tuSplit => 3 | amp => 2 | refIdx => 3 | cbp => 9
  | mvd0 => 3 | mvd1 => 3 | puType => 15 | bPuMin => 2 | subtype => 4 | wsm => 3 | dqp => 4
  | lumaMode => 7 | chromaMode => 3 | run _ k => if k < 3 then 11 else 0 | level => 40 | lastCg => 12
  | sigCg => 3 | lastPos => 60 | saoMerge => 3 | saoMode => 1 | saoOff => 2 | alf => 12

/-- The arithmetic decoder as the syntax functions see it. -/
structure Machine (σ : Type) where
  /-- `biari_decode_symbol` -/
  sym : Arr → Nat → σ → Option (Bool × σ)
  /-- `biari_decode_symbol_eq_prob` -/
  eq : σ → Option (Bool × σ)
  /-- `biari_decode_final` -/
  fin : σ → Option (Bool × σ)
  /-- `biari_decode_symbol_continue0`: context and largest value -/
  run0 : Arr → Nat → Nat → σ → Option (Nat × σ)
  /-- `biari_decode_symbol_continu0_ext`: first context, largest context increment, largest value -/
  runExt : Arr → Nat → Nat → Nat → σ → Option (Nat × σ)
  /-- `b_bit_error` -/
  err : σ → Bool
  /-- `b_bit_error = 0` -/
  clear : σ → σ

inductive Fault
  | table | arith | reader
  deriving DecidableEq, Repr

/-- A piece of syntax decoding. -/
def P (σ α : Type) : Type := σ → Except Fault (α × σ)

instance {σ : Type} : Monad (P σ) where
  pure a := fun s => .ok (a, s)
  bind p f := fun s => match p s with
    | .ok (a, s) => f a s
    | .error e => .error e

section
variable {σ : Type} (m : Machine σ)

def fault {α : Type} (f : Fault) : P σ α := fun _ => .error f

/-- Result of the decoder, or the fault `reader`. -/
def lift {α : Type} (f : σ → Option (α × σ)) : P σ α := fun s =>
  match f s with
  | some r => .ok r
  | none => .error .reader

/-- `biari_decode_symbol(p_aec, ctx + i)`. -/
def sym (a : Arr) (i : Nat) : P σ Bool := if i < a.size then lift (m.sym a i) else fault .table

/-- `biari_decode_symbol_eq_prob`. -/
def eqp : P σ Bool := lift m.eq

/-- `biari_decode_final`. -/
def fin : P σ Bool := lift m.fin

/-- `biari_decode_symbol_continue0(p_aec, ctx + i, max)`; with `max = 0` no context is used. -/
def run0 (a : Arr) (i max : Nat) : P σ Nat :=
  if i < a.size ∨ max = 0 then lift (m.run0 a i max) else fault .table

/-- `biari_decode_symbol_continu0_ext(p_aec, ctx + i, inc, max)`: the contexts are `i + min k inc` for
`k < max`. -/
def runExt (a : Arr) (i inc max : Nat) : P σ Nat :=
  if max = 0 ∨ i + min (max - 1) inc < a.size then lift (m.runExt a i inc max) else fault .table

/-- The test of `AEC_RETURN_ON_ERROR`, aec.h:117-122: the flag is cleared. -/
def failed : P σ Bool := fun s => if m.err s then .ok (true, m.clear s) else .ok (false, s)

/-- An `int` value. -/
def i32 (v : Int) : P σ Int := if -2147483648 ≤ v ∧ v ≤ 2147483647 then pure v else fault .arith

/-- Entry of a constant table. -/
def tab {α : Type} (l : List α) (i : Int) : P σ α :=
  if 0 ≤ i then match l[i.toNat]? with
    | some v => pure v
    | none => fault .table
  else fault .table

/-- `1 << n` -/
def shl1 (n : Nat) : P σ Int := i32 ((2 ^ n : Nat) : Int)

def bit (b : Bool) : Int := if b then 1 else 0

/-- `aec_read_split_flag`, aec.cc:2210-2222. -/
def splitFlag (level : Nat) : P σ Bool := if 4 ≤ level then sym m .split (level - 4) else fault .table

/-- `aec_read_dmh_mode`, aec.cc:803-827. -/
def dmhMode (level : Nat) : P σ Int := do
  let c := (level - 3) * 3 + 3
  if ← sym m .puType c then
    if ← sym m .puType (c + 1) then
      if ← sym m .puType (c + 2) then
        let b3 ← eqp m
        let b4 ← eqp m
        pure (1 + 4 * bit b3 + bit b4)
      else
        let b ← eqp m
        pure (7 + bit b)
    else
      let b ← eqp m
      pure (3 + bit b)
  else pure 0

/-- Prefix of the Exp-Golomb code, aec.cc:850-861 and 2049-2057: `1 << golomb_order` is added for each zero
bin.  The code has no limit; `fuel` counts down to the first shift that is out of range.  `none` if the
error flag was found set. -/
def golombPrefix : Nat → Nat → Int → P σ (Option (Nat × Int))
  | 0, _, _ => fault .arith
  | fuel + 1, order, acc => do
    let l ← eqp m
    if ← failed m then pure none
    else if l then pure (some (order, acc))
    else do
      let t ← shl1 order
      let acc ← i32 (acc + t)
      golombPrefix fuel (order + 1) acc

/-- Suffix of the Exp-Golomb code, aec.cc:863-868 and 2059-2063: `order` bins, most significant first. -/
def golombSuffix : Nat → Int → P σ Int
  | 0, acc => pure acc
  | order + 1, acc => do
    let b ← eqp m
    golombSuffix order (if b then acc + 2 ^ order else acc)

/-- Sign and end of `aec_read_mvd`, aec.cc:874-880. -/
def mvdSign (v : Int) : P σ Int := do
  if v ≠ 0 then
    if ← eqp m then pure (-v) else pure v
  else pure v

/-- `aec_read_mvd`, aec.cc:834-881. -/
def mvd (a : Arr) : P σ Int := do
  if ← sym m a 0 then
    if ← sym m a 1 then
      if ← sym m a 2 then
        let add ← eqp m
        match ← golombPrefix m 32 0 0 with
        | none => pure 0
        | some (order, acc) =>
          let b ← golombSuffix m order 0
          let v ← i32 (acc + b)
          let v ← i32 (2 * v)
          let v ← i32 (v + 3 + bit add)
          mvdSign m v
      else mvdSign m 2
    else mvdSign m 1
  else mvdSign m 0

/-- Conversion to `int16_t`. -/
def toInt16 (v : Int) : Int := (v + 2 ^ 15) % 2 ^ 16 - 2 ^ 15

/-- Conversion to `int8_t`. -/
def i8 (v : Int) : Int := (v + 2 ^ 7) % 2 ^ 8 - 2 ^ 7

/-- `aec_read_mvds`, aec.cc:886-890. -/
def mvds : P σ (Int × Int) := do
  let x ← mvd m .mvd0
  let y ← mvd m .mvd1
  pure (toInt16 x, toInt16 y)

/-- `aec_read_wpm`, aec.cc:896-901. -/
def wpm (nrefs : Nat) : P σ Nat := runExt m .wsm 0 2 (nrefs - 1)

/-- `aec_read_dir_skip_mode`, aec.cc:905-914. -/
def dirSkip : P σ Nat := do
  let k ← runExt m .subtype 0 32768 3
  if k = 3 then
    let b ← sym m .subtype 3
    pure (k + (!b).toNat)
  else pure k

/-- `aec_read_intra_cu_type`, aec.cc:949-982: type of the unit and transform split (Model/Units). -/
def intraCuType (sdip : Bool) (level : Nat) : P σ (Nat × Option Nat) := do
  let s := decide (level = 5 ∨ level = 4) && sdip
  let split ← (if level = 3 ∨ s then sym m .tuSplit (1 + s.toNat) else pure false)
  let b ← (if split && s then sym m .intraPuType 0 else pure false)
  pure (Un.intraType sdip level split b)

/-- Loop of `aec_read_cu_type`, aec.cc:1006-1024; `none` on error. -/
def cuTypeLoop (level : Nat) : Nat → Nat → P σ (Option Nat)
  | 0, k => pure (some k)
  | n + 1, k => do
    let b ← (if k = 5 ∧ level ≠ 3 then fin m else sym m .cuType (min 5 k))
    if ← failed m then pure none
    else if b then pure (some k) else cuTypeLoop level n (k + 1)

/-- `MAP_CU_TYPE`, aec.cc:991-994; the second row has a seventh entry 0. -/
def mapCuType (level : Nat) : List Int :=
  if level = 3 then [-1, 0, 1, 2, 3, 9, 0] else [-1, 0, 1, 2, 3, -1, 9]

/-- Result of `aec_read_cu_type`: type, weighted skip mode and direct/skip mode (for types below 1). -/
structure CuType where
  type : Int
  wsm : Nat
  ds : Nat

/-- Last part of `aec_read_cu_type`, aec.cc:1051-1073 (frame types: F is 4, B is 2). -/
def cuTypeSkip (frame nrefs : Nat) (mhp wsm : Bool) (t : Int) : P σ CuType := do
  if t ≤ 0 then
    let w ← (if frame = 4 ∧ wsm ∧ nrefs > 1 then wpm m nrefs else pure 0)
    let d ← (if w = 0 ∧ ((mhp ∧ frame = 4) ∨ frame = 2) then dirSkip m else pure 0)
    pure ⟨t, w, d⟩
  else pure ⟨t, 0, 0⟩

/-- `aec_read_cu_type`, aec.cc:988-1076; I pictures have type 0. `none` stands for the return of -1 with the
flag cleared. -/
def cuType (frame level nrefs : Nat) (amp mhp wsm : Bool) : P σ (Option CuType) := do
  if frame = 0 then
    let r ← cuTypeSkip m frame nrefs mhp wsm 9
    pure (some r)
  else
    match ← cuTypeLoop m level (if level = 3 then 5 else 6) 0 with
    | none => pure none
    | some k =>
      let t ← tab (mapCuType level) k
      let t ← (if level ≥ 4 ∧ amp ∧ (t = 2 ∨ t = 3) then do
          if ← sym m .amp 0 then pure t
          else
            let b ← sym m .amp 1
            pure (t * 2 + bit (!b))
        else pure t)
      let r ← cuTypeSkip m frame nrefs mhp wsm t
      pure (some r)

/-- `aec_read_cu_type_sframe`, aec.cc:1079-1105; both rounds of the loop. -/
def cuTypeS : P σ Int := do
  if ← sym m .cuType 0 then tab [-1, 0, 9] 0
  else if ← sym m .cuType 1 then tab [-1, 0, 9] 1
  else tab [-1, 0, 9] 2

/-- `dir2offset`, aec.cc:1112-1117. -/
def dir2offset : List (List Int) := [[0, 2, 4, 9], [3, 1, 5, 10], [6, 7, 8, 11], [12, 13, 14, 15]]

/-- `dir2offset[a][b]` -/
def dirOff (a b : Int) : P σ Int := do
  let r ← tab dir2offset a
  tab r b

/-- Second direction of a B picture, aec.cc:1153-1199, for the first direction `d`. -/
def bPdir2 (d : Nat) : P σ Nat := do
  if ← sym m .puType 6 then pure d
  else match d with
    | 0 => if ← sym m .puType 7 then pure 1 else (if ← sym m .puType 8 then pure 2 else pure 3)
    | 1 => if ← sym m .puType 9 then pure 0 else (if ← sym m .puType 10 then pure 2 else pure 3)
    | 2 => if ← sym m .puType 11 then pure 0 else (if ← sym m .puType 12 then pure 1 else pure 3)
    | 3 => if ← sym m .puType 13 then pure 0 else (if ← sym m .puType 14 then pure 1 else pure 2)
    | _ => pure 0

/-- `aec_read_b_pdir`, aec.cc:1110-1213, for types 1 (2Nx2N) to 7. -/
def bPdir (type level : Nat) : P σ Int := do
  if type = 1 then
    let k ← runExt m .puType 0 32768 2
    if k = 2 then
      let b ← sym m .puType 2
      pure (k + bit (!b))
    else pure k
  else if (2 ≤ type ∧ type ≤ 7) ∧ level = 3 then
    let b ← sym m .bPuMin 0
    let p0 := !b
    let c ← sym m .bPuMin 1
    dirOff (bit p0) (bit (if c then p0 else !p0))
  else
    let k ← runExt m .puType 3 32768 2
    let p0 ← (if k = 2 then do
        let b ← sym m .puType 5
        pure (k + (!b).toNat)
      else pure k)
    let p1 ← bPdir2 m p0
    let a ← tab [3, 1, 0, 2] p0
    let b ← tab [3, 1, 0, 2] p1
    dirOff a b

/-- `aec_read_pdir_dhp`, aec.cc:1219-1256. -/
def pdirDhp (type : Nat) : P σ Int := do
  if type = 1 then
    let b ← sym m .puType 0
    pure (bit b)
  else
    let b0 ← sym m .puType 1
    let s ← sym m .puType 2
    let b1 := if s then b0 else !b0
    let r ← tab [[0, 1], [2, 3]] (bit b0)
    tab r (bit b1)

/- Prediction directions: `PDIR_FWD = 0, BWD = 1, SYM = 2, BID = 3, DUAL = 4`, `PDIR_INVALID = -1`. -/

/-- `IS_HOR_PU_PART` or `IS_VER_PU_PART`, common.h (masks 0x0434 and 0x08C8). -/
def hvPart (type : Nat) : Bool := (0x0434 ||| 0x08C8) / 2 ^ type % 2 == 1

/-- `cu_set_pdir_PFframe`, aec.cc:1261-1287: directions of the four entries. -/
def setPdirPF (type : Nat) (pdir : Int) : P σ (List Int) := do
  if type = 1 then
    let d : Int := if pdir = 0 then 0 else 4
    pure [d, d, d, d]
  else if hvPart type then
    let a ← tab [0, 0, 4, 4] pdir
    let b ← tab [0, 4, 0, 4] pdir
    pure [a, b, a, b]
  else pure [-1, -1, -1, -1]

/-- Tables of `cu_set_pdir_Bframe`, aec.cc:1294-1301; `B_FWD = 1, B_BWD = 0, INVALID_REF = -1`. -/
def pdir0B : List Int := [0, 1, 0, 1, 0, 1, 2, 2, 2, 0, 1, 2, 3, 3, 3, 3]
def pdir1B : List Int := [0, 1, 1, 0, 2, 2, 0, 1, 2, 3, 3, 3, 0, 1, 2, 3]
def pdir2refidx : List (Int × Int) := [(1, -1), (-1, 0), (1, 0), (1, 0)]
/-- `tab_pdir_bskip`, aec.cc:129-131. -/
def pdirBskip : List Int := [2, 3, 1, 2, 0]

def refsOf : List Int → P σ (List (Int × Int))
  | [] => pure []
  | d :: ds => do
    let r ← tab pdir2refidx d
    let rs ← refsOf ds
    pure (r :: rs)

/-- `cu_set_pdir_Bframe`, aec.cc:1292-1337: directions and reference indices of the four entries. -/
def setPdirB (type ds : Nat) (pdir : Int) : P σ (List Int × List (Int × Int)) := do
  let dirs ←
    (if type = 0 then do
      let d ← tab pdirBskip ds
      pure [d, d, d, d]
    else if type = 1 then pure [pdir, pdir, pdir, pdir]
    else if hvPart type then do
      let a ← tab pdir0B pdir
      let b ← tab pdir1B pdir
      pure [a, b, a, b]
    else pure [-1, -1, -1, -1])
  let refs ← refsOf dirs
  pure (dirs, refs)

/-- Loop of `aec_read_ref_frame`, aec.cc:1355-1358: at most `n` further steps, `k` is the index so far. -/
def refFrameLoop : Nat → Nat → P σ Nat
  | 0, k => pure k
  | n + 1, k => do
    if ← sym m .refIdx (min 2 k) then pure k else refFrameLoop n (k + 1)

/-- `aec_read_ref_frame`, aec.cc:1343-1362.  The loop stops at `num_of_references - 1`; the function is only
called with at least two references. -/
def refFrame (nrefs : Nat) : P σ Nat := do
  if ← sym m .refIdx 0 then pure 0 else refFrameLoop m (nrefs - 2) 1

/-- `cu_read_references`, aec.cc:1370-1397: reference indices of the prediction units, `old` being the
content of `ref_idx` before.  On error the remaining entries keep their content; the return value -1 is not
used by the caller. -/
def readReferences (nrefs : Nat) (dirs : List Int) : Nat → List (Int × Int) → P σ (List (Int × Int))
  | 0, _ => pure []
  | n + 1, old => do
    let i := dirs.length - (n + 1)
    if nrefs > 1 then
      let r ← refFrame m nrefs
      if ← failed m then pure old
      else do
        let d ← tab dirs i
        let rest ← readReferences nrefs dirs n old.tail
        pure (((r : Int), if d = 4 then (if r = 0 then 1 else 0) else -1) :: rest)
    else do
      let d ← tab dirs i
      let rest ← readReferences nrefs dirs n old.tail
      pure ((0, if d = 4 then 1 else -1) :: rest)

/-- `aec_read_inter_pred_dir`, aec.cc:1402-1436: directions of the four entries and reference indices of the
prediction units (frame types P 1, B 2, F 4, S 5). -/
def interPredDir (frame type level nrefs wsm ds : Nat) (dhp : Bool) (old : List (Int × Int)) :
    P σ (List Int × List (Int × Int)) := do
  if frame = 2 then
    let pdir ← (if 1 ≤ type ∧ type ≤ 7 then bPdir m type level else pure 0)
    setPdirB type ds pdir
  else
    let dirs ←
      (if type = 0 then
        let d : Int := if wsm ≠ 0 ∨ ds = 1 ∨ ds = 2 then 4 else 0
        pure [d, d, d, d]
      else do
        let pdir ← (if (frame = 4 ∧ nrefs > 1 ∧ dhp) ∧ ¬ (level = 3 ∧ 2 ≤ type ∧ type ≤ 7)
          then pdirDhp m type else pure 0)
        setPdirPF type pdir)
    if frame ≠ 5 ∧ type ≠ 0 then
      let n := if type = 1 then 1 else 2
      let refs ← readReferences m nrefs (dirs.take n) n old
      pure (dirs, refs)
    else pure (dirs, old)

/-- `aec_read_intra_pmode`, aec.cc:1441-1461. -/
def intraPmode : P σ Int := do
  if ← sym m .lumaMode 0 then
    let b ← sym m .lumaMode 6
    pure (bit b - 2)
  else
    let b1 ← sym m .lumaMode 1
    let b2 ← sym m .lumaMode 2
    let b3 ← sym m .lumaMode 3
    let b4 ← sym m .lumaMode 4
    let b5 ← sym m .lumaMode 5
    pure (16 * bit b1 + 8 * bit b2 + 4 * bit b3 + 2 * bit b4 + bit b5)

/-- `unary_bin_max_decode`, aec.cc:761-778. -/
def unaryMax (a : Arr) (i off max : Nat) : P σ Nat := do
  if ← sym m a i then pure 0
  else if max = 1 then pure 0
  else do
    let k ← run0 m a (i + off) (max - 1)
    pure (1 + k)

/-- `aec_read_cu_delta_qp`, aec.cc:1467-1489. -/
def deltaQpRaw (last : Int) : P σ Int := do
  let s ← sym m .dqp (if last = 0 then 0 else 1)
  let a : Nat ← (if s then pure 0 else do
    let k ← unaryMax m .dqp 2 1 256
    pure (k + 1))
  let d : Int := ((a + 1) / 2 : Nat)
  pure (if a % 2 = 0 then -d else d)

/-- The part of `cu_read_cbp` that reads the quantiser difference, aec.cc:1664-1679. -/
def deltaQp (bitDepth : Nat) (last : Int) : P σ Int := do
  let mx : Int := 32 + 4 * (bitDepth - 8)
  let d ← deltaQpRaw m last
  let d := i8 d
  pure (if d < -mx ∨ d > mx then clip3 (-mx) mx d else d)

/-- `aec_read_ctp_y`, aec.cc:1494-1540; `nb` gives the coded flags of the left and upper neighbours (each a
bit, aec.cc:1523-1537 and `get_neighbor_cbp_y`, /repo/source/common/block_info.cc:70-98) for block `b8` and
the pattern read so far. -/
def ctpY (nb : Nat → Nat → Bool × Bool) (b8 cbp : Nat) : P σ Bool :=
  let (a, b) := nb b8 cbp
  sym m .cbp (a.toNat + 2 * b.toNat)

/-- The luma flags of the four blocks. -/
def ctpY4 (nb : Nat → Nat → Bool × Bool) (c : Nat) : P σ Nat := do
  let b0 ← ctpY m nb 0 0
  let c := c + b0.toNat
  let b1 ← ctpY m nb 1 c
  let c := c + 2 * b1.toNat
  let b2 ← ctpY m nb 2 c
  let c := c + 4 * b2.toNat
  let b3 ← ctpY m nb 3 c
  pure (c + 8 * b3.toNat)

/-- Chroma flags, aec.cc:1560-1572 and 1626-1639, with the first context. -/
def ctpC (i : Nat) : P σ Nat := do
  if ← sym m .cbp i then
    if ← sym m .cbp (i + 1) then pure 48
    else if ← sym m .cbp (i + 1) then pure 32 else pure 16
  else pure 0

/-- `aec_read_cbp`, aec.cc:1545-1651: coded block pattern and transform split flag (the split of intra units
has been read before).  `type` is the type of the unit; types 8 to 11 are intra. -/
def cbp (nb : Nat → Nat → Bool × Bool) (type : Nat) : P σ (Nat × Bool) := do
  if type < 8 then
    let z ← (if type ≠ 0 then sym m .cbp 8 else pure false)
    if z then pure (0, true)
    else
      let split ← sym m .tuSplit 0
      let c ← ctpC m 4
      if split then
        let c ← ctpY4 m nb c
        pure (c, true)
      else if c = 0 then pure (1, false)
      else
        let b ← ctpY m nb 0 0
        pure (c + b.toNat, false)
  else
    let c ← (if type = 8 then do
        let b ← ctpY m nb 0 0
        pure b.toNat
      else ctpY4 m nb 0)
    let u ← ctpC m 6
    pure (c + u, false)

/-- `aec_read_intra_pmode_c`, aec.cc:1693-1719; `lm` is `tab_intra_mode_luma2chroma[luma_mode]`. -/
def intraPmodeC (leftC : Bool) (lm : Option Nat) : P σ Nat := do
  if ← sym m .chromaMode leftC.toNat then pure 0
  else
    let k ← unaryMax m .chromaMode 2 0 3
    let a := k + 1
    match lm with
    | some l => if a ≥ l then (if a = 4 then pure 4 else pure (a + 1)) else pure a
    | none => pure a

/-! ### Coefficients -/

/-- Scans, /repo/source/common/scantab.h:48-131; entries are (x, y). -/
def scan2x2 : List (Nat × Nat) := [(0,0), (1,0), (0,1), (1,1)]
def scan4x4 : List (Nat × Nat) := [(0,0), (1,0), (0,1), (0,2), (1,1), (2,0), (3,0), (2,1), (1,2), (0,3), (1,3),
  (2,2), (3,1), (3,2), (2,3), (3,3)]
def scan8x8 : List (Nat × Nat) := [
  (0,0), (1,0), (0,1), (0,2), (1,1), (2,0), (3,0), (2,1),
  (1,2), (0,3), (0,4), (1,3), (2,2), (3,1), (4,0), (5,0),
  (4,1), (3,2), (2,3), (1,4), (0,5), (0,6), (1,5), (2,4),
  (3,3), (4,2), (5,1), (6,0), (7,0), (6,1), (5,2), (4,3),
  (3,4), (2,5), (1,6), (0,7), (1,7), (2,6), (3,5), (4,4),
  (5,3), (6,2), (7,1), (7,2), (6,3), (5,4), (4,5), (3,6),
  (2,7), (3,7), (4,6), (5,5), (6,4), (7,3), (7,4), (6,5),
  (5,6), (4,7), (5,7), (6,6), (7,5), (7,6), (6,7), (7,7)]
def scan1x4 : List (Nat × Nat) := [(0,0), (1,0), (2,0), (3,0)]
def scan4x1 : List (Nat × Nat) := [(0,0), (0,1), (0,2), (0,3)]
def scan2x8 : List (Nat × Nat) := [(0,0), (1,0), (0,1), (1,1), (2,0), (3,0), (2,1), (3,1),
  (4,0), (5,0), (4,1), (5,1), (6,0), (7,0), (6,1), (7,1)]
def scan8x2 : List (Nat × Nat) := [(0,0), (1,0), (0,1), (0,2), (1,1), (1,2), (0,3), (0,4),
  (1,3), (1,4), (0,5), (0,6), (1,5), (1,6), (0,7), (1,7)]

/-- `tab_scan_cg`, scantab.h:435-444; the null pointers are empty lists. -/
def scanCg : List (List (List (Nat × Nat))) := [
  [scan2x2, [], [], scan2x2],
  [scan2x2, scan1x4, scan4x1, scan2x2],
  [scan4x4, scan2x8, scan8x2, scan4x4],
  [scan8x8, [], [], scan8x8]]

/-- `raster2ZZ_*`, aec.cc:79-112. -/
def raster4x4 : List Nat := [0, 1, 5, 6, 2, 4, 7, 12, 3, 8, 11, 13, 9, 10, 14, 15]
def raster8x8 : List Nat := [
  0, 1, 5, 6, 14, 15, 27, 28,
  2, 4, 7, 13, 16, 26, 29, 42,
  3, 8, 12, 17, 25, 30, 41, 43,
  9, 11, 18, 24, 31, 40, 44, 53,
  10, 19, 23, 32, 39, 45, 52, 54,
  20, 22, 33, 38, 46, 51, 55, 60,
  21, 34, 37, 47, 50, 56, 59, 61,
  35, 36, 48, 49, 57, 58, 62, 63]
def raster2x8 : List Nat := [0, 1, 4, 5, 8, 9, 12, 13, 2, 3, 6, 7, 10, 11, 14, 15]
def raster8x2 : List Nat := [0, 1, 2, 4, 3, 5, 6, 8, 7, 9, 10, 12, 11, 13, 14, 15]

/-- `T_Chr` and `tab_rank`, aec.cc:76-77. -/
def tChr : List Int := [0, 1, 2, 4, 3000]
def tabRank : List Nat := [0, 1, 2, 3, 3, 4]

/-- Parameters of one call of `cu_get_block_coeffs`. -/
structure Blk where
  luma : Bool
  /-- `is_dc_diag` -/
  diag : Bool
  /-- `b_swap_xy` -/
  swap : Bool
  /-- `i_trans_size` of the unit -/
  trans : Nat
  w : Nat
  h : Nat
  /-- `cg_scan` -/
  scan : List (Nat × Nat)
  deriving DecidableEq

/-- Is the block a luma block of a horizontal / vertical split. -/
def Blk.hor (b : Blk) : Bool := b.luma && b.trans == 1
def Blk.ver (b : Blk) : Bool := b.luma && b.trans == 2

/-- `aec_read_last_cg_pos`, aec.cc:1723-1793, with the number of groups and the last entry of the scan: index
and position of the last group. -/
def lastCgPos (b : Blk) (numCg : Nat) (nx ny : Nat) : P σ (Nat × Nat × Nat) := do
  let c := if b.luma then 0 else 6
  let d := b.luma && b.diag
  let (nx, ny) := if d then (ny, nx) else (nx, ny)
  if numCg = 4 then
    let k ← runExt m .lastCg c 2 3
    if b.hor then pure (k, k, 0)
    else if b.ver then pure (k, 0, k)
    else pure (k, k % 2, k / 2)
  else
    let (x, y) ← (do
      if ← sym m .lastCg (c + 3) then
        let x ← run0 m .lastCg (c + 4) nx
        if x = 0 then
          let y ← (if ny ≠ 1 then run0 m .lastCg (c + 5) (ny - 1) else pure 0)
          pure (x, y + 1)
        else
          let y ← run0 m .lastCg (c + 5) ny
          pure (x, y)
      else pure (0, 0))
    let (x, y) := if d then (y, x) else (x, y)
    let k ←
      (if b.hor then tab raster2x8 (y * 8 + x : Nat)
      else if b.ver then tab raster8x2 (y * 2 + x : Nat)
      else if numCg = 16 then tab raster4x4 (y * 4 + x : Nat)
      else tab raster8x8 (y * 8 + x : Nat))
    pure (k, x, y)

/-- `aec_read_last_coeff_pos_in_cg`, aec.cc:1798-1834. -/
def lastPos (b : Blk) (rank cx cy : Nat) (one : Bool) : P σ Nat := do
  let r0 := if rank = 0 then 1 else 0
  let off :=
    if !b.luma then 48 + (if one then 0 else 4 + r0 * 4)
    else if one then 40 + b.diag.toNat * 4
    else if cx ≠ 0 ∧ cy ≠ 0 then 32 + r0 * 4
    else (4 * r0 + 2 * (if cx = 0 ∧ cy = 0 then 1 else 0) + b.diag.toNat) * 4
  let xx ← runExt m .lastPos off 1 3
  let yy ← runExt m .lastPos (off + 2) 1 3
  let (xx, yy) := if cx = 0 ∧ cy > 0 ∧ b.diag then (yy, xx) else (xx, yy)
  let (xx, yy) : Int × Int :=
    if rank ≠ 0 then (3 - xx, if b.diag then 3 - yy else yy) else (xx, yy)
  if 0 ≤ xx ∧ xx < 4 ∧ 0 ≤ yy ∧ yy < 4 then tab raster4x4 (yy * 4 + xx) else fault .table

/-- Context offset of the run, aec.cc:1872-1876, 1901-1905 and 1933-1936; `k` is `ctxpos`, which is below
`pos` whenever it is used. -/
def runCtx (b : Blk) (pos k : Nat) (one first : Bool) : P σ Nat := do
  if b.luma then
    let md ←
      (if !b.diag then do
        let e ← tab scan4x4 ((pos : Int) - 1 - k)
        pure ((e.2 + 1) / 2)
      else pure (if pos < k + 4 then 0 else if pos < k + 11 then 1 else 2))
    pure ((if first then (if pos = k + 1 then 0 else 1 + md) else 4 + md) + (if one then 0 else 4))
  else
    let md := if pos ≥ 6 + k then 1 else 0
    pure ((if first then (if pos = k + 1 then 0 else 1 + md) else 3 + md) + (if one then 0 else 3))

/-- `aec_read_run_luma1`, `aec_read_run_luma2` and `aec_read_run_chroma`, aec.cc:1862-1948: `n` positions are
left, `run + n = pos`. -/
def readRun (b : Blk) (grp pos : Nat) (one first : Bool) : Nat → Nat → P σ Nat
  | 0, run => pure run
  | n + 1, run => do
    let c ← runCtx b pos run one first
    if ← sym m (.run (!b.luma) grp) c then pure run else readRun b grp pos one first n (run + 1)

/-- `get_abssum_of_n_last_coeffs`, aec.cc:1839-1856, over the pairs (level, run), newest first. -/
def absSum : List (Int × Nat) → Nat → Int → Int
  | [], _, acc => acc
  | (l, r) :: ps, n, acc =>
    let n := n + r
    if n ≥ 6 then acc else absSum ps (n + 1) (acc + l.natAbs)

/-- Level of one coefficient, aec.cc:2040-2075; `none` on error. -/
def readLevel (b : Blk) (rank npairs pos : Nat) (first : Bool) : P σ (Option Int) := do
  if ← fin m then
    match ← golombPrefix m 32 0 1 with
    | none => pure none
    | some (order, acc) =>
      let s ← golombSuffix m order 0
      let v ← i32 (acc + s)
      let v ← i32 (v + 32)
      if ← failed m then pure none else pure (some v)
  else
    let p := min 2 ((npairs + 1) / 2)
    let c := (if b.luma then 0 else 20) + 10 * (if first ∧ pos < 3 then 1 else 0) + min rank (p + 2) + 5 * p / 2
    let k ← run0 m .level c 31
    if ← failed m then pure none else pure (some (1 + k))

/-- Loop over the pairs of a coefficient group, aec.cc:2030-2110: at most `n` pairs; `pairs` holds the pairs
read so far, newest first; the array has 16 entries (`runlevel_t`, common.h).  Result: pairs and rank;
`none` on error. -/
def readPairs (b : Blk) (one first : Bool) : Nat → Nat → Nat → List (Int × Nat) →
    P σ (Option (List (Int × Nat) × Nat))
  | 0, _, rank, pairs => pure (some (pairs, rank))
  | n + 1, pos, rank, pairs => do
    match ← readLevel m b rank pairs.length pos first with
    | none => pure none
    | some level =>
      let s ← i32 (absSum pairs 0 0 + level)
      let s := s / 2
      if s < 0 then fault .table else
      let run ← (if pos > 0 then readRun m b (min s 2).toNat pos one first pos 0 else pure 0)
      if ← failed m then pure none
      else
        if pairs.length ≥ 16 then fault .table else
        let pairs := (toInt16 level, run) :: pairs
        let t ← tab tChr rank
        let rank ← (if level > t then tab tabRank (min 5 level) else pure rank)
        if run = pos then pure (some (pairs, rank))
        else if pos < run + 1 then fault .table
        else readPairs b one first n (pos - (run + 1)) rank pairs

/-- Signs, aec.cc:2111-2116; the oldest pair comes first. -/
def readSigns : List (Int × Nat) → P σ (List (Int × Nat))
  | [] => pure []
  | (l, r) :: ps => do
    let b ← eqp m
    let rest ← readSigns ps
    pure ((if b then toInt16 (-l) else l, r) :: rest)

/-- The coefficient written by one step of the loop aec.cc:2130-2147: position in the block and value.
`deq` scales and clips the level (`dequant`, Model/Quant). -/
structure Wr where
  x : Int
  y : Int
  v : Int

/-- Loop of aec.cc:2130-2147 over the pairs, newest first; `ctr` is `coef_ctr + 1`. -/
def place (b : Blk) (deq : Int → Int) (cx cy : Nat) : List (Int × Nat) → Nat → P σ (List Wr)
  | [], _ => pure []
  | (l, r) :: ps, ctr => do
    let e ← tab scan4x4 (ctr + r : Nat)
    let (x, y) := if b.swap then (e.2, e.1) else e
    let rest ← place b deq cx cy ps (ctr + r + 1)
    pure (⟨4 * cx + x, 4 * cy + y, deq l⟩ :: rest)

/-- Limits of the partial transforms in groups, aec.cc:1987-2007. -/
def halfW (b : Blk) : Nat := (if b.w < b.h then b.w else b.w / 2) / 4
def halfH (b : Blk) : Nat := (if b.w > b.h then b.h else b.h / 2) / 4
def quadW (b : Blk) : Nat := (if b.w < b.h then b.w else b.w / 4) / 4
def quadH (b : Blk) : Nat := (if b.w > b.h then b.h else b.h / 4) / 4

/-- Update of the pattern, aec.cc:2149-2153 (0 full, 1 half, 2 quarter). -/
def patternStep (b : Blk) (cx cy : Nat) (p : Int) : Int :=
  if cy ≥ halfH b ∨ cx ≥ halfW b then 0
  else if (cy ≥ quadH b ∨ cx ≥ quadW b) ∧ p ≠ 0 then 1
  else p

/-- Result of `aec_read_run_level`: the return value (-1 on error) and the coefficients written, latest first
by group. -/
structure Coeffs where
  pattern : Int
  writes : List Wr

/-- Loop over the coefficient groups, aec.cc:2015-2157: `n + 1` is the number of groups left, `n` is `cg_pos`. -/
def groups (b : Blk) (deq : Int → Int) (one : Bool) : Nat → Nat → Nat → Nat → Coeffs → P σ Coeffs
  | 0, _, _, _, acc => pure acc
  | n + 1, rank, cx, cy, acc => do
    let first := decide (n = 0)
    let (cx, cy) ← (if rank > 0 then tab b.scan n else pure (cx, cy))
    let flag ← (if rank > 0 then
        sym m .sigCg ((if b.luma then 0 else 2) + (if b.luma && !first then 1 else 0))
      else pure true)
    if flag then
      let pos ← lastPos m b rank cx cy one
      match ← readPairs m b one first 16 pos rank [] with
      | none => pure { acc with pattern := -1 }
      | some (pairs, rank) =>
        let signed ← readSigns m pairs.reverse
        let (cx, cy) := if b.swap then (cy, cx) else (cx, cy)
        let ws ← place b deq cx cy signed.reverse 0
        groups b deq one n rank cx cy ⟨patternStep b cx cy acc.pattern, ws ++ acc.writes⟩
    else groups b deq one n rank cx cy acc

/-- `aec_read_run_level` with `cu_get_block_coeffs`, aec.cc:1953-2188.  A write outside the block is the fault
`table`. -/
def blockCoeffs (b : Blk) (deq : Int → Int) : P σ Coeffs := do
  let numCg := b.w * b.h / 16
  let one := decide (numCg = 1)
  let (k, cx, cy) ← (if numCg > 1 then do
      let e ← tab b.scan ((numCg : Int) - 1)
      lastCgPos m b numCg e.1 e.2
    else pure (0, 0, 0))
  groups m b deq one (k + 1) 0 cx cy ⟨2, []⟩

/-- `tab_intra_mode_scan_type`, aec.cc:70-73 (0 vertical, 1 horizontal, 2 DC and diagonal). -/
def scanType : List Nat := [2, 2, 2, 1, 1, 2, 2, 2, 0, 0, 0, 0, 0, 0, 0, 0, 0,
  2, 2, 2, 1, 1, 1, 1, 1, 1, 1, 1, 1, 2, 2, 2, 0]

/-- The luma block `b8` of `cu_read_all_coeffs`, cu.cc:625-693: type and level of the unit, transform split and
intra mode of the block (ignored for inter units).  `none` stands for an index outside a table. -/
def lumaBlk (type level trans b8 mode : Nat) : Option Blk := do
  let intra := decide (8 ≤ type)
  let cls ← if intra then scanType[mode]? else some 2
  if trans = 0 then
    let lv := min 3 (level - 2)
    let r ← scanCg[lv]?
    let s ← r[0]?
    some ⟨true, cls == 2, intra && cls == 1, trans, 2 ^ (lv + 2), 2 ^ (lv + 2), s⟩
  else
    let wv := decide (level = 6 ∧ trans ≠ 3)
    let tus := (Un.tuUnits trans level).map (fun u => if wv then Un.shr u 1 else u)
    let u ← tus[b8]?
    let r ← scanCg[level - 3 - (if wv then 1 else 0)]?
    let s ← r[trans]?
    some ⟨true, cls == 2, intra && cls == 1 && type != 10 && type != 11, trans, u.w, u.h, s⟩

/-- A chroma block of `cu_read_all_coeffs`, cu.cc:695-731. -/
def chromaBlk (level trans : Nat) : Option Blk := do
  let r ← scanCg[level - 3]?
  let s ← r[0]?
  some ⟨false, true, false, trans, 2 ^ (level - 1), 2 ^ (level - 1), s⟩

end

/-! ### The arithmetic decoder of Model/Aec -/

/-- Decoder registers and contexts. -/
structure St where
  aec : Aec
  ctx : Arr → Nat → Nat

def St.set (s : St) (aec : Aec) (a : Arr) (i v : Nat) : St :=
  ⟨aec, fun a' i' => if a' = a ∧ i' = i then v else s.ctx a' i'⟩

def St.setFrom (s : St) (aec : Aec) (a : Arr) (i : Nat) (f : Nat → Nat) : St :=
  ⟨aec, fun a' i' => if a' = a ∧ i ≤ i' then f (i' - i) else s.ctx a' i'⟩

/-- The functions of Model/Aec as a `Machine`. -/
def aecMachine : Machine St where
  sym a i s := match biariSymbol s.aec (s.ctx a i) with
    | some (r, c, v) => some (v == 1, s.set r a i c)
    | none => none
  eq s := match biariEq s.aec with
    | some (r, v) => some (v == 1, { s with aec := r })
    | none => none
  fin s := match biariFinal s.aec with
    | some (r, v) => some (v == 1, { s with aec := r })
    | none => none
  run0 a i max s := match continue0 s.aec (s.ctx a i) max with
    | some (r, c, v) => some (v, s.set r a i c)
    | none => none
  runExt a i inc max s := match contExt s.aec (fun k => s.ctx a (i + k)) inc max with
    | some (r, f, v) => some (v, s.setFrom r a i f)
    | none => none
  err s := s.aec.err
  clear s := { s with aec := { s.aec with err := false } }

end Davs2.Sx

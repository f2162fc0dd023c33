import Verif.Model.Mv
import Verif.Model.Units
import Verif.Model.Quadtree
/-
Motion data of a picture: /repo/source/common/cu.cc (neighbours, references, vectors, selection of the reference pictures),
/repo/source/common/predict.cc and predict.h (prediction of vectors, skip modes), decoder.cc:67-110 (`init_frame`), 161-197
(`save_mv_ref_info`).

Positions are in units of 4x4 samples, slice numbers are per 8x8 samples.  What the code would read from memory that has not been
written in the current picture is a fault here (`Flt.stale`), as are a null pointer, an index outside an array or outside the list
of references, and an overflow of `int` (see Verif.Model.Mv).

Reading a coding unit is taken apart: `Sym` are the syntax elements of the unit (functions of Verif.Model.AecSyntax), read without
error; the functions here compute the motion from them.  Errors while reading (cu.cc:1327-1330) are not modelled.
-/
namespace Davs2.Mo
open Davs2.Un

/-- Undefined behaviour or use of data that is not of the current picture. -/
inductive Flt | null | index | stale | overflow
deriving DecidableEq, Repr

abbrev M := Except Flt

abbrev Vec := Int × Int

/-- Motion data of a 4x4 block: `p_dirpred`, `p_ref_idx`, `p_tmv_1st`, `p_tmv_2nd` (common.h:1136-1139); `none` for a vector that has
not been written in this picture. -/
structure Blk where
  dir : Int
  r1 : Int
  r2 : Int
  v1 : Option Vec
  v2 : Option Vec
deriving DecidableEq

/-- What is used of a reference picture (`davs2_frame_t`, common.h:690-720): `refbuf`, `mvbuf`, `dist_refs`, the number of its references. -/
structure Saved where
  ref : Nat → Nat → Int
  mv : Nat → Nat → Option Vec
  dist : Nat → Int
  nrefs : Nat

/-- The picture being decoded. `refs` is `fref`; entries behind its end are null. `frame` is `i_frame_type` (P 1, B 2, F 4, S 5), `w`, `h` the
size in 4x4 blocks, `dist` is `dist_refs`, `bkgnd` is `b_bkgnd_picture`. -/
structure Pic where
  frame : Nat
  w : Nat
  h : Nat
  lcu : Nat
  refs : List Saved
  dist : Nat → Int
  field : Bool
  top : Bool
  pmvr : Bool
  bkgnd : Bool
  poc : Int

/-- Syntax elements of a coding unit: `mode` is `i_cu_type`; `ref`, `mvd1`, `mvd2` are per prediction unit. -/
structure Sym where
  mode : Nat
  ds : Nat
  wsm : Nat
  dmh : Nat
  dirs : List Int
  refs : List (Int × Int)
  mvd1 : Nat → Vec
  mvd2 : Nat → Vec

/-- Use of a reference picture for the prediction of a unit: entry of the list and vector. -/
structure Use where
  ref : Nat
  mv : Vec
deriving DecidableEq, Repr

/-- Fields `ref_idx` and `mv` of `cu_t` (common.h:805-830); they keep their content from picture to picture.  `use` is not in the code: the reference
pictures used for each prediction unit. -/
structure CuRec where
  refs : List (Int × Int)
  mv : List (Option Vec × Option Vec)
  use : List (List Use)

structure St where
  mot : Nat → Nat → Option Blk
  slice : Nat → Nat → Int
  cu : Nat → Nat → CuRec

/-- `h->fref[k]` and the access through it. -/
def fref (p : Pic) (k : Int) : M Saved :=
  if 0 ≤ k ∧ k < 4 then
    match p.refs[k.toNat]? with
    | some f => pure f
    | none => throw .null
  else throw .index

/-- `dist_refs[k]` of the current picture; an index without reference picture is a fault (the entry is -1, header.cc:955-958, or outside
the array). -/
def distAt (p : Pic) (k : Int) : M Int :=
  if 0 ≤ k ∧ k < p.refs.length then pure (p.dist k.toNat) else throw .index

/-- `dist_refs[k]` of a reference picture. -/
def Saved.distAt (f : Saved) (k : Int) : M Int :=
  if 0 ≤ k ∧ k < f.nrefs then pure (f.dist k.toNat) else throw .index

def known {α : Type} : Option α → M α
  | some a => pure a
  | none => throw .stale

def arith {α : Type} : Option α → M α
  | some a => pure a
  | none => throw .overflow

/-- `cu_get_neighbor_spatial`, predict.h:240-261: `none` if not available. -/
def neighbor (p : Pic) (st : St) (slice : Int) (x y : Int) : M (Option Blk) :=
  if y < 0 ∨ y ≥ p.h ∨ x < 0 ∨ x ≥ p.w then pure none
  else if st.slice (x.toNat / 2) (y.toNat / 2) ≠ slice then pure none
  else match st.mot x.toNat y.toNat with
    | some b => pure (some b)
    | none => throw .stale

/-- What is stored for a neighbour that is not available, predict.h:246-252. -/
def noBlk : Blk := ⟨-1, -1, -1, some (0, 0), some (0, 0)⟩

/-- The table lookup for the block to the top right, cu.cc:250-252, predict.cc:180-184. -/
def trAvail (p : Pic) (x y bw : Nat) : M Bool :=
  match Qt.availTR p.lcu x y bw with
  | some b => pure b
  | none => throw .index

/-- `cu_get_neighbors`, cu.cc:240-264: the six spatial neighbours in the order of `neighbor_block_pos_e` (common.h:317-324); the block at `(x, y)` has
`n` x `n` units.  The temporal neighbour (266) is read through `fref[0]` but not used. -/
def neighbors (p : Pic) (st : St) (slice : Int) (x y n : Nat) : M (List Blk) := do
  let tr ← trAvail p x y n
  let x1 : Int := x + n - 1
  let tl ← neighbor p st slice (x - 1) (y - 1)
  let t ← neighbor p st slice x (y - 1)
  let l ← neighbor p st slice (x - 1) y
  let r ← neighbor p st slice (if tr then x1 + 1 else -1) (y - 1)
  let t2 ← neighbor p st slice x1 (y - 1)
  let l2 ← neighbor p st slice (x - 1) (y + n - 1)
  let _ ← fref p 0
  pure ([tl, t, l, r, t2, l2].map (·.getD noBlk))

/-- `recheck_neighbor_ref_avail`, predict.cc:80-97. -/
def recheck (p : Pic) (refFrame r : Int) : Int :=
  if r ≠ -1 then
    let last : Int := (p.refs.length : Int) - 1
    let r := if ((refFrame = last ∧ r ≠ last) ∨ (refFrame ≠ last ∧ r = last)) ∧ (p.frame = 1 ∨ p.frame = 4) ∧ p.bkgnd then -1 else r
    if p.frame = 5 then -1 else r
  else r

/-- Reference and vector of a neighbour in `get_mvp_default`, predict.cc:207-224; a vector without reference is not used (52-77). -/
def nbVec (p : Pic) (refFrame : Int) (bwd : Bool) (b : Blk) : M MvNb :=
  let r := if bwd then b.r2 else b.r1
  if recheck p refFrame r ≥ 0 then do
    if p.frame = 2 then pure () else
      let _ ← distAt p (recheck p refFrame r)
      pure ()
    let v ← known (if bwd then b.v2 else b.v1)
    pure ⟨r, v.1, v.2⟩
  else pure ⟨r, 0, 0⟩

/-- Configuration for `getMvp`. -/
def cfg (p : Pic) (refFrame : Int) : MvCfg := ⟨p.frame = 2, p.field, p.top, p.poc, p.dist, recheck p refFrame⟩

/-- `get_mvp_default` with `cu_get_neighbors_default_mvp`, predict.cc:172-251: block at `(x, y)`, `bw` units wide; `bwd` is `bwd_2nd`. -/
def mvp (p : Pic) (st : St) (slice : Int) (x y bw : Nat) (bwd : Bool) (refFrame : Int) (pu : Nat) : M Vec := do
  let tr ← trAvail p x y bw
  let l ← neighbor p st slice (x - 1) y
  let t ← neighbor p st slice x (y - 1)
  let tl ← neighbor p st slice (x - 1) (y - 1)
  let r ← neighbor p st slice (if tr then (x : Int) + bw else -1) (y - 1)
  let a ← nbVec p refFrame bwd (l.getD noBlk)
  let b ← nbVec p refFrame bwd (t.getD noBlk)
  let c ← nbVec p refFrame bwd ((if r.isSome then r else tl).getD noBlk)
  let k : Int := if p.frame = 2 then (if bwd then 0 else 1) else refFrame
  let _ ← distAt p k
  arith (getMvp (cfg p refFrame) k.toNat refFrame pu a b c)

/-- `get_pu_type_for_mvp`, predict.h:285-302. -/
def puType (u : Cb) : Nat :=
  if u.w < u.h then (if u.x = 0 then 1 else 2) else if u.w > u.h then (if u.y = 0 then 3 else 4) else 0

/-- `scale_mv_skip` and `scale_mv_skip_y`, predict.h:153-175. -/
def skipScale (p : Pic) (v : Vec) (dst src : Int) : M Vec := do
  let x ← arith (scaleMvSkip v.1 dst (distScale src))
  let y ← arith (scaleMvY scaleMvSkip p.field p.top p.poc v.2 dst src (distScale src))
  pure (x, y)

/-- `scale_mv_biskip` and `scale_mv_biskip_y`, predict.h:180-202. -/
def biskipScale (p : Pic) (v : Vec) (dst src : Int) : M Vec := do
  let x ← arith (scaleMvBiskip v.1 dst (distScale src))
  let y ← arith (scaleMvY scaleMvBiskip p.field p.top p.poc v.2 dst src (distScale src))
  pure (x, y)

def negVec (v : Vec) : Vec := (negMv v.1, negMv v.2)

/-- The motion of a prediction unit: references and vectors (`none` for a vector that has not been written in this picture). -/
structure Mv where
  r1 : Int
  r2 : Int
  v1 : Option Vec
  v2 : Option Vec
deriving DecidableEq

/-- `get_mv_pf_skip_temporal`, predict.cc:325-338: both components with `scale_mv_skip`. -/
def pfCol (p : Pic) (x y : Nat) : M Vec := do
  let f ← fref p 0
  let r := f.ref x y
  if r ≥ 0 then
    let d ← f.distAt r
    let v ← known (f.mv x y)
    let d0 ← distAt p 0
    let a ← arith (scaleMvSkip v.1 d0 (distScale d))
    let b ← arith (scaleMvSkip v.2 d0 (distScale d))
    pure (a, b)
  else pure (0, 0)

/-- `fill_mv_pf_skip_temporal`, predict.cc:342-401, one prediction unit at `(x, y)`. The second vector is derived from the first with the
distances of references `wsm` and 0. -/
def pfTemporal (p : Pic) (wsm x y : Nat) : M Mv := do
  let v1 ← pfCol p x y
  if wsm ≠ 0 then
    let d ← distAt p wsm
    let d0 ← distAt p 0
    let v2 ← skipScale p v1 d d0
    pure ⟨0, wsm, some v1, some v2⟩
  else pure ⟨0, -1, some v1, some (0, 0)⟩

/-- `get_mv_fskip_spatial`, predict.cc:405-482: references and vectors for skip mode `ds` from the six neighbours, in closed form (statement by statement in
Model/SkipModes, equal by C91).  The loop of the code keeps the last and
the first neighbour with two references (`bid`) and with one (`fw`); modes `DS_DUAL_1ST` 1, `DS_DUAL_2ND` 2, `DS_SINGLE_1ST` 3, `DS_SINGLE_2ND` 4
(common.h:340-344).  Everything is preset to 0 (412-415). -/
def fskip (ns : List Blk) (ds : Nat) : Mv :=
  let bid := ns.filter fun b => b.r1 ≠ -1 ∧ b.r2 ≠ -1
  let fw := ns.filter fun b => b.r1 ≠ -1 ∧ b.r2 = -1
  let zero : Mv := ⟨0, 0, some (0, 0), some (0, 0)⟩
  let zero1 : Mv := ⟨0, -1, some (0, 0), some (0, 0)⟩
  let both (b : Blk) : Mv := ⟨b.r1, b.r2, b.v1, b.v2⟩
  let pair : Mv := match fw.getLast?, fw.head? with
    | some a, some b => ⟨a.r1, b.r1, a.v1, b.v1⟩
    | _, _ => zero
  let single (r : Int) (v : Option Vec) : Mv := ⟨r, -1, v, some (0, 0)⟩
  if ds = 1 then
    match bid.getLast? with
    | some b => both b
    | none => if fw.length > 1 then pair else zero
  else if ds = 2 then
    if bid.length > 1 then bid.head?.elim zero both
    else if bid.length = 1 ∧ fw.length > 1 then pair else zero
  else if ds = 3 then
    match fw.getLast? with
    | some b => single b.r1 b.v1
    | none => bid.head?.elim zero1 fun b => single b.r1 b.v1
  else if fw.length > 1 then fw.head?.elim zero1 fun b => single b.r1 b.v1
  else bid.head?.elim zero1 fun b => single b.r2 b.v2

/-- `get_mv_bskip_spatial`, predict.cc:256-320: vectors for skip mode `ds` (`DS_B_BID` 1, `DS_B_BWD` 2, `DS_B_SYM` 3, `DS_B_FWD` 4, common.h:334-339); as
in `fskip`, the loop keeps the last neighbour of each direction and the first bidirectional one. -/
def bskipVec (ns : List Blk) (ds : Nat) : Option Vec × Option Vec :=
  let bid := ns.filter fun b => b.dir = 3
  let sym := ns.filter fun b => b.dir = 2
  let bw := ns.filter fun b => b.dir = 1
  let fw := ns.filter fun b => b.dir = 0
  let zero : Option Vec × Option Vec := (some (0, 0), some (0, 0))
  let both (b : Blk) : Option Vec × Option Vec := (b.v1, b.v2)
  let first : Option Vec × Option Vec := bid.head?.elim zero both
  if ds = 1 then
    match bid.getLast? with
    | some b => both b
    | none => match fw.getLast?, bw.getLast? with
      | some f, some b => (f.v1, b.v2)
      | _, _ => zero
  else if ds = 2 then (some (0, 0), bw.getLast?.elim first.2 fun b => b.v2)
  else if ds = 3 then
    match sym.getLast? with
    | some b => both b
    | none =>
      if bid.length > 1 then first
      else match bw.getLast? with
        | some b => (b.v2.map negVec, b.v2)
        | none => fw.getLast?.elim zero fun b => (b.v1, b.v1.map negVec)
  else (fw.getLast?.elim first.1 fun b => b.v1, some (0, 0))

/-- `fill_mv_bskip`, predict.cc:487-552, with a skip mode: references 504-518. -/
def bskip (ns : List Blk) (ds : Nat) : Mv :=
  let v := bskipVec ns ds
  let r : Int × Int := if ds = 3 ∨ ds = 1 then (1, 0) else if ds = 2 then (-1, 0) else (1, -1)
  ⟨r.1, r.2, v.1, v.2⟩

/-- `fill_mv_bskip` without skip mode, predict.cc:554-586, one prediction unit at `(x, y)` of the coding unit at `(cx, cy)` with `n` x `n` units. -/
def bTemporal (p : Pic) (st : St) (slice : Int) (cx cy n x y : Nat) : M Mv := do
  let f ← fref p 0
  let r := f.ref x y
  if r = -1 then
    let v1 ← mvp p st slice cx cy n false 0 0
    let v2 ← mvp p st slice cx cy n true 0 0
    pure ⟨1, 0, some v1, some v2⟩
  else
    let d ← f.distAt r
    let dBwd ← distAt p 0
    let dFwd ← distAt p 1
    let v ← known (f.mv x y)
    let v1 ← biskipScale p v dFwd d
    let v2 ← biskipScale p v dBwd d
    pure ⟨1, 0, some v1, some (negVec v2)⟩

/-- Writing a rectangle of `n` x `m` blocks at `(x, y)`: the loops of predict.cc:399-408, 536-547, 591-603, 644-653, cu.cc:417-425, 502-535, 576-581. -/
def rect (mot : Nat → Nat → Option Blk) (x y n m : Nat) (f : Option Blk → Blk) : Nat → Nat → Option Blk := fun X Y =>
  if x ≤ X ∧ X < x + n ∧ y ≤ Y ∧ Y < y + m then some (f (mot X Y)) else mot X Y

/-- Writing the blocks of the prediction units of a coding unit at `(x, y)` one after the other: `val i` is what is stored in the blocks of unit `i` (`cu_store_references`,
cu.cc:392-428). -/
def storeUnits (x y : Nat) (val : Nat → Option Blk → Blk) : (Nat → Nat → Option Blk) → List (Cb × Nat) → Nat → Nat → Option Blk
  | mot, [] => mot
  | mot, (u, i) :: us => storeUnits x y val (rect mot (x + u.x / 4) (y + u.y / 4) (u.w / 4) (u.h / 4) (val i)) us

/-- Prediction with the entry `k` of the list of references and vector `v`. -/
def use1 (p : Pic) (k : Int) (v : Option Vec) : M Use := do
  let _ ← fref p k
  let v ← known v
  pure ⟨k.toNat, v⟩

def use2 (p : Pic) (k : Int) (v : Option Vec) (l : Int) (v' : Option Vec) : M (List Use) := do
  let a ← use1 p k v
  let b ← use1 p l v'
  pure [a, b]

/-- The references used for a prediction unit, `davs2_get_inter_pred`, cu.cc:971-1011: `dir` is its direction; `dmh_pos`, cu.cc:76-86.  A null pointer is a fault
here: the code reports it for the first reference (1051) and ignores it for the second (1040). -/
def uses (p : Pic) (dir : Int) (dmh : Nat) (u : Mv) : M (List Use) :=
  if dir = 1 then do
    let a ← use1 p 0 u.v2
    pure [a]
  else if dir = 2 ∨ dir = 3 then use2 p 1 u.v1 0 u.v2
  else if p.frame = 2 then do
    let a ← use1 p 1 u.v1
    pure [a]
  else if dir = 4 then use2 p u.r1 u.v1 u.r2 u.v2
  else if dmh ≠ 0 then
    match dmhPos[dmh]? with
    | some (a, b) => use2 p u.r1 (u.v1.map fun v => (dmhAdd v.1 a.1, dmhAdd v.2 a.2)) u.r1 (u.v1.map fun v => (dmhAdd v.1 b.1, dmhAdd v.2 b.2))
    | none => throw .index
  else do
    let a ← use1 p u.r1 u.v1
    pure [a]

/-- The motion of the prediction units of a skipped coding unit at `(cx, cy)` and the loops over their 4x4 blocks, one unit after the other: predict.cc:373-411, 536-547,
557-605, 644-653.  `get` computes the motion of a unit from its position, `dir` is what is stored as its direction (`none`: unchanged). -/
def skipUnits (cx cy : Nat) (dir : Option Int) (get : St → Nat → Nat → M Mv) : St → List (Cb × Nat) → M (St × List (Mv × Nat))
  | st, [] => pure (st, [])
  | st, (u, i) :: us => do
    let m ← get st (cx + u.x / 4) (cy + u.y / 4)
    let (st', ms) ← skipUnits cx cy dir get { st with mot := rect st.mot (cx + u.x / 4) (cy + u.y / 4) (u.w / 4) (u.h / 4) fun o =>
      ⟨dir.getD ((o.map (·.dir)).getD (-1)), m.r1, m.r2, m.v1, m.v2⟩ } us
    pure (st', (m, i) :: ms)

/-- The vectors of unit `u` with number `i` in the forward part of `cu_read_mv`, cu.cc:467-500, 505-530: prediction plus difference; the second vector is derived from the first one for
two references and is zero otherwise; B pictures do not write it (522). -/
def fwdVec (p : Pic) (st : St) (slice : Int) (cx cy : Nat) (s : Sym) (u : Cb) (i : Nat) : M (Vec × Option Vec) := do
  let r := (s.refs.getD i (-1, -1)).1
  let pred ← mvp p st slice (cx + u.x / 4) (cy + u.y / 4) (u.w / 4) false r (puType u)
  let v := if p.frame = 5 then pred else pmvrMvDerivation p.pmvr (s.mvd1 i) pred
  if p.frame = 2 then pure (v, none)
  else if s.dirs.getD i (-1) = 4 then do
    let d1 ← distAt p r
    let d2 ← distAt p (if r = 0 then 1 else 0)
    let v2 ← skipScale p v d2 d1
    pure (v, some v2)
  else pure (v, some (0, 0))

/-- Forward vectors of `cu_read_mv`, cu.cc:459-536: loop over the prediction units. -/
def forward (p : Pic) (slice : Int) (cx cy : Nat) (s : Sym) : St → List (Cb × Nat) → M St
  | st, [] => pure st
  | st, (u, i) :: us =>
    if s.dirs.getD i (-1) = 1 then forward p slice cx cy s st us
    else do
      let v ← fwdVec p st slice cx cy s u i
      forward p slice cx cy s { st with mot := rect st.mot (cx + u.x / 4) (cy + u.y / 4) (u.w / 4) (u.h / 4) fun o =>
        ⟨(o.getD noBlk).dir, (o.getD noBlk).r1, (o.getD noBlk).r2, some v.1, if p.frame = 2 then (o.getD noBlk).v2 else v.2⟩ } us

/-- The backward vector of a unit, cu.cc:546-573: derived from the forward vector for symmetric prediction, otherwise prediction plus difference. -/
def bwdVec (p : Pic) (st : St) (slice : Int) (cx cy : Nat) (s : Sym) (u : Cb) (i : Nat) : M Vec := do
  let r := (s.refs.getD i (-1, -1)).2
  let pred ← mvp p st slice (cx + u.x / 4) (cy + u.y / 4) (u.w / 4) true r (puType u)
  if s.dirs.getD i (-1) = 2 then do
    let v1 ← known ((st.mot (cx + u.x / 4) (cy + u.y / 4)).bind (·.v1))
    let dB ← distAt p 0
    let dF ← distAt p 1
    let v ← skipScale p v1 dB dF
    pure (negVec v)
  else pure (pmvrMvDerivation p.pmvr (s.mvd2 i) pred)

/-- Backward vectors of B pictures, cu.cc:538-585. -/
def backward (p : Pic) (slice : Int) (cx cy : Nat) (s : Sym) : St → List (Cb × Nat) → M St
  | st, [] => pure st
  | st, (u, i) :: us =>
    if s.dirs.getD i (-1) = 0 then backward p slice cx cy s st us
    else do
      let v ← bwdVec p st slice cx cy s u i
      backward p slice cx cy s { st with mot := rect st.mot (cx + u.x / 4) (cy + u.y / 4) (u.w / 4) (u.h / 4) fun o =>
        ⟨(o.getD noBlk).dir, (o.getD noBlk).r1, (o.getD noBlk).r2, (o.getD noBlk).v1, some v⟩ } us

/-- The motion of unit `u` after `cu_read_mv`: `p_cu->mv` and `p_cu->ref_idx` are equal to what has been stored for the blocks of the unit (cu.cc:512, 527-528, 575); a vector
that was not read is missing. -/
def unitMv (st : St) (cx cy : Nat) (u : Cb) : Mv :=
  let b := (st.mot (cx + u.x / 4) (cy + u.y / 4)).getD noBlk
  ⟨b.r1, b.r2, b.v1, b.v2⟩

/-- The references used for the units, cu.cc:950-1011. -/
def usesAll (p : Pic) (dirs : List Int) (dmh : Nat) : List (Mv × Nat) → M (List (List Use))
  | [] => pure []
  | (m, i) :: ms => do
    let u ← uses p (dirs.getD i (-1)) dmh m
    let us ← usesAll p dirs dmh ms
    pure (u :: us)

/-- The motion of the units of a coding unit at `(x, y)` with `n` x `n` blocks: part 2 of `cu_read_info`, cu.cc:836-857, with `fill_mv_and_ref_for_skip`, predict.cc:611-660, which does nothing
for S pictures: their units have what `p_cu` contains (`old`). -/
def cuUnits (p : Pic) (st : St) (slice : Int) (x y n : Nat) (us : List (Cb × Nat)) (old : CuRec) (s : Sym) : M (St × List (Mv × Nat)) :=
  if 8 ≤ s.mode then
    pure ({ st with mot := storeUnits x y (fun _ o => ⟨-1, -1, -1, o.bind (·.v1), o.bind (·.v2)⟩) st.mot us },
      us.map fun q => (⟨-1, -1, none, none⟩, q.2))
  else if s.mode = 0 then do
    let ns ← neighbors p st slice x y n
    if p.frame = 2 then
      if s.ds ≠ 0 then skipUnits x y (some (s.dirs.getD 0 (-1))) (fun _ _ _ => pure (bskip ns s.ds)) st us
      else skipUnits x y (some 2) (fun st X Y => bTemporal p st slice x y n X Y) st us
    else if p.frame = 4 ∨ p.frame = 1 then
      if s.ds = 0 then skipUnits x y none (fun _ X Y => pfTemporal p s.wsm X Y) st us
      else skipUnits x y none (fun _ _ _ => pure (fskip ns s.ds)) st us
    else
      pure (st, us.map fun q =>
        let r := old.refs.getD q.2 (0, 0)
        let v := old.mv.getD q.2 (some (0, 0), some (0, 0))
        (⟨r.1, r.2, v.1, v.2⟩, q.2))
  else do
    let st1 ← forward p slice x y s { st with mot := storeUnits x y (fun i _ =>
      ⟨s.dirs.getD i (-1), (s.refs.getD i (-1, -1)).1, (s.refs.getD i (-1, -1)).2, none, none⟩) st.mot us } us
    let st2 ← (if p.frame = 2 then backward p slice x y s st1 us else pure st1)
    pure (st2, us.map fun q => (unitMv st2 x y q.1, q.2))

/-- Motion of the coding unit `c` and the references used for its prediction (cu.cc:1142-1146: none for an intra unit).  `p_cu` keeps references and vectors; entries of an intra
unit are invalid (838-842). -/
def cuMotion (p : Pic) (st : St) (c : Qt.Cu) (s : Sym) : M St := do
  let us := (puUnits p.frame s.ds s.mode c.l).zipIdx
  let old := st.cu (c.x / 8) (c.y / 8)
  let (st', ms) ← cuUnits p st (st.slice (c.x / 8) (c.y / 8)) (c.x / 4) (c.y / 4) (2 ^ c.l / 4) us old s
  let use ← (if 8 ≤ s.mode then pure [] else usesAll p s.dirs s.dmh ms)
  let r : CuRec := ⟨ms.map fun m => (m.1.r1, m.1.r2), ms.map fun m => (m.1.v1, m.1.v2), use⟩
  pure { st' with cu := fun X Y => if X = c.x / 8 ∧ Y = c.y / 8 then r else st'.cu X Y }

/-- `decode_lcu_init`, cu.cc:1222-1231: slice number of the 8x8 units of the coding tree at `(lx, ly)`. -/
def lcuInit (p : Pic) (lx ly : Nat) (n : Int) (st : St) : St :=
  { st with slice := fun X Y =>
      if lx * 2 ^ (p.lcu - 3) ≤ X ∧ X < (lx + 1) * 2 ^ (p.lcu - 3) ∧ ly * 2 ^ (p.lcu - 3) ≤ Y ∧ Y < (ly + 1) * 2 ^ (p.lcu - 3) ∧
        8 * X < 4 * p.w ∧ 8 * Y < 4 * p.h then n else st.slice X Y }

/-- The syntax of a picture: split flags, slice number of each coding tree, syntax elements of each coding unit. -/
structure Syn where
  split : Nat → Nat → Nat → Bool
  slice : Nat → Nat → Int
  sym : Qt.Cu → Sym

/-- One coding tree: `decode_lcu_init` and `decode_lcu_parse`, decoder.cc:430-450. -/
def lcuMotion (p : Pic) (sy : Syn) (st : St) (l : Nat × Nat) : M St :=
  (Qt.parse (4 * p.w) (4 * p.h) sy.split (p.lcu - 3) (l.1 * 2 ^ p.lcu) (l.2 * 2 ^ p.lcu)).foldlM
    (fun st c => cuMotion p st c (sy.sym c)) (lcuInit p l.1 l.2 (sy.slice l.1 l.2) st)

/-- The coding trees of a picture, row by row, decoder.cc:407-473. -/
def lcus (p : Pic) : List (Nat × Nat) :=
  (List.range ((4 * p.h + 2 ^ p.lcu - 1) / 2 ^ p.lcu)).flatMap fun ly =>
    (List.range ((4 * p.w + 2 ^ p.lcu - 1) / 2 ^ p.lcu)).map fun lx => (lx, ly)

/-- `init_frame`, decoder.cc:67-98: nothing has been written yet; slice numbers and `cu_t` keep their content. -/
def initFrame (slice : Nat → Nat → Int) (cu : Nat → Nat → CuRec) : St := ⟨fun _ _ => none, slice, cu⟩

/-- All coding trees of a picture. -/
def picMotion (p : Pic) (sy : Syn) (slice : Nat → Nat → Int) (cu : Nat → Nat → CuRec) : M St :=
  (lcus p).foldlM (lcuMotion p sy) (initFrame slice cu)

/-- Position from which the motion for position `i` is saved, decoder.cc:174-177, 184-187; `n` is the number of blocks in that direction. -/
def savePos (n i : Nat) : Nat := if i / 4 * 4 + 2 ≥ n then (i / 4 * 4 + n) / 2 else i / 4 * 4 + 2

/-- `save_mv_ref_info`, decoder.cc:161-195; nothing is saved for I pictures, whose references stay invalid (header.cc:985-986, decoder.cc:586). -/
def save (p : Pic) (st : St) : Saved :=
  ⟨fun x y => ((st.mot (savePos p.w x) (savePos p.h y)).map (·.r1)).getD 0,
   fun x y => (st.mot (savePos p.w x) (savePos p.h y)).bind (·.v1), p.dist, p.refs.length⟩

end Davs2.Mo

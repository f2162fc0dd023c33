import Verif.Model.Deblock
import Verif.Model.Units
/-
Which edges are deblocked: source/common/deblock.cc, `lf_set_edge_filter_param`, `lf_lcu_set_edge_filter` and
`lf_skip_filter`.
-/
namespace Davs2.De

open Db (Dir)

/-- The members of `cu_t` (common.h:805-830) read here, of one 8x8 block; `cbp` is `i_cbp != 0`. -/
structure CuInfo where
  level : Nat
  type : Nat
  trans : Nat
  cbp : Bool
  slice : Int
  qp : Int
  deriving DecidableEq, Repr

/-- A motion vector and the first reference index of a 4x4 block (`p_tmv_1st`, `p_ref_idx[].r[0]`; `INVALID_REF` is -1). -/
structure Motion where
  x : Int
  y : Int
  ref : Int
  deriving DecidableEq, Repr

/-- What the marking of edges and the choice of filters read: the size in 8x8 blocks, `cross_loop_filter_flag`, `enable_nsqt`,
`scu_data` by column and row, the type of the picture, and the motion by column and row of 4x4 blocks. -/
structure Pic where
  w : Nat
  h : Nat
  cross : Bool
  nsqt : Bool
  cu : Nat → Nat → CuInfo
  frame : Nat := 0
  motion : Nat → Nat → Motion := fun _ _ => ⟨0, 0, -1⟩

/-- `p_deblock_flag[dir]` by column and row (rows are `i_width_in_scu` apart in memory): 0 none, 1 luma only, 2 luma and chroma
(deblock.cc:80-84). -/
abbrev Flags := Dir → Nat → Nat → Nat

def Flags.set (f : Flags) (d : Dir) (x y t : Nat) : Flags := fun d' x' y' =>
  if d' = d ∧ x' = x ∧ y' = y then t else f d' x' y'

/-- The loops deblock.cc:112-117 and 133-138: `n` blocks along the edge, ending at the first one that is already marked. -/
def mark (d : Dir) (t : Nat) : Nat → Nat → Nat → Flags → Flags
  | 0, _, _, f => f
  | n + 1, x, y, f =>
    if f d x y ≠ 0 then f
    else match d with
      | .ver => mark d t n x (y + 1) (f.set d x y t)
      | .hor => mark d t n (x + 1) y (f.set d x y t)

/-- The conditions deblock.cc:97-108 and 120-130 under which `lf_set_edge_filter_param` returns at once. -/
def barred (p : Pic) (d : Dir) (x y : Nat) : Bool :=
  match d with
  | .ver => x == 0 || (!p.cross && (p.cu x y).slice != (p.cu (x - 1) y).slice)
  | .hor => y == 0 || (!p.cross && (p.cu x y).slice != (p.cu x (y - 1)).slice)

/-- `lf_set_edge_filter_param`, deblock.cc:89-140; `k` is `i_level - MIN_CU_SIZE_IN_BIT`. -/
def setEdge (p : Pic) (k x y : Nat) (d : Dir) (t : Nat) (f : Flags) : Flags :=
  if barred p d x y then f else mark d t (2 ^ k) x y f

/-- `IS_HOR_PU_PART`, common.h:88 with the mask 0x0434. -/
def isHorPu (t : Nat) : Bool := (0x0434 : Nat).testBit t

/-- `IS_VER_PU_PART`, common.h:89 with the mask 0x08C8. -/
def isVerPu (t : Nat) : Bool := (0x08C8 : Nat).testBit t

/-- The calls of `lf_set_edge_filter_param` for one coding unit, deblock.cc:167-246, in their order: direction, distance from
the corner of the unit in 8x8 blocks, type. `k` is `i_level - MIN_CU_SIZE_IN_BIT`, so `i` of the code is `k - 1`. -/
def calls (nsqt : Bool) (k : Nat) (c : CuInfo) : List (Dir × Nat × Nat) :=
  let i := k - 1
  [(.ver, 0, 2), (.hor, 0, 2)] ++
  (if 3 < c.level then
    (match c.type with
      | 2 => [(.hor, 2 ^ i, 2)]
      | 3 => [(.ver, 2 ^ i, 2)]
      | 9 => [(.ver, 2 ^ i, 2), (.hor, 2 ^ i, 2)]
      | 10 =>
        if 0 < i then [(.hor, 2 ^ (i - 1), 1), (.hor, 2 ^ (i - 1) * 2, 1), (.hor, 2 ^ (i - 1) * 3, 1)]
        else [(.hor, 2 ^ i, 1)]
      | 11 =>
        if 0 < i then [(.ver, 2 ^ (i - 1), 1), (.ver, 2 ^ (i - 1) * 2, 1), (.ver, 2 ^ (i - 1) * 3, 1)]
        else [(.ver, 2 ^ i, 1)]
      | 4 => if 0 < i then [(.hor, 2 ^ (i - 1), 2)] else []
      | 5 => if 0 < i then [(.hor, 2 ^ (i - 1) * 3, 2)] else []
      | 6 => if 0 < i then [(.ver, 2 ^ (i - 1), 2)] else []
      | 7 => if 0 < i then [(.ver, 2 ^ (i - 1) * 3, 2)] else []
      | _ => []) ++
    (if c.type ≠ 9 ∧ c.trans ≠ 0 ∧ c.cbp then
      if nsqt ∧ isHorPu c.type then
        if c.level = 4 then [(.hor, 2 ^ i, 1)]
        else [(.hor, 2 ^ (i - 1), 1), (.hor, 2 ^ i, 1), (.hor, 2 ^ i + 2 ^ (i - 1), 1)]
      else if nsqt ∧ isVerPu c.type then
        if c.level = 4 then [(.ver, 2 ^ i, 1)]
        else [(.ver, 2 ^ (i - 1), 1), (.ver, 2 ^ i, 1), (.ver, 2 ^ i + 2 ^ (i - 1), 1)]
      else [(.ver, 2 ^ i, 1), (.hor, 2 ^ i, 1)]
    else [])
  else [])

/-- The leaf case of `lf_lcu_set_edge_filter`, deblock.cc:166-246: the calls one after the other. -/
def setCu (p : Pic) (k x y : Nat) (f : Flags) : Flags :=
  (calls p.nsqt k (p.cu x y)).foldl (fun f e => match e.1 with
    | .ver => setEdge p k (x + e.2.1) y .ver e.2.2 f
    | .hor => setEdge p k x (y + e.2.1) .hor e.2.2 f) f

/-- `lf_lcu_set_edge_filter`, deblock.cc:143-248; `k` is `i_level - MIN_CU_SIZE_IN_BIT`. For `k = 0` the code would shift by a
negative number if the stored level were below 3; here the unit is a leaf. -/
def setTree (p : Pic) : Nat → Nat → Nat → Flags → Flags
  | 0, x, y, f => setCu p 0 x y f
  | k + 1, x, y, f =>
    if (p.cu x y).level < k + 1 + 3 then
      [(0, 0), (1, 0), (0, 1), (1, 1)].foldl (fun f q =>
        let sx := x + q.1 * 2 ^ k
        let sy := y + q.2 * 2 ^ k
        if sx ≥ p.w ∨ sy ≥ p.h then f else setTree p k sx sy f) f
    else setCu p (k + 1) x y f

/-- The flags after `davs2_lcu_deblock` (deblock.cc:492-513) has been called for the coding trees in `ts` (column and row), from
flags that are all 0 (decoder.cc:110-111); `k` is `i_lcu_level - MIN_CU_SIZE_IN_BIT`. -/
def setPicture (p : Pic) (k : Nat) (ts : List (Nat × Nat)) : Flags :=
  ts.foldl (fun f t => setTree p k (t.1 * 2 ^ k) (t.2 * 2 ^ k) f) (fun _ _ _ => 0)

/-- `lf_skip_filter`, deblock.cc:257-279, 4x4 block `(bx, by_)`: true if the edge is to be filtered. -/
def skipFilter (p : Pic) (cp cq : CuInfo) (d : Dir) (bx by_ : Nat) : Bool :=
  if p.frame = 1 ∨ p.frame = 4 then
    let m1 := p.motion bx by_
    let m2 := match d with
      | .ver => p.motion (bx - 1) by_
      | .hor => p.motion bx (by_ - 1)
    !(!cp.cbp && !cq.cbp && decide (|m1.x - m2.x| < 4) && decide (|m1.y - m2.y| < 4) && (m1.ref != -1 && m1.ref == m2.ref))
  else true

/-- The 8x8 block on the other side of an edge, deblock.cc:424. -/
def prev (d : Dir) (x y : Nat) : Nat × Nat := match d with
  | .ver => (x - 1, y)
  | .hor => (x, y - 1)

/-- `b_filter_flag`, deblock.cc:428-429. -/
def filterFlags (p : Pic) (d : Dir) (x y : Nat) : Bool × Bool :=
  let q := prev d x y
  let cp := p.cu q.1 q.2
  let cq := p.cu x y
  let dd := match d with
    | .ver => 0
    | .hor => 1
  (skipFilter p cp cq d (2 * x) (2 * y), skipFilter p cp cq d (2 * x + dd) (2 * y + (1 - dd)))

/-- The parameters with which `lf_scu_deblock`, deblock.cc:415-456, filters the luma samples at an edge, if it does; the
alpha and beta offsets are of the picture. -/
def lumaPrm (p : Pic) (f : Flags) (ao bo : Int) (d : Dir) (x y : Nat) : Option Db.EdgePrm :=
  if f d x y = 0 then none
  else
    let b := filterFlags p d x y
    if !b.1 && !b.2 then none
    else
      let q := prev d x y
      (Db.lumaThresholds (p.cu q.1 q.2).qp (p.cu x y).qp ao bo).map fun t => ⟨t.1, t.2, b.1, b.2⟩

/-- Chroma thresholds, deblock.cc:475-480 (`HDR_CHROMA_DELTA_QP` is 0): both planes use the offset `delta` of the first
(`cu_get_chroma_qp(h, QP, 0)`). -/
def chromaThresholds (qpP qpQ delta ao bo : Int) : Option (Int × Int) := do
  let qp ← cuGetChromaQp ((qpP + qpQ + 1) / 2) delta
  let a ← tabGet Db.alphaTable (clip3 0 63 (qp + ao))
  let b ← tabGet Db.betaTable (clip3 0 63 (qp + bo))
  some (a, b)

/-- The parameters for the chroma samples, deblock.cc:459-482; the choice of every other edge is in `Db.scuChroma`. -/
def chromaPrm (p : Pic) (f : Flags) (delta ao bo : Int) (d : Dir) (x y : Nat) : Option Db.EdgePrm :=
  if f d x y = 0 then none
  else
    let b := filterFlags p d x y
    if !b.1 && !b.2 then none
    else if f d x y = 2 then
      let q := prev d x y
      (chromaThresholds (p.cu q.1 q.2).qp (p.cu x y).qp delta ao bo).map fun t => ⟨t.1, t.2, b.1, b.2⟩
    else none

/-- The coding trees in the order of decoding, decoder.cc:407-473. -/
def trees (w h n : Nat) : List (Nat × Nat) :=
  (List.range ((h + n - 1) / n)).flatMap fun ly => (List.range ((w + n - 1) / n)).map fun lx => (lx, ly)

/-- `davs2_lcu_deblock`, deblock.cc:492-547, for the trees in `ts` and one plane: the flags of a tree are set just before
its edges are filtered; `step f` filters an edge with the flags as they are then. -/
def runTrees (p : Pic) (K : Nat) (step : Flags → Dir × Nat × Nat → Db.Plane → Db.Plane) (ts : List (Nat × Nat)) (m : Db.Plane) :
    Flags × Db.Plane :=
  ts.foldl (fun s t =>
    let f := setTree p K (t.1 * 2 ^ K) (t.2 * 2 ^ K) s.1
    (f, (Db.lcuDeblock p.w p.h (2 ^ K) t.1 t.2).foldl (fun m e => step f e m) s.2)) (fun _ _ _ => 0, m)

end Davs2.De
